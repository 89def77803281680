import Verif.Model.Query
/-! Specifications used by the query properties; none of them uses the model's functions (only its data
types). -/
namespace Verif.Spec
open Verif.Query

/-- Two names are the same ignoring (ASCII) letter case. -/
def SameName (a b : List Char) : Prop := a.map Char.toLower = b.map Char.toLower

instance (a b : List Char) : Decidable (SameName a b) := inferInstanceAs (Decidable (_ = _))

/-- A text without spaces and commas (every SQL identifier is one). -/
def Plain (s : List Char) : Prop := ' ' ∉ s ∧ ',' ∉ s

instance (s : List Char) : Decidable (Plain s) := inferInstanceAs (Decidable (_ ∧ _))

/-- `x` is the first element of `l` satisfying `p`, at position `i`. -/
def FirstAt {α : Type} (p : α → Prop) (l : List α) (i : Nat) (x : α) : Prop :=
  l[i]? = some x ∧ p x ∧ ∀ j y, j < i → l[j]? = some y → ¬ p y

/-- No element of `l` satisfies `p`. -/
def NoneOf {α : Type} (p : α → Prop) (l : List α) : Prop := ∀ x ∈ l, ¬ p x

/-- `l'` is `l` without its first element satisfying `p`. -/
def RemovedFirst {α : Type} (p : α → Prop) (l l' : List α) : Prop :=
  ∃ a x b, l = a ++ x :: b ∧ l' = a ++ b ∧ p x ∧ NoneOf p a

/-- Truth of a condition when the truth of each comparison (column, operator, printed value) is given. -/
def holds (ρ : List Char → CmpOp → List Char → Bool) (show_ : Option Literal → List Char) : Expr → Bool
  | .cmp c => ρ c.left.name c.op (show_ c.right)
  | .and l r => holds ρ show_ l && holds ρ show_ r
  | .or l r => holds ρ show_ l || holds ρ show_ r

/-- No OR below an AND. -/
def orFree : Expr → Bool
  | .cmp _ => true
  | .and l r => orFree l && orFree r
  | .or _ _ => false

/-- The shapes SQL text can express without parentheses: an OR of ANDs of comparisons. -/
def orOfAnds : Expr → Bool
  | .cmp _ => true
  | .and l r => orFree l && orFree r
  | .or l r => orOfAnds l && orOfAnds r

/-- Every comparison of the expression satisfies `p`. -/
def AllCmp (p : Cmp → Prop) : Expr → Prop
  | .cmp c => p c
  | .and l r => AllCmp p l ∧ AllCmp p r
  | .or l r => AllCmp p l ∧ AllCmp p r

/-- What dropping the item named `n` should do: remove the first match, or fail and change nothing. -/
def DropSpec {α : Type} (nm : α → List Char) (n : List Char) (l l' : List α) (ok : Bool) : Prop :=
  if ∃ x ∈ l, SameName (nm x) n then ok = true ∧ RemovedFirst (fun x => SameName (nm x) n) l l'
  else ok = false ∧ l' = l

/-- Number of clauses of an ALTER TABLE statement. -/
def clauseCount (a : AlterTable) : Nat :=
  a.renameTo.toList.length + (if a.renameColumnFrom.isSome && a.renameColumnTo.isSome then 1 else 0) +
  a.addColumn.toList.length + a.addIndex.toList.length + a.dropColumn.toList.length + a.dropIndex.toList.length

/-- The dynamic type a value must have after conversion to a declared type, for the types the code
converts to. -/
inductive HasType : DataType → Val → Prop
  | tinyInt (i) : HasType .tinyInt (.i8 i)
  | smallInt (i) : HasType .smallInt (.i16 i)
  | int (i) : HasType .int (.i32 i)
  | integer (i) : HasType .integer (.i32 i)
  | bigInt (i) : HasType .bigInt (.i64 i)
  | float (x) : HasType .float (.f32 x)
  | double (x) : HasType .double (.f64 x)
  | boolean (b) : HasType .boolean (.bool b)

/-- The declared types the code converts to. -/
def Converted (t : DataType) : Prop :=
  t ∈ [DataType.tinyInt, .smallInt, .int, .integer, .bigInt, .float, .double, .boolean]

instance (t : DataType) : Decidable (Converted t) := inferInstanceAs (Decidable (_ ∈ _))

/-- All numeric and boolean declared types of the type table. -/
def NumericOrBool (t : DataType) : Prop :=
  Converted t ∨ t ∈ [DataType.mediumInt, .doublePrecision, .real, .numeric, .decimal, .serial, .bigSerial, .smallSerial]

/-- A numeric or boolean dynamic value. -/
def IsNumericOrBool : Val → Prop
  | .bool _ | .i8 _ | .i16 _ | .i32 _ | .i64 _ | .f32 _ | .f64 _ => True
  | _ => False

/-- Two lists of equal length related position by position. -/
inductive Pairwise2 {α β : Type} (R : α → β → Prop) : List α → List β → Prop
  | nil : Pairwise2 R [] []
  | cons {a b l m} : R a b → Pairwise2 R l m → Pairwise2 R (a :: l) (b :: m)

/-- `c'` is column `c` brought to the definition of the first schema column of the same name: definition
taken over, value of the declared type (or unchanged for the types that are not converted), rest kept. -/
def Applied (sc : List Column) (c c' : Column) : Prop :=
  ∃ j s, FirstAt (fun d : Column => SameName d.name c.name) sc j s ∧
    c'.def_ = s.def_ ∧ c'.name = c.name ∧ c'.fn = c.fn ∧ c'.args = c.args ∧ (c.lit = none → c'.lit = none) ∧
    ∀ l, c.lit = some l → ∃ v, c'.lit = some { l with v := v } ∧
      (∀ d, s.def_ = some d → Converted d.typ → HasType d.typ v) ∧
      (∀ d, s.def_ = some d → ¬ Converted d.typ → v = l.v) ∧ (s.def_ = none → v = l.v)

end Verif.Spec
