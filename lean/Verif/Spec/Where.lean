import Verif.Spec.Provenance
import Verif.Spec.Lexer
/-! Conditions as they are written: the tokens of a WHERE clause. -/
namespace Verif.Spec
open Verif Verif.Lex Verif.Query

/-- The number of tokens of a kind. -/
def countKind (k : Tok) (ts : List Token) : Nat := (ts.filter (fun t => t.kind = k)).length

/-- Every closing parenthesis has an opening one before it, and all parentheses are closed. -/
def Balanced (ts : List Token) : Prop :=
  countKind .OPEN_PAR ts = countKind .CLOSE_PAR ts ∧
  ∀ p s, ts = p ++ s → countKind .CLOSE_PAR p ≤ countKind .OPEN_PAR p

/-- The tokens of comparison operators and what they mean. -/
inductive OpToken : Tok → CmpOp → Prop
  | eq : OpToken .ASSIGN .eq
  | ne1 : OpToken .NOT_EQ1 .neq
  | ne2 : OpToken .NOT_EQ2 .neq
  | lt : OpToken .LT .lt
  | le : OpToken .LT_EQ .le
  | gt : OpToken .GT .gt
  | ge : OpToken .GT_EQ .ge

/-- The tokens of a value that is not a string: one token, or a number with a sign. -/
def PlainValue (ts : List Token) : Prop :=
  (∃ t, ts = [t] ∧ t.kind ∈ [Tok.NUMERIC_LITERAL, .BLOB_LITERAL, .NULL_, .TRUE_, .FALSE_, .CURRENT_TIME_, .CURRENT_DATE_,
    .CURRENT_TIMESTAMP_, .BIND_PARAMETER]) ∨
  ∃ s t, ts = [s, t] ∧ s.kind ∈ [Tok.PLUS, .MINUS] ∧ t.kind = .NUMERIC_LITERAL

/-- The tokens of a value: a string literal, whose value is what is between the quotes, or another value, which is
kept as it is written. -/
inductive LitTokens : List Token → Literal → Prop
  | str (t : Token) (a v b : Str) (hk : t.kind = .STRING_LITERAL) (ht : t.text = a ++ v ++ b)
      (ha : ∀ c, c ∈ a → c = '\'' ∨ c = '"') (hb : ∀ c, c ∈ b → c = '\'' ∨ c = '"') (hv : BareEnds v) :
      LitTokens [t] { v := .str v, t := .string }
  | other (ts : List Token) (h : PlainValue ts) : LitTokens ts { v := .str (textOf ts) }

/-- No comparison operator. -/
def NoOperator (ts : List Token) : Prop :=
  ∀ t, t ∈ ts → t.kind ∉ [.ASSIGN, .NOT_EQ1, .NOT_EQ2, .LT, .LT_EQ, .GT, .GT_EQ]

/-- The tokens of a comparison: a name, an operator, a value. -/
def CmpTokens (ts : List Token) (c : Cmp) : Prop :=
  ∃ n o l op lit, ts = n ++ o :: l ∧ n ≠ [] ∧ NoOperator n ∧ NoOperator l ∧ OpToken o.kind op ∧ LitTokens l lit ∧
    c = { op := op, left := { name := textOf n }, right := some lit }

/-- The tokens of a condition: one comparison, or two with AND or OR between them. -/
inductive CondTokens : List Token → Expr → Prop
  | one (ts : List Token) (c : Cmp) (h : CmpTokens ts c) : CondTokens ts (.cmp c)
  | and (a b : List Token) (w : Token) (x y : Cmp) (hw : w.kind = .AND_) (ha : CmpTokens a x) (hb : CmpTokens b y) :
      CondTokens (a ++ w :: b) (.and (.cmp x) (.cmp y))
  | or (a b : List Token) (w : Token) (x y : Cmp) (hw : w.kind = .OR_) (ha : CmpTokens a x) (hb : CmpTokens b y) :
      CondTokens (a ++ w :: b) (.or (.cmp x) (.cmp y))

/-- The condition of a statement. -/
def condOf : Statement → Condition
  | .select s => s.cond
  | .update u => u.cond
  | .delete d => d.cond
  | _ => none

/-- No tokens at all, or one of the kinds `K` first. -/
def FirstIn (K : List Tok) (ts : List Token) : Prop := ∀ t r, ts = t :: r → t.kind ∈ K

/-- Nothing, or the first word of a clause that can follow a condition. -/
def ClauseEnd (ts : List Token) : Prop :=
  FirstIn [.RETURNING_, .GROUP_, .WINDOW_, .ORDER_, .LIMIT_, .UNION_, .INTERSECT_, .EXCEPT_] ts

/-- The condition of the statement, if it has one, is all of what stands between a WHERE of the statement that is not
in parentheses and the end of that clause. -/
def WhereWritten (own : List Token) (s : Statement) : Prop :=
  ∀ e, condOf s = some e → ∃ before w c after, own = before ++ w :: c ++ after ∧ w.kind = .WHERE_ ∧ Balanced before ∧
    CondTokens c e ∧ ClauseEnd after

end Verif.Spec
