import Verif.Spec.RoundTrip
/-! Prepared statements: a statement some of whose values were replaced by the placeholder `?`. -/
namespace Verif.Spec
open Verif Verif.Query

/-- What the parser reports for a placeholder. -/
def placeholder : Literal := { v := .str s%"?" }

/-- Two lists that are related place by place, and all that the places yield, in order. -/
inductive Along {α β : Type} (R : α → α → List β → Prop) : List α → List α → List β → Prop
  | nil : Along R [] [] []
  | cons {a b : α} {l m : List α} {x y : List β} : R a b x → Along R l m y → Along R (a :: l) (b :: m) (x ++ y)

/-- A value is kept, and then there is no question mark in its text, or it is replaced by a placeholder. -/
inductive Hole : Literal → Literal → List Literal → Prop
  | keep (l : Literal) (h : '?' ∉ Literal.valueString (some l)) : Hole l l []
  | hole (l : Literal) : Hole placeholder l [l]

/-- The same for the value of a column. -/
inductive ColumnHole : Column → Column → List Literal → Prop
  | value (n : Str) {a b : Literal} {ls : List Literal} (hn : '?' ∉ n) : Hole a b ls →
      ColumnHole { name := n, lit := some a } { name := n, lit := some b } ls

/-- An assignment: of a value, or of an operation, whose second operand may be a placeholder. -/
inductive SetHole : Column → Column → List Literal → Prop
  | value {a b : Column} {ls : List Literal} : ColumnHole a b ls → SetHole a b ls
  | arith (n c : Str) (e : Fn.ExecId) {a b : Literal} {ls : List Literal} (hn : '?' ∉ n) (hc : '?' ∉ c)
      (ha : a.t = .unknown) (hb : b.t = .unknown) : Hole a b ls →
      SetHole { name := n, fn := some (arithFunction e [c, a.v.print]), args := [c, a.v.print] }
        { name := n, fn := some (arithFunction e [c, b.v.print]), args := [c, b.v.print] } ls

/-- A condition, from left to right. -/
inductive ExprHole : Expr → Expr → List Literal → Prop
  | cmp (op : CmpOp) (n : Str) {a b : Literal} {ls : List Literal} (hn : '?' ∉ n) : Hole a b ls →
      ExprHole (.cmp { op := op, left := { name := n }, right := some a }) (.cmp { op := op, left := { name := n }, right := some b }) ls
  | and {l r l' r' : Expr} {x y : List Literal} : ExprHole l l' x → ExprHole r r' y → ExprHole (.and l r) (.and l' r') (x ++ y)
  | or {l r l' r' : Expr} {x y : List Literal} : ExprHole l l' x → ExprHole r r' y → ExprHole (.or l r) (.or l' r') (x ++ y)

/-- No condition, or one with placeholders. -/
inductive CondHole : Condition → Condition → List Literal → Prop
  | none : CondHole none none []
  | some {a b : Expr} {ls : List Literal} : ExprHole a b ls → CondHole (some a) (some b) ls

/-- The first statement is the second one with placeholders for some of its values, which are listed in the order of the
text. Elsewhere there is no question mark, neither in names nor in the rest of a SELECT. -/
inductive Template : Statement → Statement → List Literal → Prop
  | insert (t : Table) {v w : List (List Column)} {ls : List Literal} (ht : '?' ∉ t.name) : Along (Along ColumnHole) v w ls →
      Template (.insert { table := t, values := v }) (.insert { table := t, values := w }) ls
  | update (t : Table) {v w : List Column} {c d : Condition} {ls ms : List Literal} (ht : '?' ∉ t.name) : Along SetHole v w ls → CondHole c d ms →
      Template (.update { table := t, columns := v, cond := c }) (.update { table := t, columns := w, cond := d }) (ls ++ ms)
  | delete (t : Table) {c d : Condition} {ls : List Literal} (ht : '?' ∉ t.name) : CondHole c d ls →
      Template (.delete { table := t, cond := c }) (.delete { table := t, cond := d }) ls
  | select (s : Select) {c d : Condition} {ls : List Literal} (h : '?' ∉ ({ s with cond := none } : Select).toStr) : CondHole c d ls →
      Template (.select { s with cond := c }) (.select { s with cond := d }) ls

/-- The statements that concern rows, if their text can be read back. -/
inductive PrintableRows : Statement → Prop
  | insert {i : Insert} : PrintableInsert i → PrintableRows (.insert i)
  | update {u : Update} : PrintableUpdate u → PrintableRows (.update u)
  | delete {d : Delete} : PrintableDelete d → PrintableRows (.delete d)
  | select {s : Select} : PrintableSelect s → PrintableRows (.select s)

/-- The statement with its values as texts. -/
def rowsAsText : Statement → Statement
  | .insert i => .insert (insertAsText i)
  | .update u => .update (updateAsText u)
  | .delete d => .delete (deleteAsText d)
  | .select s => .select (selectAsText s)
  | s => s

end Verif.Spec
