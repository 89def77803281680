import Verif.Spec.Where
/-! UPDATE, INSERT and DELETE as they are written: tables, assignments and rows as tokens. -/
namespace Verif.Spec
open Verif Verif.Lex Verif.Query

/-- All tokens of the kind are inside of parentheses. -/
def Enclosed (k : Tok) (ts : List Token) : Prop :=
  ∀ p t s, ts = p ++ t :: s → t.kind = k → countKind .CLOSE_PAR p < countKind .OPEN_PAR p

/-- An element of a list: some tokens, with balanced parentheses, and commas only inside of them. -/
def Part (ts : List Token) : Prop := ts ≠ [] ∧ Balanced ts ∧ Enclosed .COMMA ts

/-- Parts with commas between them, one for each element of the list, and `P` holds of the part and the element. -/
inductive Sep {α : Type} (P : List Token → α → Prop) : List Token → List α → Prop
  | one (ts : List Token) (a : α) (hc : Part ts) (h : P ts a) : Sep P ts [a]
  | cons (ts : List Token) (w : Token) (rest : List Token) (a : α) (l : List α) (hc : Part ts) (h : P ts a) (hw : w.kind = .COMMA)
      (hr : Sep P rest l) : Sep P (ts ++ w :: rest) (a :: l)

/-- Tokens that are not a number, a blob or a parameter. -/
def NotValue (ts : List Token) : Prop := ∀ b, ts = [b] → b.kind ∉ [Tok.NUMERIC_LITERAL, .BLOB_LITERAL, .BIND_PARAMETER]

/-- The tokens of an assignment: a name, `=` and a value, which is a literal or a parameter, a calculation with two
operands, or something else, not a number, a blob or a parameter, that is not reported. -/
inductive SetTokens : List Token → Column → Prop
  | lit (n : List Token) (o : Token) (v : List Token) (l : Literal) (ho : o.kind = .ASSIGN) (hn : n ≠ []) (hp : NoOperator n) (hl : LitTokens v l) :
      SetTokens (n ++ o :: v) { name := textOf n, lit := some l }
  | arith (n : List Token) (o : Token) (x : List Token) (p : Token) (y : List Token) (ho : o.kind = .ASSIGN) (hn : n ≠ [])
      (hp : NoOperator n) (hk : p.kind ∈ [.PLUS, .MINUS, .STAR, .DIV, .MOD]) (ht : p.text ∈ [s%"+", s%"-", s%"*", s%"/", s%"%"]) :
      SetTokens (n ++ o :: (x ++ p :: y))
        { name := textOf n, fn := some { typ := .arith, name := p.text, executor := some { name := p.text, typ := .arith, args := [textOf x, textOf y] } },
          args := [textOf x, textOf y] }
  | lost (n : List Token) (o : Token) (v : List Token) (ho : o.kind = .ASSIGN) (hn : n ≠ []) (hp : NoOperator n)
      (hv : NotValue v) : SetTokens (n ++ o :: v) { name := textOf n }

/-- The tokens of a WITH clause, or none. -/
def WithTokens (ts : List Token) : Prop := FirstIn [.WITH_] ts ∧ Balanced ts

/-- An UPDATE has the table written between UPDATE and SET, and one column for each assignment after SET, in order. -/
def UpdateWritten (own : List Token) (s : Statement) : Prop :=
  ∀ u, s = .update u → ∃ wth w alt tbl st body tail, own = wth ++ w :: (alt ++ (tbl ++ st :: (body ++ tail))) ∧ WithTokens wth ∧
    w.kind = .UPDATE_ ∧
    (alt = [] ∨ ∃ o x, alt = [o, x] ∧ o.kind = .OR_ ∧ x.kind ∈ [.ROLLBACK_, .ABORT_, .REPLACE_, .FAIL_, .IGNORE_]) ∧
    tbl ≠ [] ∧ u.table = { name := textOf tbl } ∧ st.kind = .SET_ ∧ Sep SetTokens body u.columns ∧
    FirstIn [.FROM_, .WHERE_, .RETURNING_] tail

/-- A DELETE has the table written behind DELETE FROM. -/
def DeleteWritten (own : List Token) (s : Statement) : Prop :=
  ∀ d, s = .delete d → ∃ wth w f tbl tail, own = wth ++ w :: f :: (tbl ++ tail) ∧ WithTokens wth ∧ w.kind = .DELETE_ ∧ f.kind = .FROM_ ∧
    tbl ≠ [] ∧ d.table = { name := textOf tbl } ∧ FirstIn [.WHERE_, .RETURNING_] tail

/-- An element of a row of values. -/
inductive Item
  /-- A value. -/
  | value (l : Literal)
  /-- A value with its column, written as a comparison. -/
  | named (n : Str) (l : Literal)
  /-- Anything else. -/
  | other

/-- The tokens of an element of a row. -/
inductive ItemTokens : List Token → Item → Prop
  | lit (ts : List Token) (l : Literal) (h : LitTokens ts l) : ItemTokens ts (.value l)
  | named (ts : List Token) (op : CmpOp) (n : Str) (l : Literal) (h : CmpTokens ts { op := op, left := { name := n }, right := some l }) :
      ItemTokens ts (.named n l)
  | other (ts : List Token) (h : NotValue ts) : ItemTokens ts .other

/-- The columns of a row: values take the next name that is left, values with a name keep it, and the rest is left out. -/
def pairUp : List Str → List Item → List Column
  | _, [] => []
  | ns, .other :: r => pairUp ns r
  | ns, .named n l :: r => { name := n, lit := some l } :: pairUp ns r
  | n :: ns, .value l :: r => { name := n, lit := some l } :: pairUp ns r
  | [], .value _ :: r => pairUp [] r

/-- The tokens of a row of values: in parentheses, with commas. -/
def RowTokens (names : List Str) (ts : List Token) (row : List Column) : Prop :=
  ∃ o body c items, ts = o :: (body ++ [c]) ∧ o.kind = .OPEN_PAR ∧ c.kind = .CLOSE_PAR ∧ Sep ItemTokens body items ∧ row = pairUp names items

/-- The tokens of a list of column names in parentheses, or none. -/
def NamesTokens (ts : List Token) (names : List Str) : Prop :=
  (ts = [] ∧ names = []) ∨ ∃ o body c, ts = o :: (body ++ [c]) ∧ o.kind = .OPEN_PAR ∧ c.kind = .CLOSE_PAR ∧
    Sep (fun ts n => n = textOf ts) body names

/-- An INSERT has one row for each row after VALUES, in order, with the listed column names. -/
def InsertWritten (own : List Token) (s : Statement) : Prop :=
  ∀ i, s = .insert i → ∃ wth kw into sch tbl als ns w rows tail names,
    own = wth ++ (kw ++ into :: (sch ++ (tbl ++ (als ++ (ns ++ w :: (rows ++ tail)))))) ∧
    WithTokens wth ∧ kw ≠ [] ∧ FirstIn [.INSERT_, .REPLACE_] kw ∧ into.kind = .INTO_ ∧ (sch = [] ∨ ∃ x d, sch = x ++ [d] ∧ d.kind = .DOT) ∧
    (∃ a b, textOf tbl = a ++ i.table.name ++ b ∧ (∀ c, c ∈ a → c ∈ quoteChars) ∧ ∀ c, c ∈ b → c ∈ quoteChars) ∧ i.table.schema = [] ∧
    FirstIn [.AS_] als ∧ NamesTokens ns names ∧ w.kind = .VALUES_ ∧ Sep (RowTokens names) rows i.values ∧ FirstIn [.ON_, .RETURNING_] tail

end Verif.Spec
