import Verif.Spec.Parse
/-! Statements whose text can be read back, and what is expected back. -/
namespace Verif.Spec
open Verif Verif.Lex Verif.Gram Verif.Query

/-- A name that needs no quotes: letters, digits and underscores, no digit first, and no keyword. -/
structure Name (n : Str) : Prop where
  start : ∃ c r, n = c :: r ∧ InRanges [('A', 'Z'), ('_', '_')] c
  chars : ∀ c ∈ n, InRanges [('A', 'Z'), ('_', '_'), ('0', '9')] c
  free : ∀ k ∈ keywords, Str.upper n ≠ k.2

/-- A name between double quotes or backquotes, where the quote is doubled inside, or between brackets. -/
inductive QuotedName : Str → Prop
  | double {v : Str} : Paired '"' v → QuotedName ('"' :: v ++ ['"'])
  | back {v : Str} : Paired '`' v → QuotedName ('`' :: v ++ ['`'])
  | bracket {v : Str} : ']' ∉ v → QuotedName ('[' :: v ++ [']'])

/-- A name as it is written: without quotes, or with them. -/
def AnyName (n : Str) : Prop := Name n ∨ QuotedName n

/-- A written name that does not stand between backquotes. -/
def KeptName (n : Str) : Prop := AnyName n ∧ n.head? ≠ some '`'

/-- A decimal digit. -/
def Digit (c : Char) : Prop := '0'.toNat ≤ c.toNat ∧ c.toNat ≤ '9'.toNat

/-- The text of a number. -/
def NumberText (x : Str) : Prop := Matches numeric x []

/-- The literals other than strings: numbers, numbers with a sign, blobs, words like NULL, and bind parameters, which
have a number or none, or a name. -/
inductive LitText : Str → Prop
  | number {x : Str} : NumberText x → LitText x
  | plus {x : Str} : NumberText x → LitText ('+' :: x)
  | minus {x : Str} : NumberText x → LitText ('-' :: x)
  | word {x : Str} (w : LitWord) : Str.upper x = Spelling.std w.tok → LitText x
  | bind {c : Char} {x : Str} : c = '?' ∨ c = '$' → (∀ d ∈ x, Digit d) → LitText (c :: x)
  | named {c : Char} {x : Str} : c = ':' ∨ c = '$' → Matches identifier x [] → LitText (c :: x)
  | blob {c : Char} {v : Str} : c = 'x' ∨ c = 'X' → Paired '\'' v → LitText (c :: '\'' :: v ++ ['\''])

/-- Literals whose text is one literal with the same value. -/
def PrintableLit (l : Literal) : Prop :=
  match l.t with
  | .string => QuotesPaired l.v.print ∧ BareEnds l.v.print
  | .unknown => LitText l.v.print

/-- The literal with its value as a text, which is all a parsed literal knows. -/
def litAsText (l : Literal) : Literal := { v := .str l.v.print, t := l.t }

/-- A comparison of a column and a literal. -/
structure PrintableCmp (c : Cmp) : Prop where
  column : c.left = { name := c.left.name }
  name : AnyName c.left.name
  op : c.op ≠ .in_ ∧ c.op ≠ .nin
  right : ∃ l, c.right = some l ∧ PrintableLit l

/-- The comparison with its literal as a text. -/
def cmpAsText (c : Cmp) : Cmp := { c with right := c.right.map litAsText }

/-- Conditions the grammar has: one comparison or two. -/
inductive PrintableExpr : Expr → Prop
  | one {c : Cmp} : PrintableCmp c → PrintableExpr (.cmp c)
  | and {a b : Cmp} : PrintableCmp a → PrintableCmp b → PrintableExpr (.and (.cmp a) (.cmp b))
  | or {a b : Cmp} : PrintableCmp a → PrintableCmp b → PrintableExpr (.or (.cmp a) (.cmp b))

/-- The condition with its literals as texts. -/
def exprAsText : Expr → Expr
  | .cmp c => .cmp (cmpAsText c)
  | .and l r => .and (exprAsText l) (exprAsText r)
  | .or l r => .or (exprAsText l) (exprAsText r)

/-- No condition, or one of the grammar. -/
def PrintableCond (c : Condition) : Prop := ∀ e, c = some e → PrintableExpr e

/-- A name or a literal. -/
def AtomText (x : Str) : Prop := AnyName x ∨ LitText x

/-- Selected columns and functions; functions have capital letters and are made by `NewFunction`. -/
inductive PrintableSelector : Selector → Prop
  | star : PrintableSelector (.col { name := s%"*" })
  | column {n : Str} : AtomText n → PrintableSelector (.col { name := n })
  | count {f : Str} : Name f → Str.upper f = f → PrintableSelector (.fn (Function.named f [s%"*"]))
  | fn {f : Str} {args : List Str} : Name f → Str.upper f = f → (∀ a ∈ args, AtomText a) →
      PrintableSelector (.fn (Function.named f args))

/-- A table without a schema, or one whose name includes its schema. -/
inductive PrintableTable : Table → Prop
  | bare {n : Str} : AnyName n → PrintableTable { name := n }
  | full {s n : Str} : AnyName s → AnyName n → PrintableTable { schema := s, name := s ++ '.' :: n }

/-- SELECT statements whose text can be read back. -/
structure PrintableSelect (s : Select) : Prop where
  selected : s.selectors ≠ []
  selectors : ∀ x ∈ s.selectors, PrintableSelector x
  some_table : s.tables ≠ []
  tables : ∀ t ∈ s.tables, PrintableTable t
  cond : PrintableCond s.cond
  orders : ∀ o ∈ s.orderBy, AnyName o.column ∧ o.order ≠ .none
  limit : s.limit.limit < 2 ^ 64 ∧ s.limit.offset < 2 ^ 64
  offset : s.limit.limit = 0 → s.limit.offset = 0
  group : s.groupBy = [] ∨ (AnyName s.groupBy ∧ s.orderBy = [] ∧ s.limit = { offset := 0, limit := 0 })

/-- The SELECT with its literals as texts. -/
def selectAsText (s : Select) : Select := { s with cond := s.cond.map exprAsText }

/-- A value of an INSERT. -/
structure PrintableValue (c : Column) : Prop where
  plain : c = { name := c.name, lit := c.lit }
  name : AnyName c.name
  value : ∃ l, c.lit = some l ∧ PrintableLit l

/-- The column with its literal as a text. -/
def columnAsText (c : Column) : Column := { c with lit := c.lit.map litAsText }

/-- INSERT statements whose text can be read back. -/
structure PrintableInsert (i : Insert) : Prop where
  table : ∃ n, KeptName n ∧ i.table = { name := n }
  row : ∃ r rs, i.values = r :: rs ∧ r ≠ [] ∧ ∀ r' ∈ rs, r'.map (·.name) = r.map (·.name)
  values : ∀ r ∈ i.values, ∀ c ∈ r, PrintableValue c

/-- The INSERT with its literals as texts. -/
def insertAsText (i : Insert) : Insert := { i with values := i.values.map (·.map columnAsText) }

/-- The function of an arithmetic assignment, as the parser makes it. -/
def arithFunction (e : Fn.ExecId) (args : List Str) : Function :=
  { typ := e.type, name := e.name, executor := some { name := e.name, typ := e.type, args := args } }

/-- An assignment of an UPDATE: a literal, or a column combined with a column or a literal. -/
inductive PrintableSet : Column → Prop
  | lit {c : Column} : PrintableValue c → PrintableSet c
  | arith {n c x : Str} {e : Fn.ExecId} : AnyName n → AnyName c → AtomText x →
      e ∈ [.opAdd, .opSub, .opMul, .opDiv, .opMod] →
      PrintableSet { name := n, fn := some (arithFunction e [c, x]), args := [c, x] }

/-- UPDATE statements whose text can be read back. -/
structure PrintableUpdate (u : Update) : Prop where
  table : ∃ n, AnyName n ∧ u.table = { name := n }
  assigned : u.columns ≠ []
  columns : ∀ c ∈ u.columns, PrintableSet c
  cond : PrintableCond u.cond

/-- The UPDATE with its literals as texts. -/
def updateAsText (u : Update) : Update :=
  { u with columns := u.columns.map columnAsText, cond := u.cond.map exprAsText }

/-- DELETE statements whose text can be read back. -/
structure PrintableDelete (d : Delete) : Prop where
  table : ∃ n, AnyName n ∧ d.table = { name := n }
  cond : PrintableCond d.cond

/-- The DELETE with its literals as texts. -/
def deleteAsText (d : Delete) : Delete := { d with cond := d.cond.map exprAsText }

end Verif.Spec
