import Verif.Spec.DmlSchemas
/-! What the texts of SELECT, INSERT, UPDATE and DELETE statements keep. -/
namespace Verif.Spec
open Verif Verif.Query

/-- The selector with what its text says: the name of a column, or the name and the arguments of a function, whose type
is found by its name. -/
def selectorRead : Selector → Selector
  | .col c => .col { name := c.name }
  | .fn f => .fn (Function.named f.name f.args)

/-- The comparison with what its text says: the name of the column and the text of the literal. -/
def cmpRead (c : Cmp) : Cmp := { c with left := { name := c.left.name }, right := c.right.map litAsText }

/-- The condition with what its text says. -/
def exprRead : Expr → Expr
  | .cmp c => .cmp (cmpRead c)
  | .and l r => .and (exprRead l) (exprRead r)
  | .or l r => .or (exprRead l) (exprRead r)

/-- The table of a SELECT as it is read: a name without a dot gets the schema in front. -/
def tableRead (t : Table) : Table := if '.' ∈ t.name then t else repeated t

/-- The SELECT with what its text says; selecting nothing is selecting everything. -/
def selectRead (s : Select) : Select :=
  { s with selectors := if s.selectors = [] then [.col { name := s%"*" }] else s.selectors.map selectorRead,
           tables := s.tables.map tableRead, cond := s.cond.map exprRead }

/-- Selectors whose text is a name, a literal, an asterisk or a call. The names of functions have capital letters, as
`NewFunction` makes them. -/
inductive ReadableSelector : Selector → Prop
  | star {c : Column} : c.name = s%"*" → ReadableSelector (.col c)
  | column {c : Column} : AtomText c.name → ReadableSelector (.col c)
  | count {f : Function} : Name f.name → Str.upper f.name = f.name → f.args = [s%"*"] → ReadableSelector (.fn f)
  | fn {f : Function} : Name f.name → Str.upper f.name = f.name → (∀ a ∈ f.args, AtomText a) → ReadableSelector (.fn f)

/-- Tables of a SELECT: those that are read back, and those with a plain name and any schema. -/
inductive ReadableTable : Table → Prop
  | kept {t : Table} : PrintableTable t → ReadableTable t
  | plain {t : Table} : PlainTable t → ReadableTable t

/-- A comparison of a named column and a literal. -/
structure ReadableCmp (c : Cmp) : Prop where
  name : AnyName c.left.name
  op : c.op ≠ .in_ ∧ c.op ≠ .nin
  right : ∃ l, c.right = some l ∧ PrintableLit l

/-- One comparison or two. -/
inductive ReadableExpr : Expr → Prop
  | one {c : Cmp} : ReadableCmp c → ReadableExpr (.cmp c)
  | and {a b : Cmp} : ReadableCmp a → ReadableCmp b → ReadableExpr (.and (.cmp a) (.cmp b))
  | or {a b : Cmp} : ReadableCmp a → ReadableCmp b → ReadableExpr (.or (.cmp a) (.cmp b))

/-- No condition, or one of the grammar. -/
def ReadableCond (c : Condition) : Prop := ∀ e, c = some e → ReadableExpr e

/-- SELECT statements whose text can be read. -/
structure ReadableSelect (s : Select) : Prop where
  selectors : ∀ x ∈ s.selectors, ReadableSelector x
  some_table : s.tables ≠ []
  tables : ∀ t ∈ s.tables, ReadableTable t
  cond : ReadableCond s.cond
  orders : ∀ o ∈ s.orderBy, AnyName o.column ∧ o.order ≠ .none
  limit : s.limit.limit < 2 ^ 64 ∧ s.limit.offset < 2 ^ 64
  offset : s.limit.limit = 0 → s.limit.offset = 0
  group : s.groupBy = [] ∨ (AnyName s.groupBy ∧ s.orderBy = [] ∧ s.limit = { offset := 0, limit := 0 })

/-- Nothing but its name is known of the column. -/
def OnlyName (c : Column) : Prop := c = { name := c.name }

/-- The columns compared have nothing but their names. -/
def BareLefts : Expr → Prop
  | .cmp c => OnlyName c.left
  | .and l r => BareLefts l ∧ BareLefts r
  | .or l r => BareLefts l ∧ BareLefts r

/-- Something is selected, selected columns have nothing but their names, functions are as made from their names, no
table has a schema besides the one in its name, and the columns of the condition have nothing but their names. -/
structure KeptSelect (s : Select) : Prop where
  selected : s.selectors ≠ []
  columns : ∀ c, .col c ∈ s.selectors → OnlyName c
  functions : ∀ f, .fn f ∈ s.selectors → f = Function.named f.name f.args
  tables : ∀ t ∈ s.tables, '.' ∉ t.name → t.schema = []
  cond : ∀ e, s.cond = some e → BareLefts e

/-- The names of the first row of an INSERT. -/
def firstNames (i : Insert) : List Str := (i.values.head?.getD []).map (·.name)

/-- The INSERT with what its text says: the values of every row belong to the columns of the first row in their order,
and the schema is not said. -/
def insertRead (i : Insert) : Insert :=
  { table := bareTable i.table,
    values := i.values.map (fun r => List.zipWith (fun n c => { name := n, lit := c.lit.map litAsText }) (firstNames i) r) }

/-- INSERT statements whose text can be read: a kept table name, or a plain one with any schema, rows that are not empty,
names for the first one, and literals. -/
structure ReadableInsert (i : Insert) : Prop where
  table : (∃ n, KeptName n ∧ i.table = { name := n }) ∨ PlainTable i.table
  some_row : i.values ≠ []
  rows : ∀ r ∈ i.values, r ≠ []
  names : ∀ n ∈ firstNames i, AnyName n
  values : ∀ r ∈ i.values, ∀ c ∈ r, ∃ l, c.lit = some l ∧ PrintableLit l

/-- The table has no schema, columns have names and literals only, and the names of each row begin those of the first. -/
structure KeptInsert (i : Insert) : Prop where
  table : i.table.schema = []
  columns : ∀ r ∈ i.values, ∀ c ∈ r, c = { name := c.name, lit := c.lit }
  names : ∀ r ∈ i.values, r.map (·.name) <+: firstNames i

/-- The executor the assignment of a column prints. -/
def executorOf (c : Column) : Option Exec := c.fn.bind (fun f => f.getExecutor.2)

/-- The assignment with what its text says: a literal, or an operation with its arguments. -/
def setRead (c : Column) : Column :=
  match executorOf c with
  | none => { name := c.name, lit := c.lit.map litAsText }
  | some e => { name := c.name, args := c.args,
                fn := some { typ := .arith, name := e.name, executor := some { name := e.name, typ := .arith, args := c.args } } }

/-- Assignments of a literal, or of an arithmetic operation on a column and a column or a literal. -/
inductive ReadableSet : Column → Prop
  | lit {c : Column} {l : Literal} : AnyName c.name → executorOf c = none → c.lit = some l → PrintableLit l → ReadableSet c
  | arith {c : Column} {e : Exec} {a x : Str} : AnyName c.name → executorOf c = some e → e.name ∈ [s%"+", s%"-", s%"*", s%"/", s%"%"] →
      c.args = [a, x] → AnyName a → AtomText x → ReadableSet c

/-- The UPDATE with what its text says; the schema is part of the name of the table. -/
def updateRead (u : Update) : Update :=
  { table := { name := dotted u.table }, columns := u.columns.map setRead, cond := u.cond.map exprRead }

/-- The DELETE with what its text says; the schema is part of the name of the table. -/
def deleteRead (d : Delete) : Delete := { table := { name := dotted d.table }, cond := d.cond.map exprRead }

/-- Tables of UPDATE and DELETE statements: a name without a schema, or a plain one with any schema. -/
def ReadableTarget (t : Table) : Prop := (∃ n, AnyName n ∧ t = { name := n }) ∨ PlainTable t

/-- UPDATE statements whose text can be read. -/
structure ReadableUpdate (u : Update) : Prop where
  table : ReadableTarget u.table
  assigned : u.columns ≠ []
  columns : ∀ c ∈ u.columns, ReadableSet c
  cond : ReadableCond u.cond

/-- DELETE statements whose text can be read. -/
structure ReadableDelete (d : Delete) : Prop where
  table : ReadableTarget d.table
  cond : ReadableCond d.cond

/-- A column with a name and a literal only, or with a name, arguments and the operation on these. -/
inductive KeptSet : Column → Prop
  | lit {n : Str} {l : Option Literal} : KeptSet { name := n, lit := l }
  | arith {n o : Str} {args : List Str} :
      KeptSet { name := n, args := args, fn := some { typ := .arith, name := o, executor := some { name := o, typ := .arith, args := args } } }

end Verif.Spec
