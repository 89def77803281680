import Verif.Spec.Ddl
import Verif.Spec.Dml
/-! Reported statements with written names. -/
namespace Verif.Spec
open Verif Verif.Query

/-- The columns of the condition are names with or without quotes. -/
def PlainExpr : Expr → Prop
  | .cmp c => AnyName c.left.name
  | .and l r => PlainExpr l ∧ PlainExpr r
  | .or l r => PlainExpr l ∧ PlainExpr r

/-- No condition, or one with written names. -/
def PlainCond (c : Condition) : Prop := ∀ e, c = some e → PlainExpr e

/-- The SELECT has a table; names are as written, tables have no alias, selected are columns, values and calls whose type is
that of the name in capital letters; OFFSET stands only with a LIMIT that is not zero, and GROUP BY only alone. -/
structure PlainSelect (s : Select) : Prop where
  selectors : ∀ x ∈ s.selectors, PrintableSelector x
  some_table : s.tables ≠ []
  tables : ∀ t ∈ s.tables, PrintableTable t
  cond : PlainCond s.cond
  orders : ∀ o ∈ s.orderBy, AnyName o.column
  offset : s.limit.limit = 0 → s.limit.offset = 0
  group : s.groupBy = [] ∨ (AnyName s.groupBy ∧ s.orderBy = [] ∧ s.limit = { offset := 0, limit := 0 })

/-- The INSERT has a value in its first row and the same columns in every row; names are as written. -/
structure PlainInsert (i : Insert) : Prop where
  table : KeptName i.table.name
  names : ∀ r ∈ i.values, ∀ c ∈ r, AnyName c.name
  row : ∀ r rs, i.values = r :: rs → r ≠ [] ∧ ∀ r' ∈ rs, r'.map (·.name) = r.map (·.name)

/-- The assignment has a value, or it calculates with a column and a column or a literal; names are as written. -/
structure PlainSet (c : Column) : Prop where
  name : AnyName c.name
  value : c.lit = none → ∃ a x, c.args = [a, x] ∧ AnyName a ∧ AtomText x

/-- The names of the UPDATE are as written, and its assignments have a value. -/
structure PlainUpdate (u : Update) : Prop where
  table : AnyName u.table.name
  columns : ∀ c ∈ u.columns, PlainSet c
  cond : PlainCond u.cond

/-- The names of the DELETE are as written. -/
structure PlainDelete (d : Delete) : Prop where
  table : AnyName d.table.name
  cond : PlainCond d.cond

/-- The ALTER TABLE renames or adds something, with plain names and a printable type; an added index is not a key or
another constraint. -/
structure PlainAlter (a : AlterTable) : Prop where
  table : AlterTarget a.table
  renameTo : ∀ t, a.renameTo = some t → Name t.name
  renameFrom : ∀ c, a.renameColumnFrom = some c → Name c.name
  renameColumn : ∀ c, a.renameColumnTo = some c → Name c.name
  addColumn : ∀ c, a.addColumn = some c → PrintableColumn c
  addIndex : ∀ i, a.addIndex = some i → i.typ = .secondary ∧ Name i.name ∧ ∀ c ∈ i.columns, Name c.name
  dropColumn : a.dropColumn = none
  some_change : a ≠ { table := a.table }

/-- A statement with plain names; CREATE TABLE without keys on columns, and as its text has it. -/
def PlainStatement : Statement → Prop
  | .select s => PlainSelect s
  | .insert i => PlainInsert i
  | .update u => PlainUpdate u
  | .delete d => PlainDelete d
  | .createDatabase n _ => Name n
  | .dropDatabase n _ => Name n
  | .alterDatabase n m => Name n ∧ Name m
  | .use n => Name n
  | .createIndex s _ => Name s.table.name ∧ ∀ i ∈ s.indexes, Name i.name ∧ ∀ c ∈ i.columns, Name c.name
  | .dropTable ts _ => ∀ t ∈ ts, Name t.name
  | .truncate ts => ∀ t ∈ ts, Name t.name
  | .dropIndex s i _ => (s = [] ∨ Name s) ∧ Name i
  | .copy c => Name c.table.name ∧ (∀ x ∈ c.columns, Name x.name) ∧ Name c.source
  | .vacuum t => ∀ x, t = some x → Name x.name
  | .alterTable a => PlainAlter a
  | .createTable s _ => PrintableSchema s
  | .begin => True
  | .commit => True
  | .rollback => True

/-- The literals of a condition. -/
def exprLits : Expr → List Literal
  | .cmp c => c.right.toList
  | .and l r => exprLits l ++ exprLits r
  | .or l r => exprLits l ++ exprLits r

/-- The literals of a statement: those of its condition, its rows and its assignments. -/
def stmtLits (s : Statement) : List Literal :=
  ((condOf s).map exprLits).getD [] ++ match s with
    | .insert i => i.values.flatMap (·.flatMap (fun c => c.lit.toList))
    | .update u => u.columns.flatMap (fun c => c.lit.toList)
    | _ => []

end Verif.Spec
