import Verif.Spec.Blank
/-! Statements with everything written in capital letters. -/
namespace Verif.Spec
open Verif Verif.Query

/-- A value in capital letters. -/
def capLiteral (l : Literal) : Literal :=
  { v := match l.v with
      | .str s => .str (Str.upper s)
      | .other s => .other (Str.upper s)
      | v => v
    t := l.t }

/-- A column in capital letters; an assigned function with its operator. -/
def capColumn (c : Column) : Column :=
  { name := Str.upper c.name, def_ := c.def_, lit := c.lit.map capLiteral, args := c.args.map Str.upper
    fn := c.fn.map fun f => { typ := f.typ, name := f.name, args := f.args.map Str.upper
                              executor := f.executor.map fun e => { name := e.name, typ := e.typ, args := e.args.map Str.upper } } }

/-- A condition in capital letters. -/
def capExpr : Expr → Expr
  | .cmp c => .cmp { op := c.op, left := { name := Str.upper c.left.name }, right := c.right.map capLiteral }
  | .and a b => .and (capExpr a) (capExpr b)
  | .or a b => .or (capExpr a) (capExpr b)

/-- A selected item in capital letters. Of a function, the type is left out: it is only known for names in capital
letters (see C154). -/
def capSelector : Selector → Selector
  | .col c => .col (capColumn c)
  | .fn f => .fn { name := Str.upper f.name, args := f.args.map Str.upper }

/-- A table in capital letters. -/
def capTable (t : Table) : Table := { name := Str.upper t.name, schema := Str.upper t.schema }

/-- An index in capital letters. -/
def capIndex (i : Index) : Index := { name := Str.upper i.name, typ := i.typ, columns := i.columns.map capColumn }

/-- A statement with all its names and values in capital letters. Of CREATE TABLE the keys are left out: the words KEY and INDEX are
only recognised in capital letters (see C122). -/
def capStatement : Statement → Statement
  | .createDatabase n b => .createDatabase (Str.upper n) b
  | .createTable s b => .createTable { table := capTable s.table, columns := s.columns.map capColumn } b
  | .createIndex s b => .createIndex { table := capTable s.table, columns := s.columns.map capColumn, indexes := s.indexes.map capIndex } b
  | .insert i => .insert { table := capTable i.table, values := i.values.map (·.map capColumn) }
  | .select s => .select { selectors := s.selectors.map capSelector, tables := s.tables.map capTable, cond := s.cond.map capExpr,
                           orderBy := s.orderBy.map (fun o => { column := Str.upper o.column, order := o.order }),
                           limit := s.limit, groupBy := Str.upper s.groupBy }
  | .update u => .update { table := capTable u.table, columns := u.columns.map capColumn, cond := u.cond.map capExpr }
  | .delete d => .delete { table := capTable d.table, cond := d.cond.map capExpr }
  | .dropDatabase n b => .dropDatabase (Str.upper n) b
  | .dropTable ts b => .dropTable (ts.map capTable) b
  | .dropIndex s i b => .dropIndex (Str.upper s) (Str.upper i) b
  | .alterDatabase a b => .alterDatabase (Str.upper a) (Str.upper b)
  | .alterTable a => .alterTable
      { table := capTable a.table, renameTo := a.renameTo.map capTable, renameColumnFrom := a.renameColumnFrom.map capColumn
        renameColumnTo := a.renameColumnTo.map capColumn, addColumn := a.addColumn.map capColumn, addIndex := a.addIndex.map capIndex
        dropColumn := a.dropColumn.map capColumn, dropIndex := a.dropIndex.map capIndex }
  | .copy c => .copy { table := capTable c.table, columns := c.columns.map capColumn, source := Str.upper c.source, format := c.format }
  | .commit => .commit
  | .vacuum t => .vacuum (t.map capTable)
  | .truncate ts => .truncate (ts.map capTable)
  | .begin => .begin
  | .rollback => .rollback
  | .use n => .use (Str.upper n)

/-- What becomes of a query, in capital letters. -/
def capitals : Res (List Statement) → Res (List Statement)
  | .ok l => .ok (l.map capStatement)
  | .err => .err
  | .panic => .panic

/-- The conversion of the numbers of LIMIT does not depend on letter case. -/
def CaseBlind (u : Str → Option Nat) : Prop := ∀ s s', Str.upper s = Str.upper s' → u s = u s'

end Verif.Spec
