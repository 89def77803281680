import Verif.Spec.Parse
/-! Statements without the names and values in them. -/
namespace Verif.Spec
open Verif Verif.Query

/-- As many empty texts. -/
def blanks (l : List Str) : List Str := l.map fun _ => []

/-- A value without its text; what remains is whether it is a string, a parameter, or something else. -/
def blankLiteral (l : Literal) : Literal :=
  { v := match l.v with
      | .str _ => .str []
      | .other _ => .other []
      | v => v
    t := l.t }

/-- A column without its name, type and value; what remains is the kind of its value or its operator. -/
def blankColumn (c : Column) : Column :=
  { name := [], lit := c.lit.map blankLiteral, args := blanks c.args
    fn := c.fn.map fun f => { typ := f.typ, name := f.name, args := blanks f.args
                              executor := f.executor.map fun e => { name := e.name, typ := e.typ, args := blanks e.args } } }

/-- A condition without names and values; what remains are the operators, AND and OR. -/
def blankExpr : Expr → Expr
  | .cmp c => .cmp { op := c.op, left := { name := [] }, right := c.right.map blankLiteral }
  | .and a b => .and (blankExpr a) (blankExpr b)
  | .or a b => .or (blankExpr a) (blankExpr b)

/-- A selected item without names; what remains is whether it is a call, and with how many arguments. -/
def blankSelector : Selector → Selector
  | .col _ => .col { name := [] }
  | .fn f => .fn { args := blanks f.args }

/-- A table without its name. -/
def blankTable (_ : Table) : Table := { name := [] }

/-- An index without names; what remains are its kind and the number of columns. -/
def blankIndex (i : Index) : Index := { name := [], typ := i.typ, columns := i.columns.map blankColumn }

/-- A statement without names and values. What remains of a SELECT are the items, the number of tables, the operators of the
condition and the directions of the ordering; of INSERT the rows with the kinds of values, of UPDATE the assignments
with their operators and kinds of values; of the other statements the clauses and the numbers of names. Of CREATE TABLE
and added columns, and of LIMIT, nothing remains. -/
def blank : Statement → Statement
  | .createDatabase _ b => .createDatabase [] b
  | .createTable _ b => .createTable { table := { name := [] } } b
  | .createIndex s b => .createIndex { table := { name := [] }, indexes := s.indexes.map blankIndex } b
  | .insert i => .insert { table := { name := [] }, values := i.values.map (·.map blankColumn) }
  | .select s => .select { selectors := s.selectors.map blankSelector, tables := s.tables.map blankTable, cond := s.cond.map blankExpr,
                           orderBy := s.orderBy.map fun o => { column := [], order := o.order } }
  | .update u => .update { table := { name := [] }, columns := u.columns.map blankColumn, cond := u.cond.map blankExpr }
  | .delete d => .delete { table := { name := [] }, cond := d.cond.map blankExpr }
  | .dropDatabase _ b => .dropDatabase [] b
  | .dropTable ts b => .dropTable (ts.map blankTable) b
  | .dropIndex _ _ b => .dropIndex [] [] b
  | .alterDatabase _ _ => .alterDatabase [] []
  | .alterTable a => .alterTable
      { table := { name := [] }, renameTo := a.renameTo.map blankTable, renameColumnFrom := a.renameColumnFrom.map blankColumn
        renameColumnTo := a.renameColumnTo.map blankColumn, addIndex := a.addIndex.map blankIndex
        dropColumn := a.dropColumn.map blankColumn, dropIndex := a.dropIndex.map blankIndex }
  | .copy c => .copy { table := { name := [] }, columns := c.columns.map blankColumn, source := [], format := c.format }
  | .commit => .commit
  | .vacuum t => .vacuum (t.map blankTable)
  | .truncate ts => .truncate (ts.map blankTable)
  | .begin => .begin
  | .rollback => .rollback
  | .use _ => .use []

/-- What becomes of a query, without the names and values. -/
def outcome : Res (List Statement) → Res (List Statement)
  | .ok l => .ok (l.map blank)
  | .err => .err
  | .panic => .panic

end Verif.Spec
