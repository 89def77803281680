import Verif.Spec.Parse
import Verif.Spec.Syntax
import Verif.Spec.Query
/-! Where the parts of a reported statement come from: the names, values and other texts it carries, and what it means
that a text is written in the query. -/
namespace Verif.Spec
open Verif Verif.Lex Verif.Query

/-- The characters that are taken off the ends of names and values. -/
def quoteChars : List Char := ['\'', '"', '`', '(', ')']

/-- `x` is the text of consecutive tokens, up to quote characters and parentheses at its ends. -/
def WrittenIn (toks : List Token) (x : Str) : Prop :=
  ∃ before block after l r, toks = before ++ block ++ after ∧ textOf block = l ++ x ++ r ∧
    (∀ c, c ∈ l → c ∈ quoteChars) ∧ ∀ c, c ∈ r → c ∈ quoteChars

/-- The text of a value. -/
def litTexts (l : Literal) : List Str :=
  match l.v with
  | .str s => [s]
  | .other s => [s]
  | .f32 s => [s]
  | .f64 s => [s]
  | _ => []

/-- The arguments of a function and of what computes it. -/
def fnTexts (f : Function) : List Str := f.args ++ (f.executor.map (·.args)).getD []

/-- Name, value and arguments of a column. -/
def colTexts (c : Column) : List Str :=
  c.name :: ((c.lit.map litTexts).getD [] ++ c.args ++ (c.fn.map fnTexts).getD [])

/-- Schema and name of a table. -/
def tableTexts (t : Table) : List Str := [t.schema, t.name]

/-- Columns of an index, and its name (a primary key is not named by the query). -/
def indexTexts (i : Index) : List Str :=
  (match i.typ with
   | .primary => []
   | _ => [i.name]) ++ i.columns.flatMap colTexts

/-- The texts of a table definition. -/
def schemaTexts (s : Schema) : List Str :=
  tableTexts s.table ++ s.columns.flatMap colTexts ++ s.indexes.flatMap indexTexts

/-- The texts of a condition. -/
def exprTexts : Expr → List Str
  | .cmp c => colTexts c.left ++ (c.right.map litTexts).getD []
  | .and l r => exprTexts l ++ exprTexts r
  | .or l r => exprTexts l ++ exprTexts r

/-- The texts of a WHERE clause. -/
def condTexts (c : Condition) : List Str := (c.map exprTexts).getD []

/-- The texts of something selected. -/
def selectorTexts : Selector → List Str
  | .col c => colTexts c
  | .fn f => fnTexts f

/-- All texts of a statement other than function names: of databases, tables, columns, indexes and files, of values,
of arguments. -/
def stmtTexts : Statement → List Str
  | .createDatabase n _ => [n]
  | .createTable s _ => schemaTexts s
  | .createIndex s _ => schemaTexts s
  | .insert i => tableTexts i.table ++ i.values.flatMap (·.flatMap colTexts)
  | .select s => s.selectors.flatMap selectorTexts ++ s.tables.flatMap tableTexts ++ condTexts s.cond ++
      s.orderBy.map (·.column) ++ [s.groupBy]
  | .update u => tableTexts u.table ++ u.columns.flatMap colTexts ++ condTexts u.cond
  | .delete d => tableTexts d.table ++ condTexts d.cond
  | .dropDatabase n _ => [n]
  | .dropTable ts _ => ts.flatMap tableTexts
  | .dropIndex s i _ => [s, i]
  | .alterDatabase n m => [n, m]
  | .alterTable a => tableTexts a.table ++ (a.renameTo.map tableTexts).getD [] ++
      (a.renameColumnFrom.map colTexts).getD [] ++ (a.renameColumnTo.map colTexts).getD [] ++
      (a.addColumn.map colTexts).getD [] ++ (a.addIndex.map indexTexts).getD [] ++
      (a.dropColumn.map colTexts).getD [] ++ (a.dropIndex.map indexTexts).getD []
  | .copy c => tableTexts c.table ++ c.columns.flatMap colTexts ++ [c.source]
  | .commit => []
  | .vacuum t => (t.map tableTexts).getD []
  | .truncate ts => ts.flatMap tableTexts
  | .begin => []
  | .rollback => []
  | .use n => [n]

/-- The functions of a column. -/
def colFunctions (c : Column) : List Str := (c.fn.map (fun f => [f.name])).getD []

/-- The function names of a statement. -/
def stmtFunctions : Statement → List Str
  | .select s => s.selectors.flatMap (fun x => match x with
      | .col c => colFunctions c
      | .fn f => [f.name])
  | .update u => u.columns.flatMap colFunctions
  | .insert i => i.values.flatMap (·.flatMap colFunctions)
  | _ => []

/-- All texts of the statement are written in the tokens; function names up to letter case. -/
def MadeFrom (own : List Token) (s : Statement) : Prop :=
  (∀ x, x ∈ stmtTexts s → WrittenIn own x) ∧ ∀ x, x ∈ stmtFunctions s → ∃ y, WrittenIn own y ∧ SameName x y

/-- Disjoint stretches of the tokens, in order and none of them with a `;` in it: one for each statement, and `P` holds
of the stretch and its statement. -/
inductive Pieces (P : List Token → Statement → Prop) : List Token → List Statement → Prop
  | nil (toks : List Token) : Pieces P toks []
  | cons (before own : List Token) {rest : List Token} {s : Statement} {l : List Statement} (h : P own s)
      (hs : ∀ t, t ∈ own → t.kind ≠ .SCOL) (hr : Pieces P rest l) : Pieces P (before ++ own ++ rest) (s :: l)

end Verif.Spec
