import Verif.Model.ResultSet
import Verif.Model.System
import Verif.Model.TestHelper
import Verif.Model.Bind
import Verif.Model.Helpers
/-! Making tables, literals, columns, statements, rows and configurations with options: the `New…` functions that take
functional options, and the accessors of ALTER TABLE and of columns whose parts may be missing. An option is a value of
an inductive type, applied by `apply`; an option function of the caller's own is not modelled. -/
namespace Verif.Query
open Verif

/-! ### table.go, literal.go, schema.go -/

/-- table.go 47-48, 62-66: the options of a table. -/
inductive TableOption | schema (s : Str)
  deriving DecidableEq, Repr

/-- table.go 62-66 `WithTableSchema`. -/
def TableOption.apply (t : Table) : TableOption → Table
  | .schema s => { t with schema := s }

/-- table.go 50-59 `NewTableWith`. -/
def newTableWith (name : Str) (os : List TableOption) : Table := os.foldl TableOption.apply { name := name }

/-- literal.go 33, 65-69: the options of a literal. -/
inductive LiteralOption | type (t : LitType)
  deriving DecidableEq, Repr

/-- literal.go 65-69 `WithLiteralType`. -/
def LiteralOption.apply (l : Literal) : LiteralOption → Literal
  | .type t => { l with t := t }

/-- literal.go 53-62 `NewLiteralWith`. -/
def newLiteralWith (v : Val) (os : List LiteralOption) : Literal := os.foldl LiteralOption.apply { v := v, t := .unknown }

/-- schema.go 62, 78-89: the options of a schema. -/
inductive SchemaOpt | columns (cs : List Column) | indexes (is : List Index)
  deriving DecidableEq, Repr

/-- schema.go 78-82 `WithSchemaColumns`, 85-89 `WithSchemaIndexes`. -/
def SchemaOpt.apply (s : Schema) : SchemaOpt → Schema
  | .columns cs => { s with columns := cs }
  | .indexes is => { s with indexes := is }

/-- schema.go 65-75 `NewSchemaWith`. -/
def newSchemaOf (name : Str) (os : List SchemaOpt) : Schema :=
  os.foldl SchemaOpt.apply { table := newTableWith name [], columns := [], indexes := [] }

/-! ### column.go -/

/-- column.go 22, 101-142: the options of a column; nil is `none`. -/
inductive ColOption
  | name (s : Str)
  | data (d : Option ColumnDef)
  | literal (l : Option Literal)
  | function (f : Option Function)
  | executor (e : Option Exec)
  | args (as : List Str)
  deriving DecidableEq, Repr

/-- func_impl.go 67-73 `WithFunctionExecutor` on a new function: the executor is asked for its name and type. -/
def functionOfExecutor (e : Exec) : Function := { typ := e.typ, name := e.name, executor := some e }

/-- column.go 101-142. Asking a nil executor for its name panics. -/
def ColOption.apply (c : Column) : ColOption → Res Column
  | .name s => .ok { c with name := s }
  | .data d => .ok { c with def_ := d }
  | .literal l => .ok { c with lit := l }
  | .function f => .ok { c with fn := f }
  | .executor none => .panic
  | .executor (some e) => .ok { c with fn := some (functionOfExecutor e) }
  | .args as => .ok { c with args := as }

/-- column.go 94-97, the loop over the options. -/
def ColOption.applyAll : Column → List ColOption → Res Column
  | c, [] => .ok c
  | c, o :: os => match o.apply c with
    | .ok c' => ColOption.applyAll c' os
    | .err => .err
    | .panic => .panic

/-- column.go 86-98 `NewColumnWithOptions`. -/
def newColumnWithOptions (os : List ColOption) : Res Column := ColOption.applyAll { name := [] } os

/-- column.go 155-157 `IsFunction`. -/
def Column.isFunction (c : Column) : Bool := c.fn.isSome

/-- column.go 160-165 `Function`. -/
def Column.function (c : Column) : Option Function := c.fn

/-! ### alter_table.go -/

/-- alter_table.go 22, 81-128: the options of ALTER TABLE; nil is `none`. -/
inductive AlterOption
  | schema (s : Str)
  | renameTo (t : Option Table)
  | renameColumn (f t : Option Column)
  | addColumn (c : Option Column)
  | addIndex (i : Option Index)
  | dropColumn (c : Option Column)
  | dropIndex (i : Option Index)
  deriving DecidableEq, Repr

/-- alter_table.go 81-128, on the schema name (45) and the rest of the statement. -/
def AlterOption.apply (p : Str × AlterTable) : AlterOption → Str × AlterTable
  | .schema s => (s, p.2)
  | .renameTo t => (p.1, { p.2 with renameTo := t })
  | .renameColumn f t => (p.1, { p.2 with renameColumnFrom := f, renameColumnTo := t })
  | .addColumn c => (p.1, { p.2 with addColumn := c })
  | .addIndex i => (p.1, { p.2 with addIndex := i })
  | .dropColumn c => (p.1, { p.2 with dropColumn := c })
  | .dropIndex i => (p.1, { p.2 with dropIndex := i })

/-- alter_table.go 57-78 `NewAlterTableWith`; the table is made after the options have been applied. -/
def newAlterTableWith (name : Str) (os : List AlterOption) : AlterTable :=
  let p := os.foldl AlterOption.apply ([], { table := { name := name } })
  { p.2 with table := newTableWith name (if 0 < p.1.length then [.schema p.1] else []) }

/-- alter_table.go 136-141 `RenameTo`. -/
def AlterTable.renamed (a : AlterTable) : Option Table := a.renameTo

/-- alter_table.go 144-149 `RenameColumns`. -/
def AlterTable.renameColumns (a : AlterTable) : Option (Column × Column) :=
  match a.renameColumnFrom, a.renameColumnTo with
  | some f, some t => some (f, t)
  | _, _ => none

/-! ### select.go, copy.go -/

/-- select.go 22, 70-88: the options of SELECT. An ORDER BY that is nil is not modelled. -/
inductive SelectOption
  | orderBy (os : List Order)
  | limit (offset limit : Nat)
  | groupBy (name : Str)

/-- select.go 70-88, with limit.go 48-53 and group.go 45-49. -/
def SelectOption.apply (s : Select) : SelectOption → Select
  | .orderBy os => { s with orderBy := os }
  | .limit o l => { s with limit := { offset := o, limit := l } }
  | .groupBy n => { s with groupBy := n }

/-- select.go 54-67 `NewSelectWith`. -/
def newSelectWith (ss : List Selector) (ts : List Table) (w : Condition) (os : List SelectOption) : Select :=
  os.foldl SelectOption.apply { selectors := ss, tables := ts, cond := w }

/-- copy.go 49, 52-70: the options of COPY. -/
inductive CopyOption | columns (cs : List Column) | format (s : Str)
  deriving DecidableEq, Repr

/-- copy.go 52-56 `WithCopyColumns`, 59-70 `WithCopyFormat`. -/
def CopyOption.apply (c : Copy) : CopyOption → Copy
  | .columns cs => { c with columns := cs }
  | .format s => { c with format := CopyFormat.parse c.format s }

/-- copy.go 91-102 `NewCopyWith`. -/
def newCopyWith (name src : Str) (os : List CopyOption) : Copy :=
  os.foldl CopyOption.apply { table := newTableWith name [], columns := [], source := src, format := .text }

/-! ### Lists: args.go, columns.go, selectors.go -/

/-- args.go 46-55 `IsAsterisk`, with arg.go 31-38. -/
def argsAreAsterisk : List Str → Bool
  | [a] => a == s%"*"
  | [] => true
  | _ => false

/-- args.go 58-64 `Names`. -/
def argNames (as : List Str) : List Str := as.map id

/-- columns.go 58-60 `Selectors`, selectors.go 37-43 `NewSelectorsWithColums`. -/
def columnsSelectors (cs : List Column) : List Selector := cs.map .col

/-- selectors.go 51-61 `Columns`: selectors that are not columns are passed over. -/
def selectorsColumns : List Selector → List Column
  | [] => []
  | .col c :: ss => c :: selectorsColumns ss
  | .fn _ :: ss => selectorsColumns ss

/-- selectors.go 64-75 `Names`. -/
def selectorsNames (ss : List Selector) : List Str := ss.map (·.text)

/-- columns.go 163-169 `Copy`. -/
def copyColumns (cs : List Column) : List Column := cs.map (·.copy)

end Verif.Query

namespace Verif.Sys
open Verif

/-- schema_columns_stmt_impl.go 31, 34-52: the options of a schema columns statement. -/
inductive StmtOption
  | db (s : Str)
  | tables (ts : List Str)
  | select (s : Option Query.Select)

/-- schema_columns_stmt_impl.go 34-52. -/
def StmtOption.apply (p : Option Query.Select × Str × List Str) : StmtOption → Option Query.Select × Str × List Str
  | .db s => (p.1, s, p.2.2)
  | .tables ts => (p.1, p.2.1, ts)
  | .select s => (s, p.2)

/-- schema_columns_stmt_impl.go 55-74 `NewSchemaColumnsStatement`, from its options. -/
def newStatementWith (parse : Str → Res (List Query.Statement)) (os : List StmtOption) : Res Stmt :=
  let p := os.foldl StmtOption.apply (none, [], [])
  newStatement parse p.1 p.2.1 p.2.2

end Verif.Sys

namespace Verif.Rs
open Verif
variable {V F T : Type}

/-- row_impl.go 32, 35-53: the options of a row; a nil map, schema or slice is `none`. -/
inductive RowOption (V F T : Type)
  | object (o : Option (GoMap Str (Option V)))
  | schema (s : Option (Schema V F T))
  | values (vs : Option (List (Option V)))

/-- row_impl.go 35-53. -/
def RowOption.apply (r : Row V F T) : RowOption V F T → Row V F T
  | .object o => { r with object := o }
  | .schema s => { r with schema := s }
  | .values vs => { r with values := vs }

/-- row_impl.go 56-66 `NewRow`. -/
def newRow (os : List (RowOption V F T)) : Row V F T := os.foldl RowOption.apply {}

end Verif.Rs

namespace Verif.Bind
open Verif
variable {T F V : Type}

/-- bind_impl.go 35, 38-49: the options of a bind statement. -/
inductive StmtOption (T F V : Type)
  | query (q : Str)
  | params (ps : List (Param T F V))

/-- bind_impl.go 38-49. -/
def StmtOption.apply (p : Str × List (Param T F V)) : StmtOption T F V → Str × List (Param T F V)
  | .query q => (q, p.2)
  | .params ps => (p.1, ps)

/-- bind_impl.go 52-61 `NewBindStatement`. -/
def newBindStatement (os : List (StmtOption T F V)) : Str × List (Param T F V) := os.foldl StmtOption.apply ([], [])

end Verif.Bind
