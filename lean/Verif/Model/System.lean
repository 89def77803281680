import Verif.Model.Query
import Verif.Model.ResultSet
/-! The information_schema helpers: sql/system. The parser call inside `generateSelectStatement` and
`NewSchemaColumnsQueryFromTableNames` is a parameter. -/
namespace Verif.Sys
open Verif

/-! ### Constants: schema_columns.go 25-38 -/

/-- schema_columns.go 27. -/
def catalogDefault : Str := s%"def"
/-- schema_columns.go 29. -/
def infoSchema : Str := s%"information_schema"
/-- schema_columns.go 30. -/
def infoColumns : Str := s%"COLUMNS"
/-- schema_columns.go 31. -/
def schemaColumnsTable : Str := infoSchema ++ s%"." ++ infoColumns
/-- schema_columns.go 32. -/
def kCatalog : Str := s%"TABLE_CATALOG"
/-- schema_columns.go 33. -/
def kSchema : Str := s%"TABLE_SCHEMA"
/-- schema_columns.go 34. -/
def kTable : Str := s%"TABLE_NAME"
/-- schema_columns.go 35. -/
def kColumn : Str := s%"COLUMN_NAME"
/-- schema_columns.go 36. -/
def kType : Str := s%"DATA_TYPE"
/-- schema_columns.go 37. -/
def schemaColumnsQuery : Str := s%"SELECT * FROM " ++ schemaColumnsTable

/-- schema_columns.go 41-50 `IsSchemaColumsQuery`. -/
def isSchemaColumnsQuery (stmt : Query.Select) : Bool :=
  match stmt.tables with
  | [t] => Str.eqFold t.fullTableName schemaColumnsTable
  | _ => false

/-! ### Result sets -/

/-- The dynamic type of a value as `NewDataTypeFrom` (data_type.go 116-129) distinguishes it: a string (or
bytes), a function of some type, anything else. -/
inductive Dyn | text (s : Str) | func (t : Fn.FnType) | other
  deriving DecidableEq, Repr

/-- The environment: the result set operations, and the type switch on an `any`.
schema_columns_resutset_from.go 23-107, data_type.go 116-129. -/
structure SEnv (V F T : Type) where
  R : Rs.REnv V F T
  dyn : Option V → Dyn

section
variable {V F T : Type}

/-- schema_columns_resutset_schema.go 34-59 (data types of the columns are not part of this model). -/
def rsSchema : Rs.Schema V F T :=
  { database := infoSchema, table := infoColumns,
    columns := [kCatalog, kSchema, kTable, kColumn, kType].map (fun n => { name := n }) }

/-- schema_columns_resutset_from.go 79-92: the switch on a result set column's name. -/
def fill (ofText : Str → V) (col : Query.Column) (d : Query.ColumnDef) (obj : GoMap Str (Option V)) (n : Str) :
    Res (GoMap Str (Option V)) :=
  if n = kCatalog then .ok (obj.set kCatalog (some (ofText catalogDefault)))
  else if n = kSchema then .ok (obj.set kSchema (some (ofText (rsSchema (V := V) (F := F) (T := T)).database)))
  else if n = kTable then .ok (obj.set kTable (some (ofText (rsSchema (V := V) (F := F) (T := T)).table)))
  else if n = kColumn then .ok (obj.set kColumn (some (ofText col.name)))
  else if n = kType then .ok (obj.set kType (some (ofText d.typ.toStr)))
  else .err

/-- schema_columns_resutset_from.go 78-93: the loop over the result set's columns. -/
def fillAll (ofText : Str → V) (col : Query.Column) (d : Query.ColumnDef) :
    GoMap Str (Option V) → List Str → Res (GoMap Str (Option V))
  | obj, [] => .ok obj
  | obj, n :: ns => match fill (F := F) (T := T) ofText col d obj n with
    | .ok obj' => fillAll ofText col d obj' ns
    | .err => .err
    | .panic => .panic

/-- schema_columns_resutset_from.go 77-97, one column of a schema. `column.DataType()` on a column without
definition is a call on a nil interface. -/
def schemaRow (ofText : Str → V) (col : Query.Column) : Res (Rs.Row V F T) :=
  match col.def_ with
  | none => .panic
  | some d =>
    match fillAll (F := F) (T := T) ofText col d [] ((rsSchema (V := V) (F := F) (T := T)).columns.map (·.name)) with
    | .ok obj => .ok { object := some obj, schema := some rsSchema }
    | .err => .err
    | .panic => .panic

/-- schema_columns_resutset_from.go 76-99: the loop over one schema's columns, appending to the rows. -/
def rowsOfColumns (ofText : Str → V) : List (Rs.Row V F T) → List Query.Column → Res (List (Rs.Row V F T))
  | rows, [] => .ok rows
  | rows, c :: cs => match schemaRow ofText c with
    | .ok row => rowsOfColumns ofText (rows ++ [row]) cs
    | .err => .err
    | .panic => .panic

/-- schema_columns_resutset_from.go 75-100: the loop over the schemas. -/
def rowsOfSchemas (ofText : Str → V) : List (Rs.Row V F T) → List Query.Schema → Res (List (Rs.Row V F T))
  | rows, [] => .ok rows
  | rows, s :: ss => match rowsOfColumns ofText rows s.columns with
    | .ok rows' => rowsOfSchemas ofText rows' ss
    | .err => .err
    | .panic => .panic

/-- schema_columns_resutset_from.go 69-107 `NewSchemaColumnsResultSetFromSchemas`. -/
def fromSchemas (ofText : Str → V) (schemas : List Query.Schema) : Res (Rs.RSet V F T) :=
  match rowsOfSchemas ofText [] schemas with
  | .ok rows => .ok { schema := some rsSchema, rows := rows }
  | .err => .err
  | .panic => .panic

/-- schema_column_impl.go 24-31. -/
structure SysColumn where
  catalog : Str := []
  schema : Str := []
  table : Str := []
  name : Str := []
  typ : Query.DataType := .unknown
  constraint : Query.Constraint := 0
  deriving DecidableEq, Repr

/-- A `ColumnOption` (schema_column_impl.go 36-105) with its argument. -/
inductive ColOpt (V : Type)
  | catalog (v : Option V) | schema (v : Option V) | table (v : Option V) | name (v : Option V)
  | typ (v : Option V) | constraint (v : Query.Constraint)

/-- data_type.go 116-129 `NewDataTypeFrom`, for the iteration order `ord` of the type table. -/
def newDataTypeFrom (S : SEnv V F T) (ord : List (Query.DataType × Str)) (v : Option V) : Option Query.DataType :=
  match S.dyn v with
  | .text s => Query.newDataTypeFromStringIn ord s
  | .func t => Query.newDataTypeForFunction t
  | .other => none

/-- schema_column_impl.go 36-105: applying an option; `none` is its error. The constraint option does nothing
(its assignment is commented out). -/
def ColOpt.apply (S : SEnv V F T) (ord : List (Query.DataType × Str)) (c : SysColumn) : ColOpt V → Option SysColumn
  | .catalog v => (S.R.X.toText v).map (fun s => { c with catalog := s })
  | .schema v => (S.R.X.toText v).map (fun s => { c with schema := s })
  | .table v => (S.R.X.toText v).map (fun s => { c with table := s })
  | .name v => (S.R.X.toText v).map (fun s => { c with name := s })
  | .typ v => (newDataTypeFrom S ord v).map (fun t => { c with typ := t })
  | .constraint _ => some c

/-- schema_column_impl.go 108-123 `NewColumn`: the option loop. -/
def applyOpts (S : SEnv V F T) (ord : List (Query.DataType × Str)) : SysColumn → List (ColOpt V) → Option SysColumn
  | c, [] => some c
  | c, o :: os => match o.apply S ord c with
    | none => none
    | some c' => applyOpts S ord c' os

/-- schema_column_impl.go 108-123 `NewColumn`. -/
def newColumn (S : SEnv V F T) (ord : List (Query.DataType × Str)) (os : List (ColOpt V)) : Option SysColumn :=
  applyOpts S ord {} os

/-- schema_columns_resutset_from.go 30-59: the column of one row. Row's caching has no effect on the values
(C47). -/
def columnOfRow (S : SEnv V F T) (ord : List (Query.DataType × Str)) (row : Rs.Row V F T) : Option SysColumn :=
  match (row.valueBy kCatalog).2, (row.valueBy kSchema).2, (row.valueBy kTable).2, (row.valueBy kColumn).2,
    (row.valueBy kType).2 with
  | .ok cat, .ok sch, .ok tbl, .ok nm, .ok typ =>
    newColumn S ord [.catalog cat, .schema sch, .table tbl, .name nm, .typ typ]
  | _, _, _, _, _ => none

/-- schema_columns_resutset_from.go 24-61: the loop; `fuel` bounds its turns (C62 shows that it ends). -/
def readLoop (S : SEnv V F T) (ord : List (Query.DataType × Str)) :
    Nat → Rs.RSet V F T → List SysColumn → Option (Res (List SysColumn))
  | 0, _, _ => none
  | fuel + 1, rs, cols =>
    let n := rs.next
    if n.2 then
      let r := n.1.row S.R
      match r.2 with
      | .err => some .err
      | .panic => some .panic
      | .ok row => match columnOfRow S ord row with
        | none => some .err
        | some c => readLoop S ord fuel r.1 (cols ++ [c])
    else some (.ok cols)

/-- schema_columns_resutset_from.go 23-66 `NewSchemaColumnsResultSetFromResultSet`: the columns of the
information schema object, `none` while the loop has not ended. -/
def fromResultSet (S : SEnv V F T) (ord : List (Query.DataType × Str)) (fuel : Nat) (rs : Rs.RSet V F T) :
    Option (Res (List SysColumn)) :=
  readLoop S ord fuel rs []

/-- schema_columns_resutset_impl.go 57-64 `LookupColumn`; `none` is the error. -/
def lookupColumn (cols : List SysColumn) (name : Str) : Option SysColumn :=
  cols.find? (fun c => Str.eqFold c.name name)
end

/-! ### Statements: schema_columns_stmt_impl.go -/

/-- schema_columns_stmt_impl.go 24-28. -/
structure Stmt where
  stmt : Option Query.Select := none
  dbName : Str := []
  tblNames : List Str := []
  deriving DecidableEq, Repr

/-- schema_columns_stmt_impl.go 109-140 `traverseExpr`, on the database name and table names so far (on an
error these are discarded with the statement). A nil right literal is a nil dereference. -/
def traverseExpr : Query.Expr → Str × List Str → Res (Str × List Str)
  | .and l r, st => match traverseExpr l st with
    | .ok st' => traverseExpr r st'
    | .err => .err
    | .panic => .panic
  | .cmp e, st =>
    if e.op ≠ .eq then .err
    else match e.right with
      | none => .panic
      | some lit => match lit.v with
        | .str value =>
          if Str.eqFold e.left.name kSchema then .ok (value, st.2)
          else if Str.eqFold e.left.name kTable then .ok (st.1, st.2 ++ [value])
          else .ok st
        | _ => .err
  | .or _ _, _ => .err

/-- schema_columns_stmt_impl.go 107-149 `traverseSelectStatement`: the table names start empty, the database
name does not. A missing condition is an error. -/
def traverse (s : Query.Select) (db : Str) : Res (Str × List Str) :=
  match s.cond with
  | none => .err
  | some e => traverseExpr e (db, [])

/-- schema_columns_stmt_impl.go 76-90: the text of the generated query. -/
def generatedQuery (db : Str) (tbls : List Str) : Str :=
  schemaColumnsQuery ++ s%" WHERE " ++
    (if 0 < db.length then kSchema ++ s%" = '" ++ db ++ s%"'" else []) ++
    (match tbls with
     | [] => []
     | [t] => s%" AND " ++ kTable ++ s%" = '" ++ t ++ s%"'"
     | ts => s%" AND " ++ kTable ++ s%" IN (" ++ Str.join s%"," (ts.map (fun t => s%"'" ++ t ++ s%"'")) ++ s%")")

/-- The end of schema_columns_stmt_impl.go 91-104 and of schema_columns_resutset.go: exactly one statement, a SELECT. -/
def onlySelect : Res (List Query.Statement) → Res Query.Select
  | .ok [.select s] => .ok s
  | .panic => .panic
  | _ => .err

/-- schema_columns_resutset.go 34-43: the text of the query for table names. -/
def tableNamesQuery (tbls : List Str) : Str :=
  schemaColumnsQuery ++
    (if 0 < tbls.length then
      s%" WHERE " ++ Str.join s%" OR " (tbls.map (fun t => s%"TABLE_NAME = '" ++ t ++ s%"'"))
    else [])

/-- schema_columns_resutset.go 33-56 `NewSchemaColumnsQueryFromTableNames` for the parser `parse`. -/
def queryFromTableNames (parse : Str → Res (List Query.Statement)) (tbls : List Str) : Res Query.Select :=
  onlySelect (parse (tableNamesQuery tbls))

/-- schema_columns_stmt_impl.go 55-74 `NewSchemaColumnsStatement` for the parser `parse`. -/
def newStatement (parse : Str → Res (List Query.Statement)) (sel : Option Query.Select) (db : Str) (tbls : List Str) :
    Res Stmt :=
  match sel with
  | none => match onlySelect (parse (generatedQuery db tbls)) with
    | .ok s => .ok { stmt := some s, dbName := db, tblNames := tbls }
    | .err => .err
    | .panic => .panic
  | some s => match traverse s db with
    | .ok r => .ok { stmt := some s, dbName := r.1, tblNames := r.2 }
    | .err => .err
    | .panic => .panic

end Verif.Sys
