import Verif.Model.Util
import Verif.Model.FnNames
import Verif.Model.Res
/-! The query objects of sql/query and their text forms. -/
namespace Verif.Query
open Verif Verif.Util

/-! ### Data types: sql/query/data_type.go -/

/-- data_type.go 25-70: the `DataType` constants. -/
inductive DataType
  | unknown
  | bigInt | binary | bit | blob | boolean | char | character | clob | date | dateTime | decimal
  | double | doublePrecision | float | int | integer | longBlob | longText | mediumBlob | mediumInt
  | mediumText | numeric | real | set | smallInt | text | time | timeStamp | tinyBlob | tinyInt
  | tinyText | varBinary | varChar | varCharacter | year | serial | bigSerial | smallSerial | name
  deriving DecidableEq, Repr

/-- data_type.go 72-111: `dataTypeStrings`, a Go map (here in source order; iteration order is a
parameter of `newDataTypeFromString`). -/
def dataTypeStrings : List (DataType × Str) :=
  [(.bigInt, s%"BIGINT"), (.binary, s%"BINARY"), (.bit, s%"BIT"), (.blob, s%"BLOB"),
   (.boolean, s%"BOOLEAN"), (.char, s%"CHAR"), (.character, s%"CHARACTER"), (.clob, s%"CLOB"),
   (.date, s%"DATE"), (.dateTime, s%"DATETIME"), (.decimal, s%"DECIMAL"), (.double, s%"DOUBLE"),
   (.doublePrecision, s%"DOUBLE PRECISION"), (.float, s%"FLOAT"), (.int, s%"INT"),
   (.integer, s%"INTEGER"), (.longBlob, s%"LONGBLOB"), (.longText, s%"LONGTEXT"),
   (.mediumBlob, s%"MEDIUMBLOB"), (.mediumInt, s%"MEDIUMINT"), (.mediumText, s%"MEDIUMTEXT"),
   (.numeric, s%"NUMERIC"), (.real, s%"REAL"), (.set, s%"SET"), (.smallInt, s%"SMALLINT"),
   (.text, s%"TEXT"), (.time, s%"TIME"), (.timeStamp, s%"TIMESTAMP"), (.tinyBlob, s%"TINYBLOB"),
   (.tinyInt, s%"TINYINT"), (.tinyText, s%"TINYTEXT"), (.varBinary, s%"VARBINARY"),
   (.varChar, s%"VARCHAR"), (.varCharacter, s%"VARCHARACTER"), (.year, s%"YEAR"),
   (.serial, s%"SERIAL"), (.bigSerial, s%"BIGSERIAL"), (.smallSerial, s%"SMALLSERIAL")]

/-- data_type.go 196-202: `DataType.String`. -/
def DataType.toStr (t : DataType) : Str :=
  match dataTypeStrings.lookup t with
  | none => []
  | some s => s

/-- data_type.go 132-144: `NewDataTypeFromString`, for the iteration order `order` of the map. -/
def newDataTypeFromStringIn (order : List (DataType × Str)) (s : Str) : Option DataType :=
  let us := Str.upper s
  (order.find? (fun e => e.2 == us || Str.removeAll ' ' e.2 == us)).map (·.1)

/-- `NewDataTypeFromString` for the source order of the table. data_type.go 132-145. -/
def newDataTypeFromString (s : Str) : Option DataType := newDataTypeFromStringIn dataTypeStrings s

/-- data_type.go 147-163: `NewDataTypeForFunction` for a non-nil function of the given type. -/
def newDataTypeForFunction : Fn.FnType → Option DataType
  | .math | .aggregate | .cast | .arith => some .float
  | _ => none

/-! ### Constraints and column definitions -/

/-- constraint.go 18-26: a constraint is a Go `int` used as a bit set (64-bit machine). -/
abbrev Constraint := BitVec 64

/-- constraint.go 29-31. -/
def Constraint.isPrimaryKey (c : Constraint) : Bool := c &&& 1 != 0
/-- constraint.go 34-36. -/
def Constraint.isNotNull (c : Constraint) : Bool := c &&& 2 != 0
/-- constraint.go 39-41. -/
def Constraint.isUnique (c : Constraint) : Bool := c &&& 4 != 0
/-- constraint.go 44-54. -/
def Constraint.toStr (c : Constraint) : Str :=
  if c = 1 then s%"PRIMARY KEY" else if c = 2 then s%"NOT NULL" else if c = 4 then s%"UNIQUE" else []

/-- column_def.go 37-41 `dataDef`. -/
structure ColumnDef where
  consts : Constraint := 0
  typ : DataType
  length : Int
  deriving DecidableEq, Repr

/-- column_def.go 104-110 `String`. -/
def ColumnDef.toStr (d : ColumnDef) : Str :=
  if 0 < d.length then d.typ.toStr ++ s%"(" ++ Str.ofInt d.length ++ s%")" else d.typ.toStr

/-- column_def.go 62-68 `NewDataDefFrom` for a string. -/
def newDataDefFrom (s : Str) (l : Int) : Option ColumnDef :=
  (newDataTypeFromString s).map (fun t => { typ := t, length := l })

/-- column_def.go 70-86 `NewDataDefFromStrings`; note the `||` between the two parenthesis tests. -/
def newDataDefFromStrings : List Str → Option ColumnDef
  | [] => none
  | dt :: s1 :: s2 :: s3 :: _ =>
    if s1 = s%"(" ∨ s3 = s%")" then
      match Str.atoi s2 with
      | none => none
      | some v => newDataDefFrom dt v
    else newDataDefFrom dt (-1)
  | dt :: _ => newDataDefFrom dt (-1)

/-- column_def.go 53-59 `NewUnknownDataDef`. -/
def unknownDataDef : ColumnDef := { typ := .unknown, length := 0 }

/-! ### Values and literals: literal.go -/

/-- The dynamic values (`any`) a literal can hold. A floating point value is carried by its `%v` text;
`other` is any remaining Go value, also carried by its `%v` text. literal.go 36-39. -/
inductive Val
  | nil
  | str (s : Str)
  | bool (b : Bool)
  | i8 (i : Int) | i16 (i : Int) | i32 (i : Int) | i64 (i : Int)
  | f32 (text : Str) | f64 (text : Str)
  | other (text : Str)
  deriving DecidableEq, Repr

/-- Go `fmt.Sprintf("%v", v)`. literal.go 117-126. -/
def Val.print : Val → Str
  | .nil => s%"<nil>"
  | .str s => s
  | .bool true => s%"true"
  | .bool false => s%"false"
  | .i8 i | .i16 i | .i32 i | .i64 i => Str.ofInt i
  | .f32 t | .f64 t | .other t => t

/-- literal.go 25-30. -/
inductive LitType | unknown | string
  deriving DecidableEq, Repr

/-- literal.go 36-39. -/
structure Literal where
  v : Val
  t : LitType := .unknown
  deriving DecidableEq, Repr

/-- literal.go 117-126 `ValueString` (the nil receiver prints nothing). -/
def Literal.valueString : Option Literal → Str
  | none => []
  | some l => match l.t with
    | .string => escapeString l.v.print
    | .unknown => l.v.print

/-! ### Functions: sql/fn/func_impl.go -/

/-- What the query package uses of an executor: name, type, argument names (executor.go 18-27). -/
structure Exec where
  name : Str
  typ : Fn.FnType
  args : List Str := []
  deriving DecidableEq, Repr

/-- func_impl.go 22-28 `function`; the aggregator is represented by its kind. -/
structure Function where
  typ : Fn.FnType := .unknown
  name : Str := []
  executor : Option Exec := none
  aggregator : Option Fn.AggrId := none
  args : List Str := []
  deriving DecidableEq, Repr

/-- func_impl.go 34-57, 84-88: `NewFunction(WithFunctionName(name), WithFunctionArguments(args...))`.
The type is looked up from the name as written, the stored name is upper-cased. -/
def Function.named (name : Str) (args : List Str) : Function :=
  { typ := (Fn.newFunctionTypeForName name).getD .unknown, name := Str.upper name, args := args }

/-- func_impl.go 171-173, args.go 67-73. -/
def Function.toStr (f : Function) : Str := f.name ++ s%"(" ++ joinWithComma f.args ++ s%")"

/-- func_impl.go 101-103. -/
def Function.isName (f : Function) (n : Str) : Bool := f.name == n

/-- func_impl.go 136-138. -/
def Function.isAggregator (f : Function) : Bool := f.typ == .aggregate

/-- func_impl.go 141-153 `Executor`: the cached executor, or a new one by name, cached and with the
function's type overwritten. Returns the updated function. -/
def Function.getExecutor (f : Function) : Function × Option Exec :=
  match f.executor with
  | some e => (f, some e)
  | none => match Fn.newExecutorForName f.name with
    | none => (f, none)
    | some k =>
      let e : Exec := { name := k.name, typ := k.type, args := f.args }
      ({ f with executor := some e, typ := k.type }, some e)

/-- func_impl.go 156-168 `Aggregator`: name resolution and caching. (The option error of
aggr_impl.go 81-89 cannot occur here: a new aggregator has no arguments yet.) -/
def Function.getAggregator (f : Function) : Function × Option Fn.AggrId :=
  match f.aggregator with
  | some a => (f, some a)
  | none => match Fn.newAggregatorForName f.name with
    | none => (f, none)
    | some a => ({ f with aggregator := some a, typ := .aggregate }, some a)

/-! ### Columns: column.go, columns.go -/

/-- column.go 77-83. -/
structure Column where
  name : Str
  def_ : Option ColumnDef := none
  lit : Option Literal := none
  fn : Option Function := none
  args : List Str := []
  deriving DecidableEq, Repr

/-- column.go 253-258. -/
def Column.definitionString (c : Column) : Str :=
  match c.def_ with
  | none => c.name
  | some d => c.name ++ s%" " ++ d.toStr

/-- column.go 248-250. -/
def Column.toStr (c : Column) : Str := c.name

/-- column.go 270-275: the argument list with the operator name after the first argument. -/
def weaveArgs (opName : Str) : List Str → List Str
  | [] => []
  | a :: r => a :: opName :: r

/-- column.go 266-283 `UpdatorString`. -/
def Column.updatorString (c : Column) : Str :=
  match c.fn.bind (fun f => f.getExecutor.2) with
  | some e => Str.join s%" " (weaveArgs e.name c.args)
  | none => Literal.valueString c.lit

/-- column.go 239-245 `Copy`: name, definition and literal (the literal pointer is shared in Go; here
the value). -/
def Column.copy (c : Column) : Column := { name := c.name, def_ := c.def_, lit := c.lit }

/-- columns.go 71-78 `LookupColumn`; `none` is the not-found error. -/
def lookupColumn (cs : List Column) (n : Str) : Option Column :=
  cs.find? (fun c => Str.eqFold c.name n)

/-- columns.go 81-88 `LookupIndexOfColumn`, the loop counter made explicit. -/
def lookupIndexOfColumnFrom (k : Nat) : List Column → Str → Option Nat
  | [], _ => none
  | c :: cs, n => if Str.eqFold c.name n then some k else lookupIndexOfColumnFrom (k + 1) cs n

/-- columns.go 81-88. -/
def lookupIndexOfColumn (cs : List Column) (n : Str) : Option Nat := lookupIndexOfColumnFrom 0 cs n

/-- columns.go 63-68 `ColumnAt`: a negative index is not rejected and makes the slice access panic. -/
def columnAt (cs : List Column) (n : Int) : Res Column :=
  if (cs.length : Int) ≤ n then .err
  else if n < 0 then .panic
  else match cs[n.toNat]? with
    | some c => .ok c
    | none => .panic

/-- columns.go 91-97. -/
def columnNames (cs : List Column) : List Str := cs.map (·.name)
/-- columns.go 100-106. -/
def columnsNameString (cs : List Column) : Str := joinWithComma (cs.map (·.name))
/-- columns.go 109-115. -/
def columnsValueString (cs : List Column) : Str := joinWithComma (cs.map (fun c => Literal.valueString c.lit))
/-- columns.go 137-148. -/
def columnsDefinitionString (cs : List Column) : Str := joinWithComma (cs.map (·.definitionString))
/-- columns.go 151-160. -/
def columnsIsAsterisk (cs : List Column) : Bool :=
  match cs with
  | [c] => c.name == s%"*"
  | [] => true
  | _ => false

/-! ### Indexes: index.go, indexes.go, index_type.go -/

/-- index_type.go 18-24. -/
inductive IndexType | unknown | primary | secondary
  deriving DecidableEq, Repr

/-- index_type.go 27-36. -/
def IndexType.toStr : IndexType → Str
  | .primary => s%"PRIMARY KEY" | .secondary => s%"INDEX" | .unknown => s%"UNKNOWN KEY"

/-- index.go 38-42. -/
structure Index where
  name : Str
  typ : IndexType
  columns : List Column
  deriving DecidableEq, Repr

/-- index.go 55-58. -/
def newPrimaryIndexWith (cs : List Column) : Index :=
  { name := Str.join s%"_" (columnNames cs), typ := .primary, columns := cs }

/-- index.go 61-63. -/
def newSecondaryIndexWith (n : Str) (cs : List Column) : Index := { name := n, typ := .secondary, columns := cs }

/-- index.go 86-96. -/
def Index.definitionString (i : Index) : Str :=
  i.typ.toStr ++ (if i.typ = .secondary then s%" " ++ i.name else []) ++ s%" (" ++
    Str.join s%", " (columnNames i.columns) ++ s%")"

/-- indexes.go 44-51. -/
def lookupIndex (is : List Index) (n : Str) : Option Index := is.find? (fun i => Str.eqFold i.name n)

/-- indexes.go 54-61. -/
def lookupIndexOfIndexFrom (k : Nat) : List Index → Str → Option Nat
  | [], _ => none
  | i :: is, n => if Str.eqFold i.name n then some k else lookupIndexOfIndexFrom (k + 1) is n

/-- indexes.go 54-61. -/
def lookupIndexOfIndex (is : List Index) (n : Str) : Option Nat := lookupIndexOfIndexFrom 0 is n

/-- indexes.go 64-70. -/
def indexesDefinitionString (is : List Index) : Str := Str.join s%", " (is.map (·.definitionString))

/-! ### Tables: table.go, tables.go -/

/-- table.go 41-44. -/
structure Table where
  schema : Str := []
  name : Str
  deriving DecidableEq, Repr

/-- table.go 69-80 `FullTableName`. -/
def Table.fullTableName (t : Table) : Str :=
  Str.join s%"." (
    if 0 < t.name.length then
      (if !Str.hasSub t.name s%"." then (if 0 < t.schema.length then [t.schema] else []) else []) ++ [t.name]
    else [])

/-- table.go 83-85. -/
def Table.isFullTableName (t : Table) (n : Str) : Bool := Str.eqFold t.fullTableName n
/-- table.go 93-95. -/
def Table.isSchemaName (t : Table) (n : Str) : Bool := Str.eqFold t.schema n
/-- table.go 103-105. -/
def Table.isTableName (t : Table) (n : Str) : Bool := Str.eqFold t.name n

/-- tables.go 51-60 `HasTable` (and 75-84 `HasTableName`, same body). -/
def hasTable (ts : List Table) (names : List Str) : Bool :=
  names.any (fun n => ts.any (fun t => t.isTableName n))
/-- tables.go 63-72. -/
def hasSchemaTable (ts : List Table) (names : List Str) : Bool :=
  names.any (fun n => ts.any (fun t => t.isSchemaName n))
/-- tables.go 42-48. -/
def tableNames (ts : List Table) : List Str := ts.map (·.fullTableName)
/-- tables.go 87-93. -/
def tablesString (ts : List Table) : Str := joinWithComma (ts.map (·.fullTableName))

/-! ### Expressions: expr_cmp.go, expr_and.go, expr_or.go, where.go -/

/-- expr_cmp.go 21-30 (values outside the named constants are not modelled). -/
inductive CmpOp | eq | neq | lt | gt | le | ge | in_ | nin
  deriving DecidableEq, Repr

/-- expr_cmp.go 32-50. -/
def CmpOp.toStr : CmpOp → Str
  | .eq => s%"=" | .neq => s%"!=" | .lt => s%"<" | .gt => s%">" | .le => s%"<=" | .ge => s%">="
  | .in_ => s%"IN" | .nin => s%"NOT IN"

/-- expr_cmp.go 53-57 `CmpExpr` (right literal may be nil). -/
structure Cmp where
  op : CmpOp
  left : Column
  right : Option Literal
  deriving DecidableEq, Repr

/-- expr_cmp.go 114-116. -/
def Cmp.toStr (c : Cmp) : Str :=
  c.left.toStr ++ s%" " ++ c.op.toStr ++ s%" " ++ Literal.valueString c.right

/-- The expression types of sql/query (expr_cmp.go, expr_and.go, expr_or.go).
expr_cmp.go 53-57, expr_and.go 18-21, expr_or.go 18-21. -/
inductive Expr
  | cmp (c : Cmp)
  | and (l r : Expr)
  | or (l r : Expr)
  deriving DecidableEq, Repr

/-- expr_cmp.go 114-116, expr_and.go 39-41, expr_or.go 39-41. -/
def Expr.toStr : Expr → Str
  | .cmp c => c.toStr
  | .and l r => l.toStr ++ s%" AND " ++ r.toStr
  | .or l r => l.toStr ++ s%" OR " ++ r.toStr

/-- where.go 28-30: the condition is its top expression, possibly nil. -/
abbrev Condition := Option Expr

/-- where.go 57-62. -/
def Condition.toStr : Condition → Str
  | none => []
  | some e => e.toStr

/-- where.go 65-67. -/
def Condition.hasConditions (c : Condition) : Bool := c.isSome

/-! ### LIMIT, ORDER BY, GROUP BY -/

/-- limit.go 34-37. -/
structure Limit where
  offset : Nat
  limit : Nat
  deriving DecidableEq, Repr

/-- limit.go 78-87. -/
def Limit.toStr (l : Limit) : Str :=
  joinWithSpace ((if 0 < l.limit then [s%"LIMIT", Str.ofNat l.limit] else []) ++
    (if 0 < l.offset then [s%"OFFSET", Str.ofNat l.offset] else []))

/-- order_type.go 22-31. -/
inductive OrderType | none | asc | desc
  deriving DecidableEq, Repr

/-- order_type.go 66-75. -/
def OrderType.toStr : OrderType → Str
  | .asc => s%"ASC" | .desc => s%"DESC" | .none => s%"NONE"

/-- order_type.go 40-48. -/
def newOrderTypeWith (s : Str) : OrderType :=
  if Str.upper s = s%"ASC" then .asc else if Str.upper s = s%"DESC" then .desc else .none

/-- order.go 38-41. -/
structure Order where
  column : Str
  order : OrderType
  deriving DecidableEq, Repr

/-- order.go 85-94. -/
def Order.toStr (o : Order) : Str :=
  if o.order = .none then [] else joinWithSpace [o.column, o.order.toStr]

/-- order.go 127-141. -/
def orderByString (os : List Order) : Str :=
  if os.length = 0 then [] else joinWithSpace [s%"ORDER BY", joinWithComma (os.map (·.toStr))]

/-- group.go 63-72; a GROUP BY clause is its column name, empty for none. -/
def groupByString (column : Str) : Str :=
  if column.length = 0 then [] else joinWithSpace [s%"GROUP BY", column]

/-! ### Selectors: selectors.go -/

/-- selector.go 18-31: the two implementations, `*column` and `*fn.function`. -/
inductive Selector
  | col (c : Column)
  | fn (f : Function)
  deriving DecidableEq, Repr

/-- `Selector.Name()`: column.go 150-152, func_impl.go 96-98. -/
def Selector.name : Selector → Str
  | .col c => c.name
  | .fn f => f.name

/-- selectors.go 64-75 loop body. -/
def Selector.text : Selector → Str
  | .col c => c.name
  | .fn f => f.toStr

/-- `Selector.Function()`: column.go 160-165, func_impl.go 126-128. -/
def Selector.function : Selector → Option Function
  | .col c => c.fn
  | .fn f => some f

/-- selectors.go 83-85. -/
def selectorsString (ss : List Selector) : Str := joinWithComma (ss.map (·.text))

/-! ### Schema: schema.go -/

/-- schema.go 54-59 (`Table` has no schema part: NewSchemaWith 65-75). -/
structure Schema where
  table : Table
  columns : List Column := []
  indexes : List Index := []
  deriving DecidableEq, Repr

/-- schema.go 65-75 with the two list options. -/
def newSchemaWith (name : Str) (cs : List Column := []) (is : List Index := []) : Schema :=
  { table := { name := name }, columns := cs, indexes := is }

/-! ### Statements -/

/-- alter_table.go 44-54; a missing clause is `none`. -/
structure AlterTable where
  table : Table
  renameTo : Option Table := none
  renameColumnFrom : Option Column := none
  renameColumnTo : Option Column := none
  addColumn : Option Column := none
  addIndex : Option Index := none
  dropColumn : Option Column := none
  dropIndex : Option Index := none
  deriving DecidableEq, Repr

/-- copy.go 24-33. -/
inductive CopyFormat | text | csv | binary
  deriving DecidableEq, Repr

/-- copy.go 36-46. -/
def CopyFormat.toStr : CopyFormat → Str
  | .text => s%"TEXT" | .csv => s%"CSV" | .binary => s%"BINARY"

/-- copy.go 59-70 `WithCopyFormat`: an unknown word keeps the previous format. -/
def CopyFormat.parse (old : CopyFormat) (s : Str) : CopyFormat :=
  if Str.upper s = s%"TEXT" then .text else if Str.upper s = s%"CSV" then .csv
  else if Str.upper s = s%"BINARY" then .binary else old

/-- select.go 44-51. -/
structure Select where
  selectors : List Selector
  tables : List Table
  cond : Condition
  orderBy : List Order := []
  limit : Limit := { offset := 0, limit := 0 }
  groupBy : Str := []
  deriving DecidableEq, Repr

/-- insert.go 33-37. -/
structure Insert where
  table : Table
  values : List (List Column)
  deriving DecidableEq, Repr

/-- update.go 35-39. -/
structure Update where
  table : Table
  columns : List Column
  cond : Condition
  deriving DecidableEq, Repr

/-- delete.go 36-39. -/
structure Delete where
  table : Table
  cond : Condition
  deriving DecidableEq, Repr

/-- copy.go 82-88. -/
structure Copy where
  table : Table
  columns : List Column
  source : Str
  format : CopyFormat
  deriving DecidableEq, Repr

/-- The statement types of sql/query (statement.go, statement_type.go).
statement.go 26-33, statement_type.go 18-44. -/
inductive Statement
  | createDatabase (name : Str) (ifNotExists : Bool)
  | createTable (s : Schema) (ifNotExists : Bool)
  | createIndex (s : Schema) (ifNotExists : Bool)
  | insert (i : Insert)
  | select (s : Select)
  | update (u : Update)
  | delete (d : Delete)
  | dropDatabase (name : Str) (ifExists : Bool)
  | dropTable (ts : List Table) (ifExists : Bool)
  | dropIndex (schemaName idxName : Str) (ifExists : Bool)
  | alterDatabase (name to : Str)
  | alterTable (a : AlterTable)
  | copy (c : Copy)
  | commit
  | vacuum (t : Option Table)
  | truncate (ts : List Table)
  | begin
  | rollback
  | use (name : Str)
  deriving DecidableEq, Repr

/-- options.go 35-40. -/
def ifNotExistsString (b : Bool) : Str := if b then s%"IF NOT EXISTS" else []
/-- options.go 60-65. -/
def ifExistsString (b : Bool) : Str := if b then s%"IF EXISTS" else []

/-- select.go 126-153. -/
def Select.toStr (s : Select) : Str :=
  let sel := if 0 < s.selectors.length then selectorsString s.selectors else s%"*"
  let ob := orderByString s.orderBy
  let lim := s.limit.toStr
  let gb := groupByString s.groupBy
  joinWithSpace ([s%"SELECT", sel, s%"FROM", tablesString s.tables] ++
    (if Condition.hasConditions s.cond then [s%"WHERE", Condition.toStr s.cond] else []) ++
    (if 0 < ob.length then [ob] else []) ++
    (if 0 < lim.length then [lim] else []) ++
    (if 0 < gb.length then [gb] else []))

/-- insert.go 53-58. -/
def Insert.columns (i : Insert) : List Column :=
  match i.values with
  | [] => []
  | r :: _ => r

/-- insert.go 66-82. -/
def Insert.toStr (i : Insert) : Str :=
  joinWithSpace [s%"INSERT", s%"INTO", i.table.fullTableName, s%"(" ++ columnsNameString i.columns ++ s%")",
    s%"VALUES", joinWithComma (i.values.map (fun r => s%"(" ++ columnsValueString r ++ s%")"))]

/-- update.go 83-92, one assignment. -/
def Column.setString (c : Column) : Str := c.name ++ s%" = " ++ c.updatorString

/-- update.go 76-98. -/
def Update.toStr (u : Update) : Str :=
  joinWithSpace ([s%"UPDATE", u.table.fullTableName, s%"SET", joinWithComma (u.columns.map (·.setString))] ++
    (if Condition.hasConditions u.cond then [s%"WHERE", Condition.toStr u.cond] else []))

/-- delete.go 79-89. -/
def Delete.toStr (d : Delete) : Str :=
  joinWithSpace ([s%"DELETE", s%"FROM", d.table.fullTableName] ++
    (if Condition.hasConditions d.cond then [s%"WHERE", Condition.toStr d.cond] else []))

/-- create_table.go 62-78. -/
def createTableString (s : Schema) (ine : Bool) : Str :=
  joinWithSpace [s%"CREATE TABLE", ifNotExistsString ine, s.table.name,
    s%"(" ++ columnsDefinitionString s.columns ++
      (if 0 < s.indexes.length then s%", " ++ indexesDefinitionString s.indexes else []) ++ s%")"]

/-- create_index.go 66-81. -/
def createIndexString (s : Schema) (ine : Bool) : Str :=
  joinWithSpace ([s%"CREATE", s%"INDEX"] ++ (if ine then [ifNotExistsString ine] else []) ++
    (match s.indexes with
     | [] => []
     | i :: _ => [i.name, s%"ON", s.table.fullTableName ++ s%"(" ++ joinWithComma (columnNames i.columns) ++ s%")"]))

/-- drop_index.go 71-86. -/
def dropIndexString (schemaName idxName : Str) (ie : Bool) : Str :=
  let tableName := ({ name := schemaName } : Table).fullTableName
  joinWithSpace ([s%"DROP", s%"INDEX"] ++ (if ie then [ifExistsString ie] else []) ++
    [if 0 < tableName.length then tableName ++ s%"." ++ idxName else idxName])

/-- alter_table.go 208-219: the ADD column clause. `c.Constraint()` on a column without definition is a
call on a nil interface and panics. -/
def addColumnClause (c : Column) : Res (List Str) :=
  match c.def_ with
  | none => .panic
  | some d => .ok ([s%"ADD"] ++ (if d.consts ≠ 0 then [Constraint.toStr d.consts] else []) ++ [c.definitionString])

/-- alter_table.go 184-232. -/
def AlterTable.toStr (a : AlterTable) : Res Str :=
  let pre : List Str := [s%"ALTER", s%"TABLE", a.table.fullTableName] ++
    (match a.renameTo with
     | some t => [s%"RENAME", s%"TO", t.fullTableName]
     | none => []) ++
    (match a.renameColumnFrom, a.renameColumnTo with
     | some f, some t => [s%"RENAME", s%"COLUMN", f.name, s%"TO", t.name]
     | _, _ => [])
  let post : List Str :=
    (match a.addIndex with
     | some i => [s%"ADD", i.definitionString]
     | none => []) ++
    (match a.dropColumn with
     | some c => [s%"DROP", c.name]
     | none => [])
  match a.addColumn with
  | none => .ok (joinWithSpace (pre ++ post))
  | some c => match addColumnClause c with
    | .ok mid => .ok (joinWithSpace (pre ++ mid ++ post))
    | .err => .err
    | .panic => .panic

/-- copy.go 124-138. -/
def Copy.toStr (c : Copy) : Str :=
  joinWithSpace ([s%"COPY", c.table.name] ++
    (if 0 < c.columns.length then [s%"(" ++ joinWithComma (columnNames c.columns) ++ s%")"] else []) ++
    [s%"FROM", c.source, c.format.toStr])

/-- `Statement.String()` of every statement: create_database.go 50-58, drop_database.go 50-60,
drop_table.go 52-62, alter_database.go 56-66, vacuum.go 68-76, truncate.go 48-55, commit.go 39-44,
begin.go 41-46, rollback.go 41-46, use.go 43-46, and the definitions above. -/
def Statement.toStr : Statement → Res Str
  | .createDatabase n ine => .ok (joinWithSpace ([s%"CREATE DATABASE"] ++
      (if ine then [ifNotExistsString ine] else []) ++ [n]))
  | .createTable s ine => .ok (createTableString s ine)
  | .createIndex s ine => .ok (createIndexString s ine)
  | .insert i => .ok i.toStr
  | .select s => .ok s.toStr
  | .update u => .ok u.toStr
  | .delete d => .ok d.toStr
  | .dropDatabase n ie => .ok (joinWithSpace ([s%"DROP", s%"DATABASE"] ++
      (if ie then [ifExistsString ie] else []) ++ [n]))
  | .dropTable ts ie => .ok (joinWithSpace ([s%"DROP", s%"TABLE"] ++
      (if ie then [ifExistsString ie] else []) ++ [tablesString ts]))
  | .dropIndex sn idx ie => .ok (dropIndexString sn idx ie)
  | .alterDatabase n t => .ok (joinWithSpace [s%"ALTER", s%"DATABASE", n, s%"RENAME", s%"TO", t])
  | .alterTable a => a.toStr
  | .copy c => .ok c.toStr
  | .commit => .ok (joinWithSpace [s%"COMMIT"])
  | .vacuum none => .ok (joinWithSpace [s%"VACUUM"])
  | .vacuum (some t) => .ok (joinWithSpace [s%"VACUUM", t.fullTableName])
  | .truncate ts => .ok (joinWithSpace [s%"TRUNCATE", s%"TABLE", tablesString ts])
  | .begin => .ok (joinWithSpace [s%"BEGIN"])
  | .rollback => .ok (joinWithSpace [s%"ROLLBACK"])
  | .use n => .ok (joinWithSpace [s%"USE", n])

end Verif.Query
