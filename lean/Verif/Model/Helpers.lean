import Verif.Model.Schema
import Verif.Model.ResultSet
/-! The remaining helpers of sql/query and of the result sets: statement types, the conversion of index statements to
ALTER TABLE, accessors of columns and literals, data types of values, further selector lookups, the aggregators of a
SELECT and scanning rows. -/
namespace Verif.Query
open Verif Verif.Util

/-! ### statement_type.go -/

/-- statement_type.go 20-41. -/
inductive StatementType
  | createDatabase | createTable | createIndex | insert | select | update | delete | dropDatabase | dropTable
  | dropIndex | alterDatabase | alterTable | alterIndex | copy | commit | vacuum | truncate | begin | rollback | use
  deriving DecidableEq, Repr

/-- statement_type.go 44-91 `String` (the default case cannot be reached from a named constant). -/
def StatementType.toStr : StatementType → Str
  | .createDatabase => s%"CREATE DATABASE" | .createTable => s%"CREATE TABLE" | .createIndex => s%"CREATE INDEX"
  | .insert => s%"INSERT" | .select => s%"SELECT" | .update => s%"UPDATE" | .delete => s%"DELETE"
  | .dropDatabase => s%"DROP DATABASE" | .dropIndex => s%"DROP INDEX" | .dropTable => s%"DROP TABLE"
  | .alterDatabase => s%"ALTER DATABASE" | .alterTable => s%"ALTER TABLE" | .alterIndex => s%"ALTER INDEX"
  | .copy => s%"COPY" | .commit => s%"COMMIT" | .vacuum => s%"VACUUM" | .truncate => s%"TRUNCATE"
  | .begin => s%"BEGIN" | .rollback => s%"ROLLBACK" | .use => s%"USE"

/-- `StatementType()` of every statement: alter_database.go 46, alter_table.go 131, begin.go 36, commit.go 34,
copy.go 105, create_database.go 45, create_index.go 47, create_table.go 57, delete.go 54, drop_database.go 45,
drop_index.go 66, drop_table.go 47, insert.go 48, rollback.go 36, select.go 91, truncate.go 43, update.go 51,
use.go 38, vacuum.go 50. -/
def Statement.type : Statement → StatementType
  | .createDatabase .. => .createDatabase | .createTable .. => .createTable | .createIndex .. => .createIndex
  | .insert .. => .insert | .select .. => .select | .update .. => .update | .delete .. => .delete
  | .dropDatabase .. => .dropDatabase | .dropTable .. => .dropTable | .dropIndex .. => .dropIndex
  | .alterDatabase .. => .alterDatabase | .alterTable .. => .alterTable | .copy .. => .copy | .commit => .commit
  | .vacuum .. => .vacuum | .truncate .. => .truncate | .begin => .begin | .rollback => .rollback | .use .. => .use

/-! ### alter_table_from.go -/

/-- alter_table_from.go 22-39 `NewAlterTableFrom`, with create_index.go 52-63 (`TableName`, `Index`; no index is nil)
and drop_index.go 42-58. `none` is the not-supported error. Only the two index statements have a method `Index`, so the
type switch is a case analysis on the statement. -/
def newAlterTableFrom : Statement → Option AlterTable
  | .createIndex s _ => some { table := { name := s.table.fullTableName }, addIndex := s.indexes.head? }
  | .dropIndex sn idx _ =>
    some { table := { name := ({ name := sn } : Table).fullTableName }, dropIndex := some { name := idx, typ := .unknown, columns := [] } }
  | _ => none

/-! ### Accessors of columns and literals -/

/-- literal.go 77-82 `Equal`; `eq` is `safecast.Equal`. -/
def Literal.equal (eq : Val → Val → Bool) : Option Literal → Val → Bool
  | none, _ => false
  | some l, v => match l.v with
    | .nil => false
    | w => eq w v

/-- literal.go 85-87 `IsAsterisk`; a column's method is the one of its literal (column.go 77-83 embeds it). -/
def Column.isAsterisk (eq : Val → Val → Bool) (c : Column) : Bool := Literal.equal eq c.lit (.str s%"*")

/-- literal.go 90-92 `IsPlaceHolder`, for a column likewise. -/
def Column.isPlaceHolder (eq : Val → Val → Bool) (c : Column) : Bool := Literal.equal eq c.lit (.str s%"?")

/-- literal.go 72-74 `HasValue`. -/
def Column.hasValue (c : Column) : Bool := c.lit.isSome

/-- literal.go 101-103 `Value`: a column without a literal calls it on a nil pointer. -/
def Column.value (c : Column) : Res Val := match c.lit with | none => .panic | some l => .ok l.v

/-- literal.go 112-114 `ValueType`. -/
def Column.valueType (c : Column) : Res LitType := match c.lit with | none => .panic | some l => .ok l.t

/-- column_def.go 94-96 `DataType`: a column without a definition calls it on a nil interface. -/
def Column.dataType (c : Column) : Res DataType := match c.def_ with | none => .panic | some d => .ok d.typ

/-- column_def.go 99-101 `DataTypeSize`. -/
def Column.dataTypeSize (c : Column) : Res Int := match c.def_ with | none => .panic | some d => .ok d.length

/-- column_def.go 89-91 `Constraint`. -/
def Column.constraint (c : Column) : Res Constraint := match c.def_ with | none => .panic | some d => .ok d.consts

/-! ### data_type.go -/

/-- The Go types told apart by data_type.go 166-193. -/
inductive GoKind
  | int8 | uint8 | int16 | uint16 | int32 | uint32 | int64 | uint64 | int | uint | float32 | float64 | bool | string
  | bytes | time | timePtr | other
  deriving DecidableEq, Repr

/-- data_type.go 166-193 `NewDataTypeForValue`; `none` is the error. -/
def newDataTypeForValue : GoKind → Option DataType
  | .int8 | .uint8 => some .tinyInt
  | .int16 | .uint16 => some .smallInt
  | .int32 | .uint32 => some .int
  | .int64 | .uint64 => some .bigInt
  | .int | .uint => some .int
  | .float32 => some .float
  | .float64 => some .double
  | .bool => some .boolean
  | .string => some .varChar
  | .bytes => some .blob
  | .time | .timePtr => some .timeStamp
  | .other => none

/-! ### selectors_helper.go -/

/-- selectors_helper.go 126-132 `LookupExecutor`; the function found is updated in place (not returned here). -/
def lookupExecutor (ss : List Selector) (n : Str) : Option Exec := (lookupFunction ss n).bind (fun f => f.getExecutor.2)

/-- selectors_helper.go 135-152 `ExecutorsForType`: the executors of that type, or the first lookup error. -/
def executorsForType (t : Fn.FnType) : List Selector → Option (List Exec)
  | [] => some []
  | s :: ss => match s.function with
    | none => executorsForType t ss
    | some f => match f.getExecutor.2 with
      | none => none
      | some e => if e.typ ≠ t then executorsForType t ss else (executorsForType t ss).map (e :: ·)

end Verif.Query

namespace Verif.Rs
open Verif Verif.Fn

section
variable {V F T : Type}

/-- select_helper.go 40-51 `Aggregators` of a SELECT: the GROUP BY column is always passed on, the empty one too (a
SELECT always has a GROUP BY object, select.go 54-65). `none` is an error; the set is returned along with an error of
the reset as well, which is not modelled. -/
def selectAggregators (E : Env V F) (ss : List (Sel V F T)) (groupBy : Str) : Option (List (Aggr V F)) :=
  (selAggregators E ss).bind (fun as =>
    let r := setReset E [.group groupBy] as
    if r.2 then some r.1 else none)

/-- row_impl.go 157-170, the loop of `Scan`: `cast` is `safecast.To`, which gives the new content of a destination and
whether it succeeded. -/
def scanInto {D : Type} (cast : Option V → D → D × Bool) : List (Option V) → List D → List D × Bool
  | _, [] => ([], true)
  | [], ds => (ds, false)
  | v :: vs, d :: ds =>
    let r := cast v d
    if r.2 then
      let q := scanInto cast vs ds
      (r.1 :: q.1, q.2)
    else (r.1 :: ds, false)

/-- row_impl.go 157-170 `Scan`. -/
def Row.scan {D : Type} (cast : Option V → D → D × Bool) (row : Row V F T) (ds : List D) : List D × Bool :=
  scanInto cast row.getValues.2 ds

/-- row_impl.go 173-179 `ScanAt`: the new content and the outcome. -/
def Row.scanAt {D : Type} (cast : Option V → D → D × Bool) (row : Row V F T) (i : Int) (d : D) : D × Res Unit :=
  match (row.valueAt i).2 with
  | .ok v => let r := cast v d; (r.1, if r.2 then .ok () else .err)
  | .err => (d, .err)
  | .panic => (d, .panic)

/-- row_impl.go 182-188 `ScanBy`. -/
def Row.scanBy {D : Type} (cast : Option V → D → D × Bool) (row : Row V F T) (n : Str) (d : D) : D × Res Unit :=
  match (row.valueBy n).2 with
  | .ok v => let r := cast v d; (r.1, if r.2 then .ok () else .err)
  | .err => (d, .err)
  | .panic => (d, .panic)

end
end Verif.Rs

namespace Verif.Fn
open Verif

/-- groupby.go 33-38 `NewGroupBySet`. -/
def newGroupBySet (gs : List Str) : Str := if gs.length = 0 then [] else Str.join s%"," gs

/-- Go `strings.Split` with a separator of one character. groupby.go 69. -/
def splitOn (sep : Char) : Str → List Str
  | [] => [[]]
  | c :: r => if c = sep then [] :: splitOn sep r else
    match splitOn sep r with
    | [] => [[c]]
    | w :: ws => (c :: w) :: ws

/-- groupby.go 65-70 `NewGroupBysFromGroupBySet`. -/
def newGroupBysFromGroupBySet (s : Str) : List Str := if s.length = 0 then [] else splitOn ',' s

/-- aggr_set.go 33-43 `NewAggregatorSetForNames`: one aggregator per name, or the first error. -/
def newAggregatorSetForNames {V F : Type} (E : Env V F) (os : List AggrOpt) : List Str → Option (List (Aggr V F))
  | [] => some []
  | n :: ns => match (newAggregatorForName n).bind (fun k => newAggr E k os) with
    | none => none
    | some a => (newAggregatorSetForNames E os ns).map (a :: ·)

end Verif.Fn
