import Verif.Model.ResultSet
import Verif.Model.Helpers
/-! How result sets, their columns and their schemas are made: sql/query/response/resultset (column_impl.go,
column_from.go, schema_impl.go, schema_helper.go, resultset_impl.go, resultset_helper.go, resultset_aggr.go).

A functional option is a value of a type of options with an `apply`; an option that returns an error has not changed
its target (every option of the package assigns last). A result-set column is one made here, or a column of the query
package, which has the same methods. -/
namespace Verif.Rs
open Verif Verif.Fn Verif.Query

/-- column_impl.go 28-33. -/
structure RCol where
  name : Str := []
  typ : DataType := .unknown
  consts : Constraint := 0
  fn : Option Function := none
  deriving DecidableEq, Repr

/-- column_impl.go 39-64: the options of a column. -/
inductive ColumnOption
  | name (n : Str)
  | typ (t : DataType)
  | consts (c : Constraint)
  | fn (f : Option Function)

/-- column_impl.go 39-64. -/
def ColumnOption.apply (c : RCol) : ColumnOption → RCol
  | .name n => { c with name := n }
  | .typ t => { c with typ := t }
  | .consts k => { c with consts := k }
  | .fn f => { c with fn := f }

/-- column_impl.go 67-78 `NewColumn`. -/
def newRCol (os : List ColumnOption) : RCol := os.foldl ColumnOption.apply {}

/-- column_impl.go 96-98 `IsAsterisk`. -/
def RCol.isAsterisk (c : RCol) : Bool := c.name == s%"*"

/-- column_impl.go 101-106 `IsFunction`: both branches return true (the pattern of 24-26 has no effect). -/
def RCol.isFunction (_ : RCol) : Bool := true

/-- column_impl.go 109-114 `Function`. -/
def RCol.function (c : RCol) : Option Function := c.fn

/-- column_impl.go 117-122 `Arguments`. -/
def RCol.arguments (c : RCol) : List Str := match c.fn with | some f => f.args | none => []

/-- column_impl.go 125-132 `DefinitionString`. -/
def RCol.definitionString (c : RCol) : Str :=
  c.name ++ s%" " ++ c.typ.toStr ++ (if 0 < c.consts.toStr.length then s%" " ++ c.consts.toStr else [])

/-- What a result-set `Column` holds. column.go 32-52, column_from.go 31-37, schema_helper.go 45-50. -/
inductive AnyCol
  | own (c : RCol)
  | query (c : Column)
  deriving DecidableEq, Repr

/-- column_impl.go 81-83, query/column.go 150-152 `Name`. -/
def AnyCol.name : AnyCol → Str
  | .own c => c.name
  | .query c => c.name

/-- column_impl.go 86-88 `DataType`; a query column without a definition calls it on a nil interface. -/
def AnyCol.dataType : AnyCol → Res DataType
  | .own c => .ok c.typ
  | .query c => c.dataType

/-- column_impl.go 101-106, query/column.go 155-157 `IsFunction`. -/
def AnyCol.isFunction : AnyCol → Bool
  | .own c => c.isFunction
  | .query c => c.fn.isSome

/-- column_impl.go 109-114, query/column.go 160-165 `Function`. -/
def AnyCol.function : AnyCol → Option Function
  | .own c => c.function
  | .query c => c.fn

/-- column_from.go 22-28 `NewColumnFrom`; it never returns an error. -/
def newColumnFrom (c : Column) : Res RCol :=
  match c.dataType, c.constraint with
  | .ok t, .ok k => .ok (newRCol [.name c.name, .typ t, .consts k])
  | _, _ => .panic

/-- column_from.go 31-37 `NewColumnsFrom`. -/
def newColumnsFrom (cs : List Column) : List AnyCol := cs.map .query

/-! ### Schemas -/

/-- schema_impl.go 23-29. -/
structure RSchema where
  database : Str := []
  table : Str := []
  columns : List AnyCol := []
  base : Option Query.Schema := none
  deriving DecidableEq, Repr

/-- The options of a schema: schema_impl.go 35-56, schema_helper.go 24-87. The object of `rowObject` is the list of its
keys and the types of their values, in the order in which the map yields them; `tableSchema none` is a nil interface. -/
inductive SchemaOption
  | database (n : Str)
  | table (n : Str)
  | columns (cs : List AnyCol)
  | tableSchema (s : Option Query.Schema)
  | selectors (ss : List Selector)
  | rowObject (o : List (Str × GoKind))

/-- schema_helper.go 41-63, one selector. -/
def selectorColumn (s : Query.Schema) (x : Selector) : Option AnyCol :=
  match x.function with
  | none => (lookupColumn s.columns x.name).map .query
  | some f => (newDataTypeForFunction f.typ).map fun t => .own (newRCol [.name x.text, .typ t, .fn (some f)])

/-- schema_helper.go 39-63, the loop; `none` is the error. -/
def selectorColumns (s : Query.Schema) : List Selector → Option (List AnyCol)
  | [] => some []
  | x :: xs => match selectorColumn s x with
    | none => none
    | some c => (selectorColumns s xs).map (c :: ·)

/-- schema_helper.go 74-85, the loop; `none` is the error. -/
def objectColumns : List (Str × GoKind) → Option (List AnyCol)
  | [] => some []
  | e :: es => match newDataTypeForValue e.2 with
    | none => none
    | some t => (objectColumns es).map (.own (newRCol [.name e.1, .typ t]) :: ·)

/-- schema_impl.go 35-56, schema_helper.go 24-87. -/
def SchemaOption.apply (s : RSchema) : SchemaOption → Res RSchema
  | .database n => .ok { s with database := n }
  | .table n => .ok { s with table := n }
  | .columns cs => .ok { s with columns := cs }
  | .tableSchema none => .panic
  | .tableSchema (some b) => .ok { s with table := b.table.name, base := some b }
  | .selectors ss => match s.base with
    | none => .err
    | some b => match selectorColumns b ss with
      | none => .err
      | some cs => .ok { s with columns := cs }
  | .rowObject o => match objectColumns o with
    | none => .err
    | some cs => .ok { s with columns := cs }

/-- Options applied one after the other, the errors dropped. schema_impl.go 61-63, resultset_impl.go 85-87. -/
def applyAll {S O : Type} (apply : S → O → Res S) : S → List O → Res S
  | s, [] => .ok s
  | s, o :: os => match apply s o with
    | .ok s' => applyAll apply s' os
    | .err => applyAll apply s os
    | .panic => .panic

/-- Options applied one after the other up to the first error. schema_impl.go 70-74, resultset_impl.go 106-110,
resultset_aggr.go 80-84. -/
def applyUntil {S O : Type} (apply : S → O → Res S) : S → List O → Res S
  | s, [] => .ok s
  | s, o :: os => match apply s o with
    | .ok s' => applyUntil apply s' os
    | .err => .err
    | .panic => .panic

/-- schema_impl.go 59-65 `NewSchema`. -/
def newSchema (os : List SchemaOption) : Res RSchema := applyAll SchemaOption.apply {} os

/-- schema_impl.go 68-76 `NewSchemaFrom`. -/
def newSchemaFrom (os : List SchemaOption) : Res RSchema := applyUntil SchemaOption.apply {} os

/-- schema_impl.go 107-114 `LookupColumn`; `none` is the error. -/
def RSchema.lookupColumn (s : RSchema) (n : Str) : Option AnyCol := s.columns.find? (fun c => c.name == n)

/-! ### Result sets -/

section
variable {V F T : Type}

/-- The argument of `WithResultSetRowsOf`, by its Go type. resultset_helper.go 22-38. -/
inductive RowsArg (V F T : Type)
  | rows (rs : List (Row V F T))
  | maps (ms : List (GoMap Str (Option V)))
  | other

/-- The options of a result set: resultset_impl.go 35-80, resultset_helper.go 22-42. -/
inductive RSetOption (V F T : Type)
  | rowsAffected (n : Nat)
  | schema (s : Option (Schema V F T))
  | rows (rs : List (Row V F T))
  | offset (n : Nat)
  | limit (n : Nat)
  | groupBy (g : Str)
  | rowsOf (a : RowsArg V F T)

/-- resultset_impl.go 35-80, resultset_helper.go 22-42. -/
def RSetOption.apply (r : RSet V F T) : RSetOption V F T → Res (RSet V F T)
  | .rowsAffected n => .ok { r with rowsAffected := n }
  | .schema s => .ok { r with schema := s }
  | .rows rs => .ok { r with rows := rs }
  | .offset n => .ok { r with offset := n }
  | .limit n => .ok { r with limit := n }
  | .groupBy g => .ok { r with groupBy := g }
  | .rowsOf (.rows rs) => .ok { r with rows := rs }
  | .rowsOf (.maps ms) => .ok { r with rows := rowsFromMaps r.schema ms }
  | .rowsOf .other => .err

/-- resultset_impl.go 83-89 `NewResultSet`. -/
def newResultSet (os : List (RSetOption V F T)) : Res (RSet V F T) := applyAll RSetOption.apply {} os

/-- resultset_impl.go 104-112 `NewResultSetFrom`. -/
def newResultSetFrom (os : List (RSetOption V F T)) : Res (RSet V F T) := applyUntil RSetOption.apply {} os

/-! ### Aggregated result sets -/

/-- resultset_aggr.go 30-35. The table schema is its name and columns. -/
structure AggrOptions (V F T : Type) where
  tbl : Option (Str × List (Col V F T)) := none
  selectors : Option (List (Sel V F T)) := none
  src : Option (RSet V F T) := none
  groupBy : Option Str := none

/-- resultset_aggr.go 38-67: the options; `none` is nil. -/
inductive AggrOption (V F T : Type)
  | tbl (t : Option (Str × List (Col V F T)))
  | selectors (ss : Option (List (Sel V F T)))
  | src (r : Option (RSet V F T))
  | groupBy (g : Option Str)

/-- resultset_aggr.go 38-67. -/
def AggrOption.apply (a : AggrOptions V F T) : AggrOption V F T → Res (AggrOptions V F T)
  | .tbl t => .ok { a with tbl := t }
  | .selectors ss => .ok { a with selectors := ss }
  | .src r => .ok { a with src := r }
  | .groupBy g => .ok { a with groupBy := g }

/-- resultset_aggr.go 70-171 `NewAggregatedResultSetFrom`: the options and what is required of them. -/
def newAggregatedResultSetFrom (R : REnv V F T) (typed : Func V F T → Bool) (chs : List Choice) (fuel : Nat) (os : List (AggrOption V F T)) :
    Option (Res (RSet V F T)) :=
  match applyUntil AggrOption.apply {} os with
  | .err => some .err
  | .panic => some .panic
  | .ok a => match a.tbl with
    | none => some .err
    | some t => match a.selectors with
      | none => some .err
      | some ss => match a.src with
        | none => some .err
        | some src => newAggregatedResultSet R typed chs fuel t.1 t.2 ss a.groupBy src

end
end Verif.Rs
