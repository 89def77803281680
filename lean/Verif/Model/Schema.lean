import Verif.Model.Query
/-! Schema changes, value coercion and selector queries of sql/query. -/
namespace Verif.Query
open Verif

/-! ### schema.go -/

/-- schema.go 173-176. -/
def Schema.addColumn (s : Schema) (c : Column) : Schema := { s with columns := s.columns ++ [c] }

/-- schema.go 191-194. -/
def Schema.addIndex (s : Schema) (i : Index) : Schema := { s with indexes := s.indexes ++ [i] }

/-- schema.go 179-188 `DropColumn`: the loop continues past the columns that have the name and removes the
first one that does not. Returns the schema and whether the call succeeded. (Slice aliasing is modelled
separately in Model/Alias.lean.) -/
def Schema.dropColumn (s : Schema) (name : Str) : Schema × Bool :=
  match s.columns.findIdx? (fun c => !Str.eqFold c.name name) with
  | none => (s, false)
  | some n => ({ s with columns := s.columns.take n ++ s.columns.drop (n + 1) }, true)

/-- schema.go 197-206 `DropIndex`: same loop over the indexes. -/
def Schema.dropIndex (s : Schema) (name : Str) : Schema × Bool :=
  match s.indexes.findIdx? (fun i => !Str.eqFold i.name name) with
  | none => (s, false)
  | some n => ({ s with indexes := s.indexes.take n ++ s.indexes.drop (n + 1) }, true)

/-- The error of a rename clause prints the statement (schema.go 162, 166), which may panic. -/
def renameError (a : AlterTable) : Res Unit :=
  match a.toStr with
  | .ok _ => .err
  | .err => .err
  | .panic => .panic

/-- schema.go 161-169: the rename clauses, which are always errors. -/
def Schema.alterRename (s : Schema) (a : AlterTable) : Schema × Res Unit :=
  match a.renameTo with
  | some _ => (s, renameError a)
  | none => match a.renameColumnFrom, a.renameColumnTo with
    | some _, some _ => (s, renameError a)
    | _, _ => (s, .ok ())

/-- schema.go 154-159, then the rest. -/
def Schema.alterDropIndex (s : Schema) (a : AlterTable) : Schema × Res Unit :=
  match a.dropIndex with
  | none => s.alterRename a
  | some i =>
    let r := s.dropIndex i.name
    if r.2 then r.1.alterRename a else (r.1, .err)

/-- schema.go 147-152, then the rest. -/
def Schema.alterDropColumn (s : Schema) (a : AlterTable) : Schema × Res Unit :=
  match a.dropColumn with
  | none => s.alterDropIndex a
  | some c =>
    let r := s.dropColumn c.name
    if r.2 then r.1.alterDropIndex a else (r.1, .err)

/-- schema.go 132-170 `Alter`: add column, add index, drop column, drop index, rename, in this order. -/
def Schema.alter (s : Schema) (a : AlterTable) : Schema × Res Unit :=
  let s1 := match a.addColumn with
    | some c => s.addColumn c
    | none => s
  let s2 := match a.addIndex with
    | some i => s1.addIndex i
    | none => s1
  s2.alterDropColumn a

/-! ### column.go SetDefinition -/

/-- The safecast conversions used by column.go 191-234. Their behaviour is not modelled: any functions. -/
structure Caster where
  toInt8 : Val → Option Int
  toInt16 : Val → Option Int
  toInt32 : Val → Option Int
  toInt64 : Val → Option Int
  toFloat32 : Val → Option Str
  toFloat64 : Val → Option Str
  toBool : Val → Option Bool

/-- column.go 191-234: the value after coercion to the type; `none` is the conversion error. -/
def Caster.coerce (k : Caster) (t : DataType) (v : Val) : Option Val :=
  match t with
  | .tinyInt => (k.toInt8 v).map .i8
  | .smallInt => (k.toInt16 v).map .i16
  | .int | .integer => (k.toInt32 v).map .i32
  | .bigInt => (k.toInt64 v).map .i64
  | .float => (k.toFloat32 v).map .f32
  | .double => (k.toFloat64 v).map .f64
  | .boolean => (k.toBool v).map .bool
  | _ => some v

/-- column.go 184-236 `SetDefinition`: the definition is stored first; success flag second. -/
def Column.setDefinition (k : Caster) (c : Column) (d : Option ColumnDef) : Column × Bool :=
  let c1 := { c with def_ := d }
  match d, c.lit with
  | some dd, some l =>
    match k.coerce dd.typ l.v with
    | some v => ({ c1 with lit := some { l with v := v } }, true)
    | none => (c1, false)
  | _, _ => (c1, true)

/-- column.go 178-181 `SetValue`: stores through the literal pointer (nil panics), then re-coerces. -/
def Column.setValue (k : Caster) (c : Column) (v : Val) : Column × Res Unit :=
  match c.lit with
  | none => (c, .panic)
  | some l =>
    let r := ({ c with lit := some { l with v := v } } : Column).setDefinition k c.def_
    (r.1, if r.2 then .ok () else .err)

/-- columns.go 118-134 `SetSchema` over the column list; the columns are mutated in place. -/
def setSchema (k : Caster) (schemaCols : List Column) : List Column → List Column × Bool
  | [] => ([], true)
  | c :: cs =>
    match lookupColumn schemaCols c.name with
    | none => (c :: cs, false)
    | some sc =>
      let r := c.setDefinition k sc.def_
      if r.2 then
        let rest := setSchema k schemaCols cs
        (r.1 :: rest.1, rest.2)
      else (r.1 :: cs, false)

/-! ### selectors_helper.go -/

/-- selectors_helper.go 22-31. -/
def selectorsIsAsterisk (ss : List Selector) : Bool :=
  match ss with
  | [s] => s.name == s%"*"
  | [] => true
  | _ => false

/-- selectors_helper.go 34-42 `HasFunction`: returns true at the first selector that is *not* a function. -/
def hasFunction (ss : List Selector) : Bool := ss.any (fun s => !s.function.isSome)

/-- selectors_helper.go 45-56. -/
def hasFunctionWithType (ss : List Selector) (t : Fn.FnType) : Bool :=
  ss.any (fun s => match s.function with | some f => f.typ == t | none => false)

/-- selectors_helper.go 59-61. -/
def hasAggregator (ss : List Selector) : Bool := hasFunctionWithType ss .aggregate

/-- selectors_helper.go 73-86. -/
def functions (ss : List Selector) : List Function := ss.filterMap (·.function)

/-- selectors_helper.go 89-103. -/
def lookupFunction : List Selector → Str → Option Function
  | [], _ => none
  | s :: ss, n => match s.function with
    | none => lookupFunction ss n
    | some f => if f.isName n then some f else lookupFunction ss n

/-- A selector with its function replaced (`Executor()` and `Aggregator()` update the function in place).
selectors_helper.go 86-123. -/
def Selector.withFunction (s : Selector) (f : Function) : Selector :=
  match s with
  | .col c => .col { c with fn := some f }
  | .fn _ => .fn f

/-- selectors_helper.go 106-123 `Executors`: executors of the non-aggregate functions in order, or the
first lookup error; functions visited are updated in place. -/
def executors : List Selector → List Selector × Option (List Exec)
  | [] => ([], some [])
  | s :: ss => match s.function with
    | none => let r := executors ss; (s :: r.1, r.2)
    | some f =>
      if f.isAggregator then let r := executors ss; (s :: r.1, r.2)
      else
        let g := f.getExecutor
        match g.2 with
        | none => (s.withFunction g.1 :: ss, none)
        | some e => let r := executors ss; (s.withFunction g.1 :: r.1, r.2.map (e :: ·))

/-- selectors_helper.go 64-70 `HasExecutor` (an error gives a nil list). -/
def hasExecutor (ss : List Selector) : List Selector × Bool :=
  let r := executors ss
  (r.1, match r.2 with | none => false | some es => decide (0 < es.length))

/-- selectors_helper.go 155-169 `Aggregators`: the aggregator of every function selector in order, or the
first error. -/
def aggregators : List Selector → List Selector × Option (List Fn.AggrId)
  | [] => ([], some [])
  | s :: ss => match s.function with
    | none => let r := aggregators ss; (s :: r.1, r.2)
    | some f =>
      let g := f.getAggregator
      match g.2 with
      | none => (s.withFunction g.1 :: ss, none)
      | some a => let r := aggregators ss; (s.withFunction g.1 :: r.1, r.2.map (a :: ·))

end Verif.Query
