import Verif.Model.Exec
import Verif.Model.Aggr
/-! Result sets: sql/query/response/resultset (resultset_impl.go, row_impl.go, row_helper.go, rows_helper.go,
schema_impl.go, schema_helper.go, resultset_aggr.go, resultset_helper.go).

Simplifications: a column is its name and its function (data types and constraints play no part here); a
caller's own `Function` is one made by `NewFunction`. A `uint` is a natural number below 2^64. -/
namespace Verif.Rs
open Verif Verif.Fn

/-- The operations of the aggregators and executors, and the boxing of computed values as `any`.
resultset_aggr.go 70-171. -/
structure REnv (V F T : Type) where
  E : Env V F
  X : XEnv V F T
  ofFloat : F → V
  ofInt : Int → V
  ofTime : T → V

section
variable {V F T : Type}

/-- A Go `any` holding an executor's result. executor_impl.go 98-117. -/
def REnv.boxX (R : REnv V F T) : XVal V F T → Option V
  | .num f => some (R.ofFloat f)
  | .int n => some (R.ofInt n)
  | .text s => some (R.X.ofText s)
  | .time t => some (R.ofTime t)
  | .any v => v

/-- A Go `any` holding a value of an aggregator's result. aggr_impl.go 374-395. -/
def REnv.boxC (R : REnv V F T) : Cell V F → Option V
  | .nil => none
  | .val v => some v
  | .num f => some (R.ofFloat f)

/-- column_impl.go 28-33: `Name()` and `Function()`. -/
structure Col (V F T : Type) where
  name : Str
  fn : Option (Func V F T) := none

/-- schema_impl.go 23-29. -/
structure Schema (V F T : Type) where
  database : Str := []
  table : Str := []
  columns : List (Col V F T) := []

/-- schema_impl.go 107-114 `LookupColumn`; `none` is the error. -/
def Schema.lookupColumn (s : Schema V F T) (name : Str) : Option (Col V F T) :=
  s.columns.find? (fun c => c.name == name)

/-- row_impl.go 25-29. -/
structure Row (V F T : Type) where
  object : Option (GoMap Str (Option V)) := none
  schema : Option (Schema V F T) := none
  values : Option (List (Option V)) := none

/-- row_impl.go 77-86: the names for a list of values. -/
def Row.namesForValues (row : Row V F T) (n : Nat) : List Str :=
  match row.schema with
  | some s => s.columns.map (·.name)
  | none => (List.range n).map (fun i => Str.ofNat (i + 1))

/-- row_impl.go 87-96: the object made from names and values. -/
def objectOf (names : List Str) (vs : List (Option V)) : GoMap Str (Option V) :=
  names.zipIdx.foldl (fun m e => m.set e.1 (if e.2 < vs.length then vs[e.2]?.join else none)) []

/-- row_impl.go 69-98 `Object`: caches what it generates. -/
def Row.getObject (row : Row V F T) : Row V F T × GoMap Str (Option V) :=
  match row.object with
  | some o => (row, o)
  | none => match row.values with
    | none => (row, [])
    | some vs =>
      let o := objectOf (row.namesForValues vs.length) vs
      ({ row with object := some o }, o)

/-- Go `sort.Strings` on the keys (distinct strings: the order in which the map yields them is immaterial).
row_impl.go 109-121. -/
def sortKeys (ks : List Str) : List Str := ks.mergeSort (fun a b => decide (¬ b < a))

/-- row_impl.go 109-121: the names whose values are listed. -/
def Row.namesForObject (row : Row V F T) (o : GoMap Str (Option V)) : List Str :=
  match row.schema with
  | some s => s.columns.map (·.name)
  | none => sortKeys o.keys

/-- row_impl.go 124-129: one value. -/
def valueOf (o : GoMap Str (Option V)) (name : Str) : Option V :=
  match o.get? name with
  | some v => v
  | none => none

/-- row_impl.go 101-132 `Values`: caches what it generates. -/
def Row.getValues (row : Row V F T) : Row V F T × List (Option V) :=
  match row.values with
  | some vs => (row, vs)
  | none => match row.object with
    | none => (row, [])
    | some o =>
      let vs := (row.namesForObject o).foldl (fun acc n => acc ++ [valueOf o n]) []
      ({ row with values := some vs }, vs)

/-- row_impl.go 135-141 `ValueAt`; a negative index is a panic. -/
def Row.valueAt (row : Row V F T) (i : Int) : Row V F T × Res (Option V) :=
  let r := row.getValues
  (r.1, if (r.2.length : Int) ≤ i then .err
        else if i < 0 then .panic
        else match r.2[i.toNat]? with
          | some v => .ok v
          | none => .panic)

/-- row_impl.go 144-154 `ValueBy` (the object is never nil here). -/
def Row.valueBy (row : Row V F T) (name : Str) : Row V F T × Res (Option V) :=
  let r := row.getObject
  (r.1, match r.2.get? name with
    | some v => .ok v
    | none => .err)

/-- row_helper.go 21-38: one selector. -/
def projectOne (R : REnv V F T) (obj : GoMap Str (Option V)) (m : GoMap Str (Option V)) (c : Col V F T) :
    Res (GoMap Str (Option V)) :=
  let m := m.set c.name none
  let plain : Res (GoMap Str (Option V)) :=
    match obj.get? c.name with
    | some v => .ok (m.set c.name v)
    | none => .ok m
  match c.fn with
  | none => plain
  | some f => match (f.getExecutor R.X []).2 with
    | none => plain
    | some ex => match ex.execute R.X (.map obj) with
      | .ok x => .ok (m.set c.name (R.boxX x))
      | .err => .err
      | .panic => .panic

/-- row_helper.go 21-38: the loop. -/
def projectAll (R : REnv V F T) (obj : GoMap Str (Option V)) :
    GoMap Str (Option V) → List (Col V F T) → Res (GoMap Str (Option V))
  | m, [] => .ok m
  | m, c :: cs => match projectOne R obj m c with
    | .ok m' => projectAll R obj m' cs
    | .err => .err
    | .panic => .panic

/-- row_helper.go 18-43 `NewRowFromObject`; a nil schema is a nil dereference. -/
def newRowFromObject (R : REnv V F T) (schema : Option (Schema V F T)) (obj : GoMap Str (Option V)) :
    Res (Row V F T) :=
  match schema with
  | none => .panic
  | some s => match projectAll R obj [] s.columns with
    | .ok m => .ok { schema := some s, object := some m }
    | .err => .err
    | .panic => .panic

/-- `uint` arithmetic. resultset_impl.go 21-29. -/
def uadd (a b : Nat) : Nat := (a + b) % 2 ^ 64

/-- resultset_impl.go 21-29. -/
structure RSet (V F T : Type) where
  schema : Option (Schema V F T) := none
  rows : List (Row V F T) := []
  rowsAffected : Nat := 0
  cursor : Nat := 0
  offset : Nat := 0
  limit : Nat := 0
  groupBy : Str := []

/-- resultset_impl.go 120-131 `Next`. -/
def RSet.next (rs : RSet V F T) : RSet V F T × Bool :=
  let c := if rs.cursor < rs.offset then rs.offset else rs.cursor
  let c := uadd c 1
  ({ rs with cursor := c },
   if 0 < rs.limit ∧ uadd rs.offset rs.limit < c then false else decide (c ≤ rs.rows.length))

/-- resultset_impl.go 134-140 `Row`; the underlying row may cache its object. -/
def RSet.row (R : REnv V F T) (rs : RSet V F T) : RSet V F T × Res (Row V F T) :=
  if rs.cursor = 0 ∨ rs.rows.length < rs.cursor then (rs, .err)
  else match rs.rows[rs.cursor - 1]? with
    | none => (rs, .panic)
    | some row =>
      let r := row.getObject
      ({ rs with rows := rs.rows.set (rs.cursor - 1) r.1 }, newRowFromObject R rs.schema r.2)

/-- rows_helper.go 18-28 `NewRowsFromMapRows`, resultset_helper.go 28-35 for maps (there with a schema). -/
def rowsFromMaps (schema : Option (Schema V F T)) (ms : List (GoMap Str (Option V))) : List (Row V F T) :=
  ms.map (fun m => { object := some m, schema := schema })

/-! ### resultset_aggr.go -/

/-- A selector of a query: a column or a function (query/selector.go). selector.go 18-29. -/
inductive Sel (V F T : Type)
  | col (name : Str)
  | fn (f : Func V F T)

/-- Selector text: column.go `String`, func_impl.go 171-173. -/
def Sel.text : Sel V F T → Str
  | .col n => n
  | .fn f => f.name ++ s%"(" ++ Str.join s%", " f.args ++ s%")"

/-- selectors_helper.go 45-61 `HasAggregator`. -/
def hasAggregator (ss : List (Sel V F T)) : Bool :=
  ss.any (fun | .col _ => false | .fn f => f.type == .aggregate)

/-- schema_helper.go 41-63, one selector: a plain one must be a column of the table (compared without regard
to case there, schema.go `LookupColumn`), a function becomes a column named by its text. The data type lookup
`NewDataTypeForFunction` is the parameter `typed`. -/
def schemaColumn (typed : Func V F T → Bool) (tbl : List (Col V F T)) (s : Sel V F T) : Option (Col V F T) :=
  match s with
  | .col n => tbl.find? (fun c => Str.eqFold c.name n)
  | .fn f => if typed f then some { name := s.text, fn := some f } else none

/-- schema_helper.go 41-63, the loop; `none` is the error. -/
def schemaColumns (typed : Func V F T → Bool) (tbl : List (Col V F T)) :
    List (Sel V F T) → Option (List (Col V F T))
  | [] => some []
  | s :: ss => match schemaColumn typed tbl s with
    | none => none
    | some c => (schemaColumns typed tbl ss).map (c :: ·)

/-- resultset_aggr.go 114-118: `NewSchema` drops the error of `WithSchemaSelectors`, leaving no columns. -/
def aggrSchema (typed : Func V F T → Bool) (db tblName : Str) (tbl : List (Col V F T)) (ss : List (Sel V F T)) :
    Schema V F T :=
  { database := db, table := tblName, columns := (schemaColumns typed tbl ss).getD [] }

/-- selectors_helper.go 155-169 `Aggregators`, for functions whose aggregator was not asked for before:
func_impl.go 156-168. -/
def selAggregators (E : Env V F) : List (Sel V F T) → Option (List (Aggr V F))
  | [] => some []
  | .col _ :: ss => selAggregators E ss
  | .fn f :: ss => match newAggregatorForName f.name with
    | none => none
    | some k => match newAggr E k [.args f.args] with
      | none => none
      | some a => (selAggregators E ss).map (a :: ·)

/-- resultset_aggr.go 137-146: the loop over the source. `fuel` bounds the number of turns (the code's loop
is unbounded; see the termination theorem). -/
def aggrLoop (R : REnv V F T) : Nat → RSet V F T → List (Aggr V F) → Option (Res (List (Aggr V F)))
  | 0, _, _ => none
  | fuel + 1, rs, as =>
    let n := rs.next
    if n.2 then
      let r := n.1.row R
      match r.2 with
      | .err => some .err
      | .panic => some .panic
      | .ok row =>
        let s := setAggregate R.E (.map row.getObject.2) as
        match s.2 with
        | .ok _ => aggrLoop R fuel r.1 s.1
        | .err => some .err
        | .panic => some .panic
    else some (.ok as)

/-- resultset_aggr.go 153-163: the rows of the aggregated result set. -/
def aggrRows (R : REnv V F T) (schema : Schema V F T) (rs : ResultSet V F) : List (Row V F T) :=
  rs.rows.map (fun r =>
    { schema := some schema,
      object := some ((newMapWithRow rs.columns r).map (fun e => (e.1, R.boxC e.2))) })

/-- resultset_aggr.go 120-171: after the schema. `chs` are the map iteration orders of the aggregators. -/
def aggregateFrom (R : REnv V F T) (chs : List Choice) (fuel : Nat) (schema : Schema V F T) (ss : List (Sel V F T))
    (groupBy : Option Str) (src : RSet V F T) : Option (Res (RSet V F T)) :=
  match selAggregators R.E ss with
  | none => some .err
  | some as =>
    let r := setReset R.E (match groupBy with | some g => [.group g] | none => []) as
    if r.2 then
      match aggrLoop R fuel src r.1 with
      | none => none
      | some .err => some .err
      | some .panic => some .panic
      | some (.ok as') =>
        match setFinalize R.E (chs.zip as') with
        | .err => some .err
        | .panic => some .panic
        | .ok rs => some (.ok { schema := some schema, rows := aggrRows R schema rs })
    else some .err

/-- resultset_aggr.go 70-171 `NewAggregatedResultSetFrom` with a table schema, selectors and a source. -/
def newAggregatedResultSet (R : REnv V F T) (typed : Func V F T → Bool) (chs : List Choice) (fuel : Nat)
    (tblName : Str) (tbl : List (Col V F T)) (ss : List (Sel V F T)) (groupBy : Option Str) (src : RSet V F T) :
    Option (Res (RSet V F T)) :=
  if !hasAggregator ss then some (.ok src)
  else match src.schema with
    | none => some .panic
    | some s => aggregateFrom R chs fuel (aggrSchema typed s.database tblName tbl ss) ss groupBy src

end
end Verif.Rs
