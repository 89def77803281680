import Verif.Model.Res
import Verif.Model.FnNames
/-! Aggregators of sql/fn: aggr_impl.go, sum.go, avg.go, min.go, max.go, count.go, aggr_set.go,
groupby.go, resultset_impl.go, map.go.

`V` is the type of the non-nil dynamic values a caller can put in a row, `F` is `float64`. A Go `any` in an
input row is an `Option V` (`none` is nil). -/
namespace Verif.Fn
open Verif

/-- What the aggregators use of float64 and of safecast; any behaviour. aggr_impl.go 232-280. -/
structure Env (V F : Type) where
  /-- float64 constant 0. -/
  zero : F
  /-- float64 `+`. -/
  add : F → F → F
  /-- float64 `/`. -/
  div : F → F → F
  /-- float64 `<`. -/
  lt : F → F → Bool
  /-- `float64(n)` for a count. -/
  ofNat : Nat → F
  /-- `math.MaxFloat64`. -/
  maxFloat : F
  /-- `math.Inf(-1)`. -/
  negInf : F
  /-- `safecast.ToFloat64` of a non-nil value; `none` is the error. -/
  toFloat : V → Option F
  /-- `safecast.ToString`; `none` is the error. -/
  toText : Option V → Option Str
  /-- `safecast.Compare`; `none` is the error. -/
  cmp : Option V → Option V → Option Int

/-- A value of a result row: nil, a group value as the caller gave it, or a computed float64.
aggr_impl.go 374-395. -/
inductive Cell (V F : Type) | nil | val (v : V) | num (f : F)
  deriving DecidableEq, Repr

/-- A group value put in a result row. aggr_impl.go 376-384. -/
def Cell.ofAny {V F : Type} : Option V → Cell V F
  | none => .nil
  | some v => .val v

/-- resultset_impl.go 17-21 (`index` starts at −1). -/
structure ResultSet (V F : Type) where
  columns : List Str := []
  rows : List (List (Cell V F)) := []
  index : Int := -1
  deriving DecidableEq, Repr

section
variable {V F : Type}

/-- resultset_impl.go 58-64 `Next`. -/
def ResultSet.next (rs : ResultSet V F) : ResultSet V F × Bool :=
  if (rs.rows.length : Int) ≤ rs.index + 1 then (rs, false)
  else ({ rs with index := rs.index + 1 }, true)

/-- resultset_impl.go 67-72 `Row`; `none` is ErrNoData. -/
def ResultSet.row (rs : ResultSet V F) : Option (List (Cell V F)) :=
  if rs.index < 0 ∨ (rs.rows.length : Int) ≤ rs.index then none
  else rs.rows[rs.index.toNat]?

/-- map.go 23-33 `NewMapWithRow`. -/
def newMapWithRow (columns : List Str) (row : List (Cell V F)) : GoMap Str (Cell V F) :=
  (columns.zipIdx).foldl (fun m c => m.set c.1 (match row[c.2]? with | some v => v | none => .nil)) []

/-- resultset_impl.go 75-81 `Map`. -/
def ResultSet.map (rs : ResultSet V F) : Option (GoMap Str (Cell V F)) :=
  rs.row.map (newMapWithRow rs.columns)

/-- aggr_impl.go 33-47. The three function fields are those of the aggregator kind. The value of
`groupBySet` is never read and is left out. -/
structure Aggr (V F : Type) where
  kind : AggrId
  name : Str := []
  args : List Str := []
  columns : List Str := []
  aggrs : List F := []
  counts : Nat := 0
  groupBys : List Str := []
  groupKeys : GoMap Str (List (Option V)) := []
  groupAggrs : GoMap Str (List F) := []
  groupCounts : GoMap Str Nat := []
  deriving DecidableEq, Repr

/-- `resetFunc`: sum.go 44-46, avg.go 44-46, min.go 48-50, max.go 48-50, count.go 44-46. -/
def AggrId.init (E : Env V F) : AggrId → F
  | .sum | .avg | .count => E.zero
  | .min => E.maxFloat
  | .max => E.negInf

/-- `aggFunc`: sum.go 49-51, avg.go 49-51, min.go 53-58, max.go 53-58, count.go 49-51. -/
def AggrId.step (E : Env V F) : AggrId → F → F → F
  | .sum, acc, v | .avg, acc, v => E.add acc v
  | .min, acc, v => if E.lt v acc then v else acc
  | .max, acc, v => if E.lt acc v then v else acc
  | .count, _, _ => E.zero

/-- `finalFunc`: sum.go 54-56, avg.go 54-59, min.go 61-66, max.go 61-66, count.go 54-56. -/
def AggrId.final (E : Env V F) : AggrId → F → Nat → Cell V F
  | .sum, acc, _ => .num acc
  | .avg, acc, n => if n = 0 then .nil else .num (E.div acc (E.ofNat n))
  | .min, acc, n => if n = 0 then .nil else .num acc
  | .max, acc, n => if n = 0 then .nil else .num acc
  | .count, _, n => .num (E.ofNat n)

/-- The options of the constructors and of `Reset`: an option function (name, arguments, group columns),
a `[]GroupBy`, a `GroupBy`, or anything else. aggr_impl.go 72-121, 158-173. -/
inductive AggrOpt
  | name (n : Str)
  | args (as : List Str)
  | groupBys (gs : List Str)
  | groupList (gs : List Str)
  | group (g : Str)
  | other
  deriving DecidableEq, Repr

/-- aggr_impl.go 138-147 `setGroupBys`: empty names are left out. -/
def Aggr.setGroupBys (a : Aggr V F) (gs : List Str) : Aggr V F :=
  { a with groupBys := gs.filter (fun g => !(g.length == 0)) }

/-- aggr_impl.go 73-121, 160-173: one option. Note that the argument option tests the previous arguments. -/
def Aggr.applyOpt (a : Aggr V F) : AggrOpt → Aggr V F × Bool
  | .name n => ({ a with name := n }, true)
  | .args as => if 1 < a.args.length then (a, false) else ({ a with args := as }, true)
  | .groupBys gs | .groupList gs => (a.setGroupBys gs, true)
  | .group g => (a.setGroupBys [g], true)
  | .other => (a, false)

/-- The option loop: stops at the first error. aggr_impl.go 158-173. -/
def Aggr.applyOpts (a : Aggr V F) : List AggrOpt → Aggr V F × Bool
  | [] => (a, true)
  | o :: os =>
    let r := a.applyOpt o
    if r.2 then r.1.applyOpts os else (r.1, false)

/-- aggr_impl.go 184: `NAME(arg)`. -/
def callText (name arg : Str) : Str := name ++ s%"(" ++ arg ++ s%")"

/-- aggr_impl.go 175-209: `Reset` after its options. The group keys are not cleared. -/
def Aggr.resetCore (E : Env V F) (a : Aggr V F) : Aggr V F × Bool :=
  let cols := a.groupBys ++ a.args.map (callText a.name)
  let a := { a with columns := cols }
  if cols.length = 0 then (a, false)
  else ({ a with aggrs := List.replicate cols.length (a.kind.init E), counts := 0, groupAggrs := [], groupCounts := [] }, true)

/-- aggr_impl.go 158-210 `Reset`; the flag is false on error. -/
def Aggr.reset (E : Env V F) (a : Aggr V F) (os : List AggrOpt) : Aggr V F × Bool :=
  let r := a.applyOpts os
  if r.2 then r.1.resetCore E else (r.1, false)

/-- sum.go 36-71 and the other four constructors: the caller's options, then the name, then `Reset()`.
`none` is the error. -/
def newAggr (E : Env V F) (k : AggrId) (os : List AggrOpt) : Option (Aggr V F) :=
  let r := ({ kind := k } : Aggr V F).applyOpts (os ++ [.name k.name])
  if r.2 then
    let r' := r.1.resetCore E
    if r'.2 then some r'.1 else none
  else none

/-- aggr_impl.go 219-230: nil counts as zero. -/
def toFloat64 (E : Env V F) : Option V → Option F
  | none => some E.zero
  | some v => E.toFloat v

/-- aggr_impl.go 252-262 and 265-275: the accumulation loop over one row. A value that does not convert
stops it with the earlier positions already updated; a missing accumulator is an index panic. -/
def accumulate (E : Env V F) (k : AggrId) : List F → List (Option V) → List F × Res Unit
  | accs, [] => (accs, .ok ())
  | [], v :: _ => match toFloat64 E v with
    | none => ([], .err)
    | some _ => ([], .panic)
  | acc :: accs, v :: vs => match toFloat64 E v with
    | none => (acc :: accs, .err)
    | some f =>
      let r := accumulate E k accs vs
      (k.step E acc f :: r.1, r.2)

/-- groupby.go 44-59: the texts of the group values; `none` is the conversion error. -/
def keyTexts (E : Env V F) : List (Option V) → Option (List Str)
  | [] => some []
  | v :: vs => match E.toText v with
    | none => none
    | some t => (keyTexts E vs).map (t :: ·)

/-- groupby.go 36-41, 44-59 `NewGroupBySetKey` (the two lengths are equal at its only call). -/
def groupKey (E : Env V F) (vs : List (Option V)) : Option Str := (keyTexts E vs).map (Str.join s%",")

/-- aggr_impl.go 240-251: the state with the group present. -/
def Aggr.ensureGroup (E : Env V F) (a : Aggr V F) (key : Str) (vals : List (Option V)) : Aggr V F :=
  match a.groupAggrs.get? key with
  | some _ => a
  | none => { a with
      groupKeys := a.groupKeys.set key vals
      groupCounts := a.groupCounts.set key 0
      groupAggrs := a.groupAggrs.set key (List.replicate (a.columns.length - a.groupBys.length) (a.kind.init E)) }

/-- Go's zero value for a missing count. aggr_impl.go 390. -/
def countOf (m : GoMap Str Nat) (key : Str) : Nat :=
  match m.get? key with
  | some n => n
  | none => 0

/-- aggr_impl.go 214-280 `AggregateRow`. `row[:n]` beyond the length is a panic (the capacity of the
caller's slice is taken to be its length). -/
def Aggr.aggregateRow (E : Env V F) (a : Aggr V F) (row : List (Option V)) : Aggr V F × Res Unit :=
  if a.columns.length ≠ row.length then (a, .err)
  else if a.groupBys.length ≠ 0 then
    let n := a.groupBys.length
    if row.length < n then (a, .panic)
    else match groupKey E (row.take n) with
      | none => (a, .err)
      | some key =>
        let a := a.ensureGroup E key (row.take n)
        match a.groupAggrs.get? key with
        | none => (a, .panic)
        | some accs =>
          let r := accumulate E a.kind accs (row.drop n)
          let a := { a with groupAggrs := a.groupAggrs.set key r.1 }
          match r.2 with
          | .ok _ => ({ a with groupCounts := a.groupCounts.set key (countOf a.groupCounts key + 1) }, .ok ())
          | e => (a, e)
  else
    let r := accumulate E a.kind a.aggrs row
    match r.2 with
    | .ok _ => ({ a with aggrs := r.1, counts := a.counts + 1 }, .ok ())
    | e => ({ a with aggrs := r.1 }, e)

/-- aggr_impl.go 283-299: the row built from a map, one value per argument; `none` is the error. -/
def mapRow (m : GoMap Str (Option V)) : List Str → Option (List (Option V))
  | [] => some []
  | arg :: args =>
    match (if arg = s%"*" then some none else m.get? arg) with
    | none => none
    | some v => (mapRow m args).map (v :: ·)

/-- aggr_impl.go 283-301 `AggregateMap`. -/
def Aggr.aggregateMap (E : Env V F) (a : Aggr V F) (m : GoMap Str (Option V)) : Aggr V F × Res Unit :=
  match mapRow m a.args with
  | none => (a, .err)
  | some row => a.aggregateRow E row

/-- The dynamic types `Aggregate` distinguishes. aggr_impl.go 305-318. -/
inductive AggrIn (V : Type)
  | row (r : List (Option V))
  | map (m : GoMap Str (Option V))
  | other

/-- aggr_impl.go 305-318 `Aggregate`. -/
def Aggr.aggregate (E : Env V F) (a : Aggr V F) : AggrIn V → Aggr V F × Res Unit
  | .row r => a.aggregateRow E r
  | .map m => a.aggregateMap E m
  | .other => (a, .err)

/-- orderby.go. orderby.go 17-24. -/
inductive OrderBy | none | asc | desc
  deriving DecidableEq, Repr

/-- aggr_impl.go 347-359: position by position comparison of two equally long key slices. -/
def lessKeys (E : Env V F) : List (Option V) → List (Option V) → Bool
  | a :: as, b :: bs => match E.cmp a b with
    | none => false
    | some c => if c = -1 then true else if c = 1 then false else lessKeys E as bs
  | _, _ => false

/-- aggr_impl.go 338-361 `orderByAscFunc` on the key slices: longer slices first. -/
def lessAsc (E : Env V F) (x y : List (Option V)) : Bool :=
  if y.length < x.length then true else if x.length < y.length then false else lessKeys E x y

/-- aggr_impl.go 363-365 `orderByDescFunc`. -/
def lessDesc (E : Env V F) (x y : List (Option V)) : Bool := !lessAsc E x y

/-- A missing key reads as a nil slice. aggr_impl.go 339-340, 376. -/
def keysOf (m : GoMap Str (List (Option V))) (k : Str) : List (Option V) :=
  match m.get? k with
  | some vs => vs
  | none => []

/-- aggr_impl.go 375-396: the result row of one group; `none` is one of the three not-found errors. -/
def Aggr.groupRow (E : Env V F) (a : Aggr V F) (key : Str) : Option (List (Cell V F)) :=
  match a.groupKeys.get? key, a.groupAggrs.get? key, a.groupCounts.get? key with
  | some ks, some accs, some n => some (ks.map Cell.ofAny ++ accs.map (fun x => a.kind.final E x n))
  | _, _, _ => none

/-- aggr_impl.go 374-397: the rows of the groups in the given order. -/
def Aggr.groupRows (E : Env V F) (a : Aggr V F) : List Str → Option (List (List (Cell V F)))
  | [] => some []
  | k :: ks => match a.groupRow E k with
    | none => none
    | some r => (a.groupRows E ks).map (r :: ·)

/-- What `Finalize` leaves to the runtime: the iteration order of the group map and `sort.Slice`.
aggr_impl.go 334, 366-372. -/
structure Choice where
  enum : List Str → List Str
  sort : (Str → Str → Bool) → List Str → List Str

/-- aggr_impl.go 333-372: the group keys in output order. -/
def Aggr.orderedKeys (E : Env V F) (ch : Choice) (a : Aggr V F) (ob : OrderBy) : List Str :=
  let ks := ch.enum a.groupAggrs.keys
  match ob with
  | .none => ks
  | .asc => ch.sort (fun i j => lessAsc E (keysOf a.groupKeys i) (keysOf a.groupKeys j)) ks
  | .desc => ch.sort (fun i j => lessDesc E (keysOf a.groupKeys i) (keysOf a.groupKeys j)) ks

/-- aggr_impl.go 321-413 `Finalize`. -/
def Aggr.finalize (E : Env V F) (ch : Choice) (a : Aggr V F) (ob : OrderBy) : Option (ResultSet V F) :=
  if a.groupBys.length ≠ 0 then
    (a.groupRows E (a.orderedKeys E ch ob)).map (fun rows => { columns := a.columns, rows := rows })
  else some { columns := a.columns, rows := [a.aggrs.map (fun x => a.kind.final E x a.counts)] }

/-! ### Histories of calls -/

/-- A history of `AggregateRow` calls that all succeed; `none` when one of them does not. aggr_impl.go 214-280. -/
def feed (E : Env V F) (a : Aggr V F) : List (List (Option V)) → Option (Aggr V F)
  | [] => some a
  | r :: rs => match (a.aggregateRow E r).2 with
    | .ok _ => feed E (a.aggregateRow E r).1 rs
    | _ => none

/-- One call on an aggregator. aggr_impl.go 158, 214, 283, 305, 321. -/
inductive AggrCall (V : Type)
  | aggregate (v : AggrIn V)
  | finalize (ch : Choice) (ob : OrderBy)
  | reset (os : List AggrOpt)

/-- What a call returns. aggr_impl.go 158, 214, 283, 305, 321. -/
inductive AggrOut (V F : Type)
  | aggregated (r : Res Unit)
  | finalized (r : Option (ResultSet V F))
  | reset (ok : Bool)

/-- One call: the new state and what it returns. aggr_impl.go 158-413. -/
def Aggr.call (E : Env V F) (a : Aggr V F) : AggrCall V → Aggr V F × AggrOut V F
  | .aggregate v => let r := a.aggregate E v; (r.1, .aggregated r.2)
  | .finalize ch ob => (a, .finalized (a.finalize E ch ob))
  | .reset os => let r := a.reset E os; (r.1, .reset r.2)

/-- A history of calls: the final state and what each call returned. aggr_impl.go 158-413. -/
def Aggr.calls (E : Env V F) (a : Aggr V F) : List (AggrCall V) → Aggr V F × List (AggrOut V F)
  | [] => (a, [])
  | c :: cs => let r := a.call E c; let r' := r.1.calls E cs; (r'.1, r.2 :: r'.2)

/-! ### aggr_set.go -/

/-- aggr_set.go 46-53 `Reset`: stops at the first error, the earlier aggregators stay reset. -/
def setReset (E : Env V F) (os : List AggrOpt) : List (Aggr V F) → List (Aggr V F) × Bool
  | [] => ([], true)
  | a :: as =>
    let r := a.reset E os
    if r.2 then let r' := setReset E os as; (r.1 :: r'.1, r'.2) else (r.1 :: as, false)

/-- aggr_set.go 56-63 `Aggregate`: stops at the first error, the earlier aggregators keep the row. -/
def setAggregate (E : Env V F) (v : AggrIn V) : List (Aggr V F) → List (Aggr V F) × Res Unit
  | [] => ([], .ok ())
  | a :: as =>
    let r := a.aggregate E v
    match r.2 with
    | .ok _ => let r' := setAggregate E v as; (r.1 :: r'.1, r'.2)
    | e => (r.1 :: as, e)

/-- aggr_set.go 76-85: the merged columns. `Columns()[1:]` of an empty list is a panic (`none`). -/
def mergeColumns : List (ResultSet V F) → Option (List Str)
  | [] => some []
  | rs :: rest => (rest.foldl (fun acc r => match acc, r.columns with
      | some cs, _ :: t => some (cs ++ t)
      | _, _ => none) (some rs.columns))

/-- aggr_set.go 99-112 for one later result set: its rows are appended to the rows at the same position. -/
def mergeRows : List (List (Cell V F)) → List (List (Cell V F)) → Option (List (List (Cell V F)))
  | rows, [] => some rows
  | [], _ :: _ => none
  | r :: rows, x :: xs => match x with
    | [] => none
    | [c] => (mergeRows rows xs).map ((r ++ [c]) :: ·)
    | _ :: t => (mergeRows rows xs).map ((r ++ t) :: ·)

/-- aggr_set.go 99-112: one more result set, after no earlier error. -/
def mergeNext (acc : Option (List (List (Cell V F)))) (r : ResultSet V F) : Option (List (List (Cell V F))) :=
  match acc with
  | some rows => mergeRows rows r.rows
  | none => none

/-- aggr_set.go 76-119: the merge of the individual result sets (all fresh, so iteration starts at row 0). -/
def mergeResults (rss : List (ResultSet V F)) : Res (ResultSet V F) :=
  match mergeColumns rss with
  | none => .panic
  | some cols =>
    match rss with
    | [] => .ok { columns := cols, rows := [] }
    | rs :: rest =>
      match rest.foldl mergeNext (some rs.rows) with
      | none => .err
      | some rows => .ok { columns := cols, rows := rows }

/-- aggr_set.go 67-74: the individual result sets, each with its own map iteration order. -/
def finalizeAll (E : Env V F) : List (Choice × Aggr V F) → Option (List (ResultSet V F))
  | [] => some []
  | (ch, a) :: as => match a.finalize E ch .none with
    | none => none
    | some rs => (finalizeAll E as).map (rs :: ·)

/-- aggr_set.go 66-120 `Finalize`. -/
def setFinalize (E : Env V F) (as : List (Choice × Aggr V F)) : Res (ResultSet V F) :=
  match finalizeAll E as with
  | none => .err
  | some rss => mergeResults rss

/-- A history of `Aggregate` calls on a set that all succeed; `none` when one of them does not. aggr_set.go 56-63. -/
def setFeed (E : Env V F) (as : List (Aggr V F)) : List (List (Option V)) → Option (List (Aggr V F))
  | [] => some as
  | r :: rs => match (setAggregate E (.row r) as).2 with
    | .ok _ => setFeed E (setAggregate E (.row r) as).1 rs
    | _ => none

end
end Verif.Fn
