import Verif.Model.ResultSet
/-! Function selectors as objects that remember their executor and their aggregator: sql/fn/func_impl.go, and what
happens when the selectors of one statement are used more than once: sql/query/selectors_helper.go,
sql/query/response/resultset/resultset_aggr.go.

The other models treat an aggregator as a value and a function as one whose aggregator was not asked for before. Here
functions and aggregators are objects of a heap and are referred to by their position. -/
namespace Verif.FnState
open Verif Verif.Fn Verif.Rs

section
variable {V F T : Type}

/-- func_impl.go 22-28. The aggregator is a reference. -/
structure FObj (V F T : Type) where
  type : FnType := .unknown
  name : Str := []
  executor : Option (Exec V F T) := none
  aggregator : Option Nat := none
  args : List Str := []

/-- The objects made so far; a reference is a position. func_impl.go 22-28, aggr_impl.go 33-47. -/
structure Heap (V F T : Type) where
  fns : List (FObj V F T) := []
  aggrs : List (Aggr V F) := []

/-- func_impl.go 48-87: the options of a function. The executor or aggregator given is not nil. -/
inductive FnOption (V F T : Type)
  | name (n : Str)
  | type (t : FnType)
  | executor (ex : Exec V F T)
  | aggregator (p : Nat)
  | args (as : List Str)

/-- func_impl.go 48-87. `WithFunctionAggregator` (76-81) does not keep the aggregator. -/
def FnOption.apply (as : List (Aggr V F)) (f : FObj V F T) : FnOption V F T → FObj V F T
  | .name n => { f with name := Str.upper n, type := (newFunctionTypeForName n).getD f.type }
  | .type t => { f with type := t }
  | .executor ex => { f with executor := some ex, name := ex.name, type := ex.type }
  | .aggregator p => match as[p]? with
    | some a => { f with name := a.name, type := .aggregate }
    | none => f
  | .args l => { f with args := l }

/-- func_impl.go 34-45 `NewFunction`. -/
def newFObj (as : List (Aggr V F)) (os : List (FnOption V F T)) : FObj V F T := os.foldl (FnOption.apply as) {}

/-- What the value models see of a function. func_impl.go 22-28. -/
def FObj.view (f : FObj V F T) : Func V F T := { type := f.type, name := f.name, executor := f.executor, args := f.args }

/-- func_impl.go 171-173 `String`. -/
def FObj.toStr (f : FObj V F T) : Str := f.name ++ s%"(" ++ Str.join s%", " f.args ++ s%")"

/-- func_impl.go 136-138 `IsAggregator`. -/
def FObj.isAggregator (f : FObj V F T) : Bool := f.type == .aggregate

/-- func_impl.go 141-153 `Executor`. -/
def FObj.getExecutor (env : XEnv V F T) (f : FObj V F T) (os : List (ExecOpt V F T)) : FObj V F T × Option (Exec V F T) :=
  match f.executor with
  | some ex => (f, some ex)
  | none => match newExecutorForName f.name with
    | none => (f, none)
    | some id =>
      let ex := newExec env id (os ++ [.args f.args])
      ({ f with executor := some ex, type := ex.type }, some ex)

/-- func_impl.go 156-168 `Aggregator`: the new aggregator gets the next position. -/
def FObj.getAggregator (E : Env V F) (as : List (Aggr V F)) (f : FObj V F T) (os : List AggrOpt) :
    FObj V F T × List (Aggr V F) × Option Nat :=
  match f.aggregator with
  | some p => (f, as, some p)
  | none => match newAggregatorForName f.name with
    | none => (f, as, none)
    | some k => match newAggr E k (os ++ [.args f.args]) with
      | none => (f, as, none)
      | some a => ({ f with aggregator := some as.length, type := .aggregate }, as ++ [a], some as.length)

/-- The calls a program can make on these objects. func_impl.go 34-168, aggr_impl.go 158-413. -/
inductive Call (V F T : Type)
  | new (os : List (FnOption V F T))
  | executor (r : Nat) (os : List (ExecOpt V F T))
  | aggregator (r : Nat) (os : List AggrOpt)
  | onAggr (p : Nat) (c : AggrCall V)

/-- What a call returns; `noObject` stands for a reference to nothing, which no program has.
func_impl.go 34-168, aggr_impl.go 158-413. -/
inductive Out (V F T : Type)
  | fn (r : Nat)
  | exec (e : Option (Exec V F T))
  | aggr (p : Option Nat)
  | aggrOut (o : AggrOut V F)
  | noObject

/-- `Executor` of the function at `r`. func_impl.go 141-153. -/
def Heap.executor (env : XEnv V F T) (h : Heap V F T) (r : Nat) (os : List (ExecOpt V F T)) : Heap V F T × Option (Exec V F T) :=
  match h.fns[r]? with
  | none => (h, none)
  | some f => let x := f.getExecutor env os; ({ h with fns := h.fns.set r x.1 }, x.2)

/-- `Aggregator` of the function at `r`. func_impl.go 156-168. -/
def Heap.aggregator (E : Env V F) (h : Heap V F T) (r : Nat) (os : List AggrOpt) : Heap V F T × Option Nat :=
  match h.fns[r]? with
  | none => (h, none)
  | some f => let x := f.getAggregator E h.aggrs os; ({ fns := h.fns.set r x.1, aggrs := x.2.1 }, x.2.2)

/-- One call. func_impl.go 34-168, aggr_impl.go 158-413. -/
def Heap.call (E : Env V F) (env : XEnv V F T) (h : Heap V F T) : Call V F T → Heap V F T × Out V F T
  | .new os => ({ h with fns := h.fns ++ [newFObj h.aggrs os] }, .fn h.fns.length)
  | .executor r os => let x := h.executor env r os; (x.1, .exec x.2)
  | .aggregator r os => let x := h.aggregator E r os; (x.1, .aggr x.2)
  | .onAggr p c => match h.aggrs[p]? with
    | none => (h, .noObject)
    | some a => let x := a.call E c; ({ h with aggrs := h.aggrs.set p x.1 }, .aggrOut x.2)

/-- A history of calls: the heap after it and what each call returned. func_impl.go 34-168. -/
def Heap.calls (E : Env V F) (env : XEnv V F T) (h : Heap V F T) : List (Call V F T) → Heap V F T × List (Out V F T)
  | [] => (h, [])
  | c :: cs => let x := h.call E env c; let y := x.1.calls E env cs; (y.1, x.2 :: y.2)

/-! ### Selectors used more than once -/

/-- A selector: a column or a function object. selector.go 18-31. -/
inductive SelRef
  | col (name : Str)
  | fn (r : Nat)
  deriving DecidableEq, Repr

/-- The selector as the value models see it. selector.go 18-31. -/
def SelRef.view (h : Heap V F T) : SelRef → Sel V F T
  | .col n => .col n
  | .fn r => match h.fns[r]? with
    | some f => .fn f.view
    | none => .fn {}

/-- selectors_helper.go 155-169 `Aggregators`: the references of the aggregators; `none` is the error. -/
def Heap.aggregators (E : Env V F) (h : Heap V F T) : List SelRef → Heap V F T × Option (List Nat)
  | [] => (h, some [])
  | .col _ :: ss => h.aggregators E ss
  | .fn r :: ss => match h.aggregator E r [] with
    | (h', none) => (h', none)
    | (h', some p) => match h'.aggregators E ss with
      | (h'', none) => (h'', none)
      | (h'', some ps) => (h'', some (p :: ps))

/-- aggr_set.go 46-53 `Reset` of the set of the aggregators at these places. -/
def resetAt (E : Env V F) (os : List AggrOpt) : List (Aggr V F) → List Nat → List (Aggr V F) × Bool
  | as, [] => (as, true)
  | as, p :: ps => match as[p]? with
    | none => (as, false)
    | some a =>
      let r := a.reset E os
      if r.2 then resetAt E os (as.set p r.1) ps else (as.set p r.1, false)

/-- aggr_set.go 56-63 `Aggregate`. -/
def aggregateAt (E : Env V F) (v : AggrIn V) : List (Aggr V F) → List Nat → List (Aggr V F) × Res Unit
  | as, [] => (as, .ok ())
  | as, p :: ps => match as[p]? with
    | none => (as, .panic)
    | some a =>
      let r := a.aggregate E v
      match r.2 with
      | .ok _ => aggregateAt E v (as.set p r.1) ps
      | e => (as.set p r.1, e)

/-- The aggregators at these places. aggr_set.go 26-43. -/
def readAt (as : List (Aggr V F)) : List Nat → List (Aggr V F)
  | [] => []
  | p :: ps => match as[p]? with
    | some a => a :: readAt as ps
    | none => readAt as ps

/-- The loop over the source, `fuel` as in `aggrLoop`. resultset_aggr.go 137-146. -/
def loopAt (R : REnv V F T) : Nat → RSet V F T → List (Aggr V F) → List Nat → List (Aggr V F) × Option (Res Unit)
  | 0, _, as, _ => (as, none)
  | fuel + 1, rs, as, ps =>
    let n := rs.next
    if n.2 then
      let r := n.1.row R
      match r.2 with
      | .err => (as, some .err)
      | .panic => (as, some .panic)
      | .ok row =>
        let s := aggregateAt R.E (.map row.getObject.2) as ps
        match s.2 with
        | .ok _ => loopAt R fuel r.1 s.1 ps
        | .err => (s.1, some .err)
        | .panic => (s.1, some .panic)
    else (as, some (.ok ()))

/-- What `NewAggregatedResultSetFrom` is given besides the selectors. resultset_aggr.go 30-67. The map iteration orders
and the bound of the loop stand for the run. -/
structure Use (V F T : Type) where
  tblName : Str
  tbl : List (Col V F T)
  groupBy : Option Str
  src : RSet V F T
  chs : List Choice
  fuel : Nat

/-- resultset_aggr.go 127-130: the option of `Reset` for a GROUP BY. -/
def groupOpts (g : Option Str) : List AggrOpt := match g with | some g => [.group g] | none => []

/-- resultset_aggr.go 120-171: after the schema. -/
def aggregateOn (R : REnv V F T) (schema : Schema V F T) (h : Heap V F T) (ss : List SelRef) (u : Use V F T) :
    Heap V F T × Option (Res (RSet V F T)) :=
  match h.aggregators R.E ss with
  | (h', none) => (h', some .err)
  | (h', some ps) =>
    let r := resetAt R.E (groupOpts u.groupBy) h'.aggrs ps
    if r.2 then
      let l := loopAt R u.fuel u.src r.1 ps
      ({ h' with aggrs := l.1 }, match l.2 with
        | none => none
        | some .err => some .err
        | some .panic => some .panic
        | some (.ok _) => match setFinalize R.E (u.chs.zip (readAt l.1 ps)) with
          | .err => some .err
          | .panic => some .panic
          | .ok rs => some (.ok { schema := some schema, rows := aggrRows R schema rs }))
    else ({ h' with aggrs := r.1 }, some .err)

/-- resultset_aggr.go 70-171 `NewAggregatedResultSetFrom` on selectors that may have been used before. -/
def Heap.use (R : REnv V F T) (typed : Func V F T → Bool) (h : Heap V F T) (ss : List SelRef) (u : Use V F T) :
    Heap V F T × Option (Res (RSet V F T)) :=
  if !hasAggregator (ss.map (·.view h)) then (h, some (.ok u.src))
  else match u.src.schema with
    | none => (h, some .panic)
    | some s => aggregateOn R (aggrSchema typed s.database u.tblName u.tbl (ss.map (·.view h))) h ss u

/-- One use after another, each with the selectors of some statement: the heap after it. resultset_aggr.go 70-171. -/
def Heap.uses (R : REnv V F T) (typed : Func V F T → Bool) (h : Heap V F T) : List (List SelRef × Use V F T) → Heap V F T
  | [] => h
  | x :: xs => (h.use R typed x.1 x.2).1.uses R typed xs

end
end Verif.FnState
