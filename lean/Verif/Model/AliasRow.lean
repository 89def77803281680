import Verif.Model.Aggr
/-! Shared memory between an aggregator and the rows of its caller: `AggregateRow` (sql/fn/aggr_impl.go 214-280) keeps
`row[:n]`, a slice of the caller's array, as the group values. The model Aggr.lean treats rows as values. -/
namespace Verif.AliasRow
open Verif Verif.Fn

section
variable {V F : Type}

/-- The arrays that the caller has allocated for its rows: the `row []any` of aggr_impl.go 214. -/
abbrev Rows (V : Type) := List (List (Option V))

/-- The group values that an aggregator holds, aggr_impl.go 236, 241: the beginning of one of the caller's arrays, or
that of an array made by `AggregateMap` (284), which nobody else knows. -/
inductive KeyRef (V : Type)
  | shared (arr len : Nat)
  | own (vals : List (Option V))
  deriving DecidableEq, Repr

/-- aggr_impl.go 339-340, 376: the group values as `Finalize` sees them. -/
def KeyRef.read (m : Rows V) : KeyRef V → List (Option V)
  | .shared p n => ((m[p]?).getD []).take n
  | .own vs => vs

/-- aggr_impl.go 33-47: an aggregator with references to its group values (`groupKeys` of `core` is not used). -/
structure RAggr (V F : Type) where
  core : Aggr V F
  refs : GoMap Str (KeyRef V) := []

/-- aggr_impl.go 33-47: the aggregator with the group values that memory holds now. -/
def RAggr.read (m : Rows V) (s : RAggr V F) : Aggr V F :=
  { s.core with groupKeys := s.refs.map (fun e => (e.1, e.2.read m)) }

/-- aggr_impl.go 234-251: the group values are remembered when the group is new. -/
def RAggr.keep (E : Env V F) (s : RAggr V F) (row : List (Option V)) (ref : KeyRef V) : GoMap Str (KeyRef V) :=
  if s.core.columns.length ≠ row.length ∨ s.core.groupBys.length = 0 ∨ row.length < s.core.groupBys.length then s.refs
  else match groupKey E (row.take s.core.groupBys.length) with
    | none => s.refs
    | some key => if (s.core.groupAggrs.get? key).isSome then s.refs else s.refs.set key ref

/-- aggr_impl.go 214-280 `AggregateRow` on the caller's array `p`. -/
def RAggr.aggregateRow (E : Env V F) (m : Rows V) (s : RAggr V F) (p : Nat) : RAggr V F × Res Unit :=
  let row := (m[p]?).getD []
  let r := s.core.aggregateRow E row
  ({ core := r.1, refs := s.keep E row (.shared p s.core.groupBys.length) }, r.2)

/-- aggr_impl.go 283-301 `AggregateMap`. -/
def RAggr.aggregateMap (E : Env V F) (s : RAggr V F) (o : GoMap Str (Option V)) : RAggr V F × Res Unit :=
  match mapRow o s.core.args with
  | none => (s, .err)
  | some row =>
    let r := s.core.aggregateRow E row
    ({ core := r.1, refs := s.keep E row (.own (row.take s.core.groupBys.length)) }, r.2)

/-- What the caller does: it allocates a row, writes into one of its rows, or calls the aggregator. aggr_impl.go 158,
214, 283, 321. -/
inductive Act (V : Type)
  | new (row : List (Option V))
  | write (p i : Nat) (v : Option V)
  | row (p : Nat)
  | map (o : GoMap Str (Option V))
  | finalize (ch : Choice) (ob : OrderBy)
  | reset (os : List AggrOpt)

/-- One action: the new memory and aggregator, and what a call returned. aggr_impl.go 158-210, 214-301, 321-413;
`Reset` leaves `groupKeys` alone. -/
def act (E : Env V F) (m : Rows V) (s : RAggr V F) : Act V → (Rows V × RAggr V F) × Option (AggrOut V F)
  | .new row => ((m ++ [row], s), none)
  | .write p i v => ((m.modify p (fun r => r.set i v), s), none)
  | .row p => let r := s.aggregateRow E m p; ((m, r.1), some (.aggregated r.2))
  | .map o => let r := s.aggregateMap E o; ((m, r.1), some (.aggregated r.2))
  | .finalize ch ob => ((m, s), some (.finalized ((s.read m).finalize E ch ob)))
  | .reset os => let r := s.core.reset E os; ((m, { s with core := r.1 }), some (.reset r.2))

/-- Any sequence of actions, with what the calls returned. aggr_impl.go 158-413. -/
def acts (E : Env V F) (m : Rows V) (s : RAggr V F) : List (Act V) → List (AggrOut V F)
  | [] => []
  | a :: as => let r := act E m s a; r.2.toList ++ acts E r.1.1 r.1.2 as

end
end Verif.AliasRow
