import Verif.Lemmas.AliasRow
import Verif.Props.Aggr
/-! C123: an aggregator and the memory of the rows passed to it. -/
namespace Verif.Props
open Verif Verif.Fn Verif.Spec Verif.AliasRow

section
variable {V F : Type}

theorem inv_new (E : Env V F) (k : AggrId) (os : List AggrOpt) (a : Aggr V F) (h : newAggr E k os = some a) (m : Rows V) :
    Inv m [] ({ core := a } : RAggr V F) :=
  ⟨read_eq.mpr (newAggr_keys E k os a h).symm, fun _ he => by cases he⟩

/-- C123 for callers that do not write into a row after they have passed it: any sequence of allocations, writes and
calls on a new aggregator returns what it returns if every row is passed by value. For every aggregator and any
behaviour of the runtime. Missing: rows that are reused, see `C123_fails`. -/
theorem C123_by_value_partial (E : Env V F) (k : AggrId) (os : List AggrOpt) (a : Aggr V F) (h : newAggr E k os = some a)
    (m : List (List (Option V))) (as : List (Act V)) (hn : NoReuse [] as) :
    acts E m { core := a } as = (a.calls E (byValue m as)).2 :=
  acts_byValue E as m [] _ (inv_new E k os a h m) hn

/-- C123 for rows passed as maps only: the caller may write where it likes. -/
theorem C123_maps (E : Env V F) (k : AggrId) (os : List AggrOpt) (a : Aggr V F) (h : newAggr E k os = some a)
    (m : List (List (Option V))) (as : List (Act V)) (hr : ∀ p, .row p ∉ as) :
    acts E m { core := a } as = (a.calls E (byValue m as)).2 := by
  refine C123_by_value_partial E k os a h m as ?_
  clear h
  induction as with
  | nil => exact trivial
  | cons b as ih =>
    have ih' := ih (fun p hp => hr p (.tail _ hp))
    cases b with
    | write p i v => exact ⟨by simp, ih'⟩
    | row p => exact absurd (.head _) (hr p)
    | new row => exact ih'
    | map o => exact ih'
    | finalize ch ob => exact ih'
    | reset os => exact ih'

/-- C123 for reused rows, what does hold: whatever the caller writes where and when, all calls succeed or fail as if
rows were passed by value, and an unordered result has the same columns and as many rows, which can differ in nothing
but the group values shown. -/
theorem C123_aggregates (E : Env V F) (k : AggrId) (os : List AggrOpt) (a : Aggr V F) (h : newAggr E k os = some a)
    (m : List (List (Option V))) (as : List (Act V)) (ho : ∀ ch ob, .finalize ch ob ∈ as → ob = .none) :
    (acts E m { core := a } as).length = (a.calls E (byValue m as)).2.length ∧
    ∀ (i : Nat) (x y : AggrOut V F), (acts E m { core := a } as)[i]? = some x →
      (a.calls E (byValue m as)).2[i]? = some y → OutSameButKeys x y :=
  acts_shape E as m { core := a } ⟨by rw [newAggr_keys E k os a h]; rfl, fun _ he => by cases he⟩ ho

end

/-- Example: one array is used for two rows with the groups `a` and `b`. -/
def exReuse : List (Act ExV) :=
  [.new [some (.t s%"a"), some (.n 1)], .row 0, .write 0 0 (some (.t s%"b")), .write 0 1 (some (.n 2)), .row 0,
   .finalize exChoice .none]

/-- C123 is false of the code: a caller that reads its rows into one array sees the last group values in every group:
the groups `a` and `b` are reported as `b` and `b`. -/
theorem C123_fails : ∃ (a : Aggr ExV Nat), newAggr exEnv .sum [.args [s%"x"], .groupBys [s%"g"]] = some a ∧
    (acts exEnv [] { core := a } exReuse)[2]? = 
      some (.finalized (some ⟨[s%"g", s%"SUM(x)"], [[.val (.t s%"b"), .num 1], [.val (.t s%"b"), .num 2]], -1⟩)) ∧
    (a.calls exEnv (byValue [] exReuse)).2[2]? = 
      some (.finalized (some ⟨[s%"g", s%"SUM(x)"], [[.val (.t s%"a"), .num 1], [.val (.t s%"b"), .num 2]], -1⟩)) :=
  ⟨_, rfl, rfl, rfl⟩

/-- Example for `C123_by_value_partial`: a row of its own for every call, written to before it is passed. -/
example : NoReuse [] ([.new [some (.t s%"a"), some (.n 1)], .row 0, .new [some (.t s%"b"), some (.n 1)],
    .write 1 1 (some (.n 2)), .row 1, .finalize exChoice .none] : List (Act ExV)) :=
  ⟨by decide, trivial⟩

/-- Example for `C123_maps` and `C123_aggregates`: the reused array is none of the first kind, and is ordered by nothing. -/
example : (¬ ∀ p, Act.row p ∉ exReuse) ∧ (∀ ch ob, Act.finalize ch ob ∈ exReuse → ob = .none) ∧
    (∀ p, Act.row p ∉ ([.map [(s%"x", some (.n 1))], .finalize exChoice .asc] : List (Act ExV))) := by
  refine ⟨fun h => h 0 (.tail _ (.head _)), ?_, ?_⟩
  · intro ch ob h
    simp only [exReuse, List.mem_cons, reduceCtorEq, Act.finalize.injEq, false_or, List.not_mem_nil, or_false] at h
    exact h.2
  · intro p h
    simp at h

end Verif.Props
