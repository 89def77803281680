import Verif.Model.FnState
import Verif.Lemmas.RsAggr
import Verif.Lemmas.AggrReset
/-! Lemmas about function objects, their caches, and selectors that are used more than once. -/
namespace Verif.Lemmas.FnState
open Verif Verif.Fn Verif.Rs Verif.FnState
variable {V F T : Type}

/-- What never changes of a function. -/
structure Keeps (f f' : FObj V F T) : Prop where
  name : f'.name = f.name
  args : f'.args = f.args
  executor : ∀ ex, f.executor = some ex → f'.executor = some ex
  noExecutor : f.executor = none → newExecutorForName f.name = none → f'.executor = none
  aggregator : ∀ p, f.aggregator = some p → f'.aggregator = some p

theorem Keeps.refl (f : FObj V F T) : Keeps f f := ⟨rfl, rfl, fun _ h => h, fun h _ => h, fun _ h => h⟩

theorem Keeps.trans {f g k : FObj V F T} (h : Keeps f g) (h' : Keeps g k) : Keeps f k :=
  ⟨h'.name.trans h.name, h'.args.trans h.args, fun ex he => h'.executor ex (h.executor ex he),
    fun h1 h2 => h'.noExecutor (h.noExecutor h1 h2) (by rw [h.name]; exact h2), fun p hp => h'.aggregator p (h.aggregator p hp)⟩

theorem keeps_getExecutor (env : XEnv V F T) (f : FObj V F T) (os : List (ExecOpt V F T)) : Keeps f (f.getExecutor env os).1 := by
  unfold FObj.getExecutor
  cases hx : f.executor with
  | some ex => exact .refl f
  | none => cases hn : newExecutorForName f.name with
    | none => exact .refl f
    | some id => exact ⟨rfl, rfl, fun ex h => (by simp_all), fun _ h => (by simp_all), fun _ h => h⟩

theorem keeps_getAggregator (E : Env V F) (as : List (Aggr V F)) (f : FObj V F T) (os : List AggrOpt) :
    Keeps f (f.getAggregator E as os).1 := by
  unfold FObj.getAggregator
  cases hx : f.aggregator with
  | some ex => exact .refl f
  | none => cases hn : newAggregatorForName f.name with
    | none => exact .refl f
    | some k => cases ha : newAggr E k (os ++ [.args f.args]) with
      | none => simp only [ha]; exact .refl f
      | some a => simp only [ha]; exact ⟨rfl, rfl, fun _ h => h, fun h _ => h, fun ex h => (by simp_all)⟩

theorem set_at {α : Type} {l : List α} {r i : Nat} {f g x : α} (hf : l[r]? = some f) (hx : l[i]? = some x) :
    (l.set i g)[r]? = some (if i = r then g else f) := by
  rw [List.getElem?_set]
  have hi : i < l.length := by
    rcases Nat.lt_or_ge i l.length with h | h
    · exact h
    · rw [List.getElem?_eq_none h] at hx; cases hx
  split
  · simp
  · exact hf

theorem executor_at (env : XEnv V F T) (h : Heap V F T) (r : Nat) (f : FObj V F T) (hf : h.fns[r]? = some f) (i : Nat)
    (os : List (ExecOpt V F T)) :
    (h.executor env i os).1.fns[r]? = some (if i = r then (f.getExecutor env os).1 else f) := by
  unfold Heap.executor
  cases hi : h.fns[i]? with
  | none =>
    by_cases he : i = r
    · subst he; rw [hf] at hi; cases hi
    · simp [he, hf]
  | some g =>
    simp only
    rw [set_at hf hi]
    split
    · next he => subst he; rw [hf] at hi; cases hi; rfl
    · rfl

theorem aggregator_at (E : Env V F) (h : Heap V F T) (r : Nat) (f : FObj V F T) (hf : h.fns[r]? = some f) (i : Nat)
    (os : List AggrOpt) :
    (h.aggregator E i os).1.fns[r]? = some (if i = r then (f.getAggregator E h.aggrs os).1 else f) := by
  unfold Heap.aggregator
  cases hi : h.fns[i]? with
  | none =>
    by_cases he : i = r
    · subst he; rw [hf] at hi; cases hi
    · simp [he, hf]
  | some g =>
    simp only
    rw [set_at hf hi]
    split
    · next he => subst he; rw [hf] at hi; cases hi; rfl
    · rfl

/-- A call changes the function at `r` by `Executor`, by `Aggregator`, or not at all. -/
theorem call_at (E : Env V F) (env : XEnv V F T) (h : Heap V F T) (r : Nat) (f : FObj V F T) (hf : h.fns[r]? = some f) (c : Call V F T) :
    (h.call E env c).1.fns[r]? = some (match c with
      | .executor i os => if i = r then (f.getExecutor env os).1 else f
      | .aggregator i os => if i = r then (f.getAggregator E h.aggrs os).1 else f
      | _ => f) := by
  cases c with
  | new os =>
    simp only [Heap.call]
    have hr : r < h.fns.length := by
      rcases Nat.lt_or_ge r h.fns.length with hh | hh
      · exact hh
      · rw [List.getElem?_eq_none hh] at hf; cases hf
    rw [List.getElem?_append_left hr]; exact hf
  | executor i os => exact executor_at env h r f hf i os
  | aggregator i os => exact aggregator_at E h r f hf i os
  | onAggr p c =>
    simp only [Heap.call]
    cases h.aggrs[p]? <;> exact hf

theorem keeps_call (E : Env V F) (env : XEnv V F T) (h : Heap V F T) (r : Nat) (f : FObj V F T) (hf : h.fns[r]? = some f) (c : Call V F T) :
    ∃ f', (h.call E env c).1.fns[r]? = some f' ∧ Keeps f f' := by
  refine ⟨_, call_at E env h r f hf c, ?_⟩
  cases c with
  | new os => exact .refl f
  | executor i os =>
    simp only; split
    · exact keeps_getExecutor env f os
    · exact .refl f
  | aggregator i os =>
    simp only; split
    · exact keeps_getAggregator E _ f os
    · exact .refl f
  | onAggr p c => exact .refl f

theorem keeps_calls (E : Env V F) (env : XEnv V F T) (cs : List (Call V F T)) (h : Heap V F T) (r : Nat) (f : FObj V F T)
    (hf : h.fns[r]? = some f) : ∃ f', (h.calls E env cs).1.fns[r]? = some f' ∧ Keeps f f' := by
  induction cs generalizing h f with
  | nil => exact ⟨f, hf, .refl f⟩
  | cons c cs ih =>
    obtain ⟨g, hg, hk⟩ := keeps_call E env h r f hf c
    obtain ⟨f', hf', hk'⟩ := ih _ g hg
    exact ⟨f', hf', hk.trans hk'⟩

theorem getExecutor_again (env : XEnv V F T) (f f' : FObj V F T) (os os' : List (ExecOpt V F T)) (hk : Keeps (f.getExecutor env os).1 f') :
    (f'.getExecutor env os').2 = (f.getExecutor env os).2 := by
  unfold FObj.getExecutor at hk ⊢
  cases hx : f.executor with
  | some ex => simp only [hx] at hk ⊢; rw [hk.executor ex hx]
  | none =>
    cases hn : newExecutorForName f.name with
    | none =>
      simp only [hx, hn] at hk ⊢
      rw [hk.noExecutor hx hn, hk.name, hn]
    | some id =>
      simp only [hx, hn] at hk ⊢
      rw [hk.executor _ rfl]

theorem getAggregator_again (E : Env V F) (as as' : List (Aggr V F)) (f f' : FObj V F T) (os os' : List AggrOpt) (p : Nat)
    (h : (f.getAggregator E as os).2.2 = some p) (hk : Keeps (f.getAggregator E as os).1 f') :
    f'.getAggregator E as' os' = (f', as', some p) := by
  have : (f.getAggregator E as os).1.aggregator = some p := by
    unfold FObj.getAggregator at h ⊢
    cases hx : f.aggregator with
    | some q => simp only [hx] at h ⊢; exact h
    | none => cases hn : newAggregatorForName f.name with
      | none => simp [hx, hn] at h
      | some k => cases ha : newAggr E k (os ++ [.args f.args]) with
        | none => simp [hx, hn, ha] at h
        | some a => simp only [hx, hn, ha] at h ⊢; exact h
  have h2 := hk.aggregator p this
  unfold FObj.getAggregator
  rw [h2]

theorem getAggregator_none (E : Env V F) (as as' : List (Aggr V F)) (f : FObj V F T) (h : (f.getAggregator E as []).2.2 = none) :
    f.getAggregator E as' [] = (f, as', none) := by
  unfold FObj.getAggregator at h ⊢
  cases hx : f.aggregator with
  | some q => simp [hx] at h
  | none => cases hn : newAggregatorForName f.name with
    | none => rfl
    | some k => cases ha : newAggr E k ([] ++ [.args f.args]) with
      | none => simp only [ha]
      | some a => simp only [hx, hn, ha] at h; cases h

end Verif.Lemmas.FnState
