import Verif.Props.QueryMore
/-! What asking for executors and aggregators leaves of a selection list. -/
namespace Verif.Query
open Verif Verif.Props

theorem exec_type (k : Fn.ExecId) : k.type ≠ .aggregate := by cases k <;> decide

theorem getExecutor_kept (f : Function) : f.getExecutor.1.name = f.name ∧ f.getExecutor.1.args = f.args ∧
    f.getExecutor.1.aggregator = f.aggregator ∧ (f.typ ≠ .aggregate → f.getExecutor.1.typ ≠ .aggregate) ∧
    f.getExecutor.1.getExecutor.2 = f.getExecutor.2 := by
  unfold Function.getExecutor
  cases he : f.executor with
  | some e => simp [he]
  | none =>
    cases hn : Fn.newExecutorForName f.name with
    | none => simp [he, hn]
    | some k => exact ⟨rfl, rfl, rfl, fun _ => exec_type k, rfl⟩

theorem getAggregator_kept (f : Function) : f.getAggregator.1.name = f.name ∧ f.getAggregator.1.args = f.args ∧
    f.getAggregator.1.executor = f.executor ∧ f.getAggregator.1.getAggregator.2 = f.getAggregator.2 := by
  unfold Function.getAggregator
  cases he : f.aggregator with
  | some e => simp [he]
  | none =>
    cases hn : Fn.newAggregatorForName f.name with
    | none => simp [he, hn]
    | some k => exact ⟨rfl, rfl, rfl, rfl⟩

theorem withFunction_function (s : Selector) (f : Function) : (s.withFunction f).function = some f := by cases s <;> rfl

theorem notAggr {f : Function} : f.isAggregator = false ↔ f.typ ≠ .aggregate := by simp [Function.isAggregator]

theorem executors_again (ss : List Selector) : executors (executors ss).1 = ((executors ss).1, (executors ss).2) := by
  induction ss with
  | nil => rfl
  | cons s ss ih =>
    cases hf : s.function with
    | none =>
      have e : executors (s :: ss) = (s :: (executors ss).1, (executors ss).2) := by rw [executors, hf]
      rw [e]
      show executors (s :: (executors ss).1) = _
      rw [executors, hf]
      simp only [ih]
    | some f =>
      cases ha : f.isAggregator with
      | true =>
        have e : executors (s :: ss) = (s :: (executors ss).1, (executors ss).2) := by rw [executors, hf]; simp only [ha, if_true]
        rw [e]
        show executors (s :: (executors ss).1) = _
        rw [executors, hf]
        simp only [ha, if_true, ih]
      | false =>
        obtain ⟨-, -, -, ht, hg⟩ := getExecutor_kept f
        have ha' : f.getExecutor.1.isAggregator = false := notAggr.mpr (ht (notAggr.mp ha))
        have hw : ∀ us : List Selector, (s.withFunction f.getExecutor.1).withFunction f.getExecutor.1.getExecutor.1 = s.withFunction f.getExecutor.1 := by
          intro us
          have : f.getExecutor.1.getExecutor.1 = f.getExecutor.1 := by
            unfold Function.getExecutor
            cases he : f.executor with
            | some e => simp [he]
            | none => cases hn : Fn.newExecutorForName f.name <;> simp [he, hn]
          rw [this]; cases s <;> rfl
        cases hx : f.getExecutor.2 with
        | none =>
          have e : executors (s :: ss) = (s.withFunction f.getExecutor.1 :: ss, none) := by
            rw [executors, hf]; simp only [ha, Bool.false_eq_true, if_false, hx]
          rw [e]
          show executors (s.withFunction f.getExecutor.1 :: ss) = _
          rw [executors, withFunction_function]
          simp only [ha', Bool.false_eq_true, if_false, hg, hx, hw ss]
        | some x =>
          have e : executors (s :: ss) = (s.withFunction f.getExecutor.1 :: (executors ss).1, (executors ss).2.map (x :: ·)) := by
            rw [executors, hf]; simp only [ha, Bool.false_eq_true, if_false, hx]
          rw [e]
          show executors (s.withFunction f.getExecutor.1 :: (executors ss).1) = _
          rw [executors, withFunction_function]
          simp only [ha', Bool.false_eq_true, if_false, hg, hx, hw ss, ih]

theorem aggregators_again (ss : List Selector) : aggregators (aggregators ss).1 = ((aggregators ss).1, (aggregators ss).2) := by
  induction ss with
  | nil => rfl
  | cons s ss ih =>
    cases hf : s.function with
    | none =>
      have e : aggregators (s :: ss) = (s :: (aggregators ss).1, (aggregators ss).2) := by rw [aggregators, hf]
      rw [e]
      show aggregators (s :: (aggregators ss).1) = _
      rw [aggregators, hf]
      simp only [ih]
    | some f =>
      obtain ⟨-, -, -, hg⟩ := getAggregator_kept f
      have hw : (s.withFunction f.getAggregator.1).withFunction f.getAggregator.1.getAggregator.1 = s.withFunction f.getAggregator.1 := by
        have : f.getAggregator.1.getAggregator.1 = f.getAggregator.1 := by
          unfold Function.getAggregator
          cases he : f.aggregator with
          | some e => simp [he]
          | none => cases hn : Fn.newAggregatorForName f.name <;> simp [he, hn]
        rw [this]; cases s <;> rfl
      cases hx : f.getAggregator.2 with
      | none =>
        have e : aggregators (s :: ss) = (s.withFunction f.getAggregator.1 :: ss, none) := by
          rw [aggregators, hf]; simp only [hx]
        rw [e]
        show aggregators (s.withFunction f.getAggregator.1 :: ss) = _
        rw [aggregators, withFunction_function]
        simp only [hg, hx, hw]
      | some x =>
        have e : aggregators (s :: ss) = (s.withFunction f.getAggregator.1 :: (aggregators ss).1, (aggregators ss).2.map (x :: ·)) := by
          rw [aggregators, hf]; simp only [hx]
        rw [e]
        show aggregators (s.withFunction f.getAggregator.1 :: (aggregators ss).1) = _
        rw [aggregators, withFunction_function]
        simp only [hg, hx, hw, ih]

end Verif.Query
