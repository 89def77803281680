import Verif.Lemmas.Asking
/-! C192: asking a selection list for its executors and aggregators. -/
namespace Verif.Props
open Verif Verif.Query

/-- Two selectors of the same kind with the same name and text, the same definition and literal, and functions of the same name
and with the same arguments, or none. -/
inductive AlikeSelector : Selector → Selector → Prop
  | plain (c c' : Column) : c'.name = c.name → c'.def_ = c.def_ → c'.lit = c.lit → c.fn = none → c'.fn = none → AlikeSelector (.col c) (.col c')
  | column (c c' : Column) (f f' : Function) : c'.name = c.name → c'.def_ = c.def_ → c'.lit = c.lit → c.fn = some f → c'.fn = some f' →
      f'.name = f.name → f'.args = f.args → AlikeSelector (.col c) (.col c')
  | function (f f' : Function) : f'.name = f.name → f'.args = f.args → AlikeSelector (.fn f) (.fn f')

theorem AlikeSelector.refl (s : Selector) : AlikeSelector s s := by
  cases s with
  | fn f => exact .function f f rfl rfl
  | col c =>
    cases h : c.fn with
    | none => exact .plain c c rfl rfl rfl h h
    | some f => exact .column c c f f rfl rfl rfl h h rfl rfl

theorem alike_refl (ss : List Selector) : Pointwise AlikeSelector ss ss := by
  induction ss with
  | nil => exact .nil
  | cons s ss ih => exact .cons (.refl s) ih

theorem alike_with {s : Selector} {f f' : Function} (h : s.function = some f) (h1 : f'.name = f.name) (h2 : f'.args = f.args) :
    AlikeSelector s (s.withFunction f') := by
  cases s with
  | fn g => cases h; exact .function _ _ h1 h2
  | col c => exact .column _ _ f f' rfl rfl rfl h rfl h1 h2

theorem alike_text {ss ts : List Selector} (h : Pointwise AlikeSelector ss ts) : selectorsString ts = selectorsString ss := by
  have : ts.map (·.text) = ss.map (·.text) := by
    induction h with
    | nil => rfl
    | cons h1 _ ih =>
      rw [List.map_cons, List.map_cons, ih]
      congr 1
      cases h1 with
      | plain c c' h => exact h
      | column c c' f f' h => exact h
      | function f f' h1 h2 => simp [Selector.text, Function.toStr, h1, h2]
  rw [selectorsString, this]; rfl

/-- C192: asking a selection list for its executors, whatever the answer, leaves the number and order of the selectors, their
names, the definitions and literals of columns, the names and arguments of functions and so the printed text as they were. -/
theorem C192_executors (ss : List Selector) : Pointwise AlikeSelector ss (executors ss).1 ∧ selectorsString (executors ss).1 = selectorsString ss := by
  have h : Pointwise AlikeSelector ss (executors ss).1 := by
    induction ss with
    | nil => exact .nil
    | cons s ss ih =>
      rw [executors]
      cases hf : s.function with
      | none => exact .cons (.refl s) ih
      | some f =>
        have hk := getExecutor_kept f
        cases ha : f.isAggregator with
        | true => simp only [ha, if_true]; exact .cons (.refl s) ih
        | false =>
          simp only [ha, Bool.false_eq_true, if_false]
          cases f.getExecutor.2 with
          | none => exact .cons (alike_with hf hk.1 hk.2.1) (alike_refl ss)
          | some x => exact .cons (alike_with hf hk.1 hk.2.1) ih
  exact ⟨h, alike_text h⟩

/-- C192: the same of asking for the aggregators. -/
theorem C192_aggregators (ss : List Selector) : Pointwise AlikeSelector ss (aggregators ss).1 ∧ selectorsString (aggregators ss).1 = selectorsString ss := by
  have h : Pointwise AlikeSelector ss (aggregators ss).1 := by
    induction ss with
    | nil => exact .nil
    | cons s ss ih =>
      rw [aggregators]
      cases hf : s.function with
      | none => exact .cons (.refl s) ih
      | some f =>
        have hk := getAggregator_kept f
        simp only
        cases f.getAggregator.2 with
        | none => exact .cons (alike_with hf hk.1 hk.2.1) (alike_refl ss)
        | some x => exact .cons (alike_with hf hk.1 hk.2.1) ih
  exact ⟨h, alike_text h⟩

/-- C192: asking for the executors again gives the same answer, an error included, and so does asking for the aggregators again. -/
theorem C192_again (ss : List Selector) : (executors (executors ss).1).2 = (executors ss).2 ∧
    (aggregators (aggregators ss).1).2 = (aggregators ss).2 :=
  ⟨congrArg Prod.snd (executors_again ss), congrArg Prod.snd (aggregators_again ss)⟩

/-- C192: asking for the executors changes neither whether the list has an aggregate function nor the aggregators. -/
theorem C192_executors_first (ss : List Selector) : hasAggregator (executors ss).1 = hasAggregator ss ∧
    (aggregators (executors ss).1).2 = (aggregators ss).2 := by
  induction ss with
  | nil => exact ⟨rfl, rfl⟩
  | cons s ss ih =>
    have hc : ∀ (t u : Selector) (us : List Selector), t.function = u.function → hasAggregator us = hasAggregator ss →
        hasAggregator (t :: us) = hasAggregator (u :: ss) := by
      intro t u us h1 h2
      simp only [hasAggregator, hasFunctionWithType, List.any_cons, h1] at h2 ⊢
      rw [h2]
    rw [executors]
    cases hf : s.function with
    | none =>
      refine ⟨hc _ _ _ rfl ih.1, ?_⟩
      show (aggregators (s :: (executors ss).1)).2 = _
      rw [aggregators, aggregators, hf]; exact ih.2
    | some f =>
      cases ha : f.isAggregator with
      | true =>
        simp only [ha, if_true]
        refine ⟨hc _ _ _ rfl ih.1, ?_⟩
        show (aggregators (s :: (executors ss).1)).2 = _
        rw [aggregators, aggregators, hf]
        simp only
        cases f.getAggregator.2 with
        | none => rfl
        | some x => simp only [ih.2]
      | false =>
        obtain ⟨hn, -, hg, ht, -⟩ := getExecutor_kept f
        have h2 : f.getExecutor.1.getAggregator.2 = f.getAggregator.2 := by
          unfold Function.getAggregator
          rw [hg, hn]
          cases f.aggregator with
          | some a => rfl
          | none => cases Fn.newAggregatorForName f.name <;> rfl
        have ht0 := notAggr.mp ha
        have hh : ∀ us : List Selector, hasAggregator us = hasAggregator ss → hasAggregator (s.withFunction f.getExecutor.1 :: us) = hasAggregator (s :: ss) := by
          intro us h
          simp only [hasAggregator, hasFunctionWithType, List.any_cons, withFunction_function, hf] at h ⊢
          rw [h, beq_eq_false_iff_ne.mpr (ht ht0), beq_eq_false_iff_ne.mpr ht0]
        have ha2 : ∀ us : List Selector, (aggregators us).2 = (aggregators ss).2 → (aggregators (s.withFunction f.getExecutor.1 :: us)).2 = (aggregators (s :: ss)).2 := by
          intro us h
          rw [aggregators, aggregators, withFunction_function, hf]
          simp only [h2]
          cases f.getAggregator.2 with
          | none => rfl
          | some x => simp only [h]
        simp only [ha, Bool.false_eq_true, if_false]
        cases f.getExecutor.2 with
        | none => exact ⟨hh _ rfl, ha2 _ rfl⟩
        | some x => exact ⟨hh _ ih.1, ha2 _ ih.2⟩

/-- C192 is false of the code for asking for the aggregators first. Whatever functions a selection list consists of, if none was
asked before and all have aggregators, then afterwards every one of them counts as an aggregate function: the list has an
aggregate function if it has a function at all, and asking for the executors gives no executors and no error. -/
theorem C192_aggregators_first_fails (ss : List Selector) (hn : ∀ f ∈ functionsOf ss, f.aggregator = none) (ks : List Fn.AggrId)
    (h : (aggregators ss).2 = some ks) : hasAggregator (aggregators ss).1 = !(functionsOf ss).isEmpty ∧
      (executors (aggregators ss).1).2 = some [] := by
  induction ss generalizing ks with
  | nil => exact ⟨rfl, rfl⟩
  | cons s ss ih =>
    rw [aggregators] at h ⊢
    cases hf : s.function with
    | none =>
      have e : functionsOf (s :: ss) = functionsOf ss := by simp [functionsOf, hf]
      rw [hf] at h
      rw [e] at hn ⊢
      obtain ⟨h1, h2⟩ := ih hn ks h
      refine ⟨?_, ?_⟩
      · show hasAggregator (s :: (aggregators ss).1) = _
        rw [← h1]
        simp [hasAggregator, hasFunctionWithType, hf]
      · show (executors (s :: (aggregators ss).1)).2 = _
        rw [executors, hf]; exact h2
    | some f =>
      have e : functionsOf (s :: ss) = f :: functionsOf ss := by simp [functionsOf, hf]
      rw [e] at hn ⊢
      have hf0 := hn f (by simp)
      rw [hf] at h
      simp only at h ⊢
      cases hx : f.getAggregator.2 with
      | none => rw [hx] at h; cases h
      | some x =>
        rw [hx] at h
        obtain ⟨ks', hks, -⟩ := Option.map_eq_some_iff.mp h
        obtain ⟨h1, h2⟩ := ih (fun g hg => hn g (by simp [hg])) ks' hks
        have ht : f.getAggregator.1.typ = .aggregate := by
          unfold Function.getAggregator at hx ⊢
          rw [hf0] at hx ⊢
          cases hq : Fn.newAggregatorForName f.name with
          | none => rw [hq] at hx; cases hx
          | some a => rfl
        refine ⟨?_, ?_⟩
        · show hasAggregator (s.withFunction f.getAggregator.1 :: (aggregators ss).1) = _
          simp [hasAggregator, hasFunctionWithType, withFunction_function, ht]
        · show (executors (s.withFunction f.getAggregator.1 :: (aggregators ss).1)).2 = _
          rw [executors, withFunction_function]
          simp only [Function.isAggregator, ht, beq_self_eq_true, if_true]
          exact h2

/-- Before that, the same list may have had no aggregate function, and asking for its executors may have been an error: the type
of a function is taken from its name as written, so `sum(a)` is not known as an aggregate function until its aggregator is
asked for. -/
theorem C192_before_fails :
    let ss : List Selector := [.fn (Function.named s%"sum" [s%"a"])]
    hasAggregator ss = false ∧ (executors ss).2 = none ∧ hasAggregator (aggregators ss).1 = true ∧ (executors (aggregators ss).1).2 = some [] := by
  decide +kernel

/-- What holds of asking for the aggregators first: if all functions of the list are known as aggregate functions, as those
written in capitals are, whether there is one and the answer to asking for the executors stay as they were. -/
theorem C192_known_partial (ss : List Selector) (hn : ∀ f ∈ functionsOf ss, f.typ = .aggregate) :
    hasAggregator (aggregators ss).1 = hasAggregator ss ∧ (executors (aggregators ss).1).2 = (executors ss).2 := by
  induction ss with
  | nil => exact ⟨rfl, rfl⟩
  | cons s ss ih =>
    rw [aggregators]
    cases hf : s.function with
    | none =>
      have e : functionsOf (s :: ss) = functionsOf ss := by simp [functionsOf, hf]
      rw [e] at hn
      obtain ⟨h1, h2⟩ := ih hn
      refine ⟨?_, ?_⟩
      · show hasAggregator (s :: (aggregators ss).1) = _
        simp only [hasAggregator, hasFunctionWithType, List.any_cons] at h1 ⊢
        rw [h1]
      · show (executors (s :: (aggregators ss).1)).2 = _
        rw [executors, executors, hf]; exact h2
    | some f =>
      have e : functionsOf (s :: ss) = f :: functionsOf ss := by simp [functionsOf, hf]
      rw [e] at hn
      have hf0 := hn f (by simp)
      have ht : f.getAggregator.1.typ = .aggregate := by
        unfold Function.getAggregator
        cases f.aggregator with
        | some a => exact hf0
        | none =>
          cases Fn.newAggregatorForName f.name with
          | none => exact hf0
          | some a => rfl
      have hh : ∀ us : List Selector, hasAggregator (s.withFunction f.getAggregator.1 :: us) = hasAggregator (s :: ss) := by
        intro us
        simp [hasAggregator, hasFunctionWithType, withFunction_function, ht, hf, hf0]
      have hx : ∀ us : List Selector, (executors us).2 = (executors ss).2 → (executors (s.withFunction f.getAggregator.1 :: us)).2 = (executors (s :: ss)).2 := by
        intro us h
        rw [executors, executors, withFunction_function, hf]
        simp only [Function.isAggregator, ht, hf0, beq_self_eq_true, if_true]
        exact h
      simp only
      cases f.getAggregator.2 with
      | none => exact ⟨hh _, hx _ rfl⟩
      | some x => exact ⟨hh _, hx _ (ih (fun g hg => hn g (by simp [hg]))).2⟩

example : (executors [.col { name := s%"c", fn := some (Function.named s%"ABS" [s%"c"]) }, .fn (Function.named s%"foo" [])]).2 = none ∧
    (executors [.col { name := s%"c", fn := some (Function.named s%"ABS" [s%"c"]) }, .fn (Function.named s%"foo" [])]).1 ≠
      [.col { name := s%"c", fn := some (Function.named s%"ABS" [s%"c"]) }, .fn (Function.named s%"foo" [])] := by decide +kernel
example : let ss : List Selector := [.fn (Function.named s%"sum" [s%"a"]), .col { name := s%"c" }, .fn (Function.named s%"Max" [s%"b"])]
    (∀ f ∈ functionsOf ss, f.aggregator = none) ∧ (aggregators ss).2 = some [.sum, .max] := by decide +kernel
example : let ss : List Selector := [.fn (Function.named s%"SUM" [s%"a"]), .col { name := s%"c" }]
    (∀ f ∈ functionsOf ss, f.typ = .aggregate) ∧ hasAggregator ss = true := by decide +kernel

end Verif.Props
