import Verif.Lemmas.FnConc
import Verif.Lemmas.FnUse
import Verif.Props.Types
import Verif.Props.FnState
/-! C169, C170: function objects and goroutines. -/
namespace Verif.Props
open Verif Verif.Fn Verif.FnState Verif.FnConc Verif.Spec.FnConc
open Verif.Net (upd)
variable {V F T : Type}

/-- C169 for a function that calls alone no longer change: whatever any number of goroutines call on it, at the same time
and with whatever options, no field is in a data race, the function stays as it is and every answer is that of the call
alone. Missing: a function that is asked for its executor or aggregator for the first time, see `C169_race`. -/
theorem C169_settled_partial (E : Env V F) (env : XEnv V F T) (f : FObj V F T) (as : List (Aggr V F)) (hs : Settled E env f) (h : List (Event V F T)) (s : Conf V F T)
    (run : Conf.Run E env (Conf.of f as) h s) :
    (∀ g, ¬ Race s g) ∧ s.fn = f ∧ ∀ t op r, Event.ret t op r ∈ h → r = alone E env f as op := by
  obtain ⟨h1, -, h3, h4⟩ := settled_run E env hs run
  refine ⟨?_, h1, h4⟩
  rintro g ⟨t, u, op, op', a, b, w, -, ht, -, ha, -⟩
  exact (h3 _ _ _ ht).access g ha

/-- No name is that of an executor and that of an aggregator. -/
private theorem not_both (n : Str) (k : ExecId) (a : AggrId) (hk : newExecutorForName n = some k) (ha : newAggregatorForName n = some a) : False := by
  have h1 := (C40_executor_lookup_partial n).2 k hk
  have h2 := (C39_aggregator_iff n a).1 ha
  have e1 : (n.map Char.toLower).take k.name.length = k.name.map Char.toLower := by rw [← List.map_take]; exact h1
  have e2 : (n.map Char.toLower).take a.name.length = a.name.map Char.toLower := by rw [← List.map_take]; exact h2
  have : (k.name.map Char.toLower).take (min k.name.length a.name.length) = (a.name.map Char.toLower).take (min k.name.length a.name.length) := by
    rw [← e1, ← e2, List.take_take, List.take_take]
    congr 1
    omega
  revert this
  cases k <;> cases a <;> decide +kernel

/-- C169: one call alone is enough. After `Executor` on a function whose name is that of an executor, or after `Aggregator`
has returned an aggregator of a function whose name is not, calls no longer change the function. -/
theorem C169_once (E : Env V F) (env : XEnv V F T) (f : FObj V F T) :
    (∀ os, f.aggregator = none → newExecutorForName f.name ≠ none → Settled E env (f.getExecutor env os).1) ∧
    (∀ as os, f.executor = none → (f.getAggregator E as os).2.2 ≠ none → newExecutorForName f.name = none → Settled E env (f.getAggregator E as os).1) := by
  constructor
  · intro os ha hn
    obtain ⟨k, hk⟩ := Option.ne_none_iff_exists'.1 hn
    have hag : newAggregatorForName f.name = none := by
      cases h : newAggregatorForName f.name with
      | none => rfl
      | some a => exact (not_both _ _ _ hk h).elim
    have hex : ∃ ex, (f.getExecutor env os).1.executor = some ex := by
      unfold FObj.getExecutor
      cases he : f.executor with
      | some ex => exact ⟨ex, he⟩
      | none => simp only [hk]; exact ⟨_, rfl⟩
    have hnm : (f.getExecutor env os).1.name = f.name ∧ (f.getExecutor env os).1.aggregator = none := by
      unfold FObj.getExecutor
      cases he : f.executor with
      | some ex => exact ⟨rfl, ha⟩
      | none => rw [hk]; exact ⟨rfl, ha⟩
    obtain ⟨ex, hex⟩ := hex
    generalize (f.getExecutor env os).1 = g at *
    refine ⟨fun os' => ?_, fun as os' => ?_⟩
    · rw [FObj.getExecutor, hex]
    · rw [FObj.getAggregator, hnm.2, hnm.1, hag]
  · intro as os he hr hn
    have hag : ∃ p, (f.getAggregator E as os).1.aggregator = some p := by
      unfold FObj.getAggregator at *
      cases ha : f.aggregator with
      | some p => exact ⟨p, ha⟩
      | none =>
        rw [ha] at hr
        cases hk : newAggregatorForName f.name with
        | none => rw [hk] at hr; exact absurd rfl hr
        | some k =>
          rw [hk] at hr
          simp only at *
          cases hx : newAggr E k (os ++ [AggrOpt.args f.args]) with
          | none => rw [hx] at hr; exact absurd rfl hr
          | some a => exact ⟨_, rfl⟩
    have hnm : (f.getAggregator E as os).1.name = f.name ∧ (f.getAggregator E as os).1.executor = none := by
      unfold FObj.getAggregator
      cases ha : f.aggregator with
      | some p => exact ⟨rfl, he⟩
      | none =>
        cases hk : newAggregatorForName f.name with
        | none => exact ⟨rfl, he⟩
        | some k =>
          simp only
          cases hx : newAggr E k (os ++ [AggrOpt.args f.args]) with
          | none => exact ⟨rfl, he⟩
          | some a => exact ⟨rfl, he⟩
    obtain ⟨p, hag⟩ := hag
    generalize (f.getAggregator E as os).1 = g at *
    refine ⟨fun os' => ?_, fun as' os' => ?_⟩
    · rw [FObj.getExecutor, hnm.2, hnm.1, hn]
    · rw [FObj.getAggregator, hag]

/-- The program of a first call of `Executor`. -/
private theorem code_first (E : Env V F) (env : XEnv V F T) {f : FObj V F T} {id : ExecId} (he : f.executor = none) (hn : newExecutorForName f.name = some id)
    (os : List (ExecOpt V F T)) (as : List (Aggr V F)) : ∃ ex k, Steps (f, as) (code E env f.name f.args (.executor os)) (f, as) (.writeExec ex k) := by
  let ex := newExec env id (os ++ [.args f.args])
  refine ⟨ex, .writeType ex.type (.readExec fun e => .ret (.exec e)), .head (.readExec _ _) ?_⟩
  simp only [he, hn]
  exact .refl _ _

/-- C169 is false of the code: two goroutines that ask any function for its executor for the first time are in a data race. -/
theorem C169_race (E : Env V F) (env : XEnv V F T) (f : FObj V F T) (as : List (Aggr V F)) (he : f.executor = none) (hn : newExecutorForName f.name ≠ none)
    (os os' : List (ExecOpt V F T)) :
    ∃ s, Conf.Run E env (Conf.of f as) [.call 0 (.executor os), .call 1 (.executor os')] s ∧ Race s .executor := by
  obtain ⟨id, hid⟩ := Option.ne_none_iff_exists'.1 hn
  obtain ⟨ex, k, h1⟩ := code_first E env he hid os as
  obtain ⟨ex', k', h2⟩ := code_first E env he hid os' as
  have r1 := Conf.Run.step (.refl (Conf.of f as)) (.call (E := E) (env := env) _ 0 (.executor os) rfl)
  have r2 := Conf.Run.step r1 (.call _ 1 (.executor os') rfl)
  have r3 := h1.run (t := 0) (op := .executor os) r2 rfl rfl
  have r4 := h2.run (t := 1) (op := .executor os') r3 rfl rfl
  exact ⟨_, r4, 0, 1, _, _, _, _, true, (by decide), rfl, rfl, rfl, rfl⟩

/-- C169 is false of the code, for `ABS(a)`. -/
theorem C169_fails : ∃ (f : FObj Int Int Unit) (h : List (Event Int Int Unit)) (s : Conf Int Int Unit) (g : Field), Conf.Run rAggr xEnv (Conf.of f []) h s ∧ Race s g := by
  obtain ⟨s, r, hr⟩ := C169_race rAggr xEnv (newFObj [] [.name s%"abs", .args [s%"a"]]) [] rfl (by decide) [] []
  exact ⟨_, _, s, .executor, r, hr⟩

example : newExecutorForName (newFObj [] [.name s%"abs", .args [s%"a"]] : FObj Int Int Unit).name ≠ none := by decide
example : Settled rAggr xEnv ((newFObj [] [.name s%"abs", .args [s%"a"]] : FObj Int Int Unit).getExecutor xEnv []).1 :=
  (C169_once rAggr xEnv _).1 [] rfl (by decide)
example : Settled (T := Unit) rAggr xEnv ((newFObj [] [.name s%"sum", .args [s%"a"]] : FObj Int Int Unit).getAggregator rAggr [] []).1 :=
  (C169_once rAggr xEnv _).2 [] [] rfl (by decide) (by decide)

/-! ### C170 -/

/-- C170, executors: whatever the goroutines do at the same time, a call of `Executor` answers as a call alone on the function
would, with the options of some call that had begun before. So if all calls are given the same options, all answers are the same. -/
theorem C170_executor (E : Env V F) (env : XEnv V F T) (f : FObj V F T) (as : List (Aggr V F)) (h : List (Event V F T)) (s : Conf V F T)
    (run : Conf.Run E env (Conf.of f as) h s) (pre post : List (Event V F T)) (t : Nat) (os : List (ExecOpt V F T)) (r : Ret V F T)
    (e : h = pre ++ .ret t (.executor os) r :: post) :
    r = alone E env f as (.executor os) ∨ ∃ t' os', Event.call t' (.executor os') ∈ pre ∧ r = alone E env f as (.executor os') := by
  have := (good_run E env run).rets pre post t _ r e
  simp only [alone, FObj.getExecutor]
  cases r with
  | aggr p => cases p <;> exact this.elim
  | bool b => exact this.elim
  | exec x =>
    cases x with
    | none => obtain ⟨h1, h2⟩ := this; simp [h1, h2]
    | some x =>
      rcases this with h1 | ⟨h1, id, os', t', h2, h3, h4⟩
      · simp [h1]
      · refine .inr ⟨t', os', h3, ?_⟩
        simp [h1, h2, h4]

/-- C170, aggregators, in part: whatever the goroutines do at the same time, a call of `Aggregator` that returns an error is
one that alone would return an error, and what it returns otherwise is the aggregator the function had, or an object
made for the function's name, as it was made for a call that had begun before. Missing: that all calls return the same
object, see `C170_two`. -/
theorem C170_aggregator_partial (E : Env V F) (env : XEnv V F T) (f : FObj V F T) (as : List (Aggr V F)) (h : List (Event V F T)) (s : Conf V F T)
    (run : Conf.Run E env (Conf.of f as) h s) (pre post : List (Event V F T)) (t : Nat) (os : List AggrOpt) (r : Ret V F T)
    (e : h = pre ++ .ret t (.aggregator os) r :: post) :
    (r = .aggr none ∧ alone E env f as (.aggregator os) = .aggr none) ∨
    (∃ p, r = .aggr (some p) ∧ f.aggregator = some p) ∨
    (∃ p a t' os', r = .aggr (some p) ∧ f.aggregator = none ∧ Event.call t' (.aggregator os') ∈ pre ∧ s.aggrs[p]? = some a ∧
      (f.getAggregator E [] os').2.1 = [a]) := by
  have := (good_run E env run).rets pre post t _ r e
  cases r with
  | exec p => cases p <;> exact this.elim
  | bool b => exact this.elim
  | aggr x =>
    cases x with
    | none =>
      refine .inl ⟨rfl, ?_⟩
      simp only [alone, FObj.getAggregator]
      obtain ⟨h1, h2 | ⟨k, h2, h3⟩⟩ := this
      · simp [h1, h2]
      · simp [h1, h2, h3]
    | some p =>
      rcases this with h1 | ⟨a, h1, h2, k, os', t', h3, h4, h5⟩
      · exact .inr (.inl ⟨p, rfl, h1⟩)
      · refine .inr (.inr ⟨p, a, t', os', rfl, h2, h4, h1, ?_⟩)
        simp [FObj.getAggregator, h2, h3, h5]

/-- The parts of a first call of `Aggregator`. -/
private theorem code_aggr (E : Env V F) (env : XEnv V F T) (n : Str) (l : List Str) {k : AggrId} {a : Aggr V F} (hn : newAggregatorForName n = some k)
    (ha : newAggr E k [.args l] = some a) {f : FObj V F T} (hf : f.aggregator = none) (as : List (Aggr V F)) :
    Steps (f, as) (code E env n l (.aggregator [])) (f, as)
      (.make a fun p => .writeAggr p (.writeType .aggregate (.readAggr fun p => .ret (.aggr p)))) := by
  refine .head (.readAggr _ _) ?_
  simp only [hf, hn, List.nil_append, ha]
  exact .refl _ _

/-- C170 is false of the code: two goroutines that ask any function for its aggregator for the first time can get two
different objects, and the first of them is given the other one's when it asks again. -/
theorem C170_two (E : Env V F) (env : XEnv V F T) (f : FObj V F T) (as : List (Aggr V F)) (hf : f.aggregator = none) (k : AggrId)
    (hn : newAggregatorForName f.name = some k) (hl : f.args ≠ []) :
    ∃ s, Conf.Run E env (Conf.of f as) [.call 0 (.aggregator []), .call 1 (.aggregator []), .ret 0 (.aggregator []) (.aggr (some as.length)),
      .ret 1 (.aggregator []) (.aggr (some (as.length + 1))), .call 0 (.aggregator []), .ret 0 (.aggregator []) (.aggr (some (as.length + 1)))] s := by
  obtain ⟨a, ha⟩ : ∃ a, newAggr E k [.args f.args] = some a := by
    rcases Lemmas.FnState.newAggr_args E k f.args with ⟨h, -⟩ | ⟨-, a, h, -⟩
    · exact absurd h hl
    · exact ⟨a, h⟩
  have r1 := Conf.Run.step (.refl (Conf.of f as)) (.call (E := E) (env := env) _ 0 (.aggregator []) rfl)
  have r2 := Conf.Run.step r1 (.call _ 1 (.aggregator []) rfl)
  have r3 := (code_aggr E env f.name f.args hn ha hf as).run (t := 0) (op := .aggregator []) r2 rfl rfl
  have r4 := (code_aggr E env f.name f.args hn ha hf as).run (t := 1) (op := .aggregator []) r3 rfl rfl
  have r5 := (Steps.head (.make ..) (.head (.writeAggr ..) (.head (.writeType ..) (.head (.readAggr ..) (.refl _ _))))).run (t := 0) (op := .aggregator []) r4 rfl rfl
  have r6 := Conf.Run.step r5 (.ret _ 0 (.aggregator []) (.aggr (some as.length)) rfl)
  have r7 := (Steps.head (.make ..) (.head (.writeAggr ..) (.head (.writeType ..) (.head (.readAggr ..) (.refl _ _))))).run (t := 1) (op := .aggregator []) r6 rfl rfl
  have r8 := Conf.Run.step r7 (.ret _ 1 (.aggregator []) (.aggr (some (as.length + 1))) (by simp [upd]))
  have r9 := Conf.Run.step r8 (.call _ 0 (.aggregator []) rfl)
  have r10 := (Steps.head (.readAggr ..) (.head (.readAggr ..) (.refl _ _))).run (t := 0) (op := .aggregator []) r9 rfl rfl
  have r11 := Conf.Run.step r10 (.ret _ 0 (.aggregator []) (.aggr (some (as.length + 1))) (by simp [upd]))
  exact ⟨_, r11⟩

/-- C170 is false of the code, for `SUM(a)`. -/
theorem C170_fails : ∃ (f : FObj Int Int Unit) (h : List (Event Int Int Unit)) (s : Conf Int Int Unit) (p p' : Nat), Conf.Run rAggr xEnv (Conf.of f []) h s ∧
    Event.ret 0 (.aggregator []) (.aggr (some p)) ∈ h ∧ Event.ret 1 (.aggregator []) (.aggr (some p')) ∈ h ∧ p ≠ p' := by
  obtain ⟨s, r⟩ := C170_two rAggr xEnv (newFObj [] [.name s%"sum", .args [s%"a"]]) [] rfl .sum (by decide) (by decide)
  exact ⟨_, _, s, 0, 1, r, by simp, by simp, by decide⟩

example : (newFObj [] [.name s%"sum", .args [s%"a"]] : FObj Int Int Unit).aggregator = none ∧
    newAggregatorForName (newFObj [] [.name s%"sum", .args [s%"a"]] : FObj Int Int Unit).name = some .sum := by decide

end Verif.Props
