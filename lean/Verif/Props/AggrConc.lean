import Verif.Lemmas.AggrConc
import Verif.Props.ResultSet
/-! C196: one aggregator used by several goroutines. -/
namespace Verif.Props
open Verif Verif.Fn Verif.AggrConc Verif.Spec.AggrConc Verif.Lemmas.AggrConc
open Verif.Net (upd)
variable {V F : Type}

/-- C196, part: if no two calls overlap, rows aggregated by any number of goroutines give exactly what one goroutine gets
by aggregating the same rows one after the other: the same results of the calls and the same aggregator, refused rows
included. Missing: calls that overlap, of which it is false. -/
theorem C196_serial_partial (E : Env V F) (a : Aggr V F) (hg : a.groupBys = []) (h : List (Event V)) (s : Conf V F)
    (hr : Conf.Run E (Conf.of a) h s) (h1 : OneAtATime h) (hi : ∀ t, s.pc t = none) : inTurn E a (rows h) = (s.aggr, results h) := by
  obtain ⟨-, ⟨-, -, h⟩ | ⟨t, row, p, rs, a', ht, -⟩⟩ := inv_run hg hr h1
  · exact h
  · rw [hi t] at ht; cases ht

/-- C196: however the calls overlap, no row is counted twice: the count never exceeds the count at the beginning plus the
number of calls. -/
theorem C196_never_more (E : Env V F) (a : Aggr V F) (h : List (Event V)) (s : Conf V F) (hr : Conf.Run E (Conf.of a) h s) :
    s.aggr.counts ≤ a.counts + (rows h).length := by
  obtain ⟨L, -, hc, -⟩ := count_run hr
  omega

/-- The goroutines 0 and 1 and no others. -/
def two (x y : Option (List (Option V) × Prog F)) : Nat → Option (List (Option V) × Prog F)
  | 0 => x
  | 1 => y
  | _ => none

theorem upd_two0 (x y z : Option (List (Option V) × Prog F)) : upd (two x y) 0 z = two z y := by
  funext i; rcases i with _ | _ | i <;> simp [upd, two]

theorem upd_two1 (x y z : Option (List (Option V) × Prog F)) : upd (two x y) 1 z = two x z := by
  funext i; rcases i with _ | _ | i <;> simp [upd, two]

theorem run_to0 {E : Env V F} {s0 : Conf V F} {h : List (Event V)} {y : Option (List (Option V) × Prog F)} {row : List (Option V)} {a b : Aggr V F} {p q : Prog F}
    (hd : Does a p b q) (hr : Conf.Run E s0 h ⟨a, two (some (row, p)) y⟩) : Conf.Run E s0 h ⟨b, two (some (row, q)) y⟩ := by
  have := Conf.Run.step hr (.does _ 0 row p b q rfl hd)
  simpa [upd_two0] using this

theorem run_to1 {E : Env V F} {s0 : Conf V F} {h : List (Event V)} {x : Option (List (Option V) × Prog F)} {row : List (Option V)} {a b : Aggr V F} {p q : Prog F}
    (hd : Does a p b q) (hr : Conf.Run E s0 h ⟨a, two x (some (row, p))⟩) : Conf.Run E s0 h ⟨b, two x (some (row, q))⟩ := by
  have := Conf.Run.step hr (.does _ 1 row p b q rfl hd)
  simpa [upd_two1] using this

/-- Goroutine 1 runs to its end. -/
theorem run_end1 {E : Env V F} {s0 : Conf V F} {h : List (Event V)} {x : Option (List (Option V) × Prog F)} {row : List (Option V)} {a : Aggr V F} {p : Prog F}
    (hr : Conf.Run E s0 h ⟨a, two x (some (row, p))⟩) : Conf.Run E s0 (h ++ [.ret 1 row (run a p).2]) ⟨(run a p).1, two x none⟩ := by
  induction p generalizing a with
  | ret r => simpa [upd_two1, run] using Conf.Run.step hr (.ret _ 1 row r rfl)
  | readAcc n k ih => exact ih _ (run_to1 (.readAcc ..) hr)
  | writeAcc n f k ih => exact ih (run_to1 (.writeAcc ..) hr)
  | readCount k ih => exact ih _ (run_to1 (.readCount ..) hr)
  | writeCount c k ih => exact ih (run_to1 (.writeCount ..) hr)

/-- Goroutine 0 runs to its end. -/
theorem run_end0 {E : Env V F} {s0 : Conf V F} {h : List (Event V)} {y : Option (List (Option V) × Prog F)} {row : List (Option V)} {a : Aggr V F} {p : Prog F}
    (hr : Conf.Run E s0 h ⟨a, two (some (row, p)) y⟩) : Conf.Run E s0 (h ++ [.ret 0 row (run a p).2]) ⟨(run a p).1, two none y⟩ := by
  induction p generalizing a with
  | ret r => simpa [upd_two0, run] using Conf.Run.step hr (.ret _ 0 row r rfl)
  | readAcc n k ih => exact ih _ (run_to0 (.readAcc ..) hr)
  | writeAcc n f k ih => exact ih (run_to0 (.writeAcc ..) hr)
  | readCount k ih => exact ih _ (run_to0 (.readCount ..) hr)
  | writeCount c k ih => exact ih (run_to0 (.writeCount ..) hr)

/-- Both goroutines call. -/
theorem run_calls (E : Env V F) (a : Aggr V F) (r1 r2 : List (Option V)) :
    Conf.Run E (Conf.of a) [.call 0 r1, .call 1 r2] ⟨a, two (some (r1, code E a r1)) (some (r2, code E a r2))⟩ := by
  have e : Conf.of a = ⟨a, two none none⟩ := by
    simp only [Conf.of]; congr 1; funext i; rcases i with _ | _ | i <;> rfl
  have h0 := Conf.Run.step (Conf.Run.refl (E := E) (Conf.of a)) (.call (Conf.of a) 0 r1 rfl)
  rw [show (Conf.of a).pc = two none none from by rw [e]] at h0
  simp only [upd_two0, Option.toList, List.nil_append] at h0
  simpa [upd_two1, Conf.of] using Conf.Run.step h0 (.call _ 1 r2 rfl)

/-- C196 is false of the code, whatever the aggregator: of two rows aggregated at the same time one can be lost in the
accumulator, although both calls return without an error and both rows are counted. An AVG is then wrong too. -/
theorem C196_value_fails (E : Env V F) (a : Aggr V F) (acc : F) (v1 v2 : Option V) (f1 f2 : F) (hc : a.columns.length = 1)
    (ha : a.aggrs = [acc]) (h1 : toFloat64 E v1 = some f1) (h2 : toFloat64 E v2 = some f2) :
    ∃ h s, Conf.Run E (Conf.of a) h s ∧ (∀ t, s.pc t = none) ∧ rows h = [[v1], [v2]] ∧ results h = [.ok (), .ok ()] ∧
      s.aggr = { a with aggrs := [a.kind.step E acc f1], counts := a.counts + 2 } := by
  have e1 : code E a [v1] = .readAcc 0 fun
      | none => .ret .panic
      | some acc => .writeAcc 0 (a.kind.step E acc f1) (rowProg E a.kind 1 []) := by simp [code, hc, rowProg, h1]; rfl
  have h := run_calls E a [v1] [v2]
  rw [e1] at h
  have h := run_end0 (run_end1 (run_to0 (.readAcc ..) h))
  refine ⟨_, _, h, fun t => ?_, rfl, ?_, ?_⟩
  · rcases t with _ | _ | t <;> rfl
  · simp [results, code, hc, rowProg, h2, ha, run]
  · simp [code, hc, rowProg, h2, ha, run]

/-- And of two rows counted at the same time one can be lost in the count, although both calls return without an error. -/
theorem C196_count_fails (E : Env V F) (a : Aggr V F) (acc : F) (v1 v2 : Option V) (f1 f2 : F) (hc : a.columns.length = 1)
    (ha : a.aggrs = [acc]) (h1 : toFloat64 E v1 = some f1) (h2 : toFloat64 E v2 = some f2) :
    ∃ h s, Conf.Run E (Conf.of a) h s ∧ (∀ t, s.pc t = none) ∧ rows h = [[v1], [v2]] ∧ results h = [.ok (), .ok ()] ∧
      s.aggr = { a with aggrs := [a.kind.step E (a.kind.step E acc f1) f2], counts := a.counts + 1 } := by
  have e1 : code E a [v1] = .readAcc 0 fun
      | none => .ret .panic
      | some acc => .writeAcc 0 (a.kind.step E acc f1) (rowProg E a.kind 1 []) := by simp [code, hc, rowProg, h1]; rfl
  have h := run_calls E a [v1] [v2]
  rw [e1] at h
  have h := run_to0 (.readAcc ..) h
  simp only [ha, List.getElem?_cons_zero] at h
  have h := run_end0 (run_end1 (run_to0 (.readCount ..) (run_to0 (.writeAcc ..) h)))
  refine ⟨_, _, h, fun t => ?_, rfl, ?_, ?_⟩
  · rcases t with _ | _ | t <;> rfl
  · simp [results, code, hc, rowProg, h2, ha, run]
  · simp [code, hc, rowProg, h2, ha, run]

/-- Two rows aggregated at the same time race for the accumulator. -/
theorem C196_race (E : Env V F) (a : Aggr V F) (acc : F) (v1 v2 : Option V) (f1 f2 : F) (hc : a.columns.length = 1)
    (ha : a.aggrs = [acc]) (h1 : toFloat64 E v1 = some f1) (h2 : toFloat64 E v2 = some f2) :
    ∃ s, Conf.Run E (Conf.of a) [.call 0 [v1], .call 1 [v2]] s ∧ Race s (.acc 0) := by
  have e1 : ∀ v f, toFloat64 E v = some f → code E a [v] = .readAcc 0 fun
      | none => .ret .panic
      | some acc => .writeAcc 0 (a.kind.step E acc f) (rowProg E a.kind 1 []) := by
    intro v f h; simp [code, hc, rowProg, h]; rfl
  have h := run_calls E a [v1] [v2]
  rw [e1 _ _ h1, e1 _ _ h2] at h
  have h := run_to0 (.readAcc ..) h
  simp only [ha, List.getElem?_cons_zero] at h
  exact ⟨_, h, 0, 1, _, _, _, _, false, by decide, rfl, rfl, rfl, rfl⟩

/-- C196 is false of the code: SUM of 3 and 4 can be 3, and COUNT of two rows 1. -/
theorem C196_fails (ch : Choice) : (∃ a h s, newAggr rAggr .sum [.args [s%"a"]] = some a ∧ Conf.Run rAggr (Conf.of a) h s ∧ (∀ t, s.pc t = none) ∧
      rows h = [[some 3], [some 4]] ∧ results h = [.ok (), .ok ()] ∧ (s.aggr.finalize rAggr ch .none).map (·.rows) = some [[.num 3]]) ∧
    ∃ a h s, newAggr rAggr .count [.args [s%"a"]] = some a ∧ Conf.Run rAggr (Conf.of a) h s ∧ (∀ t, s.pc t = none) ∧
      rows h = [[some 3], [some 4]] ∧ results h = [.ok (), .ok ()] ∧ (s.aggr.finalize rAggr ch .none).map (·.rows) = some [[.num 1]] := by
  constructor
  · obtain ⟨h, s, hr, hi, h1, h2, h3⟩ := C196_value_fails rAggr ((newAggr rAggr .sum [.args [s%"a"]]).get rfl) 0 (some 3) (some 4) 3 4 rfl rfl rfl rfl
    exact ⟨_, h, s, (Option.some_get _).symm, hr, hi, h1, h2, by rw [h3]; rfl⟩
  · obtain ⟨h, s, hr, hi, h1, h2, h3⟩ := C196_count_fails rAggr ((newAggr rAggr .count [.args [s%"a"]]).get rfl) 0 (some 3) (some 4) 3 4 rfl rfl rfl rfl
    exact ⟨_, h, s, (Option.some_get _).symm, hr, hi, h1, h2, by rw [h3]; rfl⟩

example : ∃ s, Conf.Run rAggr (Conf.of ((newAggr rAggr .max [.args [s%"a"]]).get rfl)) [.call 0 [some 3], .call 1 [some 4]] s ∧ Race s (.acc 0) :=
  C196_race rAggr _ (-1000) (some 3) (some 4) 3 4 rfl rfl rfl rfl

example (s : Conf Int Int) (h : Conf.Run rAggr (Conf.of ((newAggr rAggr .count [.args [s%"a"]]).get rfl)) [.call 0 [some 3], .call 1 [some 4]] s) :
    s.aggr.counts ≤ 2 := C196_never_more _ _ _ _ h

/-- Two goroutines one after the other, the second row refused. -/
example : ∃ h s, Conf.Run rAggr (Conf.of ((newAggr rAggr .sum [.args [s%"a"]]).get rfl)) h s ∧ OneAtATime h ∧ (∀ t, s.pc t = none) ∧
    rows h = [[some 3], [some 99]] ∧ results h = [.ok (), .err] := by
  let a := (newAggr rAggr .sum [.args [s%"a"]]).get rfl
  have e : Conf.of a = ⟨a, two none none⟩ := by
    simp only [Conf.of]; congr 1; funext i; rcases i with _ | _ | i <;> rfl
  have h0 := Conf.Run.step (Conf.Run.refl (E := rAggr) (Conf.of a)) (.call (Conf.of a) 0 [some 3] rfl)
  rw [show (Conf.of a).pc = two none none from by rw [e]] at h0
  simp only [upd_two0, Option.toList, List.nil_append] at h0
  have h1 := Conf.Run.step (run_end0 h0) (.call _ 1 [some 99] rfl)
  simp only [upd_two1, Option.toList] at h1
  have h2 := run_end1 h1
  refine ⟨_, _, h2, ?_, fun t => by rcases t with _ | _ | t <;> rfl, rfl, rfl⟩
  intro pre post he
  have hp : pre = (pre ++ post).take pre.length := by simp
  rw [hp, ← he]
  generalize pre.length = n
  rcases n with _ | _ | _ | _ | n <;> simp [rows, results]

end Verif.Props
