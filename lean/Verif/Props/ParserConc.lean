import Verif.Lemmas.ParserConc
import Verif.Props.Parser
/-! C167, C168: parser objects and goroutines. -/
namespace Verif.Props
open Verif Verif.Lex Verif.Gram Verif.Query Verif.Parse Verif.PConc Verif.Spec.PConc
open Verif.Spec
open Verif.Net (upd)
open Verif.Lemmas.ConnConc (upd_same upd_other)

/-- C167 for calls of the same parser that do not overlap, whatever the other parsers are used for meanwhile and by
whichever goroutines: the answer is an error if a call of this parser that had returned before was a syntax error, and
that of a new parser otherwise. Missing: calls that overlap, see `C167_mixed` and `C167_fails`; earlier syntax errors,
see C66. -/
theorem C167_apart_partial (toUint : Str → Option Nat) (h : List Event) (s : Conf) (run : Conf.Run toUint Conf.init h s) (ha : Apart h)
    (pre post : List Event) (t p : Nat) (q : Str) (r : Res (List Statement)) (e : h = pre ++ .ret t p q r :: post) :
    ((∃ b, b ∈ answered p pre ∧ NonEmpty b ∧ ¬ WellFormed b) → r = .err) ∧
    ((¬ ∃ b, b ∈ answered p pre ∧ NonEmpty b ∧ ¬ WellFormed b) → r = parseQuery toUint q) := by
  have := (at_run toUint run ha).2 pre post t p q r e
  subst this
  exact C66_history toUint (answered p pre) q

/-- C167: if every parser is used by one goroutine only, calls of the same parser do not overlap, so the above holds of
each of them: parsers of different goroutines do not disturb each other. -/
theorem C167_own (toUint : Str → Option Nat) (h : List Event) (s : Conf) (run : Conf.Run toUint Conf.init h s) (own : Nat → Nat) (ho : Owned own h) :
    Apart h := (calls_owned toUint run ho).1

/-- A query accepted by a new parser, in parts. -/
private theorem accepted (toUint : Str → Option Nat) {q : Str} {l : List Statement} (h : parseQuery toUint q = .ok l) :
    isEmptyQuery q = false ∧ ∃ t, treeOf q = some t ∧ Visit.statements toUint t = .ok l := by
  rw [parseQuery, Parser.parseString] at h
  split at h
  · cases h
  · rename_i he
    refine ⟨by simpa using he, ?_⟩
    cases ht : treeOf q with
    | none => rw [ht] at h; cases h
    | some t => rw [ht] at h; exact ⟨t, rfl, h⟩

private theorem quiet_new : Quiet Obj.new newParser := ⟨rfl, fun b hb => (by cases hb)⟩

/-- C167 is false for overlapping calls, whatever the two queries are: a goroutine can get the statements of the query
that another goroutine passed to the same parser. -/
theorem C167_mixed (toUint : Str → Option Nat) (qa qb : Str) (la lb : List Statement) (ha : parseQuery toUint qa = .ok la) (hb : parseQuery toUint qb = .ok lb) :
    ∃ s, Conf.Run toUint Conf.init [.call 0 0 qa, .call 1 0 qb, .ret 1 0 qb (.ok lb), .ret 0 0 qa (.ok lb)] s := by
  obtain ⟨ea, ta, ta1, ta2⟩ := accepted toUint ha
  obtain ⟨eb, tb, tb1, tb2⟩ := accepted toUint hb
  obtain ⟨x, hx, qx, -⟩ := steps_last toUint quiet_new rfl ea ta1 ta2
  obtain ⟨y, hy, -, sy⟩ := steps_last toUint qx rfl eb tb1 tb2
  have r1 := Conf.Run.step (.refl Conf.init) (.call (toUint := toUint) Conf.init 0 0 qa rfl)
  have r2 := hx.run (t := 0) (p := 0) (q := qa) r1 rfl rfl
  have r3 := Conf.Run.step r2 (.call _ 1 0 qb rfl)
  have r4 := (hy.trans (.head (.read ..) (.refl _ _))).run (t := 1) (p := 0) (q := qb) r3 rfl rfl
  have r5 := Conf.Run.step r4 (.ret _ 1 0 qb (.ok lb) (by rw [← sy]; rfl))
  have r6 := (Steps.head (.read ..) (.refl _ _)).run (t := 0) (p := 0) (q := qa) r5 rfl rfl
  have r7 := Conf.Run.step r6 (.ret _ 0 0 qa (.ok lb) (by rw [← sy]; rfl))
  exact ⟨_, r7⟩

/-- C167 is false for overlapping calls: a syntax error in the query of another goroutine makes a call that had begun
before, on a good query, fail. -/
theorem C167_spoiled (toUint : Str → Option Nat) (qa qb : Str) (la : List Statement) (ha : parseQuery toUint qa = .ok la) (hb : NonEmpty qb) (hw : ¬ WellFormed qb) :
    ∃ s, Conf.Run toUint Conf.init [.call 0 0 qa, .call 1 0 qb, .ret 1 0 qb .err, .ret 0 0 qa .err] s := by
  obtain ⟨ea, ta, ta1, ta2⟩ := accepted toUint ha
  have eb : isEmptyQuery qb = false := (nonEmpty_iff qb).2 hb
  have tb : treeOf qb = none := by
    cases ht : treeOf qb with
    | none => rfl
    | some t => exact absurd ⟨hb, treeOf_some.1 ⟨t, ht⟩⟩ hw
  obtain ⟨x, hx, qx⟩ := steps_check toUint quiet_new ea
  obtain ⟨y, hy, qy⟩ := steps_check toUint qx eb
  rw [ta1] at hx
  rw [tb] at hy
  have r1 := Conf.Run.step (.refl Conf.init) (.call (toUint := toUint) Conf.init 0 0 qa rfl)
  have r2 := hx.run (t := 0) (p := 0) (q := qa) r1 rfl rfl
  have r3 := Conf.Run.step r2 (.call _ 1 0 qb rfl)
  have r4 := (hy.trans (.head (.write ..) (.head (.read ..) (.refl _ _)))).run (t := 1) (p := 0) (q := qb) r3 rfl rfl
  have r5 := Conf.Run.step r4 (.ret _ 1 0 qb .err rfl)
  have r6 := (Steps.head (.read ..) (.refl _ _)).run (t := 0) (p := 0) (q := qa) r5 rfl rfl
  have r7 := Conf.Run.step r6 (.ret _ 0 0 qa .err rfl)
  exact ⟨_, r7⟩

set_option maxRecDepth 10000 in
/-- C167 is false of the code: a goroutine that passed `BEGIN` to a parser is answered with the statement of another
goroutine's `COMMIT`. -/
theorem C167_fails : ∃ h s pre post t p q r, Conf.Run (fun _ => none) Conf.init h s ∧ h = pre ++ .ret t p q r :: post ∧
    (∀ b, b ∈ answered p h → WellFormed b) ∧ r ≠ parseQuery (fun _ => none) q := by
  have e1 : parseQuery (fun _ => none) s%"BEGIN" = .ok [.begin] := by decide +kernel
  have e2 : parseQuery (fun _ => none) s%"COMMIT" = .ok [.commit] := by decide +kernel
  obtain ⟨s, hs⟩ := C167_mixed (fun _ => none) s%"BEGIN" s%"COMMIT" _ _ e1 e2
  refine ⟨_, s, [.call 0 0 s%"BEGIN", .call 1 0 s%"COMMIT", .ret 1 0 s%"COMMIT" (.ok [.commit])], [], 0, 0, s%"BEGIN", .ok [.commit], hs, rfl, ?_, ?_⟩
  · intro b hb
    have : b = s%"COMMIT" ∨ b = s%"BEGIN" := by simpa [answered] using hb
    rcases this with rfl | rfl
    · obtain ⟨e, t, ht, -⟩ := accepted _ e2
      exact ⟨(nonEmpty_iff _).1 e, treeOf_some.1 ⟨t, ht⟩⟩
    · obtain ⟨e, t, ht, -⟩ := accepted _ e1
      exact ⟨(nonEmpty_iff _).1 e, treeOf_some.1 ⟨t, ht⟩⟩
  · rw [e1]; decide

/-- C168 for calls of the same parser that do not overlap: no field of any parser is in a data race. Missing: calls that
overlap, see `C168_race`. -/
theorem C168_apart_partial (toUint : Str → Option Nat) (h : List Event) (s : Conf) (run : Conf.Run toUint Conf.init h s) (ha : Apart h) (p : Nat) (f : Field) :
    ¬ Race s p f := by
  rintro ⟨t, u, q, q', a, b, w, hne, ht, hu, -⟩
  rcases (at_run toUint run ha).1 p with ⟨_, h2, _⟩ | ⟨_, v, _, _, _, h3, _⟩
  · exact h2 _ _ _ ht
  · exact hne ((h3 _ _ _ ht).trans (h3 _ _ _ hu).symm)

/-- C168 is false of the code: any two non-empty queries passed to the same parser at the same time race, from the first
assignment on. -/
theorem C168_race (toUint : Str → Option Nat) (qa qb : Str) (ha : NonEmpty qa) (hb : NonEmpty qb) :
    ∃ s, Conf.Run toUint Conf.init [.call 0 0 qa, .call 1 0 qb] s ∧ Race s 0 .input := by
  have ea : isEmptyQuery qa = false := (nonEmpty_iff qa).2 ha
  have eb : isEmptyQuery qb = false := (nonEmpty_iff qb).2 hb
  have r1 := Conf.Run.step (.refl Conf.init) (.call (toUint := toUint) Conf.init 0 0 qa rfl)
  have r2 := Conf.Run.step r1 (.call _ 1 0 qb rfl)
  obtain ⟨k, hk⟩ : ∃ k, code toUint qa = .new qa fun i => .write .input i k := by rw [code, if_neg (by simp [ea])]; exact ⟨_, rfl⟩
  obtain ⟨k', hk'⟩ : ∃ k, code toUint qb = .new qb fun i => .write .input i k := by rw [code, if_neg (by simp [eb])]; exact ⟨_, rfl⟩
  have r3 := (Steps.head (.new ..) (.refl _ _)).run (t := 0) (p := 0) (q := qa) r2 rfl (congrArg (fun a => some (0, qa, a)) hk)
  have r4 := (Steps.head (.new ..) (.refl _ _)).run (t := 1) (p := 0) (q := qb) r3 rfl (congrArg (fun a => some (0, qb, a)) hk')
  exact ⟨_, r4, 0, 1, qa, qb, _, _, true, (by decide), rfl, rfl, rfl, rfl⟩

/-- C168 is false of the code, for two queries. -/
theorem C168_fails : ∃ h s p f, Conf.Run (fun _ => none) Conf.init h s ∧ Race s p f := by
  obtain ⟨s, r, hr⟩ := C168_race (fun _ => none) s%"BEGIN" s%"COMMIT" (by simp [NonEmpty]) (by simp [NonEmpty])
  exact ⟨_, s, 0, .input, r, hr⟩

-- two goroutines on two parsers at the same time: their calls overlap, but not on one parser
example : Owned (fun p => p) [.call 0 0 s%"BEGIN", .call 1 1 s%"x", .ret 1 1 s%"x" .err, .ret 0 0 s%"BEGIN" (.ok [.begin])] := by
  intro t p q h
  simp at h
  rcases h with ⟨rfl, rfl, -⟩ | ⟨rfl, rfl, -⟩ <;> rfl

-- two goroutines taking turns on one parser
example : Apart [.call 0 0 s%"BEGIN", .ret 0 0 s%"BEGIN" (.ok [.begin]), .call 1 0 s%"COMMIT", .ret 1 0 s%"COMMIT" (.ok [.commit])] := by
  intro pre post t p q h
  rcases pre with _ | ⟨e1, _ | ⟨e2, _ | ⟨e3, _ | ⟨e4, pre⟩⟩⟩⟩ <;> simp at h
  · obtain ⟨⟨rfl, rfl, rfl⟩, -⟩ := h; rfl
  · obtain ⟨rfl, rfl, ⟨rfl, rfl, rfl⟩, -⟩ := h; rfl

-- and such a run exists
set_option maxRecDepth 10000 in
example : ∃ s, Conf.Run (fun _ => none) Conf.init [.call 0 0 s%"BEGIN", .ret 0 0 s%"BEGIN" (.ok [.begin])] s := by
  have e1 : parseQuery (fun _ => none) s%"BEGIN" = .ok [.begin] := by decide +kernel
  obtain ⟨ea, ta, ta1, ta2⟩ := accepted _ e1
  obtain ⟨x, hx, qx, sx⟩ := steps_last _ quiet_new rfl ea ta1 ta2
  have r1 := Conf.Run.step (.refl Conf.init) (.call (toUint := fun _ => none) Conf.init 0 0 s%"BEGIN" rfl)
  have r2 := (hx.trans (.head (.read ..) (.refl _ _))).run (t := 0) (p := 0) (q := s%"BEGIN") r1 rfl rfl
  exact ⟨_, Conf.Run.step r2 (.ret _ 0 0 s%"BEGIN" (.ok [.begin]) (by rw [← sx]; rfl))⟩

end Verif.Props
