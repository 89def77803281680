import Verif.Props.AggrMore
/-! C30, C31, C34: exactly which two rows share a group. -/
namespace Verif.Props
open Verif Verif.Fn Verif.Spec Verif.Lemmas

variable {V F : Type}

/-- The texts of group values are determined by them. -/
theorem texts_unique {E : Env V F} {vs : List (Option V)} {ts us : List Str} (h : Texts E vs ts) (h' : Texts E vs us) : ts = us := by
  induction h generalizing us with
  | nil => cases h'; rfl
  | cons hr _ ih =>
    cases h' with
    | cons hr' h' => rw [hr] at hr'; cases hr'; rw [ih h']

/-- C30 is false of the code for every two rows whose group values have the same texts joined with commas: they make one
result row, which shows the group values of the first and aggregates both, whatever the values are. -/
theorem C30_merged_fails (E : Env V F) (b b' : Aggr V F) (hs : Started E b) (hg : b.groupBys ≠ []) (r s : List (Option V))
    (h : feed E b [r, s] = some b') (ts us : List Str) (hr : Texts E (r.take b.groupBys.length) ts)
    (hu : Texts E (s.take b.groupBys.length) us) (he : Str.join s%"," ts = Str.join s%"," us)
    (ch : Choice) (hc : Lawful ch) (ob : OrderBy) :
    ∃ out, b'.finalize E ch ob = some { columns := b.columns, rows := [out] } ∧
      IsGroupRow E b.kind b.groupBys.length b.args.length (r.take b.groupBys.length) [r, s] out := by
  obtain ⟨keys, outs, h1, h2, h3, h4⟩ := C30_per_key E b b' hs hg [r, s] h ch hc ob
  have hk : ∀ k, k ∈ keys ↔ k = Str.join s%"," ts := by
    intro k
    rw [h3]
    constructor
    · rintro ⟨x, hx, us', hx', rfl⟩
      simp only [List.mem_cons, List.not_mem_nil, or_false] at hx
      rcases hx with rfl | rfl
      · rw [texts_unique hx' hr]
      · rw [texts_unique hx' hu, he]
    · rintro rfl
      exact ⟨r, by simp, ts, hr, rfl⟩
  have hkeys : keys = [Str.join s%"," ts] := by
    cases keys with
    | nil => exact absurd ((hk _).mpr rfl) (by simp)
    | cons a l =>
      have ha := (hk a).mp (by simp)
      cases l with
      | nil => rw [ha]
      | cons c l =>
        have hc := (hk c).mp (by simp)
        simp [ha, hc] at h2
  rw [hkeys] at h4
  cases h4 with
  | cons hx hn =>
    cases hn
    obtain ⟨p, x, rest, hp, hf, hrow⟩ := hx
    have hpr : p r = true := (hp r).mpr ⟨ts, hr, rfl⟩
    have hps : p s = true := (hp s).mpr ⟨us, hu, he⟩
    simp only [List.filter_cons, hpr, hps, if_true, List.filter_nil] at hf
    injection hf with e1 e2
    subst e1
    rw [← e2] at hrow
    exact ⟨_, h1, hrow⟩

/-- C31, exactly: two accepted rows end up in two result rows if and only if the texts of their group values, joined with
commas, differ. -/
theorem C31_pair_iff (E : Env V F) (b b' : Aggr V F) (hs : Started E b) (hg : b.groupBys ≠ []) (r s : List (Option V))
    (h : feed E b [r, s] = some b') (ch : Choice) (hc : Lawful ch) (ob : OrderBy) :
    ∃ rs ts us, b'.finalize E ch ob = some rs ∧ Texts E (r.take b.groupBys.length) ts ∧ Texts E (s.take b.groupBys.length) us ∧
      (rs.rows.length = 2 ↔ Str.join s%"," ts ≠ Str.join s%"," us) ∧ (rs.rows.length = 1 ↔ Str.join s%"," ts = Str.join s%"," us) := by
  have hacc := (C30_accepted E b hs hg [r, s]).mp ⟨b', h⟩
  obtain ⟨_, ⟨ts, hr⟩, _⟩ := hacc r (by simp)
  obtain ⟨_, ⟨us, hu⟩, _⟩ := hacc s (by simp)
  by_cases he : Str.join s%"," ts = Str.join s%"," us
  · obtain ⟨out, ho, _⟩ := C30_merged_fails E b b' hs hg r s h ts us hr hu he ch hc ob
    exact ⟨_, ts, us, ho, hr, hu, by simp [he], by simp [he]⟩
  · obtain ⟨keys, outs, h1, h2, h3, h4⟩ := C30_per_key E b b' hs hg [r, s] h ch hc ob
    have hp : keys.Perm [Str.join s%"," ts, Str.join s%"," us] := by
      rw [List.perm_ext_iff_of_nodup h2 (by simp [he])]
      intro k
      rw [h3]
      constructor
      · rintro ⟨x, hx, us', hx', rfl⟩
        simp only [List.mem_cons, List.not_mem_nil, or_false] at hx
        rcases hx with rfl | rfl
        · rw [texts_unique hx' hr]; simp
        · rw [texts_unique hx' hu]; simp
      · intro hk
        simp only [List.mem_cons, List.not_mem_nil, or_false] at hk
        rcases hk with rfl | rfl
        · exact ⟨r, by simp, ts, hr, rfl⟩
        · exact ⟨s, by simp, us, hu, rfl⟩
    have hl : outs.length = 2 := by
      rw [← pairwise2_length h4, hp.length_eq]; rfl
    exact ⟨_, ts, us, h1, hr, hu, by simp [he, hl], by simp [he, hl]⟩

example : ∃ (b b' : Aggr ExV Nat) (r s : List (Option ExV)) (ts us : List Str), Started exEnv b ∧ b.groupBys ≠ [] ∧ feed exEnv b [r, s] = some b' ∧
    Texts exEnv (r.take b.groupBys.length) ts ∧ Texts exEnv (s.take b.groupBys.length) us ∧ ts ≠ us ∧ Str.join s%"," ts = Str.join s%"," us := by
  refine ⟨⟨.sum, s%"SUM", [s%"x"], [s%"g", s%"h", s%"SUM(x)"], [0, 0, 0], 0, [s%"g", s%"h"], [], [], []⟩, _, [some (.t s%"a,b"), some (.t s%"c"), some (.n 1)],
    [some (.t s%"a"), some (.t s%"b,c"), some (.n 2)], [s%"a,b", s%"c"], [s%"a", s%"b,c"],
    .inr ⟨.sum, [.args [s%"x"], .groupBys [s%"g", s%"h"]], rfl⟩, by decide, rfl, ?_, ?_, by decide, by decide⟩
  · exact .cons rfl (.cons rfl .nil)
  · exact .cons rfl (.cons rfl .nil)

end Verif.Props
