import Verif.Lemmas.Bind
import Verif.Spec.Bind
/-! The first occurrence of a placeholder. -/
namespace Verif.Lemmas
open Verif Verif.Bind Verif.Spec

theorem index_iff (d q : Str) (n : Nat) : Str.index q d = some n ↔ ∃ p r, FirstIs d q p r ∧ p.length = n := by
  have key : ∀ q n, Str.index q d = some n → ∀ p' r', q = p' ++ d ++ r' → n ≤ p'.length := by
    intro q
    induction q with
    | nil =>
      intro n h p' r' e
      unfold Str.index at h
      split at h
      · cases h; omega
      · cases h
    | cons c q ih =>
      intro n h p' r' e
      unfold Str.index at h
      split at h
      · cases h; omega
      · rename_i hn
        obtain ⟨m, h1, rfl⟩ := Option.map_eq_some_iff.mp h
        cases p' with
        | nil =>
          exfalso
          refine hn ?_
          rw [e, List.nil_append]
          exact List.isPrefixOf_iff_prefix.mpr (List.prefix_append _ _)
        | cons c' p' =>
          simp only [List.cons_append, List.cons.injEq] at e
          have := ih m h1 p' r' (by simpa using e.2)
          simp only [List.length_cons]
          omega
  constructor
  · intro h
    obtain ⟨p, r, e, hl⟩ := Str.index_some h
    exact ⟨p, r, ⟨e, by rw [hl]; exact key q n h⟩, hl⟩
  · rintro ⟨p, r, ⟨e, h⟩, rfl⟩
    cases hi : Str.index q d with
    | none => exact absurd e (Str.index_none hi p r)
    | some m =>
      obtain ⟨p', r', e', hl⟩ := Str.index_some hi
      have h1 := key q m hi p r e
      have h2 := h p' r' e'
      rw [hl] at h2
      rw [Nat.le_antisymm h1 h2]

theorem firstIs_unique {d q p r p' r' : Str} (h : FirstIs d q p r) (h' : FirstIs d q p' r') : p = p' ∧ r = r' := by
  have hl : p.length = p'.length := Nat.le_antisymm (h.2 _ _ h'.1) (h'.2 _ _ h.1)
  have e := h.1.symm.trans h'.1
  rw [List.append_assoc, List.append_assoc] at e
  obtain ⟨e1, e2⟩ := List.append_inj e hl
  exact ⟨e1, List.append_cancel_left e2⟩

theorem index_pos (d q : Str) : (Str.index q d).any (0 < ·) = true ↔ ∃ p r, FirstIs d q p r ∧ p ≠ [] := by
  constructor
  · intro h
    cases hi : Str.index q d with
    | none => rw [hi] at h; cases h
    | some n =>
      rw [hi] at h
      obtain ⟨p, r, h1, h2⟩ := (index_iff d q n).mp hi
      refine ⟨p, r, h1, ?_⟩
      rintro rfl
      simp at h2
      simp [← h2] at h
  · rintro ⟨p, r, h, hp⟩
    rw [(index_iff d q p.length).mpr ⟨p, r, h, rfl⟩]
    simpa using List.length_pos_iff.mpr hp

theorem replace_first {d q p r : Str} (h : FirstIs d q p r) (v : Str) : Str.replaceFirst q d v = p ++ v ++ r := by
  have hi := (index_iff d q p.length).mpr ⟨p, r, h, rfl⟩
  have e := h.1
  subst e
  exact replaceFirst_at p d r v hi

theorem no_first_mark (q : Str) : (¬ ∃ p r, FirstIs ['?'] q p r ∧ p ≠ []) ↔ '?' ∉ q ∨ q.head? = some '?' := by
  constructor
  · intro h
    by_cases hm : '?' ∈ q
    · right
      have : ∃ n, Str.index q ['?'] = some n := by
        cases hi : Str.index q ['?'] with
        | some n => exact ⟨n, rfl⟩
        | none =>
          obtain ⟨a, b, e⟩ := List.append_of_mem hm
          exact absurd (by simpa using e) (Str.index_none hi a b)
      obtain ⟨n, hn⟩ := this
      obtain ⟨p, r, h1, -⟩ := (index_iff _ _ _).mp hn
      have hp : p = [] := Classical.byContradiction fun hp => h ⟨p, r, h1, hp⟩
      rw [h1.1, hp]
      rfl
    · exact Or.inl hm
  · rintro h ⟨p, r, h1, hp⟩
    rcases h with h | h
    · exact h (by rw [h1.1]; simp)
    · obtain ⟨q', hq⟩ : ∃ q', q = '?' :: q' := by
        cases q with
        | nil => cases h
        | cons c q' => simp at h; exact ⟨q', by rw [h]⟩
      have := h1.2 [] q' (by simpa using hq)
      exact hp (List.eq_nil_of_length_eq_zero (by simpa using this))

theorem bindOne_iff (q : Str) (n : Nat) (v q' : Str) : bindOne q n v = some q' ↔
    (∃ p r, FirstIs ['?'] q p r ∧ p ≠ [] ∧ q' = p ++ v ++ r) ∨
    (('?' ∉ q ∨ q.head? = some '?') ∧ ∃ p r, FirstIs ('$' :: Str.ofNat (n + 1)) q p r ∧ p ≠ [] ∧ q' = p ++ v ++ r) := by
  unfold bindOne numbered
  by_cases h1 : (Str.index q ['?']).any (0 < ·) = true
  · rw [if_pos h1]
    obtain ⟨p, r, h2, h3⟩ := (index_pos _ _).mp h1
    rw [replace_first h2]
    constructor
    · intro h; cases h; exact Or.inl ⟨p, r, h2, h3, rfl⟩
    · rintro (⟨p', r', h4, -, rfl⟩ | ⟨h4, -⟩)
      · obtain ⟨rfl, rfl⟩ := firstIs_unique h2 h4; rfl
      · exact absurd ⟨p, r, h2, h3⟩ ((no_first_mark q).mpr h4)
  · rw [if_neg h1]
    have h0 := (no_first_mark q).mp (fun h => h1 ((index_pos _ _).mpr h))
    by_cases h2 : (Str.index q ('$' :: Str.ofNat (n + 1))).any (0 < ·) = true
    · rw [if_pos h2]
      obtain ⟨p, r, h3, h4⟩ := (index_pos _ _).mp h2
      rw [replace_first h3]
      constructor
      · intro h; cases h; exact Or.inr ⟨h0, p, r, h3, h4, rfl⟩
      · rintro (⟨p', r', h4, h5, rfl⟩ | ⟨-, p', r', h5, -, rfl⟩)
        · exact absurd ((index_pos _ _).mpr ⟨p', r', h4, h5⟩) h1
        · obtain ⟨rfl, rfl⟩ := firstIs_unique h3 h5; rfl
    · rw [if_neg h2]
      constructor
      · intro h; cases h
      · rintro (⟨p', r', h4, h5, rfl⟩ | ⟨-, p', r', h5, h6, rfl⟩)
        · exact absurd ((index_pos _ _).mpr ⟨p', r', h4, h5⟩) h1
        · exact absurd ((index_pos _ _).mpr ⟨p', r', h5, h6⟩) h2

theorem firstIs_mark {p r : Str} (h : '?' ∉ p) : FirstIs ['?'] (p ++ '?' :: r) p r := by
  obtain ⟨p', r', h1, h2⟩ := (index_iff ['?'] _ _).mp (Str.index_single_append p r '?' h)
  have e := h1.1
  rw [List.append_assoc] at e
  obtain ⟨e1, e2⟩ := List.append_inj e h2.symm
  have : r = r' := by simpa using e2
  rw [← e1, ← this] at h1
  exact h1

theorem firstIs_number {p r d : Str} (h : '$' ∉ p) : FirstIs ('$' :: d) (p ++ '$' :: d ++ r) p r := by
  refine ⟨rfl, fun p' r' e => ?_⟩
  refine Nat.le_of_not_lt fun hl => h ?_
  have := congrArg (fun l => l[p'.length]?) e
  simp only [List.append_assoc] at this
  rw [List.getElem?_append_left hl, List.getElem?_append_right (Nat.le_refl _)] at this
  simp at this
  exact List.mem_of_getElem? this

end Verif.Lemmas
