import Verif.Lemmas.ResultSet
import Verif.Lemmas.Str
/-! Rows without a schema. -/
namespace Verif.Rs
open Verif Verif.Lemmas

variable {V F T : Type}

theorem ofNat_repr (n : Nat) : Str.ofNat n = n.repr.toList := by
  rw [Nat.toList_repr]
  induction n using Nat.strongRecOn with
  | ind n ih =>
    rw [Str.ofNat, Nat.toDigits_eq_if (by decide)]
    have hd : ∀ d : Nat, d < 10 → Str.digitChar d = d.digitChar := by decide
    by_cases h : n < 10
    · rw [dif_pos h, if_pos h, hd n h]
    · rw [dif_neg h, if_neg h, ih (n / 10) (by omega), hd _ (by omega)]

theorem ofNat_head {n : Nat} (h : 0 < n) : ∃ d r, 1 ≤ d ∧ d < 10 ∧ Str.ofNat n = Str.digitChar d :: r := by
  induction n using Nat.strongRecOn with
  | ind n ih =>
    rw [Str.ofNat]
    by_cases hn : n < 10
    · exact ⟨n, [], h, hn, by rw [dif_pos hn]⟩
    · obtain ⟨d, r, h1, h2, h3⟩ := ih (n / 10) (by omega) (by omega)
      exact ⟨d, r ++ [Str.digitChar (n % 10)], h1, h2, by rw [dif_neg hn, h3]; rfl⟩

theorem le_total' (a b : Str) : (decide (¬ b < a) || decide (¬ a < b)) = true := by
  have := List.le_total a b
  simp only [Bool.or_eq_true, decide_eq_true_eq]
  exact this

theorem le_trans' (a b c : Str) (h1 : decide (¬ b < a) = true) (h2 : decide (¬ c < b) = true) : decide (¬ c < a) = true := by
  rw [decide_eq_true_eq] at *
  exact List.le_trans (l₁ := a) (l₂ := b) (l₃ := c) h1 h2

theorem sortKeys_perm (ks : List Str) : (sortKeys ks).Perm ks := List.mergeSort_perm _ _

theorem sortKeys_sorted (ks : List Str) (h : ks.Nodup) : (sortKeys ks).Pairwise (· < ·) := by
  have h1 : (sortKeys ks).Pairwise (fun a b => decide (¬ b < a) = true) :=
    List.pairwise_mergeSort le_trans' (fun a b => le_total' a b) ks
  have h2 : (sortKeys ks).Nodup := (sortKeys_perm ks).nodup_iff.mpr h
  refine (h1.and h2).imp ?_
  intro a b ⟨h3, h4⟩
  rw [decide_eq_true_eq] at h3
  exact Decidable.byContradiction fun h5 => h4 (List.le_antisymm h3 h5)

theorem keys_objectOf (names : List Str) (hn : names.Nodup) (vs : List (Option V)) : (objectOf names vs).keys = names := by
  have key : ∀ (cs : List (Str × Nat)) (m : GoMap Str (Option V)), (cs.map (·.1)).Nodup → (∀ c ∈ cs.map (·.1), c ∉ m.keys) →
      GoMap.keys (cs.foldl (fun m e => m.set e.1 (if e.2 < vs.length then vs[e.2]?.join else none)) m) = m.keys ++ cs.map (·.1) := by
    intro cs
    induction cs with
    | nil => intro m _ _; simp
    | cons c cs ih =>
      intro m hn hm
      rw [List.map_cons, List.nodup_cons] at hn
      have h0 : m.get? c.1 = none := by
        have := hm c.1 (by simp)
        rw [GoMap.mem_keys_iff] at this
        simpa using this
      rw [List.foldl_cons, ih _ hn.2, GoMap.keys_set_of_not_mem _ _ _ h0]
      · simp
      · intro x hx hx'
        rw [GoMap.keys_set_of_not_mem _ _ _ h0, List.mem_append, List.mem_singleton] at hx'
        rcases hx' with hx' | rfl
        · exact hm x (by rw [List.map_cons]; exact List.mem_cons.mpr (.inr hx)) hx'
        · exact hn.1 hx
  have h := key names.zipIdx [] (by simpa using hn) (by simp [GoMap.keys])
  rw [objectOf, h]
  simp [GoMap.keys]

theorem get_not_key {m : GoMap Str (Option V)} {k : Str} (h : k ∉ m.keys) : m.get? k = none := by
  rw [GoMap.mem_keys_iff] at h
  simpa using h

/-- The names of the values of a row without a schema. -/
def numbers (n : Nat) : List Str := (List.range n).map (fun i => Str.ofNat (i + 1))

theorem numbers_nodup (n : Nat) : (numbers n).Nodup := by
  rw [numbers, List.Nodup, List.pairwise_map]
  exact List.nodup_range.imp (fun h he => h (by have := Str.ofNat_inj he; omega))

theorem numbers_get {n i : Nat} (h : i < n) : (numbers n)[i]? = some (Str.ofNat (i + 1)) := by
  simp [numbers, h]

theorem not_lt_ten {k : Nat} (h : 0 < k) : ¬ Str.ofNat k < s%"1" ∧ (k ≠ 1 → ¬ Str.ofNat k < s%"10") := by
  obtain ⟨d, r, h1, h2, h3⟩ := ofNat_head h
  have hc : ¬ Str.digitChar d < '1' := by
    have : ∀ d : Nat, d < 10 → 1 ≤ d → ¬ Str.digitChar d < '1' := by decide
    exact this d h2 h1
  constructor
  · rw [h3, List.cons_lt_cons_iff]
    rintro (h | ⟨-, h⟩)
    · exact hc h
    · exact absurd h (List.not_lt_nil _)
  · intro hk
    rw [h3, List.cons_lt_cons_iff]
    rintro (h | ⟨he, h⟩)
    · exact hc h
    · cases r with
      | nil =>
        have h4 : d = 1 := by
          have : ∀ d : Nat, d < 10 → Str.digitChar d = '1' → d = 1 := by decide
          exact this d h2 he
        have h5 : Str.ofNat k = Str.ofNat 1 := by rw [h3, h4, Str.ofNat]; rfl
        exact hk (Str.ofNat_inj h5)
      | cons c r =>
        rw [List.cons_lt_cons_iff] at h
        have hdig := Str.ofNat_digits k c (by rw [h3]; simp)
        rcases h with h | ⟨-, h⟩
        · simp only [Str.isDigit, Bool.and_eq_true, decide_eq_true_eq] at hdig
          have h6 : c.toNat < '0'.toNat := h
          have h7 : '0'.toNat = 48 := rfl
          omega
        · exact absurd h (List.not_lt_nil _)

theorem sorted_numbers {n : Nat} (h : 10 ≤ n) : ∃ l, sortKeys (numbers n) = s%"1" :: s%"10" :: l := by
  have hs := sortKeys_sorted _ (numbers_nodup n)
  have hp := sortKeys_perm (numbers n)
  have hm : ∀ x ∈ sortKeys (numbers n), ∃ k, 0 < k ∧ x = Str.ofNat k := by
    intro x hx
    obtain ⟨i, -, rfl⟩ := List.mem_map.mp (hp.mem_iff.mp hx)
    exact ⟨i + 1, by omega, rfl⟩
  have one : Str.ofNat 1 = s%"1" := by rw [Str.ofNat]; rfl
  have ten : Str.ofNat 10 = s%"10" := by rw [Str.ofNat, Str.ofNat]; rfl
  have h1 : s%"1" ∈ sortKeys (numbers n) := hp.mem_iff.mpr (List.mem_map.mpr ⟨0, List.mem_range.mpr (by omega), one⟩)
  have h2 : s%"10" ∈ sortKeys (numbers n) := hp.mem_iff.mpr (List.mem_map.mpr ⟨9, List.mem_range.mpr (by omega), ten⟩)
  generalize sortKeys (numbers n) = L at hs hm h1 h2
  cases L with
  | nil => cases h1
  | cons a L =>
    rw [List.pairwise_cons] at hs
    obtain ⟨k, hk, rfl⟩ := hm a (by simp)
    have ha : Str.ofNat k = s%"1" := by
      rcases List.mem_cons.mp h1 with h | h
      · exact h.symm
      · exact absurd (hs.1 _ h) (not_lt_ten hk).1
    rcases List.mem_cons.mp h2 with h | h2
    · rw [ha] at h; exact absurd h (by decide)
    · cases L with
      | nil => cases h2
      | cons b L =>
        obtain ⟨j, hj, rfl⟩ := hm b (by simp)
        have hj1 : j ≠ 1 := by
          rintro rfl
          have := hs.1 (Str.ofNat 1) (by simp)
          rw [ha, one] at this
          exact absurd this (List.lt_irrefl _)
        rcases List.mem_cons.mp h2 with h | h
        · exact ⟨L, by rw [ha, h]⟩
        · exact absurd ((List.pairwise_cons.mp hs.2).1 _ h) ((not_lt_ten hj).2 hj1)

theorem sorted_few {n : Nat} (h : n ≤ 9) : sortKeys (numbers n) = numbers n := by
  apply List.mergeSort_of_pairwise
  have hd : ∀ i : Nat, i < 9 → Str.ofNat (i + 1) = [Str.digitChar (i + 1)] := by
    intro i hi
    rw [Str.ofNat, dif_pos (by omega)]
  have he : numbers n = (List.range n).map (fun i => [Str.digitChar (i + 1)]) :=
    List.map_congr_left (fun i hi => hd i (by have := List.mem_range.mp hi; omega))
  rw [he]
  have : ∀ n : Nat, n < 10 → ((List.range n).map (fun i => [Str.digitChar (i + 1)])).Pairwise (fun a b => decide (¬ b < a) = true) := by decide +kernel
  exact this n (by omega)

theorem object_numbers (vs : List (Option V)) (i : Nat) (h : i < vs.length) :
    (objectOf (numbers vs.length) vs).get? (Str.ofNat (i + 1)) = some vs[i] := by
  rw [objectOf_get _ (numbers_nodup _) vs i _ (numbers_get h), List.getElem?_eq_getElem h]; rfl

end Verif.Rs
