import Verif.Model.Slices
/-! Memory, slices and `append`. -/
namespace Verif.Lemmas
open Verif Verif.Slices

variable {α : Type}

theorem cells_set (m : Mem α) (n k : Nat) (a : List (Option α)) (hn : n < m.length) : cells (m.set n a) k = if k = n then a else cells m k := by
  unfold cells
  by_cases h : k = n
  · subst h; simp [hn]
  · rw [List.getElem?_set_ne (Ne.symm h), if_neg h]

theorem cells_old (m : Mem α) (a : List (Option α)) (k : Nat) (h : k < m.length) : cells (m ++ [a]) k = cells m k := by
  unfold cells
  rw [List.getElem?_append_left h]

theorem cells_new (m : Mem α) (a : List (Option α)) : cells (m ++ [a]) m.length = a := by
  simp [cells]

theorem view_at (m : Mem α) (s : Slice) (j : Nat) : (view m s)[j]? = if j < s.len then (cells m s.arr)[s.off + j]? else none := by
  unfold view
  rw [List.getElem?_take, List.getElem?_drop]

theorem view_length {m : Mem α} {s : Slice} (h : Valid m s) : (view m s).length = s.len := by
  obtain ⟨_, h2, h3⟩ := h
  simp only [view, List.length_take, List.length_drop]
  omega

theorem write_length {a : List (Option α)} {i : Nat} {xs : List α} (h : i + xs.length ≤ a.length) : (write a i xs).length = a.length := by
  simp only [write, List.length_append, List.length_take, List.length_map, List.length_drop]
  omega

theorem write_at {a : List (Option α)} {i : Nat} {xs : List α} (h : i + xs.length ≤ a.length) (k : Nat) :
    (write a i xs)[k]? = if k < i then a[k]? else if k < i + xs.length then (xs.map some)[k - i]? else a[k]? := by
  unfold write
  have ht : (a.take i).length = i := by rw [List.length_take]; omega
  by_cases h1 : k < i
  · rw [if_pos h1, List.getElem?_append_left (by omega), List.getElem?_take_of_lt h1]
  · rw [if_neg h1, List.getElem?_append_right (by omega), ht]
    by_cases h2 : k < i + xs.length
    · rw [if_pos h2, List.getElem?_append_left (by rw [List.length_map]; omega)]
    · rw [if_neg h2, List.getElem?_append_right (by rw [List.length_map]; omega), List.length_map, List.getElem?_drop]
      congr 1
      omega

theorem append_valid {m : Mem α} {s t : Slice} {xs : List α} {g : Nat} (hs : Valid m s) (ht : Valid m t) : Valid (Slices.append g m s xs).1 t := by
  obtain ⟨t1, t2, t3⟩ := ht
  obtain ⟨s1, s2, s3⟩ := hs
  unfold Slices.append
  split
  · next h =>
    refine ⟨by simpa using t1, t2, ?_⟩
    simp only
    rw [cells_set _ _ _ _ s1]
    split
    · next e => rw [write_length (by omega), ← e]; exact t3
    · exact t3
  · refine ⟨by simp only [List.length_append]; omega, t2, ?_⟩
    simp only
    rw [cells_old _ _ _ t1]
    exact t3

theorem append_self {m : Mem α} {s : Slice} {xs : List α} {g : Nat} (hs : Valid m s) :
    Valid (Slices.append g m s xs).1 (Slices.append g m s xs).2 ∧
    view (Slices.append g m s xs).1 (Slices.append g m s xs).2 = view m s ++ xs.map some := by
  have hv := view_length hs
  obtain ⟨s1, s2, s3⟩ := hs
  unfold Slices.append
  split
  · next h =>
    refine ⟨⟨by simpa using s1, h, ?_⟩, ?_⟩
    · simp only [cells_set _ _ _ _ s1, if_true]
      rw [write_length (by omega)]
      exact s3
    · apply List.ext_getElem?
      intro j
      simp only [view_at, cells_set _ _ _ _ s1, if_true]
      rw [write_at (by omega), List.getElem?_append, hv, view_at]
      by_cases h1 : j < s.len
      · simp only [h1, if_true, show j < s.len + xs.length by omega, show s.off + j < s.off + s.len by omega]
      · simp only [h1, if_false, show ¬ s.off + j < s.off + s.len by omega]
        by_cases h2 : j < s.len + xs.length
        · simp only [h2, if_true, show s.off + j < s.off + s.len + xs.length by omega]
          congr 1
          omega
        · simp only [h2, if_false]
          rw [List.getElem?_eq_none]
          rw [List.length_map]; omega
  · refine ⟨⟨by simp only [List.length_append, List.length_singleton]; omega, by simp only; omega, ?_⟩, ?_⟩
    · simp only [cells_new, List.length_append, List.length_map, List.length_replicate, hv]
      omega
    · simp only [view, cells_new, List.drop_zero]
      rw [← List.append_assoc, List.take_left' (by rw [List.length_append, List.length_map]; rw [view] at hv; rw [hv])]

theorem append_other {m : Mem α} {s t : Slice} {xs : List α} {g : Nat} (hs : Valid m s) (ht : Valid m t)
    (h : s.cap < s.len + xs.length ∨ t.arr ≠ s.arr ∨ t.off + t.len ≤ s.off + s.len ∨ s.off + s.len + xs.length ≤ t.off) :
    view (Slices.append g m s xs).1 t = view m t := by
  obtain ⟨s1, s2, s3⟩ := hs
  unfold Slices.append
  split
  · next hr =>
    apply List.ext_getElem?
    intro j
    rw [view_at, view_at]
    split
    · next hj =>
      simp only [cells_set _ _ _ _ s1]
      split
      · next e =>
        rw [write_at (by omega), e]
        rcases h with h | h | h | h
        · omega
        · exact absurd e h
        · rw [if_pos (by omega)]
        · rw [if_neg (by omega), if_neg (by omega)]
      · rfl
    · rfl
  · simp only [view, cells_old _ _ _ ht.1]

theorem append_arr {m : Mem α} {s : Slice} {xs : List α} {g : Nat} :
    (Slices.append g m s xs).2.arr = s.arr ∧ s.len + xs.length ≤ s.cap ∧ (Slices.append g m s xs).2 = { s with len := s.len + xs.length } ∨
    (Slices.append g m s xs).2.arr = m.length ∧ s.cap < s.len + xs.length ∧ (Slices.append g m s xs).2.off = 0 ∧
      (Slices.append g m s xs).2.len = s.len + xs.length := by
  unfold Slices.append
  split
  · next h => exact .inl ⟨rfl, h, rfl⟩
  · next h => exact .inr ⟨rfl, by omega, rfl, rfl⟩

theorem append_length {m : Mem α} {s : Slice} {xs : List α} {g : Nat} : m.length ≤ (Slices.append g m s xs).1.length := by
  unfold Slices.append
  split <;> simp

theorem alloc_self (m : Mem α) (xs : List α) : Valid (alloc m xs).1 (alloc m xs).2 ∧ view (alloc m xs).1 (alloc m xs).2 = xs.map some := by
  refine ⟨⟨by simp [alloc], Nat.le_refl _, by simp [alloc, cells_new]⟩, ?_⟩
  simp only [alloc, view, cells_new, List.drop_zero]
  rw [List.take_of_length_le (by simp)]

theorem alloc_other {m : Mem α} (xs : List α) {t : Slice} (ht : Valid m t) : Valid (alloc m xs).1 t ∧ view (alloc m xs).1 t = view m t := by
  refine ⟨⟨by simp only [alloc, List.length_append]; have := ht.1; omega, ht.2.1, ?_⟩, ?_⟩
  · simp only [alloc]; rw [cells_old _ _ _ ht.1]; exact ht.2.2
  · simp only [alloc, view, cells_old _ _ _ ht.1]

end Verif.Lemmas
