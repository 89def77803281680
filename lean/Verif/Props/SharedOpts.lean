import Verif.Lemmas.Slices
/-! C185: options given as a slice. -/
namespace Verif.Props
open Verif Verif.Slices Verif.Lemmas

variable {α : Type}

/-- What an append to the first `n` elements of a slice makes of the whole slice. -/
theorem append_prefix (m : Mem α) (s : Slice) (n : Nat) (xs : List α) (g : Nat) (hs : Valid m s) (hn : n ≤ s.len) :
    view (append g m { s with len := n } xs).1 s =
      if n + xs.length ≤ s.cap then ((view m s).take n ++ xs.map some ++ (view m s).drop (n + xs.length)).take s.len else view m s := by
  have hp : Valid m { s with len := n } := ⟨hs.1, by have := hs.2.1; simp only; omega, hs.2.2⟩
  split
  · next h =>
    have hv := view_length hs
    obtain ⟨s1, s2, s3⟩ := hs
    apply List.ext_getElem?
    intro j
    unfold Slices.append
    rw [if_pos (by simpa using h)]
    simp only [view_at, cells_set _ _ _ _ s1, if_true]
    rw [write_at (by omega)]
    simp only [List.getElem?_take, List.append_assoc, List.getElem?_append, List.length_take, List.length_map, hv, Nat.min_eq_left hn,
      List.getElem?_drop, view_at]
    by_cases h1 : j < s.len
    · simp only [h1, if_true]
      by_cases h2 : j < n
      · simp only [h2, if_true, show s.off + j < s.off + n by omega]
      · simp only [h2, if_false, show ¬ s.off + j < s.off + n by omega]
        by_cases h3 : j < n + xs.length
        · simp only [show j - n < xs.length by omega, show s.off + j < s.off + n + xs.length by omega, if_true,
            show s.off + j - (s.off + n) = j - n by omega]
        · simp only [show ¬ j - n < xs.length by omega, show ¬ s.off + j < s.off + n + xs.length by omega, if_false,
            show n + xs.length + (j - n - xs.length) = j by omega, h1, if_true]
    · simp only [h1, if_false]
  · next h => exact append_other hp hs (.inl (by simp only; omega))

/-- C185: whatever slice of options is given, exactly its options are applied, in their order, then the option for the
arguments, and then the constructor's own options. -/
theorem C185_applied (m : Mem α) (opts : Slice) (arg : α) (own : List α) (g g' : Nat) (h : Valid m opts) :
    (newAggrWith own g m opts).2 = view m opts ++ own.map some ∧
    (executorWith arg g m opts).2 = view m opts ++ [some arg] ∧
    (aggregatorWith arg own g g' m opts).2 = view m opts ++ some arg :: own.map some := by
  refine ⟨(append_self h).2, (append_self h).2, ?_⟩
  have h1 := append_self (xs := [arg]) (g := g) h
  have h2 := append_self (xs := own) (g := g') h1.1
  simp only [aggregatorWith, newAggrWith]
  rw [h2.2, h1.2]
  simp

/-- C185 for option slices without room behind their last option, for slices in another array, and for slices that end where
the options end: the calls leave them as they were. Missing: slices with options behind those given, see `C185_exact`. -/
theorem C185_kept_partial (m : Mem α) (opts t : Slice) (arg : α) (own : List α) (g g' : Nat) (h : Valid m opts) (ht : Valid m t)
    (hr : opts.len = opts.cap ∨ t.arr ≠ opts.arr ∨ t.off + t.len ≤ opts.off + opts.len) :
    view (newAggrWith own g m opts).1 t = view m t ∧ view (executorWith arg g m opts).1 t = view m t ∧
    view (aggregatorWith arg own g g' m opts).1 t = view m t := by
  have key : ∀ (xs : List α) (g : Nat), view (append g m opts xs).1 t = view m t := by
    intro xs g
    rcases hr with hr | hr | hr
    · cases xs with
      | nil =>
        by_cases hd : t.arr = opts.arr
        · obtain ⟨o1, o2, o3⟩ := h
          apply List.ext_getElem?
          intro j
          unfold Slices.append
          rw [if_pos (by simp only [List.length_nil]; omega)]
          simp only [view_at, cells_set _ _ _ _ o1, hd, if_true]
          rw [write_at (by simp only [List.length_nil]; omega)]
          by_cases h1 : opts.off + opts.len ≤ t.off + j
          · simp [show ¬ t.off + j < opts.off + opts.len by omega]
          · simp [show t.off + j < opts.off + opts.len by omega]
        · exact append_other h ht (.inr (.inl hd))
      | cons x xs => exact append_other h ht (.inl (by simp only [List.length_cons]; omega))
    · exact append_other h ht (.inr (.inl hr))
    · exact append_other h ht (.inr (.inr (.inl hr)))
  refine ⟨key _ _, key _ _, ?_⟩
  have h1 := append_self (xs := [arg]) (g := g) h
  have h2 : Valid (append g m opts [arg]).1 t := append_valid h ht
  simp only [aggregatorWith, newAggrWith]
  rw [← key [arg] g]
  refine append_other h1.1 h2 ?_
  rcases append_arr (m := m) (s := opts) (xs := [arg]) (g := g) with ⟨a1, a2, a3⟩ | ⟨a1, _⟩
  · rcases hr with hr | hr | hr
    · simp only [List.length_cons, List.length_nil] at a2; omega
    · exact .inr (.inl (by rw [a1]; exact hr))
    · refine .inr (.inr (.inl ?_))
      rw [a3]
      simp only
      omega
  · exact .inr (.inl (by rw [a1]; have := ht.1; omega))

/-- C185, exactly, when the first `n` options of a slice are given: if there is room behind them, the call overwrites the
options that stand there with those it appends. -/
theorem C185_exact (m : Mem α) (opts : Slice) (n : Nat) (arg : α) (own : List α) (g : Nat) (h : Valid m opts) (hn : n ≤ opts.len) :
    view (newAggrWith own g m { opts with len := n }).1 opts =
      (if n + own.length ≤ opts.cap then ((view m opts).take n ++ own.map some ++ (view m opts).drop (n + own.length)).take opts.len
       else view m opts) ∧
    view (executorWith arg g m { opts with len := n }).1 opts =
      (if n + 1 ≤ opts.cap then ((view m opts).take n ++ some arg :: (view m opts).drop (n + 1)).take opts.len else view m opts) := by
  refine ⟨append_prefix m opts n own g h hn, ?_⟩
  simp only [executorWith]
  rw [append_prefix m opts n [arg] g h hn]
  simp

/-- C185 is false of the code for all options: given the first `n` of more options, `Executor` and `Aggregator` put the option
for their arguments in the place of the next one of the caller's options. -/
theorem C185_fails (m : Mem α) (opts : Slice) (n : Nat) (arg : α) (own : List α) (g g' : Nat) (h : Valid m opts) (hn : n < opts.len) :
    (view (executorWith arg g m { opts with len := n }).1 opts)[n]? = some (some arg) ∧
    (view (aggregatorWith arg own g g' m { opts with len := n }).1 opts)[n]? = some (some arg) := by
  have hv := view_length h
  have hc : n + 1 ≤ opts.cap := by have := h.2.1; omega
  have e : (view (executorWith arg g m { opts with len := n }).1 opts)[n]? = some (some arg) := by
    rw [(C185_exact m opts n arg own g h (by omega)).2, if_pos hc, List.getElem?_take_of_lt hn,
      List.getElem?_append_right (by rw [List.length_take]; omega), List.length_take, hv, Nat.min_eq_left (by omega)]
    simp
  refine ⟨e, ?_⟩
  have hp : Valid m { opts with len := n } := ⟨h.1, by have := h.2.1; simp only; omega, h.2.2⟩
  have hv2 : Valid (append g m { opts with len := n } [arg]).1 opts := append_valid hp h
  have ha : (append g m { opts with len := n } [arg]).2 = { opts with len := n + 1 } := by
    unfold Slices.append
    rw [if_pos (by simpa using hc)]
    rfl
  simp only [aggregatorWith, newAggrWith]
  rw [ha, append_prefix _ opts (n + 1) own g' hv2 hn]
  simp only [executorWith] at e
  split
  · rw [List.getElem?_take_of_lt hn, List.append_assoc, List.getElem?_append_left (by rw [List.length_take, view_length hv2]; omega),
      List.getElem?_take_of_lt (by omega)]
    exact e
  · exact e

example : Valid [[some 1, some 2, some 3]] { arr := 0, len := 3, cap := 3 } ∧
    view (aggregatorWith 9 [7, 8] 4 4 [[some 1, some 2, some 3]] { arr := 0, len := 1, cap := 3 }).1 { arr := 0, len := 3, cap := 3 } =
      [some 1, some 9, some 3] ∧
    (aggregatorWith 9 [7, 8] 4 4 [[some 1, some 2, some 3]] { arr := 0, len := 1, cap := 3 }).2 = [some 1, some 9, some 7, some 8] := by
  unfold Valid; decide

example : Valid [[some 1, some 2, some 3]] { arr := 0, len := 3, cap := 3 } ∧
    view (aggregatorWith 9 [7, 8] 4 4 [[some 1, some 2, some 3]] { arr := 0, len := 3, cap := 3 }).1 { arr := 0, len := 3, cap := 3 } =
      [some 1, some 2, some 3] := by
  unfold Valid; decide

end Verif.Props
