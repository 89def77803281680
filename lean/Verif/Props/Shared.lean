import Verif.Lemmas.Slices
import Verif.Spec.Shared
/-! C184: rows that are appended to. -/
namespace Verif.Props
open Verif Verif.Slices Verif.Spec Verif.Lemmas

variable {α : Type}

/-- The rows have the values they should have, and a row of which no other was made shares its array only with rows that end
before it does. -/
structure RowInv (used : List Nat) (st : Mem α × List Slice) (vals : List (List α)) : Prop where
  length : st.2.length = vals.length
  row : ∀ (i : Nat) (r : Slice), st.2[i]? = some r → Valid st.1 r ∧ ∃ v, vals[i]? = some v ∧ view st.1 r = v.map some
  apart : ∀ (i j : Nat) (r t : Slice), st.2[i]? = some r → st.2[j]? = some t → i ∉ used → j ≠ i →
    r.arr ≠ t.arr ∨ (j ∈ used ∧ t.off + t.len ≤ r.off + r.len)

theorem snoc_at {β : Type} {l : List β} {x y : β} {i : Nat} (h : (l ++ [x])[i]? = some y) : l[i]? = some y ∨ i = l.length ∧ y = x := by
  rcases Nat.lt_trichotomy i l.length with hi | hi | hi
  · rw [List.getElem?_append_left hi] at h; exact .inl h
  · subst hi; simp at h; exact .inr ⟨rfl, h.symm⟩
  · rw [List.getElem?_append_right (by omega), List.getElem?_eq_none (by simp; omega)] at h; cases h

theorem at_lt {β : Type} {l : List β} {y : β} {i : Nat} (h : l[i]? = some y) : i < l.length := by
  obtain ⟨h, _⟩ := List.getElem?_eq_some_iff.mp h; exact h

theorem RowInv.more {used : List Nat} {st : Mem α × List Slice} {vals : List (List α)} (h : RowInv used st vals) (k : Nat) : RowInv (k :: used) st vals :=
  ⟨h.length, h.row, fun i j r t hi hj hu hne => by
    rcases h.apart i j r t hi hj (fun hm => hu (List.mem_cons_of_mem _ hm)) hne with h | ⟨h1, h2⟩
    · exact .inl h
    · exact .inr ⟨List.mem_cons_of_mem _ h1, h2⟩⟩

/-- A new row in an array of its own. -/
theorem RowInv.fresh {used : List Nat} {st : Mem α × List Slice} {vals : List (List α)} (h : RowInv used st vals) (m' : Mem α) (r' : Slice) (v' : List α)
    (hr : Valid m' r') (hv : view m' r' = v'.map some) (ha : r'.arr = st.1.length)
    (hold : ∀ (i : Nat) (t : Slice), st.2[i]? = some t → Valid m' t ∧ view m' t = view st.1 t) : RowInv used (m', st.2 ++ [r']) (vals ++ [v']) := by
  refine ⟨by simp [h.length], ?_, ?_⟩
  · intro i t hi
    rcases snoc_at hi with hi | ⟨rfl, rfl⟩
    · obtain ⟨_, v, h1, h2⟩ := h.row i t hi
      obtain ⟨o1, o2⟩ := hold i t hi
      exact ⟨o1, v, by rw [List.getElem?_append_left (at_lt h1)]; exact h1, by simp only; rw [o2, h2]⟩
    · exact ⟨hr, v', by simp [h.length], hv⟩
  · intro i j t u hi hj hu hne
    rcases snoc_at hi with hi' | ⟨rfl, rfl⟩
    · rcases snoc_at hj with hj | ⟨rfl, rfl⟩
      · exact h.apart i j t u hi' hj hu hne
      · have := (h.row i t hi').1.1
        exact .inl (by omega)
    · rcases snoc_at hj with hj | ⟨rfl, rfl⟩
      · have := (h.row j u hj).1.1
        exact .inl (by omega)
      · exact absurd rfl hne

/-- A new row in the array of row `k`. -/
theorem RowInv.shared {used : List Nat} {st : Mem α × List Slice} {vals : List (List α)} (h : RowInv used st vals) (k : Nat) (r : Slice)
    (hk : st.2[k]? = some r) (hu : k ∉ used) (m' : Mem α) (r' : Slice) (v' : List α)
    (hr : Valid m' r') (hv : view m' r' = v'.map some) (ha : r'.arr = r.arr) (he : r.off + r.len ≤ r'.off + r'.len)
    (hold : ∀ (i : Nat) (t : Slice), st.2[i]? = some t → Valid m' t ∧ view m' t = view st.1 t) :
    RowInv (k :: used) (m', st.2 ++ [r']) (vals ++ [v']) := by
  refine ⟨by simp [h.length], ?_, ?_⟩
  · intro i t hi
    rcases snoc_at hi with hi | ⟨rfl, rfl⟩
    · obtain ⟨_, v, h1, h2⟩ := h.row i t hi
      obtain ⟨o1, o2⟩ := hold i t hi
      exact ⟨o1, v, by rw [List.getElem?_append_left (at_lt h1)]; exact h1, by simp only; rw [o2, h2]⟩
    · exact ⟨hr, v', by simp [h.length], hv⟩
  · intro i j t u hi hj hiu hne
    have hik : i ≠ k := fun e => hiu (e ▸ List.mem_cons_self)
    have hiu' : i ∉ used := fun hm => hiu (List.mem_cons_of_mem _ hm)
    rcases snoc_at hi with hi' | ⟨rfl, rfl⟩
    · rcases snoc_at hj with hj | ⟨rfl, rfl⟩
      · exact (h.more k).apart i j t u hi' hj hiu hne
      · rcases h.apart i k t r hi' hk hiu' (Ne.symm hik) with hd | ⟨hm, _⟩
        · exact .inl (by rw [ha]; exact hd)
        · exact absurd hm hu
    · rcases snoc_at hj with hj | ⟨rfl, rfl⟩
      · by_cases hjk : j = k
        · subst hjk
          rw [hk] at hj
          cases hj
          exact .inr ⟨List.mem_cons_self, he⟩
        · rcases h.apart k j r u hk hj hu hjk with hd | ⟨hm, hle⟩
          · exact .inl (by rw [ha]; exact hd)
          · exact .inr ⟨List.mem_cons_of_mem _ hm, by omega⟩
      · exact absurd rfl hne

theorem rowInv_step {used : List Nat} {st : Mem α × List Slice} {vals : List (List α)} (h : RowInv used st vals) (op : RowOp α)
    (hs : ∀ k, sourceOf op = some k → k ∉ used) : ∃ used', RowInv used' (rowStep st op) (rowValues vals op) ∧
      ∀ x, x ∈ used' → x ∈ used ∨ sourceOf op = some x := by
  cases op with
  | new vs =>
    refine ⟨used, ?_, fun x hx => .inl hx⟩
    exact h.fresh _ _ vs (alloc_self _ _).1 (alloc_self _ _).2 rfl fun i t hi => alloc_other vs (h.row i t hi).1
  | same k =>
    refine ⟨k :: used, ?_, fun x hx => (List.mem_cons.mp hx).symm.imp id (fun e => by rw [e]; rfl)⟩
    simp only [rowStep, rowValues]
    cases hk : st.2[k]? with
    | none =>
      have : vals[k]? = none := by
        rw [List.getElem?_eq_none_iff] at hk ⊢
        rw [← h.length]; exact hk
      rw [this]
      exact h.more k
    | some r =>
      obtain ⟨hr, v, h1, h2⟩ := h.row k r hk
      rw [h1]
      exact h.shared k r hk (hs k rfl) st.1 r v hr h2 rfl (Nat.le_refl _) fun i t hi => ⟨(h.row i t hi).1, rfl⟩
  | append k vs g =>
    refine ⟨k :: used, ?_, fun x hx => (List.mem_cons.mp hx).symm.imp id (fun e => by rw [e]; rfl)⟩
    simp only [rowStep, rowValues]
    cases hk : st.2[k]? with
    | none =>
      have : vals[k]? = none := by
        rw [List.getElem?_eq_none_iff] at hk ⊢
        rw [← h.length]; exact hk
      rw [this]
      exact h.more k
    | some r =>
      obtain ⟨hr, v, h1, h2⟩ := h.row k r hk
      rw [h1]
      obtain ⟨s1, s2⟩ := append_self (xs := vs) (g := g) hr
      have s2 : view (Slices.append g st.1 r vs).1 (Slices.append g st.1 r vs).2 = (v ++ vs).map some := by rw [s2, h2, List.map_append]
      have hold : ∀ (i : Nat) (t : Slice), st.2[i]? = some t →
          Valid (Slices.append g st.1 r vs).1 t ∧ view (Slices.append g st.1 r vs).1 t = view st.1 t := by
        intro i t hi
        have ht := (h.row i t hi).1
        refine ⟨append_valid hr ht, append_other hr ht ?_⟩
        by_cases hik : i = k
        · subst hik
          rw [hk] at hi
          cases hi
          exact .inr (.inr (.inl (Nat.le_refl _)))
        · rcases h.apart k i r t hk hi (hs k rfl) hik with hd | ⟨_, hle⟩
          · exact .inr (.inl (Ne.symm hd))
          · exact .inr (.inr (.inl hle))
      rcases append_arr (m := st.1) (s := r) (xs := vs) (g := g) with ⟨a1, _, a2⟩ | ⟨a1, _, _, _⟩
      · exact h.shared k r hk (hs k rfl) _ _ _ s1 s2 a1 (by rw [a2]; simp only; omega) hold
      · exact (h.fresh _ _ _ s1 s2 a1 hold).more k

theorem rowInv_run (h : List (RowOp α)) : ∀ (used : List Nat) (st : Mem α × List Slice) (vals : List (List α)), RowInv used st vals →
    (h.filterMap sourceOf).Nodup → (∀ k ∈ h.filterMap sourceOf, k ∉ used) → ∃ used', RowInv used' (h.foldl rowStep st) (h.foldl rowValues vals) := by
  induction h with
  | nil => intro used st vals hi _ _; exact ⟨used, hi⟩
  | cons op h ih =>
    intro used st vals hi hn hd
    have hs : ∀ k, sourceOf op = some k → k ∉ used := fun k hk => hd k (by simp [hk])
    obtain ⟨used', h1, h2⟩ := rowInv_step hi op hs
    refine ih used' _ _ h1 ?_ ?_
    · cases hk : sourceOf op with
      | none => simpa [List.filterMap_cons, hk] using hn
      | some k => rw [List.filterMap_cons, hk] at hn; exact (List.nodup_cons.mp hn).2
    · intro k hk hku
      rcases h2 k hku with hu | hu
      · refine hd k ?_ hu
        cases ho : sourceOf op with
        | none => simpa [List.filterMap_cons, ho] using hk
        | some x => rw [List.filterMap_cons, ho]; exact List.mem_cons_of_mem _ hk
      · rw [List.filterMap_cons, hu] at hn
        exact (List.nodup_cons.mp hn).1 hk

/-- C184 for programs that make other rows of each row at most once: whatever rows are made and appended to, in any order and
with any room that the runtime leaves, each row has, at the end, exactly the values it was given. Missing: rows that are
appended to twice, see `C184_twice_exact`. -/
theorem C184_once_partial (h : List (RowOp α)) (ho : Once h) :
    (rowRun h).2.map (view (rowRun h).1) = (h.foldl rowValues []).map (·.map some) := by
  obtain ⟨used, hi⟩ := rowInv_run h [] ([], []) [] ⟨rfl, by simp, by simp⟩ ho (by simp)
  apply List.ext_getElem?
  intro i
  rw [List.getElem?_map, List.getElem?_map]
  change ((rowRun h).2[i]?).map _ = _
  cases hr : (rowRun h).2[i]? with
  | none =>
    have : (h.foldl rowValues [])[i]? = none := by
      rw [List.getElem?_eq_none_iff] at hr ⊢
      rw [← hi.length]; exact hr
    rw [this]; rfl
  | some r =>
    obtain ⟨_, v, h1, h2⟩ := hi.row i r hr
    rw [h1]
    simp only [Option.map_some]
    exact congrArg some h2

/-- C184: whatever rows share their arrays, `Append` returns the values of the row with the new ones behind them, and leaves
the row itself as it was. -/
theorem C184_append (m : Mem α) (r : Slice) (vs : List α) (g : Nat) (hr : Valid m r) :
    view (append g m r vs).1 (append g m r vs).2 = view m r ++ vs.map some ∧ view (append g m r vs).1 r = view m r :=
  ⟨(append_self hr).2, append_other hr hr (.inr (.inr (.inl (Nat.le_refl _))))⟩

/-- C184, exactly, for a row `r` that is appended to twice: the row that the first call returned keeps its values, unless
there was room behind `r` for the values of both calls; then the values of the second call take the place of those of the
first. -/
theorem C184_twice_exact (m : Mem α) (r : Slice) (xs ys : List α) (g g' : Nat) (hr : Valid m r) :
    let a := append g m r xs
    let b := append g' a.1 r ys
    view b.1 a.2 = view m r ++
      if r.len + xs.length ≤ r.cap ∧ r.len + ys.length ≤ r.cap then ((ys ++ xs.drop ys.length).take xs.length).map some else xs.map some := by
  intro a b
  have hra : Valid a.1 r := append_valid hr hr
  obtain ⟨va, ea⟩ := append_self (xs := xs) (g := g) hr
  split
  · next h =>
    obtain ⟨hx, hy⟩ := h
    have hv := view_length hr
    have e2 : a.2 = { r with len := r.len + xs.length } := by
      show (Slices.append g m r xs).2 = _
      unfold Slices.append
      rw [if_pos hx]
    apply List.ext_getElem?
    intro j
    obtain ⟨a1, a2, a3⟩ := hra
    obtain ⟨r1, r2, r3⟩ := hr
    have hj : ∀ j, (cells a.1 r.arr)[r.off + j]? = if j < r.len then (cells m r.arr)[r.off + j]? else
        if j < r.len + xs.length then (xs.map some)[j - r.len]? else (cells m r.arr)[r.off + j]? := by
      intro j
      show (cells (Slices.append g m r xs).1 r.arr)[r.off + j]? = _
      unfold Slices.append
      rw [if_pos hx]
      simp only [cells_set _ _ _ _ r1, if_true]
      rw [write_at (by omega)]
      by_cases h1 : j < r.len
      · rw [if_pos h1, if_pos (by omega)]
      · rw [if_neg h1, if_neg (by omega)]
        by_cases h2 : j < r.len + xs.length
        · rw [if_pos h2, if_pos (by omega)]
          congr 1
          omega
        · rw [if_neg h2, if_neg (by omega)]
    rw [view_at, e2]
    simp only
    have hb : cells b.1 r.arr = write (cells a.1 r.arr) (r.off + r.len) ys := by
      show cells (Slices.append g' a.1 r ys).1 r.arr = _
      unfold Slices.append
      rw [if_pos hy]
      simp only [cells_set _ _ _ _ a1, if_true]
    rw [hb, write_at (by omega), hj, List.getElem?_append, hv, view_at]
    by_cases h1 : j < r.len
    · simp only [h1, if_true, show j < r.len + xs.length by omega, show r.off + j < r.off + r.len by omega]
    · simp only [h1, if_false, show ¬ r.off + j < r.off + r.len by omega, List.getElem?_map, List.getElem?_take, List.getElem?_append,
        List.getElem?_drop]
      by_cases h2 : j < r.len + xs.length
      · simp only [h2, if_true, show j - r.len < xs.length by omega]
        by_cases h3 : j - r.len < ys.length
        · simp only [h3, if_true, show r.off + j < r.off + r.len + ys.length by omega]
          congr 2
          omega
        · simp only [h3, if_false, show ¬ r.off + j < r.off + r.len + ys.length by omega]
          congr 2
          omega
      · simp only [h2, if_false, show ¬ j - r.len < xs.length by omega]
        rfl
  · next h =>
    rw [← ea]
    refine append_other hra va ?_
    by_cases hx : r.len + xs.length ≤ r.cap
    · exact .inl (by omega)
    · refine .inr (.inl ?_)
      have hm := hr.1
      rcases append_arr (m := m) (s := r) (xs := xs) (g := g) with ⟨_, a2, _⟩ | ⟨a1, _⟩
      · exact absurd a2 hx
      · rw [a1]; omega

/-- C184 is false of the code for all values: of a row that was appended to, with room to spare, two rows are made; the first
of them has the value of the second one. -/
theorem C184_fails (vs : List α) (x y z : α) (g g₁ g₂ : Nat) (hg : 0 < g) :
    (rowRun [.new vs, .append 0 [x] g, .append 1 [y] g₁, .append 1 [z] g₂]).2.map
      (view (rowRun [.new vs, .append 0 [x] g, .append 1 [y] g₁, .append 1 [z] g₂]).1) =
      [vs.map some, (vs ++ [x]).map some, (vs ++ [x, z]).map some, (vs ++ [x, z]).map some] := by
  obtain ⟨g, rfl⟩ : ∃ k, g = k + 1 := ⟨g - 1, by omega⟩
  have h0 : ¬ vs.length + 1 ≤ vs.length := by omega
  have h1 : vs.length + 1 + 1 ≤ vs.length + 1 + (g + 1) := by omega
  have h2 : vs.length + 1 + 1 - vs.length = 2 := by omega
  have ht : ∀ n, vs.length ≤ n → (vs.map some).take n = vs.map some := fun n hn => List.take_of_length_le (by simpa using hn)
  simp [rowRun, rowStep, alloc, Slices.append, view, cells, write, List.replicate_succ, List.take_append, List.drop_append, h0, h1, h2,
    ht, show vs.length ≤ vs.length + 1 + 1 by omega]

example : Once [RowOp.new [1, 2], .append 0 [3] 4, .append 1 [4] 0, .same 2, .new [7]] ∧
    (rowRun [RowOp.new [1, 2], .append 0 [3] 4, .append 1 [4] 0, .same 2, .new [7]]).2.map
      (view (rowRun [RowOp.new [1, 2], .append 0 [3] 4, .append 1 [4] 0, .same 2, .new [7]]).1) =
      [[some 1, some 2], [some 1, some 2, some 3], [some 1, some 2, some 3, some 4], [some 1, some 2, some 3, some 4], [some 7]] := by
  unfold Once; decide

example : Valid (rowRun [RowOp.new [1, 2], .append 0 [3] 4]).1 { arr := 1, len := 3, cap := 7 } := by
  unfold Valid; decide

end Verif.Props
