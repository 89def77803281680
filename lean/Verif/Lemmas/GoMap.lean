import Verif.Model.Res
/-! Laws of Go maps. -/
namespace Verif.GoMap
variable {κ α : Type} [DecidableEq κ]

@[simp] theorem get?_nil (k : κ) : get? ([] : GoMap κ α) k = none := rfl

theorem get?_set (m : GoMap κ α) (k k' : κ) (v : α) :
    get? (set m k v) k' = if k = k' then some v else get? m k' := by
  induction m with
  | nil => simp [set, get?]
  | cons e m ih =>
    obtain ⟨k0, v0⟩ := e
    simp only [set]
    split
    · next h => subst h; simp only [get?]; split <;> simp_all
    · next h =>
      simp only [get?, ih]
      split
      · next h' => subst h'; rw [if_neg (by intro e; exact h e.symm)]
      · rfl

@[simp] theorem get?_set_self (m : GoMap κ α) (k : κ) (v : α) : get? (set m k v) k = some v := by
  simp [get?_set]

theorem get?_set_ne (m : GoMap κ α) {k k' : κ} (v : α) (h : k ≠ k') : get? (set m k v) k' = get? m k' := by
  simp [get?_set, h]

theorem mem_keys_iff (m : GoMap κ α) (k : κ) : k ∈ keys m ↔ (get? m k).isSome = true := by
  induction m with
  | nil => simp [keys, get?]
  | cons e m ih =>
    obtain ⟨k0, v0⟩ := e
    simp only [keys, List.map_cons, List.mem_cons, get?] at *
    split
    · next h => simp [h]
    · next h =>
      rw [← ih]
      constructor
      · rintro (h' | h')
        · exact absurd h'.symm h
        · exact h'
      · exact Or.inr

theorem keys_set_of_mem (m : GoMap κ α) (k : κ) (v : α) (h : (get? m k).isSome = true) : keys (set m k v) = keys m := by
  induction m with
  | nil => simp [get?] at h
  | cons e m ih =>
    obtain ⟨k0, v0⟩ := e
    simp only [get?] at h
    simp only [set]
    split
    · rfl
    · next hne =>
      rw [if_neg hne] at h
      have := ih h
      simp only [keys, List.map_cons] at *
      rw [this]

theorem keys_set_of_not_mem (m : GoMap κ α) (k : κ) (v : α) (h : get? m k = none) : keys (set m k v) = keys m ++ [k] := by
  induction m with
  | nil => rfl
  | cons e m ih =>
    obtain ⟨k0, v0⟩ := e
    simp only [get?] at h
    simp only [set]
    split
    · next he => rw [if_pos he] at h; cases h
    · next hne =>
      rw [if_neg hne] at h
      have := ih h
      simp only [keys, List.map_cons, List.cons_append] at *
      rw [this]

theorem nodup_keys_set (m : GoMap κ α) (k : κ) (v : α) (h : (keys m).Nodup) : (keys (set m k v)).Nodup := by
  cases hg : get? m k with
  | some x => rw [keys_set_of_mem _ _ _ (by simp [hg])]; exact h
  | none =>
    rw [keys_set_of_not_mem _ _ _ hg, List.nodup_append]
    refine ⟨h, by simp, ?_⟩
    intro a ha b hb
    simp at hb; subst hb
    rintro rfl
    rw [mem_keys_iff, hg] at ha; simp at ha

theorem get?_del (m : GoMap κ α) (k k' : κ) : get? (del m k) k' = if k = k' then none else get? m k' := by
  induction m with
  | nil => simp [del, get?]
  | cons e m ih =>
    obtain ⟨k0, v0⟩ := e
    unfold del at *
    simp only [List.filter_cons]
    by_cases h0 : k0 = k
    · subst h0
      simp only [ne_eq, not_true_eq_false, decide_false, Bool.false_eq_true, if_false, get?]
      rw [ih]
      split
      · rfl
      · rfl
    · simp only [ne_eq, h0, not_false_eq_true, decide_true, if_true, get?, ih]
      split
      · next h' => subst h'; rw [if_neg (by intro e; exact h0 e.symm)]
      · rfl

theorem nodup_keys_del (m : GoMap κ α) (k : κ) (h : (keys m).Nodup) : (keys (del m k)).Nodup := by
  unfold keys del at *
  exact h.sublist (List.filter_sublist.map _)

theorem keys_del (m : GoMap κ α) (k : κ) : keys (del m k) = (keys m).filter (· ≠ k) := by
  unfold keys del
  rw [List.filter_map]; rfl

end Verif.GoMap
