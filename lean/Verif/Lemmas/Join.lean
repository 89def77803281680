import Verif.Lemmas.Str
/-! Injectivity of joined texts, and the link between `eqFold` and `Char.toLower`. -/
namespace Verif.Str

theorem append_cons_inj {α : Type} (c : α) (x y r s : List α) (hx : c ∉ x) (hy : c ∉ y)
    (h : x ++ c :: r = y ++ c :: s) : x = y ∧ r = s := by
  induction x generalizing y with
  | nil =>
    cases y with
    | nil => simpa using h
    | cons d y =>
      simp only [List.nil_append, List.cons_append, List.cons.injEq] at h
      exact absurd h.1 (fun e => hy (by simp [e]))
  | cons d x ih =>
    cases y with
    | nil =>
      simp only [List.nil_append, List.cons_append, List.cons.injEq] at h
      exact absurd h.1.symm (fun e => hx (by simp [e]))
    | cons e y =>
      simp only [List.cons_append, List.cons.injEq] at h
      obtain ⟨rfl, h⟩ := h
      obtain ⟨rfl, rfl⟩ := ih y (fun m => hx (List.mem_cons_of_mem _ m)) (fun m => hy (List.mem_cons_of_mem _ m)) h
      exact ⟨rfl, rfl⟩

/-- A separated list of texts not containing the separator's first character determines the texts. -/
theorem join_inj (c : Char) (sep : Str) (xs ys : List Str) (hx : xs ≠ []) (hy : ys ≠ [])
    (hxs : ∀ x ∈ xs, c ∉ x) (hys : ∀ y ∈ ys, c ∉ y)
    (h : join (c :: sep) xs = join (c :: sep) ys) : xs = ys := by
  induction xs generalizing ys with
  | nil => exact absurd rfl hx
  | cons x xs ih =>
    cases ys with
    | nil => exact absurd rfl hy
    | cons y ys =>
      have hcx := hxs x (by simp)
      have hcy := hys y (by simp)
      cases xs with
      | nil =>
        cases ys with
        | nil => simpa [join] using h
        | cons y' ys =>
          exfalso
          simp only [join] at h
          exact hcx (by rw [h]; simp)
      | cons x' xs =>
        cases ys with
        | nil =>
          exfalso
          simp only [join] at h
          exact hcy (by rw [← h]; simp)
        | cons y' ys =>
          simp only [join, List.append_assoc, List.cons_append] at h
          have h2 := append_cons_inj c x y _ _ hcx hcy h
          have h3 := List.append_cancel_left h2.2
          rw [h2.1, ih (y' :: ys) (by simp) (by simp) (fun z hz => hxs z (List.mem_cons_of_mem _ hz))
            (fun z hz => hys z (List.mem_cons_of_mem _ hz)) h3]

theorem join_append (sep : Str) (xs ys : List Str) (hx : xs ≠ []) (hy : ys ≠ []) :
    join sep (xs ++ ys) = join sep xs ++ sep ++ join sep ys := by
  induction xs with
  | nil => exact absurd rfl hx
  | cons x xs ih =>
    cases xs with
    | nil => simp [join_cons sep x ys hy, join]
    | cons x' xs =>
      have := ih (by simp)
      simp only [List.cons_append] at this ⊢
      rw [join_cons sep x _ (by simp), this, join_cons sep x _ (by simp)]
      simp [List.append_assoc]

theorem not_digit_space : isDigit ' ' = false := by decide

theorem space_not_mem_ofNat (n : Nat) : ' ' ∉ ofNat n := fun h => by
  have := ofNat_digits n _ h
  simp [not_digit_space] at this

theorem toLower_toNat (c : Char) :
    c.toLower.toNat = if 65 ≤ c.toNat ∧ c.toNat ≤ 90 then c.toNat + 32 else c.toNat := by
  have e : (c.val ≥ 'A'.val ∧ c.val ≤ 'Z'.val) ↔ (65 ≤ c.toNat ∧ c.toNat ≤ 90) := by
    simp only [Char.toNat, ge_iff_le, UInt32.le_iff_toNat_le]
    exact Iff.rfl
  by_cases h : c.val ≥ 'A'.val ∧ c.val ≤ 'Z'.val
  · have h' := e.mp h
    rw [if_pos h', Char.toLower, dif_pos h]
    show (c.val + ('a'.val - 'A'.val)).toNat = c.val.toNat + 32
    have hv : c.val.toNat ≤ 90 := h'.2
    rw [UInt32.toNat_add]
    have : ('a'.val - 'A'.val).toNat = 32 := by decide
    omega
  · rw [if_neg (fun h' => h (e.mpr h')), Char.toLower, dif_neg h]

/-- `strings.EqualFold` (ASCII) is equality of the lower-cased texts. -/
theorem eqFold_iff_toLower (s t : Str) : eqFold s t = true ↔ s.map Char.toLower = t.map Char.toLower := by
  rw [eqFold_iff]
  unfold upper
  have key : ∀ a b : Char, upC a = upC b ↔ a.toLower = b.toLower := by
    intro a b
    constructor
    · intro h
      have h := congrArg Char.toNat h
      apply char_ext
      rw [upC_toNat, upC_toNat] at h
      rw [toLower_toNat, toLower_toNat]
      repeat' split at h
      all_goals repeat' split
      all_goals omega
    · intro h
      have h := congrArg Char.toNat h
      apply char_ext
      rw [toLower_toNat, toLower_toNat] at h
      rw [upC_toNat, upC_toNat]
      repeat' split at h
      all_goals repeat' split
      all_goals omega
  induction s generalizing t with
  | nil => cases t <;> simp
  | cons a s ih =>
    cases t with
    | nil => simp
    | cons b t => simp [key, ih]

end Verif.Str
