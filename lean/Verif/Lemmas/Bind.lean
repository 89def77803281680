import Verif.Model.Bind
import Verif.Spec.Bind
import Verif.Lemmas.Str
/-! Lemmas about binding. -/
namespace Verif.Lemmas
open Verif Verif.Bind Verif.Spec
variable {T F V : Type}

theorem replaceFirst_at (a pat b s : Str) (h : Str.index (a ++ pat ++ b) pat = some a.length) :
    Str.replaceFirst (a ++ pat ++ b) pat s = a ++ s ++ b := by
  simp only [Str.replaceFirst, h]
  rw [List.append_assoc a pat b, List.take_left]
  have : List.drop (a.length + pat.length) (a ++ (pat ++ b)) = b := by
    rw [← List.drop_drop, List.drop_left, List.drop_left]
  rw [this]

/-- A turn on a text whose first `?` is not at the start. -/
theorem bindOne_mark (a b s : Str) (n : Nat) (h : '?' ∉ a) (hne : a ≠ []) :
    bindOne (a ++ '?' :: b) n s = some (a ++ s ++ b) := by
  have hi := Str.index_single_append a b '?' h
  have hr := replaceFirst_at a ['?'] b s (by simpa using hi)
  simp only [List.append_assoc, List.singleton_append] at hr
  unfold bindOne
  rw [hi, if_pos, hr]
  · simp
  · simpa using List.length_pos_iff.mpr hne

theorem index_not_mem (q d : Str) (h : '$' ∉ q) : Str.index q ('$' :: d) = none := by
  cases hi : Str.index q ('$' :: d) with
  | none => rfl
  | some n =>
    obtain ⟨pre, post, hs, _⟩ := Str.index_some hi
    exact absurd (by rw [hs]; simp) h

/-- A turn on a text without placeholders. -/
theorem bindOne_none (q s : Str) (n : Nat) (h : '?' ∉ q) (h' : '$' ∉ q) : bindOne q n s = none := by
  unfold bindOne
  rw [Str.index_single_none q '?' h, numbered, index_not_mem q _ h']
  rfl

theorem marked_nil_iff (p : Str) (ps : List Str) (c : Char) (hc : c ≠ '?') :
    c ∉ marked p ps ↔ c ∉ p ∧ ∀ x ∈ ps, c ∉ x := by
  induction ps generalizing p with
  | nil => simp [marked]
  | cons p₁ ps ih => simp [marked, ih, hc]

/-- The loop on a text with `?` placeholders, `a` being the part already bound. -/
theorem bindLoop_marked (B : BEnv T F V) (ps : List Str) (params : List (Param T F V)) (vs : List Str)
    (a p : Str) (n : Nat) (hne : a ++ p ≠ []) (ha : '?' ∉ a) (hp : '?' ∉ p) (hps : ∀ x ∈ ps, '?' ∉ x)
    (ht : params.map (Param.text B) = vs.map some) (hv : ∀ v ∈ vs.dropLast, '?' ∉ v) (hl : vs.length ≤ ps.length) :
    bindLoop B (a ++ marked p ps) n params = some (a ++ filled p ps vs) := by
  induction params generalizing ps vs a p n with
  | nil =>
    cases vs with
    | cons _ _ => cases ht
    | nil => cases ps <;> simp [bindLoop, filled]
  | cons x params ih =>
    cases vs with
    | nil => cases ht
    | cons v vs =>
      cases ps with
      | nil => simp at hl
      | cons p₁ ps =>
        simp only [List.map_cons, List.cons.injEq] at ht
        simp only [bindLoop, ht.1, marked]
        have := bindOne_mark (a ++ p) (marked p₁ ps) v n (by simp [ha, hp]) hne
        rw [← List.append_assoc, this]
        simp only []
        cases vs with
        | nil =>
          cases params with
          | cons _ _ => simp at ht
          | nil => simp [bindLoop, filled]
        | cons w vs =>
          have hv0 : '?' ∉ v := hv v (by simp)
          rw [ih ps (w :: vs) (a ++ p ++ v) p₁ (n + 1) (by simp at hne ⊢; intro h; simp [hne h])
            (by simp [ha, hp, hv0]) (hps p₁ (by simp)) (fun x hx => hps x (by simp [hx])) ht.2
            (fun y hy => hv y (by simpa using Or.inr hy)) (by simpa using hl)]
          simp [filled]

/-- The loop fails on a text with too few `?` placeholders. -/
theorem bindLoop_too_many (B : BEnv T F V) (ps : List Str) (params : List (Param T F V)) (vs : List Str)
    (a p : Str) (n : Nat) (hne : a ++ p ≠ []) (ha : '?' ∉ a ∧ '$' ∉ a) (hp : '?' ∉ p ∧ '$' ∉ p)
    (hps : ∀ x ∈ ps, '?' ∉ x ∧ '$' ∉ x)
    (ht : params.map (Param.text B) = vs.map some) (hv : ∀ v ∈ vs.dropLast, '?' ∉ v ∧ '$' ∉ v) (hl : ps.length < vs.length) :
    bindLoop B (a ++ marked p ps) n params = none := by
  induction params generalizing ps vs a p n with
  | nil =>
    cases vs with
    | cons _ _ => cases ht
    | nil => simp at hl
  | cons x params ih =>
    cases vs with
    | nil => cases ht
    | cons v vs =>
      simp only [List.map_cons, List.cons.injEq] at ht
      simp only [bindLoop, ht.1]
      cases ps with
      | nil =>
        rw [marked, bindOne_none] <;> simp [ha, hp]
      | cons p₁ ps =>
        have := bindOne_mark (a ++ p) (marked p₁ ps) v n (by simp [ha, hp]) hne
        rw [marked, ← List.append_assoc, this]
        simp only []
        cases vs with
        | nil => simp at hl
        | cons w vs =>
          have hv0 := hv v (by simp)
          exact ih ps (w :: vs) (a ++ p ++ v) p₁ (n + 1) (by simp at hne ⊢; intro h; simp [hne h])
            (by simp [ha, hp, hv0]) (hps p₁ (by simp)) (fun x hx => hps x (by simp [hx])) ht.2
            (fun y hy => hv y (by simpa using Or.inr hy)) (by simpa using hl)

/-! ### numbered placeholders -/

theorem digitsVal_append (s t : Str) : Str.digitsVal s ≤ Str.digitsVal (s ++ t) := by
  induction t generalizing s with
  | nil => simp
  | cons c t ih =>
    have h1 : Str.digitsVal s ≤ Str.digitsVal (s ++ [c]) := by rw [Str.digitsVal_append_single]; omega
    have h2 := ih (s ++ [c])
    simp only [List.append_assoc, List.singleton_append] at h2
    omega

/-- A proper prefix of a number's digits is a smaller number. -/
theorem prefix_lt {j k : Nat} (hj : 0 < j) (h : Str.ofNat j <+: Str.ofNat k) (hne : Str.ofNat j ≠ Str.ofNat k) : j < k := by
  obtain ⟨t, ht⟩ := h
  cases t with
  | nil => simp at ht; exact absurd ht hne
  | cons c t =>
    have h1 : Str.digitsVal (Str.ofNat j ++ [c]) ≤ Str.digitsVal (Str.ofNat k) := by
      rw [← ht]
      have := digitsVal_append (Str.ofNat j ++ [c]) t
      simpa using this
    rw [Str.digitsVal_append_single, Str.digitsVal_ofNat, Str.digitsVal_ofNat] at h1
    omega

theorem index_skip (a x d : Str) (h : '$' ∉ a) :
    Str.index (a ++ x) ('$' :: d) = (Str.index x ('$' :: d)).map (· + a.length) := by
  induction a with
  | nil => simp
  | cons c a ih =>
    simp only [List.mem_cons, not_or] at h
    rw [List.cons_append, Str.index]
    rw [if_neg (by simp [List.isPrefixOf_cons_cons]; intro hc; exact absurd hc h.1), ih h.2]
    cases Str.index x ('$' :: d) <;> simp; omega

theorem dollar_not_digits (k : Nat) : '$' ∉ Str.ofNat k := by
  intro h; have := Str.ofNat_digits k _ h; revert this; decide

/-- Passing over another placeholder. -/
theorem index_other (j k : Nat) (x : Str) (hj : 0 < j) (hjk : k < j) (h : ¬ Str.ofNat k <+: Str.ofNat j) :
    Str.index ('$' :: Str.ofNat j ++ x) ('$' :: Str.ofNat k) =
      (Str.index x ('$' :: Str.ofNat k)).map (· + (Str.ofNat j).length + 1) := by
  rw [List.cons_append, Str.index, if_neg, index_skip _ _ _ (dollar_not_digits j)]
  · cases Str.index x ('$' :: Str.ofNat k) <;> simp
  · rw [List.isPrefixOf_iff_prefix]
    intro hp
    have hp := List.cons_prefix_cons.mp hp
    rcases List.prefix_or_prefix_of_prefix hp.2 (List.prefix_append (Str.ofNat j) x) with h1 | h1
    · exact h h1
    · have := prefix_lt hj h1 (fun he => h (he ▸ List.prefix_refl _))
      omega

/-- A text with numbered placeholders, some of them replaced. -/
def dol (σ : Nat → Option Str) (p : Str) : List (Nat × Str) → Str
  | [] => p
  | (k, p₁) :: r => p ++ (σ k).getD ('$' :: Str.ofNat k) ++ dol σ p₁ r

theorem dol_none (p : Str) (r : List (Nat × Str)) : dol (fun _ => none) p r = dollars p r := by
  induction r generalizing p with
  | nil => rfl
  | cons e r ih => simp [dol, dollars, ih]

/-- The first values of a list, by number. -/
def bound (vs : List Str) (n : Nat) (k : Nat) : Option Str := if 1 ≤ k ∧ k ≤ n then vs[k - 1]? else none

theorem dol_bound (p : Str) (vs : List Str) (r : List (Nat × Str)) : dol (bound vs vs.length) p r = dollarsFilled p vs r := by
  induction r generalizing p with
  | nil => rfl
  | cons e r ih =>
    obtain ⟨k, p₁⟩ := e
    simp only [dol, dollarsFilled, ih]
    congr 2
    unfold bound
    by_cases hk : k = 0
    · simp [hk]
    · rw [if_neg hk]
      by_cases h : k ≤ vs.length
      · rw [if_pos ⟨by omega, h⟩]
      · rw [if_neg (by omega), List.getElem?_eq_none (by omega)]

/-- No placeholder stands before one whose number extends the digits of its own. -/
def Clear (r : List (Nat × Str)) : Prop :=
  r.Pairwise (fun a b => b.1 < a.1 → ¬ Str.ofNat b.1 <+: Str.ofNat a.1)

/-- The pieces and values that are not placeholders themselves. -/
structure Plain (σ : Nat → Option Str) (p : Str) (r : List (Nat × Str)) : Prop where
  head : '$' ∉ p
  rest : ∀ e ∈ r, '$' ∉ e.2
  vals : ∀ k v, σ k = some v → '$' ∉ v

/-- Where the first occurrence of `$k` is, and what replacing it gives. -/
theorem index_dol (σ σ' : Nat → Option Str) (k : Nat) (s p : Str) (r : List (Nat × Str)) (hpl : Plain σ p r)
    (hk : σ k = none) (hk' : σ' k = some s) (hσ' : ∀ j, j ≠ k → σ' j = σ j)
    (hlow : ∀ e ∈ r, e.1 < k → (σ e.1).isSome = true) (hpos : ∀ e ∈ r, 0 < e.1)
    (hnd : (r.map (·.1)).Nodup) (hcl : Clear r) (hmem : k ∈ r.map (·.1)) :
    ∃ a b, dol σ p r = a ++ ('$' :: Str.ofNat k) ++ b ∧ p.length ≤ a.length ∧
      Str.index (dol σ p r) ('$' :: Str.ofNat k) = some a.length ∧ dol σ' p r = a ++ s ++ b := by
  have hother : ∀ (r : List (Nat × Str)) (p : Str), k ∉ r.map (·.1) → dol σ' p r = dol σ p r := by
    intro r
    induction r with
    | nil => intro p _; rfl
    | cons e r ih =>
      intro p h
      obtain ⟨j, p₁⟩ := e
      simp only [List.map_cons, List.mem_cons, not_or] at h
      simp only [dol, ih p₁ h.2, hσ' j (Ne.symm h.1)]
  induction r generalizing p with
  | nil => simp at hmem
  | cons e r ih =>
    obtain ⟨j, p₁⟩ := e
    simp only [List.map_cons, List.nodup_cons] at hnd
    by_cases hjk : j = k
    · subst hjk
      refine ⟨p, dol σ p₁ r, by simp [dol, hk], Nat.le_refl _, ?_, ?_⟩
      · simp only [dol, hk, Option.getD_none]
        rw [List.append_assoc, index_skip p _ _ hpl.head, List.cons_append, Str.index, if_pos]
        · simp
        · rw [List.isPrefixOf_iff_prefix]; simp
      · simp [dol, hk', hother r p₁ hnd.1]
    · have hmem' : k ∈ r.map (·.1) := by
        simp only [List.map_cons, List.mem_cons] at hmem
        exact hmem.resolve_left (fun h => hjk h.symm)
      obtain ⟨a, b, h1, h2, h3, h4⟩ := ih p₁ ⟨hpl.rest (j, p₁) (by simp), fun e he => hpl.rest e (by simp [he]), hpl.vals⟩
        (fun e he => hlow e (by simp [he])) (fun e he => hpos e (by simp [he])) hnd.2 (List.pairwise_cons.mp hcl).2 hmem'
      refine ⟨p ++ (σ j).getD ('$' :: Str.ofNat j) ++ a, b, by simp [dol, h1], by simp, ?_, ?_⟩
      · simp only [dol]
        rw [List.append_assoc, index_skip p _ _ hpl.head]
        cases hs : σ j with
        | some v =>
          rw [Option.getD_some, index_skip v _ _ (hpl.vals j v hs), h3]
          simp; omega
        | none =>
          have hkj : k < j := by
            rcases Nat.lt_or_ge j k with h | h
            · have := hlow (j, p₁) (by simp) h; rw [hs] at this; cases this
            · omega
          obtain ⟨e, he, hek⟩ := List.mem_map.mp hmem'
          have hnp := (List.pairwise_cons.mp hcl).1 e he (by simpa [hek] using hkj)
          rw [hek] at hnp
          rw [Option.getD_none, index_other j k _ (hpos (j, p₁) (by simp)) hkj hnp, h3]
          simp; omega
      · simp [dol, h4, hσ' j hjk]

theorem dol_no_mark (σ : Nat → Option Str) (p : Str) (r : List (Nat × Str)) (hp : '?' ∉ p) (hr : ∀ e ∈ r, '?' ∉ e.2)
    (hv : ∀ k v, σ k = some v → '?' ∉ v) : '?' ∉ dol σ p r := by
  induction r generalizing p with
  | nil => simpa [dol]
  | cons e r ih =>
    obtain ⟨k, p₁⟩ := e
    simp only [dol, List.mem_append, not_or]
    refine ⟨⟨hp, ?_⟩, ih p₁ (hr (k, p₁) (by simp)) (fun e he => hr e (by simp [he]))⟩
    cases hs : σ k with
    | some v => simpa using hv k v hs
    | none =>
      simp only [Option.getD_none, List.mem_cons, not_or]
      refine ⟨by decide, fun h => ?_⟩
      have := Str.ofNat_digits k _ h; revert this; decide

/-- The loop over numbered placeholders. -/
theorem bindLoop_dollars (B : BEnv T F V) (p : Str) (r : List (Nat × Str)) (params : List (Param T F V)) (vs vd : List Str)
    (hne : p ≠ []) (hp : '?' ∉ p ∧ '$' ∉ p) (hr : ∀ e ∈ r, '?' ∉ e.2 ∧ '$' ∉ e.2)
    (ht : params.map (Param.text B) = vs.map some) (hv : ∀ v ∈ vd ++ vs, '?' ∉ v ∧ '$' ∉ v)
    (hpos : ∀ e ∈ r, 0 < e.1) (hnd : (r.map (·.1)).Nodup) (hcl : Clear r)
    (hall : ∀ k, 1 ≤ k → k ≤ (vd ++ vs).length → k ∈ r.map (·.1)) :
    bindLoop B (dol (bound (vd ++ vs) vd.length) p r) vd.length params = some (dol (bound (vd ++ vs) (vd ++ vs).length) p r) := by
  induction params generalizing vs vd with
  | nil =>
    cases vs with
    | cons _ _ => cases ht
    | nil => simp [bindLoop]
  | cons x params ih =>
    cases vs with
    | nil => cases ht
    | cons v vs =>
      simp only [List.map_cons, List.cons.injEq] at ht
      have hbv : ∀ n k w, bound (vd ++ v :: vs) n k = some w → w ∈ vd ++ v :: vs := by
        intro n k w h
        unfold bound at h
        split at h
        · exact List.mem_of_getElem? h
        · cases h
      obtain ⟨a, b, h1, h2, h3, h4⟩ := index_dol (bound (vd ++ v :: vs) vd.length) (bound (vd ++ v :: vs) (vd.length + 1))
        (vd.length + 1) v p r ⟨hp.2, fun e he => (hr e he).2, fun k w h => (hv w (hbv _ k w h)).2⟩
        (by simp [bound]) (by simp [bound])
        (fun j hj => by
          unfold bound
          by_cases h : 1 ≤ j ∧ j ≤ vd.length
          · rw [if_pos h, if_pos ⟨h.1, by omega⟩]
          · rw [if_neg h, if_neg (by omega)])
        (fun e he hlt => by
          have := hpos e he
          simp only [bound]
          rw [if_pos ⟨by omega, by omega⟩, List.getElem?_append_left (by omega), List.getElem?_eq_getElem (by omega)]
          rfl)
        hpos hnd hcl (hall _ (by omega) (by simp))
      have hone : bindOne (dol (bound (vd ++ v :: vs) vd.length) p r) vd.length v =
          some (dol (bound (vd ++ v :: vs) (vd.length + 1)) p r) := by
        unfold bindOne
        rw [Str.index_single_none _ '?' (dol_no_mark _ p r hp.1 (fun e he => (hr e he).1) (fun k w h => (hv w (hbv _ k w h)).1))]
        rw [numbered, h3]
        have hpl : 0 < p.length := List.length_pos_iff.mpr hne
        rw [if_neg (by simp), if_pos (by simp; omega), h4, h1, replaceFirst_at _ _ _ _ (h1 ▸ h3)]
      simp only [bindLoop, ht.1, hone]
      have := ih vs (vd ++ [v]) ht.2 (by simpa using hv) (by simpa using hall)
      simpa using this

/-- The loop fails when the next numbered placeholder is missing. -/
theorem bindOne_missing (σ : Nat → Option Str) (p : Str) (r : List (Nat × Str)) (n : Nat) (s : Str)
    (hp : '?' ∉ p ∧ '$' ∉ p) (hr : ∀ e ∈ r, '?' ∉ e.2 ∧ '$' ∉ e.2)
    (hv : ∀ k v, σ k = some v → '?' ∉ v ∧ '$' ∉ v) (hpos : ∀ e ∈ r, 0 < e.1)
    (hlow : ∀ e ∈ r, e.1 < n + 1 → (σ e.1).isSome = true)
    (hcl : ∀ e ∈ r, ¬ Str.ofNat (n + 1) <+: Str.ofNat e.1) : bindOne (dol σ p r) n s = none := by
  have hidx : Str.index (dol σ p r) ('$' :: Str.ofNat (n + 1)) = none := by
    induction r generalizing p with
    | nil => exact index_not_mem p _ hp.2
    | cons e r ih =>
      obtain ⟨j, p₁⟩ := e
      have := ih p₁ (hr (j, p₁) (by simp)) (fun e he => hr e (by simp [he])) (fun e he => hpos e (by simp [he]))
        (fun e he => hlow e (by simp [he])) (fun e he => hcl e (by simp [he]))
      simp only [dol]
      rw [List.append_assoc, index_skip p _ _ hp.2]
      cases hs : σ j with
      | some v => rw [Option.getD_some, index_skip v _ _ (hv j v hs).2, this]; rfl
      | none =>
        have hnp := hcl (j, p₁) (by simp)
        have hkj : n + 1 < j := by
          rcases Nat.lt_trichotomy j (n + 1) with h | h | h
          · have := hlow (j, p₁) (by simp) h; rw [hs] at this; cases this
          · subst h; exact absurd (List.prefix_refl _) hnp
          · exact h
        rw [Option.getD_none, index_other j (n + 1) _ (hpos (j, p₁) (by simp)) hkj hnp, this]; rfl
  unfold bindOne
  rw [Str.index_single_none _ '?' (dol_no_mark _ p r hp.1 (fun e he => (hr e he).1) (fun k w h => (hv k w h).1)), numbered, hidx]
  rfl

theorem bindLoop_append (B : BEnv T F V) (ps qs : List (Param T F V)) (q : Str) (n : Nat) :
    bindLoop B q n (ps ++ qs) = (bindLoop B q n ps).bind (fun q' => bindLoop B q' (n + ps.length) qs) := by
  induction ps generalizing q n with
  | nil => simp [bindLoop]
  | cons p ps ih =>
    simp only [List.cons_append, bindLoop]
    cases p.text B with
    | none => rfl
    | some s =>
      simp only []
      cases bindOne q n s with
      | none => rfl
      | some q' =>
        simp only [ih, List.length_cons]
        congr 1; funext q''; congr 1; omega

end Verif.Lemmas
