import Verif.Lemmas.Str
import Verif.Spec.Types
/-! Numbers read by `strconv.Atoi`. -/
namespace Verif.Lemmas
open Verif Verif.Spec

theorem numeral_snoc (s : Str) (c : Char) : numeral (s ++ [c]) = numeral s * 10 + (c.toNat - 48) := by
  induction s with
  | nil => simp [numeral]
  | cons d s ih =>
    simp only [List.cons_append, numeral, ih, List.length_append, List.length_singleton, Nat.pow_succ]
    simp only [Nat.add_mul, Nat.mul_assoc]
    omega

theorem digitsVal_eq (s : Str) : Str.digitsVal s = numeral s := by
  rw [← List.reverse_reverse s]
  induction s.reverse with
  | nil => rfl
  | cons c s ih => rw [List.reverse_cons, Str.digitsVal_append_single, numeral_snoc, ih]

theorem digits_iff (s : Str) : Digits s ↔ s ≠ [] ∧ s.all Str.isDigit = true := by
  unfold Digits
  refine and_congr_right fun _ => ?_
  rw [List.all_eq_true]
  refine forall_congr' fun c => forall_congr' fun _ => ?_
  simp only [Str.isDigit, Bool.and_eq_true, decide_eq_true_eq, Char.toNat]
  exact and_congr UInt32.le_iff_toNat_le UInt32.le_iff_toNat_le

theorem toNat?_iff (s : Str) (n : Nat) : Str.toNat? s = some n ↔ Digits s ∧ n = numeral s := by
  rw [digits_iff, Str.toNat?, digitsVal_eq]
  cases s with
  | nil => simp
  | cons c s =>
    simp only [List.isEmpty_cons, Bool.false_eq_true, if_false, ne_eq, reduceCtorEq, not_false_eq_true, true_and]
    split
    · rename_i h; simp [h, eq_comm]
    · rename_i h; simp [h]

theorem not_digits_sign {s : Str} {c : Char} (hc : c = '+' ∨ c = '-') : ¬ Digits (c :: s) := by
  intro h
  have := h.2 c (by simp)
  rcases hc with rfl | rfl <;> exact absurd this (by decide)

theorem lifted (o : Option Nat) (f : Int → Int) (v : Int) (h : Option.map f (do let a ← o; pure (a : Int)) = some v) :
    ∃ n, o = some n ∧ f n = v := by
  cases o with
  | none => cases h
  | some n => exact ⟨n, rfl, by simpa using h⟩

/-- `strconv.Atoi` reads exactly the decimal integers that a 64-bit integer can hold. -/
theorem atoi_iff (s : Str) (v : Int) : Str.atoi s = some v ↔ IntNumber s v := by
  constructor
  · intro h
    unfold Str.atoi at h
    cases hs : Str.signed? s with
    | none => rw [hs] at h; cases h
    | some w =>
      rw [hs, Option.bind_some] at h
      split at h
      · cases h
        rename_i hr
        unfold Str.signed? at hs
        split at hs
        · rename_i r
          obtain ⟨n, h1, h2⟩ := lifted _ _ _ hs
          obtain ⟨h3, rfl⟩ := (toNat?_iff _ _).mp h1
          rw [← h2]
          exact .minus _ h3 (by omega)
        · rename_i r
          obtain ⟨n, h1, h2⟩ := lifted _ _ _ hs
          obtain ⟨h3, rfl⟩ := (toNat?_iff _ _).mp h1
          rw [← h2]
          exact .plus _ h3 (by omega)
        · rename_i r
          obtain ⟨n, h1, h2⟩ := lifted _ _ _ hs
          obtain ⟨h3, rfl⟩ := (toNat?_iff _ _).mp h1
          rw [← h2]
          exact .plain _ h3 (by omega)
      · cases h
  · intro h
    cases h with
    | plain d hd hn =>
      have : Str.signed? s = some (numeral s : Int) := by
        unfold Str.signed?
        split
        · exact absurd hd (not_digits_sign (Or.inr rfl))
        · exact absurd hd (not_digits_sign (Or.inl rfl))
        · rw [(toNat?_iff _ _).mpr ⟨hd, rfl⟩]; rfl
      rw [Str.atoi, this, Option.bind_some, if_pos (by omega)]
    | plus d hd hn =>
      have : Str.signed? ('+' :: d) = some (numeral d : Int) := by
        simp [Str.signed?, (toNat?_iff _ _).mpr ⟨hd, rfl⟩]
      rw [Str.atoi, this, Option.bind_some, if_pos (by omega)]
    | minus d hd hn =>
      have : Str.signed? ('-' :: d) = some (-(numeral d : Int)) := by
        simp [Str.signed?, (toNat?_iff _ _).mpr ⟨hd, rfl⟩]
      rw [Str.atoi, this, Option.bind_some, if_pos (by omega)]

theorem atoi_none_iff (s : Str) : Str.atoi s = none ↔ ∀ v, ¬ IntNumber s v := by
  rw [Option.eq_none_iff_forall_ne_some]
  exact forall_congr' fun v => not_congr (atoi_iff s v)

end Verif.Lemmas
