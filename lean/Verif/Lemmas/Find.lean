import Verif.Lemmas.Join
import Verif.Spec.Query
import Verif.Model.Schema
/-! Lemmas about first-match searches. -/
namespace Verif.Lemmas
open Verif Verif.Query Verif.Spec

theorem sameName_iff (a b : Str) : Str.eqFold a b = true ↔ SameName a b := Str.eqFold_iff_toLower a b

theorem find?_iff_firstAt {α : Type} (p : α → Bool) (l : List α) (x : α) :
    l.find? p = some x ↔ ∃ i, FirstAt (fun y => p y = true) l i x := by
  induction l with
  | nil => simp [FirstAt]
  | cons a l ih =>
    simp only [List.find?_cons]
    cases ha : p a with
    | true =>
      simp only [Option.some.injEq]
      constructor
      · rintro rfl; exact ⟨0, by simp, ha, by omega⟩
      · rintro ⟨i, h1, h2, h3⟩
        cases i with
        | zero => simpa using h1
        | succ i => exact absurd ha (h3 0 a (by omega) (by simp))
    | false =>
      simp only [ih]
      constructor
      · rintro ⟨i, h1, h2, h3⟩
        refine ⟨i + 1, by simpa using h1, h2, ?_⟩
        intro j y hj hy
        cases j with
        | zero => simp at hy; subst hy; simp [ha]
        | succ j => exact h3 j y (by omega) (by simpa using hy)
      · rintro ⟨i, h1, h2, h3⟩
        cases i with
        | zero => simp at h1; subst h1; simp [ha] at h2
        | succ i =>
          refine ⟨i, by simpa using h1, h2, ?_⟩
          intro j y hj hy
          exact h3 (j + 1) y (by omega) (by simpa using hy)

theorem firstAt_congr {α : Type} {p q : α → Prop} (h : ∀ x, p x ↔ q x) (l : List α) (i : Nat) (x : α) :
    FirstAt p l i x ↔ FirstAt q l i x := by
  have : p = q := funext fun x => propext (h x)
  rw [this]

theorem find?_none_iff {α : Type} (p : α → Bool) (l : List α) :
    l.find? p = none ↔ NoneOf (fun y => p y = true) l := by
  simp [NoneOf]

theorem removedFirst_eraseIdx {α : Type} (p : α → Prop) (l l' : List α) :
    RemovedFirst p l l' ↔ ∃ i x, FirstAt p l i x ∧ l' = l.take i ++ l.drop (i + 1) := by
  constructor
  · rintro ⟨a, x, b, rfl, rfl, hx, hn⟩
    refine ⟨a.length, x, ⟨by simp, hx, ?_⟩, ?_⟩
    · intro j y hj hy
      rw [List.getElem?_append_left hj] at hy
      exact hn y (List.mem_of_getElem? hy)
    · simp
  · rintro ⟨i, x, ⟨h1, h2, h3⟩, rfl⟩
    obtain ⟨hi, hx⟩ := List.getElem?_eq_some_iff.mp h1
    refine ⟨l.take i, x, l.drop (i + 1), ?_, rfl, h2, ?_⟩
    · subst hx; simp
    · intro y hy
      obtain ⟨j, hj, hy⟩ := List.getElem_of_mem hy
      have hj' : j < i := by simp at hj; omega
      refine h3 j y hj' ?_
      rw [← hy, List.getElem_take]
      exact List.getElem?_eq_getElem _

/-- Removing at two different positions gives the same list only if the removed elements are equal. -/
theorem erase_eq_imp {α : Type} (l : List α) (i j : Nat) (x y : α) (hij : i < j)
    (hx : l[i]? = some x) (hy : l[j]? = some y)
    (h : l.take i ++ l.drop (i + 1) = l.take j ++ l.drop (j + 1)) : x = y := by
  induction l generalizing i j with
  | nil => simp at hx
  | cons a l ih =>
    cases j with
    | zero => omega
    | succ j =>
      cases i with
      | zero =>
        simp at hx hy h
        subst hx
        clear ih
        induction l generalizing j a with
        | nil => simp at hy
        | cons b l ih2 =>
          cases j with
          | zero => simp at hy h; rw [← h, hy]
          | succ j =>
            simp at h hy
            obtain ⟨hba, h2⟩ := h
            subst hba
            exact ih2 _ j hy (by omega) h2
      | succ i =>
        simp at hx hy h
        exact ih i j (by omega) hx hy h

end Verif.Lemmas
