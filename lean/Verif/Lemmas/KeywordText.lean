import Verif.Lemmas.LexText
import Verif.Spec.Parse
/-! A token of the kind of a keyword is written with the letters of the keyword. -/
namespace Verif.Lemmas
open Verif Verif.Lex Verif.Spec

theorem keywords_once : ∀ p, p ∈ rules → ∀ k, k ∈ keywords → p.1 = k.1 → p.2 = Re.lit k.2 := by
  have h1 : ∀ o, o ∈ operators → ∀ k, k ∈ keywords → o.1 ≠ k.1 := by decide +kernel
  have h2 : ∀ o, o ∈ keywords → ∀ k, k ∈ keywords → o.1 = k.1 → o.2 = k.2 := by decide +kernel
  have h3 : ∀ o, o ∈ otherRules.map (·.1) → ∀ k, k ∈ keywords → o ≠ k.1 := by decide +kernel
  intro p hp k hk he
  rw [rules, List.mem_append, List.mem_append, List.mem_map, List.mem_map] at hp
  rcases hp with (⟨o, ho, rfl⟩ | ⟨o, ho, rfl⟩) | hp
  · exact absurd he (h1 o ho k hk)
  · rw [show o.2 = k.2 from h2 o ho k hk he]
  · exact absurd he (h3 p.1 (List.mem_map_of_mem hp) k hk)

theorem tokenised_keyword {q : Str} {ts : List Token} (h : Tokenised rules q ts) (t : Token) (ht : t ∈ ts) (k : Tok × Str) (hk : k ∈ keywords)
    (he : t.kind = k.1) : Str.upper t.text = k.2 := by
  induction h with
  | nil => cases ht
  | cons x w rest ts hl _ ih =>
    rcases List.mem_cons.mp ht with rfl | ht
    · obtain ⟨-, ⟨pre, r, post, hr, hm, -⟩, -⟩ := hl
      have := keywords_once (x, r) (by rw [hr]; simp) k hk he
      simp only at this
      rw [this, matches_lit, (keywords_upper k hk).1] at hm
      exact hm
    · exact ih ht

/-- In a text, a token of the kind of a keyword has the letters of the keyword. -/
theorem writes_keyword {q : Str} {toks : List Token} (h : Writes q toks) (t : Token) (ht : t ∈ toks) (k : Tok × Str) (hk : k ∈ keywords)
    (he : t.kind = k.1) : Str.upper t.text = k.2 := by
  obtain ⟨ts, h1, rfl⟩ := h
  exact tokenised_keyword h1 t ((List.mem_filter.mp ht).1) k hk he

end Verif.Lemmas
