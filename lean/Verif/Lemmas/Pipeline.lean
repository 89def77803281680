import Verif.Spec.Pipeline
import Verif.Lemmas.SelectWritten
/-! Lists with commas can be divided in one way only. -/
namespace Verif.Lemmas
open Verif Verif.Lex Verif.Spec Verif.Fn

/-- Two readings of the same list of parts go together. -/
theorem sep_both {α β : Type} {P : List Token → α → Prop} {Q : List Token → β → Prop} {ts : List Token} {l : List α} (h : Sep P ts l) :
    ∀ {m : List β}, Sep Q ts m → Pairwise2 (fun a b => ∃ p, Part p ∧ P p a ∧ Q p b) l m := by
  induction h with
  | one ts a hc hp =>
    intro m hm
    cases hm with
    | one _ b hc' hq => exact .cons ⟨_, hc, hp, hq⟩ .nil
    | cons us w rest b l hc' hq hw hr => exact absurd rfl (part_no_comma hc' hc hw)
  | cons ts w rest a l hc hp hw hr ih =>
    intro m hm
    generalize hts : ts ++ w :: rest = all at hm
    cases hm with
    | one _ b hc' hq => exact absurd hts.symm (part_no_comma hc hc' hw)
    | cons us w' rest' b l' hc' hq hw' hr' =>
      obtain ⟨rfl, rfl⟩ := part_unique hc hc' hw hw' hts
      exact .cons ⟨_, hc, hp, hq⟩ (ih hr')

/-- The arguments of a call without DISTINCT. -/
theorem args_unique {body : List Token} {as bs : List Str} (ha : ArgTokens body as) (hb : ArgTokens body bs) (hd : ∀ t r, body = t :: r → t.kind ≠ .DISTINCT_) :
    as = bs := by
  have texts : ∀ {ts : List Token} {as bs : List Str}, Sep (fun ts a => a = textOf ts) ts as → Sep (fun ts a => a = textOf ts) ts bs → as = bs := by
    intro ts as bs h1 h2
    have h := sep_both h1 h2
    clear h1 h2
    induction h with
    | nil => rfl
    | cons h _ ih => obtain ⟨p, _, rfl, rfl⟩ := h; rw [ih]
  have list : ∀ {d ts : List Token} {as : List Str}, body = d ++ ts → (d = [] ∨ ∃ t, d = [t] ∧ t.kind = .DISTINCT_) → d = [] := by
    rintro d ts as hb (rfl | ⟨t, rfl, ht⟩)
    · rfl
    · exact absurd ht (hd t ts hb)
  have nonempty : ∀ {ts : List Token} {as : List Str}, Sep (fun ts a => a = textOf ts) ts as → ts ≠ [] := by
    intro ts as h
    cases h with
    | one _ _ hc _ => exact hc.1
    | cons ts _ _ _ _ hc _ _ _ => simp
  have one : ∀ {t : Token} {as : List Str}, t.kind = .STAR → Sep (fun ts a => a = textOf ts) [t] as → as = [t.text] := by
    intro t as ht h
    generalize hx : [t] = x at h
    cases h with
    | one _ _ _ h => rw [h, ← hx]; simp [textOf]
    | cons ts w rest a l hc _ hw _ =>
      obtain ⟨hne, -⟩ := hc
      cases ts with
      | nil => exact absurd rfl hne
      | cons y ys => have := congrArg List.length hx; simp at this
  cases ha with
  | none =>
    generalize hx : ([] : List Token) = x at hb
    cases hb with
    | none => rfl
    | star => cases hx
    | list d ts _ h1 h2 => exact absurd (List.append_eq_nil_iff.mp hx.symm).2 (nonempty h2)
  | star t ht =>
    generalize hx : [t] = x at hb
    cases hb with
    | none => cases hx
    | star => cases hx; rfl
    | list d ts _ h1 h2 =>
      have hd := list (as := bs) hx h1
      subst hd
      simp only [List.nil_append] at hx
      subst hx
      exact (one ht h2).symm
  | list d ts _ h1 h2 =>
    have hd' := list (as := as) rfl h1
    subst hd'
    simp only [List.nil_append] at hb
    clear list
    generalize hx : ts = x at hb
    cases hb with
    | none => exact absurd hx (nonempty h2)
    | star t ht => subst hx; exact one ht h2
    | list d' ts' _ h1' h2' =>
      have : d' = [] := by
        rcases h1' with rfl | ⟨t, rfl, ht⟩
        · rfl
        · exact absurd ht (hd t ts' (by simpa using hx))
      subst this
      simp only [List.nil_append] at hx
      subst hx
      exact texts h2 h2'

/-- The type of a name is one only. -/
theorem type_unique {w : Str} {t u : FnType} (h : TypeNamed w t) (h' : TypeNamed w u) : t = u := by
  have once : ∀ p, p ∈ documented → ∀ q, q ∈ documented → p.1 = q.1 → p.2 = q.2 := by decide +kernel
  rcases h with h | ⟨rfl, h⟩ <;> rcases h' with h' | ⟨rfl, h'⟩
  · exact once _ h _ h' rfl
  · exact absurd h (h' t)
  · exact absurd h' (h u)
  · rfl

end Verif.Lemmas
