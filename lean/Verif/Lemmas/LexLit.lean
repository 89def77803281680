import Verif.Lemmas.LexSplit
import Verif.Lemmas.LexQuoted
/-! Numbers, blobs and parameters as tokens. -/
namespace Verif.Lex
open Verif Verif.Spec

/-- The rules that are left after the start of a text decide about its rest. -/
theorem longest_via {p v rest : Str} {t : Tok} {act : List (Tok × Re)} (hp : p ≠ []) (hs : steps p rules = act) (hf : FirstRule act t v rest)
    (hn : ∀ c y rest', rest = c :: y ++ rest' → ¬ SomeRule act (v ++ c :: y) rest') : Longest rules t (p ++ v) rest := by
  subst hs
  refine ⟨by simp [hp], (firstRule_steps p rules t v rest).mp hf, ?_⟩
  intro w' rest' he hl hs
  obtain ⟨x, rfl⟩ : (p ++ v) <+: w' := by
    have : (p ++ v) <+: w' ++ rest' := he ▸ List.prefix_append _ rest
    exact List.prefix_of_prefix_length_le this (List.prefix_append _ _) (Nat.le_of_lt hl)
  rw [List.append_assoc, List.append_cancel_left_eq] at he
  rw [List.append_assoc, ← someRule_steps] at hs
  cases x with
  | nil => simp at hl
  | cons c y => exact hn c y rest' he.symm hs

/-- A quoted text that goes on behind its quote goes on with a quote. -/
theorem paired_ext {q c : Char} {v b y : Str} (hv : Paired q v) (hb : Paired q b) (he : v ++ q :: c :: y = b ++ [q]) : c = q := by
  obtain ⟨z, rfl, hz⟩ : ∃ z, b = v ++ q :: z ∧ (z = [] ∨ ∃ z', z = c :: z') := by
    rcases List.eq_nil_or_concat y with hx | ⟨y', l, hx⟩
    · subst hx
      have : (v ++ [q]) ++ [c] = b ++ [q] := by simpa using he
      exact ⟨[], (List.append_inj' this rfl).1.symm, Or.inl rfl⟩
    · subst hx
      have : (v ++ q :: c :: y') ++ [l] = b ++ [q] := by simpa using he
      exact ⟨c :: y', (List.append_inj' this rfl).1.symm, Or.inr ⟨y', rfl⟩⟩
  have hd := hv.cancel hb
  rcases hz with rfl | ⟨z', rfl⟩
  · cases hd with | char _ _ h _ => exact absurd rfl h
  · cases hd with
    | char _ _ h _ => exact absurd rfl h
    | pair => rfl

/-- What may follow a value: no character of a word and no quote. -/
def valueEnd : Str → Bool
  | [] => true
  | c :: _ => !isWordChar c && c != '\'' && c != '"' && c != '`'

theorem quoted_iff (q : Char) (hq : ∀ c, Str.upC c = Str.upC q → c = q) (w rest : Str) :
    Matches (quoted q) w rest ↔ ∃ v, w = q :: v ++ [q] ∧ Paired q v := by
  unfold quoted
  rw [matches_seq]
  constructor
  · rintro ⟨u, v, rfl, hu, hv⟩
    obtain ⟨b, rfl, hb⟩ := (matches_bodyq q hq _ _).mp hv
    rw [(matches_q q hq _ _).mp hu]
    exact ⟨b, rfl, hb⟩
  · rintro ⟨v, rfl, h⟩
    exact ⟨[q], v ++ [q], rfl, (matches_q q hq _ _).mpr rfl, (matches_bodyq q hq _ _).mpr ⟨v, rfl, h⟩⟩

theorem bracket_iff (w rest : Str) : Matches (.seq (Re.lit ['[']) (.seq (.star (.cls true [(']', ']')])) (Re.lit [']']))) w rest ↔
    ∃ v, w = '[' :: v ++ [']'] ∧ ']' ∉ v := by
  have ho := upC_fix '[' (by decide) (by decide)
  have hc := upC_fix ']' (by decide) (by decide)
  have hb : ∀ v rest, Matches (.star (.cls true [(']', ']')])) v rest ↔ ']' ∉ v := by
    intro v rest
    rw [matches_star, reps_cls, List.all_eq_true]
    constructor
    · intro h hm
      have := h _ hm
      revert this; decide
    · intro h c hm
      rw [inSet_q ']' hc]
      have : c ≠ ']' := fun e => h (e ▸ hm)
      simp [this]
  rw [matches_seq]
  constructor
  · rintro ⟨u, v, rfl, hu, hv⟩
    obtain ⟨a, b, rfl, ha, hb'⟩ := (matches_seq _ _ _ _).mp hv
    rw [(matches_q '[' ho _ _).mp hu, (matches_q ']' hc _ _).mp hb']
    exact ⟨a, rfl, (hb _ _).mp ha⟩
  · rintro ⟨v, rfl, h⟩
    exact ⟨['['], v ++ [']'], rfl, (matches_q '[' ho _ _).mpr rfl,
      (matches_seq _ _ _ _).mpr ⟨v, [']'], rfl, (hb _ _).mpr h, (matches_q ']' hc _ _).mpr rfl⟩⟩

theorem matches_identifier (w rest : Str) : Matches identifier w rest ↔
    (∃ v, w = '"' :: v ++ ['"'] ∧ Paired '"' v) ∨ (∃ v, w = '`' :: v ++ ['`'] ∧ Paired '`' v) ∨
    (∃ v, w = '[' :: v ++ [']'] ∧ ']' ∉ v) ∨ isWord w = true := by
  unfold identifier
  rw [matches_alt, matches_alt, matches_alt, quoted_iff '"' (upC_fix '"' (by decide) (by decide)),
    quoted_iff '`' (upC_fix '`' (by decide) (by decide)), bracket_iff, matches_word]

/-- A name does not go on behind its end. -/
theorem identifier_end {v y r1 r2 : Str} {c : Char} (h1 : Matches identifier v r1) (h2 : Matches identifier (v ++ c :: y) r2)
    (hc : valueEnd [c] = true) : False := by
  simp only [valueEnd, Bool.and_eq_true, Bool.not_eq_true', bne_iff_ne, ne_eq] at hc
  obtain ⟨⟨⟨hw, -⟩, hd⟩, hb⟩ := hc
  rw [matches_identifier] at h1 h2
  rcases h1 with ⟨b, rfl, hp⟩ | ⟨b, rfl, hp⟩ | ⟨b, rfl, hp⟩ | h1
  · rcases h2 with ⟨b', he, hp'⟩ | ⟨b', he, hp'⟩ | ⟨b', he, hp'⟩ | h2
    · simp only [List.cons_append, List.append_assoc, List.cons.injEq, true_and, List.nil_append] at he
      exact hd (paired_ext hp hp' he)
    · cases he
    · cases he
    · simp [isWord, isWordStart] at h2; exact absurd h2.1 (by decide)
  · rcases h2 with ⟨b', he, hp'⟩ | ⟨b', he, hp'⟩ | ⟨b', he, hp'⟩ | h2
    · cases he
    · simp only [List.cons_append, List.append_assoc, List.cons.injEq, true_and, List.nil_append] at he
      exact hb (paired_ext hp hp' he)
    · cases he
    · simp [isWord, isWordStart] at h2; exact absurd h2.1 (by decide)
  · rcases h2 with ⟨b', he, hp'⟩ | ⟨b', he, hp'⟩ | ⟨b', he, hp'⟩ | h2
    · cases he
    · cases he
    · simp only [List.cons_append, List.append_assoc, List.cons.injEq, true_and, List.nil_append] at he
      refine hp' ?_
      obtain ⟨z, l, hz⟩ : ∃ z l, c :: y = z ++ [l] := by
        rcases List.eq_nil_or_concat (c :: y) with h | ⟨z, l, h⟩
        · cases h
        · exact ⟨z, l, by simpa using h⟩
      rw [hz] at he
      have : (b ++ ']' :: z) ++ [l] = b' ++ [']'] := by simpa using he
      rw [← (List.append_inj' this rfl).1]
      simp
    · simp [isWord, isWordStart] at h2; exact absurd h2.1 (by decide)
  · have hne : v ≠ [] := by rintro rfl; cases h1
    cases v with
    | nil => exact hne rfl
    | cons a v =>
      have ha : isWordStart a = true := by simp only [isWord, Bool.and_eq_true] at h1; exact h1.1
      have h2 := identifier_wordStart a _ r2 ha ((matches_identifier _ _).mpr h2)
      have := isWord_all _ h2
      rw [List.all_eq_true] at this
      have := this c (by simp)
      rw [hw] at this
      cases this

theorem matches_numeric_head {x rest : Str} (h : Matches numeric x rest) : ∃ c r, x = c :: r ∧ (isDigit c = true ∨ (c = '.' ∧ r ≠ [])) := by
  have hdig : ∀ c, inSet [('0', '9')] c = true → isDigit c = true := by
    intro c hc
    rw [inSet_iff] at hc
    obtain ⟨r, hr, x, hx, h1, h2⟩ := hc
    rw [List.mem_singleton] at hr
    subst hr
    have e1 : '0'.toNat = 48 := rfl
    have e2 : '9'.toNat = 57 := rfl
    simp only [e1, e2] at h1 h2
    have hm := mem_of_interval digits10 48 57 (by decide) x h1 h2
    have : c = x := by
      have hall : ∀ x ∈ digits10, x.toNat < 65 ∨ 122 < x.toNat ∨ (90 < x.toNat ∧ x.toNat < 97) := by decide
      exact upC_eq_self x (hall x hm) c hx.symm
    subst this
    simp [isDigit, h1, h2]
  have hplus : ∀ {u r : Str}, Matches (.seq digit (.star digit)) u r → ∃ c w, u = c :: w ∧ isDigit c = true := by
    intro u r h
    obtain ⟨a, b, rfl, ha, -⟩ := (matches_seq _ _ _ _).mp h
    obtain ⟨c, rfl, hc⟩ := (matches_cls _ _ _ _).mp (show Matches (.cls false [('0', '9')]) a _ from ha)
    exact ⟨c, b, rfl, hdig c (by simpa using hc)⟩
  unfold numeric at h
  rw [matches_alt] at h
  rcases h with h | h
  · obtain ⟨u, v, rfl, hu, -⟩ := (matches_seq _ _ _ _).mp h
    rw [matches_alt] at hu
    rcases hu with hu | hu
    · obtain ⟨a, b, rfl, ha, -⟩ := (matches_seq _ _ _ _).mp hu
      obtain ⟨c, w, rfl, hc⟩ := hplus ha
      exact ⟨c, _, rfl, Or.inl hc⟩
    · obtain ⟨a, b, rfl, ha, hb⟩ := (matches_seq _ _ _ _).mp hu
      rw [(matches_q '.' (upC_fix '.' (by decide) (by decide)) _ _).mp ha]
      obtain ⟨c, w, rfl, hc⟩ := hplus hb
      exact ⟨'.', _, rfl, Or.inr ⟨rfl, by simp⟩⟩
  · obtain ⟨u, v, rfl, hu, -⟩ := (matches_seq _ _ _ _).mp h
    have := (matches_lit _ _ _).mp hu
    cases u with
    | nil => cases this
    | cons a u =>
      rw [Str.upper_cons, Str.upper_cons] at this
      injection this with h1 h2
      have := upC_fix '0' (by decide) (by decide) a h1
      subst this
      exact ⟨'0', _, rfl, Or.inl (by decide)⟩

/-- A number is one token. -/
theorem longest_numeric {x rest : Str} (hm : Matches numeric x rest) (hr : numberEnd rest = true) : Longest rules .NUMERIC_LITERAL x rest := by
  obtain ⟨c, r, rfl, hc | ⟨rfl, hne⟩⟩ := matches_numeric_head hm
  · exact longest_number c r rest hc hm hr
  · have hs : steps ['.'] rules = [(.DOT, .eps), (.NUMERIC_LITERAL, numeric.d '.'), (.UNEXPECTED_CHAR, .eps)] := by decide +kernel
    refine longest_via (p := ['.']) (v := r) (by simp) hs ?_ ?_
    · rw [firstRule_cons]
      refine Or.inr ⟨?_, ?_⟩
      · rw [matches_eps]; exact hne
      · rw [firstRule_cons]
        exact Or.inl ⟨rfl, (matches_d _ _ _ _).mpr hm⟩
    · rintro c y rest' rfl ⟨p, hp, hm'⟩
      simp only [List.mem_cons, List.not_mem_nil, or_false] at hp
      rcases hp with rfl | rfl | rfl
      · simp [matches_eps] at hm'
      · have hm' := (matches_d _ _ _ _).mp hm'
        have ha : alphabet numeric = some ((alphabet numeric).getD []) := by decide +kernel
        have := matches_alphabet numeric _ ha _ _ hm'
        rw [List.all_eq_true] at this
        have := this c (by simp)
        simp only [List.cons_append, numberEnd, this] at hr
        cases hr
      · simp [matches_eps] at hm'

/-- A blob is one token. -/
theorem longest_blob {c : Char} {v rest : Str} (hc : c = 'x' ∨ c = 'X') (hv : Paired '\'' v) (hr : valueEnd rest = true) :
    Longest rules .BLOB_LITERAL (c :: '\'' :: v ++ ['\'']) rest := by
  have hq := upC_fix '\'' (by decide) (by decide)
  have hs : steps [c, '\''] rules = [(.BLOB_LITERAL, .seq (.star (.alt (.cls true [('\'', '\'')]) (Re.lit ['\'', '\'']))) (Re.lit ['\'']))] := by
    rcases hc with rfl | rfl <;> decide +kernel
  refine longest_via (p := [c, '\'']) (v := v ++ ['\'']) (by simp) hs ?_ ?_
  · rw [firstRule_cons]
    exact Or.inl ⟨rfl, (matches_bodyq '\'' hq _ _).mpr ⟨v, rfl, hv⟩⟩
  · rintro a y rest' rfl ⟨p, hp, hm⟩
    rw [List.mem_singleton] at hp
    subst hp
    obtain ⟨b, he, hb⟩ := (matches_bodyq '\'' hq _ _).mp hm
    have := paired_ext hv hb (by simpa using he)
    subst this
    simp [valueEnd] at hr

/-- A parameter with a name is one token. -/
theorem longest_named {c : Char} {x rest : Str} (hc : c = ':' ∨ c = '$') (hx : Matches identifier x rest) (hr : valueEnd rest = true) :
    Longest rules .BIND_PARAMETER (c :: x) rest := by
  have hd : ∀ (r : Str) w, Reps (Matches digit) w r → w.all isWordChar = true := by
    intro r w h
    rw [digit, reps_cls, List.all_eq_true] at h
    rw [List.all_eq_true]
    intro a ha
    have := h a ha
    rw [Bool.bne_false] at this
    have e : inSet [('A', 'Z'), ('_', '_'), ('0', '9')] a = (inSet [('A', 'Z'), ('_', '_')] a || inSet [('0', '9')] a) := inSet_append [('A', 'Z'), ('_', '_')] [('0', '9')] a
    rw [isWordChar, e, this, Bool.or_true]
  have hs : steps [c] rules = [(.BIND_PARAMETER, identifier), (.UNEXPECTED_CHAR, .eps)] ∨
      steps [c] rules = [(.BIND_PARAMETER, .alt (.star digit) identifier), (.UNEXPECTED_CHAR, .eps)] := by
    rcases hc with rfl | rfl
    · exact Or.inl (by decide +kernel)
    · exact Or.inr (by decide +kernel)
  rcases hs with hs | hs
  · refine longest_via (p := [c]) (by simp) hs ?_ ?_
    · rw [firstRule_cons]
      exact Or.inl ⟨rfl, hx⟩
    · rintro a y rest' rfl ⟨p, hp, hm⟩
      simp only [List.mem_cons, List.not_mem_nil, or_false] at hp
      rcases hp with rfl | rfl
      · exact identifier_end hx hm hr
      · simp [matches_eps] at hm
  · refine longest_via (p := [c]) (by simp) hs ?_ ?_
    · rw [firstRule_cons]
      exact Or.inl ⟨rfl, Or.inr hx⟩
    · rintro a y rest' rfl ⟨p, hp, hm⟩
      simp only [List.mem_cons, List.not_mem_nil, or_false] at hp
      rcases hp with rfl | rfl
      · rcases (matches_alt _ _ _ _).mp hm with hm | hm
        · have := hd _ _ hm
          rw [List.all_eq_true] at this
          have := this a (by simp)
          simp only [List.cons_append, valueEnd, this] at hr
          cases hr
        · exact identifier_end hx hm hr
      · simp [matches_eps] at hm

end Verif.Lex
