import Verif.Lemmas.LexText
/-! Texts between quote characters of any kind. -/
namespace Verif.Lex
open Verif Verif.Spec

theorem _root_.Verif.Spec.Paired.cancel {q : Char} {v y : Str} (hv : Paired q v) (h : Paired q (v ++ y)) : Paired q y := by
  induction hv with
  | nil => exact h
  | char c v hc _ ih =>
    rw [List.cons_append] at h
    generalize hw : c :: (v ++ y) = w at h
    cases h with
    | nil => cases hw
    | char c' w' _ h => injection hw with _ hw; subst hw; exact ih h
    | pair => injection hw with hw _; exact absurd hw hc
  | pair v _ ih =>
    rw [List.cons_append, List.cons_append] at h
    generalize hw : q :: q :: (v ++ y) = w at h
    cases h with
    | nil => cases hw
    | char c' w' hc h => injection hw with hw _; exact absurd hw.symm hc
    | pair w' h => injection hw with _ hw; injection hw with _ hw; subst hw; exact ih h

theorem _root_.Verif.Spec.Paired.of_not_mem {q : Char} {v : Str} (h : q ∉ v) : Paired q v := by
  induction v with
  | nil => exact .nil
  | cons c v ih =>
    refine .char c v (fun e => h (by simp [e])) (ih (fun hm => h (List.mem_cons_of_mem _ hm)))

section
variable (q : Char) (hq : ∀ c, Str.upC c = Str.upC q → c = q)
include hq

theorem inSet_q (c : Char) : inSet [(q, q)] c = (c == q) := by
  rw [Bool.eq_iff_iff, inSet_iff, inRanges_single, beq_iff_eq]
  constructor
  · intro h; exact hq c h.symm
  · intro h; subst h; rfl

theorem matches_q (w rest : Str) : Matches (Re.lit [q]) w rest ↔ w = [q] := by
  rw [matches_lit, upper_single]
  constructor
  · rintro ⟨c, rfl, h⟩; rw [hq c h]
  · rintro rfl; exact ⟨_, rfl, rfl⟩

theorem matches_qq (w rest : Str) : Matches (Re.lit [q, q]) w rest ↔ w = [q, q] := by
  show Matches (.seq (Re.lit [q]) (Re.lit [q])) w rest ↔ _
  rw [matches_seq]
  constructor
  · rintro ⟨u, v, rfl, hu, hv⟩
    rw [(matches_q q hq _ _).mp hu, (matches_q q hq _ _).mp hv]; rfl
  · rintro rfl
    exact ⟨[q], [q], rfl, (matches_q q hq _ _).mpr rfl, (matches_q q hq _ _).mpr rfl⟩

theorem reps_q (v rest : Str) :
    Reps (Matches (.alt (.cls true [(q, q)]) (Re.lit [q, q]))) v rest ↔ Paired q v := by
  constructor
  · intro h
    induction h with
    | nil => exact .nil
    | cons u v rest hu _ ih =>
      rw [matches_alt, matches_cls, matches_qq q hq] at hu
      rcases hu with ⟨c, rfl, hc⟩ | rfl
      · rw [inSet_q q hq] at hc
        exact .char c v (by simpa using hc) ih
      · exact .pair v ih
  · intro h
    induction h with
    | nil => exact .nil _
    | char c v hc _ ih =>
      refine .cons [c] v rest ?_ ih
      rw [matches_alt, matches_cls]
      exact Or.inl ⟨c, rfl, by rw [inSet_q q hq]; simpa using hc⟩
    | pair v _ ih =>
      refine .cons [q, q] v rest ?_ ih
      rw [matches_alt, matches_qq q hq]
      exact Or.inr rfl

theorem matches_bodyq (w rest : Str) :
    Matches (.seq (.star (.alt (.cls true [(q, q)]) (Re.lit [q, q]))) (Re.lit [q])) w rest ↔
      ∃ b, w = b ++ [q] ∧ Paired q b := by
  rw [matches_seq]
  constructor
  · rintro ⟨u, v, rfl, hu, hv⟩
    rw [(matches_q q hq _ _).mp hv]
    exact ⟨u, rfl, (reps_q q hq _ _).mp hu⟩
  · rintro ⟨b, rfl, h⟩
    exact ⟨b, [q], rfl, (reps_q q hq _ _).mpr h, (matches_q q hq _ _).mpr rfl⟩

variable (t : Tok) (hstep : step q rules = [(t, .seq (.star (.alt (.cls true [(q, q)]) (Re.lit [q, q]))) (Re.lit [q])), (.UNEXPECTED_CHAR, .eps)])
include hstep

/-- A text between quotes with every inner quote doubled is one token. -/
theorem longest_quoted (v rest : Str) (hv : Paired q v) (hr : ∀ c r, rest = c :: r → c ≠ q) :
    Longest rules t (q :: v ++ [q]) rest := by
  refine ⟨by simp, ?_, ?_⟩
  · rw [List.cons_append, ← firstRule_step, hstep, firstRule_cons]
    exact Or.inl ⟨rfl, (matches_bodyq q hq _ _).mpr ⟨v, rfl, hv⟩⟩
  · intro w' rest' he hl hs
    obtain ⟨x, rfl⟩ : (q :: v ++ [q]) <+: w' := by
      have : (q :: v ++ [q]) <+: w' ++ rest' := he ▸ List.prefix_append _ rest
      exact List.prefix_of_prefix_length_le this (List.prefix_append _ _) (Nat.le_of_lt hl)
    rw [List.append_assoc, List.append_cancel_left_eq] at he
    subst he
    rw [List.append_assoc, List.cons_append, ← someRule_step, hstep] at hs
    obtain ⟨p, hp, hm⟩ := hs
    simp only [List.mem_cons, List.not_mem_nil, or_false] at hp
    rcases hp with hp | hp <;> subst hp
    · obtain ⟨b, hb, hd⟩ := (matches_bodyq q hq _ _).mp hm
      cases x with
      | nil => simp at hl
      | cons r0 x =>
        have hr0 : r0 ≠ q := hr r0 (x ++ rest') rfl
        have : ∃ y, b = v ++ q :: y ∧ (y = [] ∨ ∃ y', y = r0 :: y') := by
          have hl : v ++ q :: r0 :: x = b ++ [q] := by simpa using hb
          rcases List.eq_nil_or_concat x with hx | ⟨x', l, hx⟩
          · subst hx
            have : (v ++ [q]) ++ [r0] = b ++ [q] := by simpa using hl
            obtain ⟨h1, h2⟩ := List.append_inj' this rfl
            exact ⟨[], h1.symm, Or.inl rfl⟩
          · subst hx
            have : (v ++ q :: r0 :: x') ++ [l] = b ++ [q] := by simpa using hl
            obtain ⟨h1, h2⟩ := List.append_inj' this rfl
            exact ⟨r0 :: x', h1.symm, Or.inr ⟨x', rfl⟩⟩
        obtain ⟨y, rfl, hy⟩ := this
        have hd := hv.cancel hd
        rcases hy with rfl | ⟨y', rfl⟩
        · cases hd with | char _ _ h _ => exact h rfl
        · cases hd with
          | char _ _ h _ => exact h rfl
          | pair => exact hr0 rfl
    · have := (matches_eps _ _).mp hm
      simp at this

/-- A text between quotes is one token of that kind exactly if every inner quote is doubled. -/
theorem quoted_token_iff (v : Str) (ht : t ≠ .UNEXPECTED_CHAR) :
    lex (q :: v ++ [q]) = some [{ kind := t, text := q :: v ++ [q] }] ↔ Paired q v := by
  constructor
  · intro h
    have h := (lex_iff _ _).mp h
    have : FirstRule rules t (q :: v ++ [q]) [] := by
      generalize hw : q :: v ++ [q] = w at h
      generalize hts : [({ kind := t, text := w } : Token)] = ts at h
      cases h with
      | nil => cases hts
      | cons t' u rest ts hl hts' =>
        injection hts with h1 h2
        injection h1 with h3 h4
        subst h3
        have : rest = [] := by
          have := congrArg List.length h4
          simp at this
          exact this
        subst this
        rw [List.append_nil] at h4 ⊢
        exact hl.2.1
    rw [List.cons_append, ← firstRule_step, hstep, firstRule_cons] at this
    rcases this with ⟨_, h⟩ | ⟨_, h⟩
    · obtain ⟨b, hb, hd⟩ := (matches_bodyq q hq _ _).mp h
      rw [(List.append_inj' hb rfl).1]
      exact hd
    · rw [firstRule_cons] at h
      rcases h with ⟨h, _⟩ | ⟨_, h⟩
      · exact absurd h.symm ht
      · exact (firstRule_nil _ _ _ h).elim
  · intro h
    have := lex_cons _ _ [] [] (longest_quoted q hq t hstep v [] h (by simp)) lex_nil
    simpa using this
end

theorem upC_fix (q : Char) (hq : Str.upC q = q) (hn : ¬ ('A'.toNat ≤ q.toNat ∧ q.toNat ≤ 'Z'.toNat)) (c : Char)
    (h : Str.upC c = Str.upC q) : c = q := by
  rw [hq] at h
  unfold Str.upC at h
  split at h
  · exfalso
    apply hn
    rename_i hc
    rw [← h]
    have e1 : 'a'.toNat = 97 := rfl
    have e2 : 'z'.toNat = 122 := rfl
    have e3 : (Char.ofNat (c.toNat - 32)).toNat = c.toNat - 32 := by
      have : ∀ n, n < 128 → (Char.ofNat n).toNat = n := by decide
      exact this _ (by omega)
    rw [e3]
    have e4 : 'A'.toNat = 65 := rfl
    have e5 : 'Z'.toNat = 90 := rfl
    omega
  · exact h

theorem step_backquote : step '`' rules =
    [(.IDENTIFIER, .seq (.star (.alt (.cls true [('`', '`')]) (Re.lit ['`', '`']))) (Re.lit ['`'])),
     (.UNEXPECTED_CHAR, .eps)] := by decide +kernel

theorem step_doublequote : step '"' rules =
    [(.IDENTIFIER, .seq (.star (.alt (.cls true [('"', '"')]) (Re.lit ['"', '"']))) (Re.lit ['"'])),
     (.UNEXPECTED_CHAR, .eps)] := by decide +kernel

end Verif.Lex
