import Verif.Lemmas.LongText
import Verif.Spec.CondParts
/-! The text of a condition determines its condParts. -/
namespace Verif.Lemmas
open Verif Verif.Query Verif.Lex Verif.Spec Verif.Gram

/-- The word that joins comparisons. -/
def joinTok (b : Bool) : Tok := if b then .OR_ else .AND_

/-- The tokens of comparisons with words between them. -/
def chainToks (c : CmpS) (l : List (Bool × CmpS)) : List Token :=
  c.toks .std ++ l.flatMap (fun p => kw .std (joinTok p.1) :: p.2.toks .std)

/-- The condParts that they are. -/
def chainParts (c : CmpS) (l : List (Bool × CmpS)) : List CondPart :=
  .cmp (cmpV .std c) :: l.flatMap (fun p => [if p.1 then .or else .and, .cmp (cmpV .std p.2)])

theorem chain_writing {e : Expr} (h : PrintableTree e) : ∃ c l, Writing e.toStr (chainToks c l) ∧ condParts e = chainParts c l := by
  have join : ∀ (b : Bool) (w : Str) (x y : Str) (c c' : CmpS) (l l' : List (Bool × CmpS)), Writing w [kw .std (joinTok b)] →
      Writing x (chainToks c l) → Writing y (chainToks c' l') →
      Writing (x ++ ' ' :: (w ++ ' ' :: y)) (chainToks c (l ++ (b, c') :: l')) := by
    intro b w x y c c' l l' hw hx hy
    have := Writing.space hx (Writing.space hw hy)
    simpa [chainToks] using this
  induction h with
  | @cmp c h =>
    obtain ⟨s, hw, hv⟩ := Writing.cmp h
    exact ⟨s, [], by simpa [chainToks, Expr.toStr] using hw, by simp [condParts, chainParts, hv]⟩
  | and _ _ ih1 ih2 =>
    obtain ⟨c, l, hw, hp⟩ := ih1
    obtain ⟨c', l', hw', hp'⟩ := ih2
    refine ⟨c, l ++ (false, c') :: l', ?_, by simp [condParts, hp, hp', chainParts]⟩
    simpa [Expr.toStr] using join false _ _ _ _ _ _ _ Writing.keywords_and hw hw'
  | or _ _ ih1 ih2 =>
    obtain ⟨c, l, hw, hp⟩ := ih1
    obtain ⟨c', l', hw', hp'⟩ := ih2
    refine ⟨c, l ++ (true, c') :: l', ?_, by simp [condParts, hp, hp', chainParts]⟩
    simpa [Expr.toStr] using join true _ _ _ _ _ _ _ Writing.keywords_or hw hw'

theorem litToks_inj (a b : Lit) (x y : List Token) (h : a.toks .std ++ x = b.toks .std ++ y) : a = b ∧ x = y := by
  have hw : ∀ w w' : LitWord, w.tok = w'.tok → w = w' := by intro w w'; cases w <;> cases w' <;> decide
  have hn : ∀ w : LitWord, w.tok ∉ [Tok.NUMERIC_LITERAL, .PLUS, .MINUS, .STRING_LITERAL, .BLOB_LITERAL, .BIND_PARAMETER] := by intro w; cases w <;> decide
  cases a <;> cases b <;>
    simp only [Lit.toks, kw, List.cons_append, List.nil_append, List.cons.injEq, Token.mk.injEq, true_and, reduceCtorEq, false_and] at h
  all_goals first
    | exact h.elim
    | (obtain ⟨rfl, rfl⟩ := h; exact ⟨rfl, rfl⟩)
    | (obtain ⟨⟨h1, h2⟩, h3⟩ := h
       first
         | exact absurd (by rw [h1]; decide) (hn _)
         | exact absurd (by rw [← h1]; decide) (hn _)
         | exact ⟨by rw [hw _ _ h1, h2], h3⟩)

theorem cmpToks_inj (a b : CmpS) (x y : List Token) (h : a.toks .std ++ x = b.toks .std ++ y) : a = b ∧ x = y := by
  have ho : ∀ o o' : CmpSym, o.tok = o'.tok → o = o' := by intro o o'; cases o <;> cases o' <;> decide
  obtain ⟨c, o, l⟩ := a
  obtain ⟨c', o', l'⟩ := b
  simp only [CmpS.toks, ident, kw, List.cons_append, List.cons.injEq, Token.mk.injEq, true_and] at h
  obtain ⟨h1, ⟨h2, -⟩, h3⟩ := h
  obtain ⟨h4, h5⟩ := litToks_inj _ _ _ _ h3
  exact ⟨by rw [h1, ho _ _ h2, h4], h5⟩

theorem chainToks_inj {c c' : CmpS} {l l' : List (Bool × CmpS)} (h : chainToks c l = chainToks c' l') : c = c' ∧ l = l' := by
  obtain ⟨h1, h2⟩ := cmpToks_inj _ _ _ _ h
  refine ⟨h1, ?_⟩
  clear h h1
  induction l generalizing l' with
  | nil =>
    cases l' with
    | nil => rfl
    | cons p l' => simp at h2
  | cons p l ih =>
    cases l' with
    | nil => simp at h2
    | cons p' l' =>
      obtain ⟨b, d⟩ := p
      obtain ⟨b', d'⟩ := p'
      simp only [List.flatMap_cons, List.cons_append, List.cons.injEq] at h2
      obtain ⟨h3, h4⟩ := cmpToks_inj _ _ _ _ h2.2
      have hb : b = b' := by
        have := congrArg Token.kind h2.1
        revert this
        cases b <;> cases b' <;> decide
      rw [hb, h3, ih h4]

/-- The text that condParts have. -/
def partText : CondPart → Str
  | .cmp c => c.toStr
  | .and => s%" AND "
  | .or => s%" OR "

theorem cmpAsText_toStr (c : Cmp) : (cmpAsText c).toStr = c.toStr := by
  obtain ⟨op, left, right⟩ := c
  cases right with
  | none => rfl
  | some l => obtain ⟨v, t⟩ := l; cases t <;> rfl

theorem parts_text (e : Expr) : e.toStr = (condParts e).flatMap partText := by
  induction e with
  | cmp c => simp [condParts, partText, cmpAsText_toStr, Expr.toStr]
  | and l r ih1 ih2 => simp [condParts, partText, Expr.toStr, ih1, ih2]
  | or l r ih1 ih2 => simp [condParts, partText, Expr.toStr, ih1, ih2]

/-- Truth of an OR of ANDs, read from left to right. -/
def run (ρ : Cmp → Bool) : Bool → List CondPart → Bool
  | cur, [] => cur
  | cur, .cmp c :: t => run ρ (cur && ρ c) t
  | cur, .and :: t => run ρ cur t
  | cur, .or :: t => cur || run ρ true t

variable (ρ : Str → CmpOp → Str → Bool)

/-- Truth of a comparison by its name, operator and printed value. -/
def cmpTruth (c : Cmp) : Bool := ρ c.left.name c.op (Literal.valueString c.right)

theorem cmpTruth_asText (c : Cmp) : cmpTruth ρ (cmpAsText c) = cmpTruth ρ c := by
  obtain ⟨op, left, right⟩ := c
  cases right with
  | none => rfl
  | some l => obtain ⟨v, t⟩ := l; cases t <;> rfl

theorem run_orFree (e : Expr) (h : orFree e = true) (cur : Bool) (t : List CondPart) :
    run (cmpTruth ρ) cur (condParts e ++ t) = run (cmpTruth ρ) (cur && holds ρ Literal.valueString e) t := by
  induction e generalizing cur t with
  | cmp c => simp only [condParts, List.cons_append, List.nil_append, run, cmpTruth_asText]; rfl
  | and l r ih1 ih2 =>
    simp only [orFree, Bool.and_eq_true] at h
    simp only [condParts, List.append_assoc, List.cons_append]
    rw [ih1 h.1, run, ih2 h.2, holds, Bool.and_assoc]
  | or l r => cases h

theorem run_orOfAnds (e : Expr) (h : orOfAnds e = true) (t : List CondPart) (ht : t = [] ∨ ∃ t', t = .or :: t') :
    run (cmpTruth ρ) true (condParts e ++ t) = (holds ρ Literal.valueString e || run (cmpTruth ρ) false t) := by
  have free : ∀ e, orFree e = true → run (cmpTruth ρ) true (condParts e ++ t) = (holds ρ Literal.valueString e || run (cmpTruth ρ) false t) := by
    intro e he
    rw [run_orFree ρ e he, Bool.true_and]
    rcases ht with rfl | ⟨t', rfl⟩
    · simp [run]
    · simp [run]
  induction e generalizing t with
  | cmp c => exact free _ rfl
  | and l r => exact free _ h
  | or l r ih1 ih2 =>
    simp only [orOfAnds, Bool.and_eq_true] at h
    simp only [condParts, List.append_assoc, List.cons_append]
    have g : ∀ t, (t = [] ∨ ∃ t', t = .or :: t') → ∀ e, orFree e = true →
        run (cmpTruth ρ) true (condParts e ++ t) = (holds ρ Literal.valueString e || run (cmpTruth ρ) false t) := by
      intro t ht e he
      rw [run_orFree ρ e he, Bool.true_and]
      rcases ht with rfl | ⟨t', rfl⟩
      · simp [run]
      · simp [run]
    rw [ih1 h.1 _ (.inr ⟨_, rfl⟩) (g _ (.inr ⟨_, rfl⟩)), run, Bool.false_or, ih2 h.2 t ht free, holds, Bool.or_assoc]

end Verif.Lemmas
