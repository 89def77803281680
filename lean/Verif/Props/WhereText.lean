import Verif.Lemmas.WhereText
import Verif.Props.Print
import Verif.Props.RoundTrip
/-! C06: the text of a condition. -/
namespace Verif.Props
open Verif Verif.Query Verif.Lex Verif.Spec Verif.Lemmas

/-- C06, exactly what the text of a condition keeps: two conditions made of comparisons of columns, with or without quotes,
with literals, have the same text if and only if they have the same comparisons and the same words between them, from left
to right. How the comparisons are grouped is lost. -/
theorem C06_text_iff (e e' : Expr) (h : PrintableTree e) (h' : PrintableTree e') : e.toStr = e'.toStr ↔ condParts e = condParts e' := by
  constructor
  · intro ht
    obtain ⟨c, l, hw, hp⟩ := chain_writing h
    obtain ⟨c', l', hw', hp'⟩ := chain_writing h'
    rw [ht] at hw
    have h1 := hw [] [] rfl .nil
    have h2 := hw' [] [] rfl .nil
    rw [Lx, h2] at h1
    simp only [List.append_nil, Option.some.injEq] at h1
    obtain ⟨rfl, rfl⟩ := chainToks_inj h1
    rw [hp, hp']
  · intro he
    rw [parts_text, parts_text, he]

/-- C06 for every condition without an OR below an AND whose comparisons are of columns, with or without quotes, with
literals, also strings with blanks: conditions with the same text are true of the same rows. Missing: an OR below an AND, see
`C06_where_text_structure_fails`, and values that no literal has. -/
theorem C06_written_partial (e e' : Expr) (h : PrintableTree e) (h' : PrintableTree e') (ho : orOfAnds e = true)
    (ho' : orOfAnds e' = true) (ht : e.toStr = e'.toStr) (ρ : Str → CmpOp → Str → Bool) : truth ρ e = truth ρ e' := by
  have hp := (C06_text_iff e e' h h').mp ht
  have h1 := run_orOfAnds ρ e ho [] (.inl rfl)
  have h2 := run_orOfAnds ρ e' ho' [] (.inl rfl)
  rw [List.append_nil, run, Bool.or_false] at h1 h2
  rw [truth, truth, ← h1, ← h2, hp]

/-- C06 fails for every AND with an OR on its right: the condition that groups from the left has the same text, and where
only the last comparison is true, only that condition is true. -/
theorem C06_grouping_fails (a b c : Cmp) (ρ : Str → CmpOp → Str → Bool) (ha : truth ρ (.cmp a) = false)
    (hc : truth ρ (.cmp c) = true) :
    Expr.toStr (.and (.cmp a) (.or (.cmp b) (.cmp c))) = Expr.toStr (.or (.and (.cmp a) (.cmp b)) (.cmp c)) ∧
    truth ρ (.and (.cmp a) (.or (.cmp b) (.cmp c))) = false ∧ truth ρ (.or (.and (.cmp a) (.cmp b)) (.cmp c)) = true := by
  refine ⟨by simp [Expr.toStr], ?_, ?_⟩
  · simp only [truth, holds] at ha ⊢
    simp [ha]
  · simp only [truth, holds] at hc ⊢
    simp [hc]

/-- A comparison with a string that has blanks and words of SQL. -/
def wordsCmp : Cmp := ⟨.eq, { name := s%"[a b]" }, some { v := .str s%"x AND y OR z", t := .string }⟩

theorem wordsCmp_printable : PrintableCmp wordsCmp :=
  ⟨rfl, .inr (.bracket (v := s%"a b") (by decide)), ⟨nofun, nofun⟩, _, rfl, printable_str (by decide) (by decide)⟩

example : PrintableTree (.or (.and (.cmp wordsCmp) (.cmp wordsCmp)) (.cmp wordsCmp)) ∧ PrintableTree (.or (.cmp wordsCmp) (.cmp wordsCmp)) ∧
    orOfAnds (.or (.and (.cmp wordsCmp) (.cmp wordsCmp)) (.cmp wordsCmp)) = true ∧
    Expr.toStr (.or (.cmp wordsCmp) (.cmp wordsCmp)) = s%"[a b] = 'x AND y OR z' OR [a b] = 'x AND y OR z'" :=
  ⟨.or (.and (.cmp wordsCmp_printable) (.cmp wordsCmp_printable)) (.cmp wordsCmp_printable), .or (.cmp wordsCmp_printable) (.cmp wordsCmp_printable),
    rfl, by decide +kernel⟩

end Verif.Props
