import Verif.Props.Parser
/-! C66: which parser objects may be used again. -/
namespace Verif.Props
open Verif Verif.Lex Verif.Gram Verif.Spec Verif.Query Verif.Parse

set_option maxRecDepth 10000 in
theorem begin_answered (toUint : Str → Option Nat) : parseQuery toUint s%"BEGIN" = .ok [.begin] := by krfl

/-- C66, exactly: a parser object answers every query as a new one does if and only if no query of its history was a syntax error. -/
theorem C66_iff (toUint : Str → Option Nat) (hist : List Str) :
    (∀ q, ((afterAll toUint hist).parseString toUint q).2 = parseQuery toUint q) ↔ ∀ b, b ∈ hist → NonEmpty b → WellFormed b := by
  refine ⟨fun h b hb hn => ?_, C66_reuse_partial toUint hist⟩
  by_cases hw : WellFormed b
  · exact hw
  have h1 := (C66_history toUint hist s%"BEGIN").1 ⟨b, hb, hn, hw⟩
  rw [h, begin_answered] at h1
  cases h1

/-- C66 fails for every history with a syntax error: every query that a new parser answers with statements, the old one
answers with an error, and it stays so whatever it is asked in between. -/
theorem C66_ever_after_fails (toUint : Str → Option Nat) (hist later : List Str) (b q : Str) (l : List Statement) (hb : b ∈ hist)
    (hn : NonEmpty b) (hw : ¬ WellFormed b) (hq : parseQuery toUint q = .ok l) :
    ((afterAll toUint (hist ++ later)).parseString toUint q).2 ≠ parseQuery toUint q := by
  rw [hq, (C66_history toUint (hist ++ later) q).1 ⟨b, List.mem_append_left _ hb, hn, hw⟩]
  simp

set_option maxRecDepth 10000 in
example (toUint : Str → Option Nat) : NonEmpty s%"SELEC 1" ∧ ¬ WellFormed s%"SELEC 1" ∧ parseQuery toUint s%"BEGIN" = .ok [.begin] := by
  refine ⟨(nonEmpty_iff _).1 rfl, (C79_error_iff (fun _ => none) _).1 (by krfl), begin_answered toUint⟩

end Verif.Props
