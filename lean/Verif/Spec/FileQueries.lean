import Verif.Spec.TestHelper
/-! The queries of a test file, in terms of the text between its semicolons. -/
namespace Verif.Spec.TestHelper
open Verif

/-- The character is neither the first nor the last of the text. -/
def NotAtEnds (c : Char) (x : Str) : Prop := (∀ r, x ≠ c :: r) ∧ (∀ r, x ≠ r ++ [c])

/-- `q` is the text `p` without the line ends at both ends, and then without the spaces at both ends. -/
def CutTo (p q : Str) : Prop :=
  ∃ a b c d : Nat, p = List.replicate a '\n' ++ ((List.replicate b ' ' ++ (q ++ List.replicate c ' ')) ++ List.replicate d '\n') ∧
    NotAtEnds '\n' (List.replicate b ' ' ++ (q ++ List.replicate c ' ')) ∧ NotAtEnds ' ' q

/-- From texts to queries: each text is cut; what is empty then or begins with `#` is left out. -/
inductive QueriesFrom : List Str → List Str → Prop
  | nil : QueriesFrom [] []
  | empty {p ps qs} : CutTo p [] → QueriesFrom ps qs → QueriesFrom (p :: ps) qs
  | comment {p r ps qs} : CutTo p ('#' :: r) → QueriesFrom ps qs → QueriesFrom (p :: ps) qs
  | query {p c r ps qs} : CutTo p (c :: r) → c ≠ '#' → QueriesFrom ps qs → QueriesFrom (p :: ps) ((c :: r) :: qs)

end Verif.Spec.TestHelper
