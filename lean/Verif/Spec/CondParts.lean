import Verif.Spec.LongCond
/-! What the text of a condition says: its comparisons and the words between them, from left to right. -/
namespace Verif.Spec
open Verif Verif.Query

/-- A comparison, or a word between comparisons. -/
inductive CondPart
  | cmp (c : Cmp)
  | and
  | or
  deriving DecidableEq

/-- The comparisons of a condition, with their values as texts, and the words between them. -/
def condParts : Expr → List CondPart
  | .cmp c => [.cmp (cmpAsText c)]
  | .and l r => condParts l ++ .and :: condParts r
  | .or l r => condParts l ++ .or :: condParts r

end Verif.Spec
