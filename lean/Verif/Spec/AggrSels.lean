import Verif.Spec.ResultSet
import Verif.Spec.Query
/-! Selection lists with aggregate functions. -/
namespace Verif.Spec
open Verif Verif.Fn Verif.Rs
variable {V F T : Type}

/-- A selection list of columns and of calls of aggregate functions with one argument, and its calls in order. -/
inductive AggrSels : List (Sel V F T) → List (AggrId × Str) → Prop
  | nil : AggrSels [] []
  | col {ss : List (Sel V F T)} {ps : List (AggrId × Str)} (n : Str) (h : AggrSels ss ps) : AggrSels (.col n :: ss) ps
  | call {ss : List (Sel V F T)} {ps : List (AggrId × Str)} (f : Func V F T) (k : AggrId) (x : Str) (hn : f.name = k.name) (ha : f.args = [x])
      (ht : f.type = .aggregate) (he : f.executor = none) (h : AggrSels ss ps) : AggrSels (.fn f :: ss) ((k, x) :: ps)

/-- The text of a call. -/
def callOf (p : AggrId × Str) : Str := p.1.name ++ s%"(" ++ p.2 ++ s%")"

/-- The values of the argument of a call in some objects. The argument `*` has no value, and is in every object. -/
def ArgValues (x : Str) (ms : List (GoMap Str (Option V))) (vs : List (Option V)) : Prop :=
  Pairwise2 (fun m v => (if x = s%"*" then some none else m.get? x) = some v) ms vs

end Verif.Spec
