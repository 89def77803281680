import Verif.Model.FnConc
/-! Concurrent use of a function object: data races, functions that calls no longer change. -/
namespace Verif.Spec.FnConc
open Verif Verif.Fn Verif.FnState Verif.FnConc
variable {V F T : Type}

/-- The fields. -/
inductive Field
  | executor | aggregator | type
  deriving DecidableEq

/-- The access a program makes next: the field, and whether it is written. -/
def access : Prog V F T → Option (Field × Bool)
  | .readExec _ => some (.executor, false)
  | .writeExec _ _ => some (.executor, true)
  | .readAggr _ => some (.aggregator, false)
  | .writeAggr _ _ => some (.aggregator, true)
  | .readType _ => some (.type, false)
  | .writeType _ _ => some (.type, true)
  | _ => none

/-- A data race on a field: two goroutines are about to use it and one of them writes. -/
def Race (s : Conf V F T) (f : Field) : Prop :=
  ∃ t u op op' a b w, t ≠ u ∧ s.pc t = some (op, a) ∧ s.pc u = some (op', b) ∧ access a = some (f, true) ∧ access b = some (f, w)

/-- What a call alone returns. -/
def alone (E : Env V F) (env : XEnv V F T) (f : FObj V F T) (as : List (Aggr V F)) : Op V F T → Ret V F T
  | .executor os => .exec (f.getExecutor env os).2
  | .aggregator os => .aggr (f.getAggregator E as os).2.2
  | .isAggregator => .bool f.isAggregator

/-- No call alone changes the function. -/
def Settled (E : Env V F) (env : XEnv V F T) (f : FObj V F T) : Prop :=
  (∀ os, (f.getExecutor env os).1 = f) ∧ ∀ as os, (f.getAggregator E as os).1 = f

end Verif.Spec.FnConc
