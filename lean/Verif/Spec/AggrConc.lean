import Verif.Model.AggrConc
/-! Concurrent use of an aggregator: calls that do not overlap, and what calls one after the other give. -/
namespace Verif.Spec.AggrConc
open Verif Verif.Fn Verif.AggrConc
variable {V F : Type}

/-- The rows of the calls, in the order in which the calls began. -/
def rows (h : List (Event V)) : List (List (Option V)) := h.filterMap (fun | .call _ r => some r | _ => none)

/-- What the calls returned, in the order of the returns. -/
def results (h : List (Event V)) : List (Res Unit) := h.filterMap (fun | .ret _ _ r => some r | _ => none)

/-- At no time are two calls open. -/
def OneAtATime (h : List (Event V)) : Prop := ∀ pre post, h = pre ++ post → (rows pre).length ≤ (results pre).length + 1

/-- `AggregateRow` for one row after the other by a single goroutine. -/
def inTurn (E : Env V F) : Aggr V F → List (List (Option V)) → Aggr V F × List (Res Unit)
  | a, [] => (a, [])
  | a, r :: rs =>
    let x := a.aggregateRow E r
    let y := inTurn E x.1 rs
    (y.1, x.2 :: y.2)

/-- What can be read and written. -/
inductive Cell | acc (n : Nat) | count
  deriving DecidableEq

/-- The access a program makes next, and whether it writes. -/
def access : Prog F → Option (Cell × Bool)
  | .readAcc n _ => some (.acc n, false)
  | .writeAcc n _ _ => some (.acc n, true)
  | .readCount _ => some (.count, false)
  | .writeCount _ _ => some (.count, true)
  | .ret _ => none

/-- A data race: two goroutines are about to use the same place and one of them writes. -/
def Race (s : Conf V F) (c : Cell) : Prop :=
  ∃ t u r r' p q w, t ≠ u ∧ s.pc t = some (r, p) ∧ s.pc u = some (r', q) ∧ access p = some (c, true) ∧ access q = some (c, w)

end Verif.Spec.AggrConc
