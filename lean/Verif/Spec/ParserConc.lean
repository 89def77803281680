import Verif.Model.ParserConc
/-! Concurrent use of parser objects: calls that do not overlap, data races. -/
namespace Verif.Spec.PConc
open Verif Verif.PConc Verif.Query

/-- The calls of parser `p` in a history. -/
def calls (p : Nat) : List Event → Nat
  | [] => 0
  | .call _ p' _ :: h => (if p' = p then 1 else 0) + calls p h
  | .ret .. :: h => calls p h

/-- The queries of the calls of parser `p` that have returned, in the order of their returns. -/
def answered (p : Nat) : List Event → List Str
  | [] => []
  | .call .. :: h => answered p h
  | .ret _ p' q _ :: h => if p' = p then q :: answered p h else answered p h

/-- Calls of the same parser do not overlap: when one begins, all before it have returned. -/
def Apart (h : List Event) : Prop :=
  ∀ pre post t p q, h = pre ++ .call t p q :: post → calls p pre = (answered p pre).length

/-- Every parser is used by one goroutine only. -/
def Owned (own : Nat → Nat) (h : List Event) : Prop := ∀ t p q, Event.call t p q ∈ h → t = own p

/-- The access a program makes next: the field, and whether it is written. -/
def access : Prog → Option (Field × Bool)
  | .read f _ => some (f, false)
  | .write f _ _ => some (f, true)
  | _ => none

/-- A data race on a field of a parser: two goroutines are about to use it and one of them writes. -/
def Race (s : Conf) (p : Nat) (f : Field) : Prop :=
  ∃ t u q q' a b w, t ≠ u ∧ s.pc t = some (p, q, a) ∧ s.pc u = some (p, q', b) ∧ access a = some (f, true) ∧ access b = some (f, w)

end Verif.Spec.PConc
