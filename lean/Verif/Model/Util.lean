import Verif.Model.Str
/-
Model of `/repo/sql/util/stack.go` and `/repo/sql/util/strings/strings.go`.
-/
namespace Verif.Util
open Verif

/-- `Stack` (sql/util/stack.go 18-20): the slice `objects`, bottom first. -/
structure Stack (α : Type) where
  objects : List α

namespace Stack
variable {α : Type}

/-- `NewStack` (sql/util/stack.go 23-28). -/
def new : Stack α := ⟨[]⟩

/-- `PushObject` (sql/util/stack.go 31-33): append at the end of the slice. -/
def push (s : Stack α) (x : α) : Stack α := ⟨s.objects ++ [x]⟩

/-- `PeekObject` (sql/util/stack.go 36-42): last element, nil when the count is zero. -/
def peek (s : Stack α) : Option α :=
  if s.objects.length ≤ 0 then none else s.objects[s.objects.length - 1]?

/-- `PopObject` (sql/util/stack.go 45-53): last element and the slice `[0:count-1]`. -/
def pop (s : Stack α) : Option α × Stack α :=
  if s.objects.length ≤ 0 then (none, s)
  else (s.objects[s.objects.length - 1]?, ⟨s.objects.take (s.objects.length - 1)⟩)

/-- `Size` (sql/util/stack.go 56-58). -/
def size (s : Stack α) : Nat := s.objects.length

/-- A call on the stack. stack.go 31-58. -/
inductive Op (α : Type) where
  | push (x : α) | pop | peek | size

/-- What a call returns. stack.go 31-58. -/
inductive Out (α : Type) where
  | unit | obj (o : Option α) | num (n : Nat)
deriving DecidableEq

/-- One call on the model (dispatch over stack.go 31-58). -/
def step (s : Stack α) : Op α → Stack α × Out α
  | .push x => (s.push x, .unit)
  | .pop => (s.pop.2, .obj s.pop.1)
  | .peek => (s, .obj s.peek)
  | .size => (s, .num s.size)

/-- A history of calls, with the outputs in order. stack.go 31-58. -/
def run (s : Stack α) : List (Op α) → Stack α × List (Out α)
  | [] => (s, [])
  | o :: os =>
    let r := s.step o
    let q := run r.1 os
    (q.1, r.2 :: q.2)

end Stack

/-- `JoinWithSpace` (sql/util/strings/strings.go 23-25). -/
def joinWithSpace (elems : List Str) : Str := Str.join s%" " elems

/-- `JoinWithComma` (sql/util/strings/strings.go 28-30). -/
def joinWithComma (elems : List Str) : Str := Str.join s%", " elems

/-- `UnEscapeString` (sql/util/strings/strings.go 33-35): trims both quote characters. -/
def unEscapeString (s : Str) : Str := Str.trim s%"'\"" s

/-- `EscapeString` (sql/util/strings/strings.go 38-40): wraps, without escaping inside. -/
def escapeString (s : Str) : Str := s%"'" ++ s ++ s%"'"

/-- `UnEscapeNameString` (sql/util/strings/strings.go 53-55). -/
def unEscapeNameString (s : Str) : Str := Str.trim s%"'`()" s

/-- `EscapeNameString` (sql/util/strings/strings.go 58-60). -/
def escapeNameString (s : Str) : Str := s%"`" ++ s ++ s%"`"

end Verif.Util
