/-
Specifications for the utility package, independent of the model.
-/
namespace Verif.Spec

/-- Abstract LIFO object: the list of live elements, newest first. -/
inductive LifoOp (α : Type) where
  | push (x : α) | pop | peek | size

/-- What an observer sees. -/
inductive LifoOut (α : Type) where
  | unit | obj (o : Option α) | num (n : Nat)

/-- One operation of the abstract LIFO list. -/
def lifoStep {α : Type} (l : List α) : LifoOp α → List α × LifoOut α
  | .push x => (x :: l, .unit)
  | .pop => match l with
    | [] => ([], .obj none)
    | x :: r => (r, .obj (some x))
  | .peek => match l with
    | [] => ([], .obj none)
    | x :: r => (x :: r, .obj (some x))
  | .size => (l, .num l.length)

/-- A whole history of the abstract LIFO list. -/
def lifoRun {α : Type} (l : List α) : List (LifoOp α) → List (LifoOut α)
  | [] => []
  | o :: os => (lifoStep l o).2 :: lifoRun (lifoStep l o).1 os

/-- A string begins or ends with a character of the given set. -/
def TouchesEnds (bad : Char → Prop) (s : List Char) : Prop :=
  (∃ c r, s = c :: r ∧ bad c) ∨ (∃ r c, s = r ++ [c] ∧ bad c)

end Verif.Spec
