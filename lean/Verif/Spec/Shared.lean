import Verif.Model.Slices
import Verif.Spec.Net
/-! What programs expect of rows, options and connections that they hold: every one has its own values. -/
namespace Verif.Spec
open Verif Verif.Slices

variable {α : Type}

/-- The values of the rows, if each row has its own. -/
def rowValues (l : List (List α)) : RowOp α → List (List α)
  | .new vs => l ++ [vs]
  | .same i => match l[i]? with
    | some v => l ++ [v]
    | none => l
  | .append i vs _ => match l[i]? with
    | some v => l ++ [v ++ vs]
    | none => l

/-- The row a call makes another row of. -/
def sourceOf : RowOp α → Option Nat
  | .new _ => none
  | .same i => some i
  | .append i _ _ => some i

/-- Other rows are made of each row at most once. -/
def Once (h : List (RowOp α)) : Prop := (h.filterMap sourceOf).Nodup

/-- The schemas of the connections, if each connection has its own: a new connection has none, a new database has none, and
names that are set are added once. -/
def ownSchemas (l : List (List Str)) : SessOp → List (List Str)
  | .conn => l ++ [[]]
  | .setDatabase i _ => l.set i []
  | .setSchemas i ss _ => match l[i]? with
    | some v => l.set i (v ++ (firsts ss).filter (fun x => !v.contains x))
    | none => l
  | _ => l

/-- The calls made on connections, and new connections without schemas. -/
def OnConns : SessOp → Prop
  | .connWith _ => False
  | .assign _ _ _ => False
  | _ => True

/-- Two slices in different arrays, or without room. -/
def SliceApart (s t : Slice) : Prop := s.arr ≠ t.arr ∨ (s.len = s.cap ∧ t.len = t.cap)

end Verif.Spec
