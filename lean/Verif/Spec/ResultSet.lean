import Verif.Model.ResultSet
/-! Specifications for result sets. -/
namespace Verif.Spec
open Verif Verif.Fn Verif.Rs
variable {V F T : Type}

/-- The window of a list: everything after the first `offset` elements, at most `limit` of them (no bound when
the limit is zero). -/
def window {α : Type} (offset limit : Nat) (l : List α) : List α :=
  if limit = 0 then l.drop offset else (l.drop offset).take limit

/-- A relation between a result set and the rows its `for rs.Next() { rs.Row() }` loop visits, given a step
function for Next and one for Row, and the result set at the end. -/
inductive Loop {S ρ : Type} (next : S → S × Bool) (row : S → S × ρ) : S → List ρ → S → Prop
  | stop {s s'} : next s = (s', false) → Loop next row s [] s'
  | turn {s s1 s2 s3 r rs} : next s = (s1, true) → row s1 = (s2, r) → Loop next row s2 rs s3 → Loop next row s (r :: rs) s3

/-- A call on a row. -/
inductive RowRead | object | values | valueAt (i : Int) | valueBy (name : Str)
  deriving DecidableEq

/-- What a call on a row returns. -/
inductive RowOut (V : Type)
  | object (m : GoMap Str (Option V)) | values (l : List (Option V)) | value (r : Res (Option V))
  deriving DecidableEq

/-- The value a selector contributes to a projected row: the value of its function on the object when the
function can be executed, else the object's value of that name, nil when it has none. -/
inductive Projects (exec : Func V F T → Option (GoMap Str (Option V) → Res (Option V))) (obj : GoMap Str (Option V)) :
    Col V F T → Option V → Prop
  | found {c v} : (∀ f, c.fn = some f → exec f = none) → (c.name, v) ∈ obj → Projects exec obj c v
  | absent {c} : (∀ f, c.fn = some f → exec f = none) → (∀ v, (c.name, v) ∉ obj) → Projects exec obj c none
  | func {c f g v} : c.fn = some f → exec f = some g → g obj = .ok v → Projects exec obj c v

end Verif.Spec
