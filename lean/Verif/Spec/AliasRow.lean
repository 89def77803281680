import Verif.Model.AliasRow
/-! Specification of the use of rows by an aggregator, independently of what it keeps: the calls as if every row were
passed by value, and callers that do not write into rows they have passed. -/
namespace Verif.Spec
open Verif Verif.Fn Verif.AliasRow

section
variable {V F : Type}

/-- The calls that the actions make, every row with the content it has at the time of its call. -/
def byValue : List (List (Option V)) → List (Act V) → List (AggrCall V)
  | _, [] => []
  | m, .new row :: as => byValue (m ++ [row]) as
  | m, .write p i v :: as => byValue (m.modify p (fun r => r.set i v)) as
  | m, .row p :: as => .aggregate (.row ((m[p]?).getD [])) :: byValue m as
  | m, .map o :: as => .aggregate (.map o) :: byValue m as
  | m, .finalize ch ob :: as => .finalize ch ob :: byValue m as
  | m, .reset os :: as => .reset os :: byValue m as

/-- No row is written into after it was passed to the aggregator; `used` are the rows passed before. -/
def NoReuse : List Nat → List (Act V) → Prop
  | _, [] => True
  | used, .write p _ _ :: as => p ∉ used ∧ NoReuse used as
  | used, .row p :: as => NoReuse (p :: used) as
  | used, _ :: as => NoReuse used as

/-- Two result sets with the same columns whose rows agree in everything but the first cells. -/
def SameButKeys (a b : ResultSet V F) : Prop :=
  a.columns = b.columns ∧ a.rows.length = b.rows.length ∧
  ∀ (i : Nat) (x y : List (Cell V F)), a.rows[i]? = some x → b.rows[i]? = some y →
    ∃ k l rest, x = k ++ rest ∧ y = l ++ rest ∧ k.length = l.length

/-- Two results of calls that differ at most in the group values shown by `Finalize`. -/
def OutSameButKeys : AggrOut V F → AggrOut V F → Prop
  | .aggregated a, .aggregated b => a = b
  | .reset a, .reset b => a = b
  | .finalized none, .finalized none => True
  | .finalized (some a), .finalized (some b) => SameButKeys a b
  | _, _ => False

end
end Verif.Spec
