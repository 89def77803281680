import Verif.Model.FnState
/-! What is said about function objects and about selectors that are used more than once. -/
namespace Verif.Spec.FnState
open Verif Verif.Fn Verif.Rs Verif.FnState

section
variable {V F T : Type}

/-- No executor is asked for with a type of the caller's own. -/
def NoTypeOption (cs : List (Call V F T)) : Prop := ∀ r os t, .executor r os ∈ cs → .type t ∉ os

/-- No aggregator is asked for with options. -/
def NoAggrOptions (cs : List (Call V F T)) : Prop := ∀ r os, .aggregator r os ∈ cs → os = []

/-- The value of the last option of a kind. -/
def lastGiven {O α : Type} (pick : O → Option α) (dflt : α) (os : List O) : α := (os.filterMap pick).getLast?.getD dflt

/-- The selectors of a statement not used yet: the functions are distinct objects that have not been asked for their
aggregators, and those that are aggregates by name have the type of an aggregate. -/
structure Unused (h : Heap V F T) (ss : List SelRef) : Prop where
  distinct : ∀ (i j r : Nat), ss[i]? = some (SelRef.fn r) → ss[j]? = some (SelRef.fn r) → i = j
  fns : ∀ r, SelRef.fn r ∈ ss → ∃ f, h.fns[r]? = some f ∧ f.aggregator = none ∧ (newAggregatorForName f.name ≠ none → f.type = .aggregate)

/-- The GROUP BY a statement was last given in a history of uses. -/
def lastGroup (us : List (List SelRef × Use V F T)) (ss : List SelRef) : Option Str :=
  ((us.filter (fun x => x.1 == ss)).filterMap (fun x => x.2.groupBy)).getLast?

/-- A history of uses of these statements that did not end in a panic for want of a schema. -/
def History (sts : List (List SelRef)) (us : List (List SelRef × Use V F T)) : Prop :=
  ∀ x ∈ us, x.1 ∈ sts ∧ x.2.src.schema ≠ none

end
end Verif.Spec.FnState
