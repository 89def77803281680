import Verif.Spec.Syntax
/-! Compound SELECTs. -/
namespace Verif.Spec
open Verif Verif.Lex

/-- The operators between the parts of a compound SELECT. -/
inductive CompoundOp
  | union | unionAll | intersect | except
  deriving DecidableEq, Repr

/-- The tokens of an operator. -/
def CompoundOp.toks (sp : Spelling) : CompoundOp → List Token
  | .union => [kw sp .UNION_]
  | .unionAll => [kw sp .UNION_, kw sp .ALL_]
  | .intersect => [kw sp .INTERSECT_]
  | .except => [kw sp .EXCEPT_]

/-- A part of a compound SELECT. -/
structure CoreS where
  item : ItemS
  items : List ItemS
  tables : List TabS
  cond : Option CondS
  group : Option Str
  deriving DecidableEq, Repr

/-- The tokens of a part. -/
def CoreS.toks (sp : Spelling) (c : CoreS) : List Token :=
  kw sp .SELECT_ :: (commas sp ((c.item :: c.items).map (ItemS.toks sp)) ++ (fromToks sp c.tables ++ (whereToks sp c.cond ++ groupToks sp c.group)))

/-- The SELECT of one part. -/
def CoreS.full (c : CoreS) (os : List OrderS) (l : LimitS) : SelectS := ⟨c.item, c.items, c.tables, c.cond, c.group, os, l⟩

/-- The part does not end with a table. -/
def CoreS.Closed (c : CoreS) : Prop := c.tables = [] ∨ c.cond ≠ none ∨ c.group ≠ none

instance (c : CoreS) : Decidable c.Closed := by unfold CoreS.Closed; exact inferInstance

/-- No part before an operator ends with a table. -/
def ClosedParts : CoreS → List (CompoundOp × CoreS) → Prop
  | _, [] => True
  | c, (_, d) :: ps => c.Closed ∧ ClosedParts d ps

/-- The tokens of the parts after the first. -/
def partsToks (sp : Spelling) (ps : List (CompoundOp × CoreS)) : List Token := ps.flatMap (fun p => p.1.toks sp ++ p.2.toks sp)

/-- The tokens of a compound SELECT. -/
def compoundToks (sp : Spelling) (c : CoreS) (ps : List (CompoundOp × CoreS)) (os : List OrderS) (l : LimitS) : List Token :=
  c.toks sp ++ (partsToks sp ps ++ (ordersToks sp os ++ l.toks sp))

end Verif.Spec
