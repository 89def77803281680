import Verif.Spec.Aliases
/-! Clauses after those that are reported: RETURNING, ON CONFLICT DO NOTHING, more GROUP BY columns and HAVING. -/
namespace Verif.Spec
open Verif Verif.Lex

/-- A RETURNING clause. -/
structure ReturnS where
  item : PickS
  items : List PickS
  deriving DecidableEq, Repr

/-- The tokens of a RETURNING clause. -/
def ReturnS.toks (sp : Spelling) (r : ReturnS) : List Token := kw sp .RETURNING_ :: commas sp ((r.item :: r.items).map (PickS.toks sp))

/-- The tokens of ON CONFLICT DO NOTHING, if it is there. -/
def conflictToks (sp : Spelling) (c : Bool) : List Token := if c then [kw sp .ON_, kw sp .CONFLICT_, kw sp .DO_, kw sp .NOTHING_] else []

/-- Statements with such a clause at their end. -/
inductive EndedS
  | delete (d : DeleteS) (r : ReturnS)
  | update (u : UpdateS) (r : ReturnS)
  | insert (i : InsertS) (conflict : Bool) (r : Option ReturnS)
  deriving DecidableEq, Repr

/-- The statement without the clause. -/
def EndedS.bare : EndedS → StmtS
  | .delete d _ => .delete d
  | .update u _ => .update u
  | .insert i _ _ => .insert i

/-- The tokens of the statement. -/
def EndedS.toks (sp : Spelling) : EndedS → List Token
  | .delete d r => d.toks sp ++ r.toks sp
  | .update u r => u.toks sp ++ r.toks sp
  | .insert i c r => i.toks sp ++ (conflictToks sp c ++ (r.map (ReturnS.toks sp)).getD [])

/-- The tokens of a HAVING clause. -/
def havingToks (sp : Spelling) : Option CondS → List Token
  | none => []
  | some c => kw sp .HAVING_ :: c.toks sp

/-- The tokens of a SELECT that is grouped by more columns and has a HAVING clause. -/
def SelectS.toksGroup (sp : Spelling) (s : SelectS) (g : Str) (gs : List Str) (h : Option CondS) : List Token :=
  kw sp .SELECT_ :: (commas sp ((s.item :: s.items).map (ItemS.toks sp)) ++ (fromToks sp s.tables ++ (whereToks sp s.cond ++
    (kw sp .GROUP_ :: kw sp .BY_ :: (commas sp ((g :: gs).map (fun g => [ident g])) ++ (havingToks sp h ++ (ordersToks sp s.orders ++ s.limit.toks sp)))))))

end Verif.Spec
