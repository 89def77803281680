import Verif.Spec.Syntax
/-! Conditions of the grammar other than comparisons of a column with a literal. -/
namespace Verif.Spec
open Verif Verif.Lex

/-- Conditions in parentheses, negated conditions, and tests other than the comparison operators. -/
inductive OtherCond
  /-- `(c)` -/
  | paren (c : CondS)
  /-- `NOT c` -/
  | neg (c : CondS)
  /-- `a IS v` -/
  | is (a : Str) (v : Lit)
  /-- `a IS NOT NULL` -/
  | isNotNull (a : Str)
  /-- `a LIKE v` -/
  | like (a : Str) (v : Lit)
  /-- `a IN (v, …)` -/
  | isIn (a : Str) (v : Lit) (vs : List Lit)
  /-- `a NOT IN (v, …)` -/
  | notIn (a : Str) (v : Lit) (vs : List Lit)
  /-- `a BETWEEN v AND w` -/
  | between (a : Str) (v w : Lit)
  /-- `a ISNULL` -/
  | isnull (a : Str)
  /-- `a NOTNULL` -/
  | notnull (a : Str)

/-- The tokens of these conditions. -/
def OtherCond.toks (sp : Spelling) : OtherCond → List Token
  | .paren c => kw sp .OPEN_PAR :: (c.toks sp ++ [kw sp .CLOSE_PAR])
  | .neg c => kw sp .NOT_ :: c.toks sp
  | .is a v => ident a :: kw sp .IS_ :: v.toks sp
  | .isNotNull a => [ident a, kw sp .IS_, kw sp .NOT_, kw sp .NULL_]
  | .like a v => ident a :: kw sp .LIKE_ :: v.toks sp
  | .isIn a v vs => ident a :: kw sp .IN_ :: kw sp .OPEN_PAR :: (commas sp ((v :: vs).map (Lit.toks sp)) ++ [kw sp .CLOSE_PAR])
  | .notIn a v vs => ident a :: kw sp .NOT_ :: kw sp .IN_ :: kw sp .OPEN_PAR :: (commas sp ((v :: vs).map (Lit.toks sp)) ++ [kw sp .CLOSE_PAR])
  | .between a v w => ident a :: kw sp .BETWEEN_ :: (v.toks sp ++ kw sp .AND_ :: w.toks sp)
  | .isnull a => [ident a, kw sp .ISNULL_]
  | .notnull a => [ident a, kw sp .NOTNULL_]

/-- Statements with such a condition: the condition of the SELECT given is ignored. -/
inductive LostS
  | select (s : SelectS) (c : OtherCond)
  | update (t : Str) (a : SetS) (as : List SetS) (c : OtherCond)
  | delete (t : Str) (c : OtherCond)

/-- The tokens of these statements. -/
def LostS.toks (sp : Spelling) : LostS → List Token
  | .select s c => kw sp .SELECT_ :: (commas sp ((s.item :: s.items).map (ItemS.toks sp)) ++ (fromToks sp s.tables ++
      (kw sp .WHERE_ :: (c.toks sp ++ (groupToks sp s.group ++ (ordersToks sp s.orders ++ s.limit.toks sp))))))
  | .update t a as c => kw sp .UPDATE_ :: ident t :: kw sp .SET_ :: (commas sp ((a :: as).map (SetS.toks sp)) ++ (kw sp .WHERE_ :: c.toks sp))
  | .delete t c => kw sp .DELETE_ :: kw sp .FROM_ :: ident t :: kw sp .WHERE_ :: c.toks sp

/-- The same statements without their WHERE clause. -/
def LostS.bare : LostS → StmtS
  | .select s _ => .select { s with cond := none }
  | .update t a as _ => .update { table := t, asg := a, asgs := as, cond := none }
  | .delete t _ => .delete { table := t, cond := none }

end Verif.Spec
