import Verif.Spec.Syntax
/-! Statements with words that change their meaning. -/
namespace Verif.Spec
open Verif Verif.Lex

/-- What is to be done on a conflict. -/
inductive Conflict | rollback | abort | fail | ignore | replace
  deriving DecidableEq, Repr

/-- The token of a conflict clause. -/
def Conflict.tok : Conflict → Tok
  | .rollback => .ROLLBACK_ | .abort => .ABORT_ | .fail => .FAIL_ | .ignore => .IGNORE_ | .replace => .REPLACE_

/-- Statements with such words. -/
inductive WordyS
  /-- `EXPLAIN s`, `EXPLAIN QUERY PLAN s` -/
  | explain (plan : Bool) (s : StmtS)
  /-- `SELECT DISTINCT …`, `SELECT ALL …` -/
  | distinct (all : Bool) (s : SelectS)
  /-- `INSERT OR IGNORE INTO …` -/
  | insertOr (c : Conflict) (i : InsertS)
  /-- `REPLACE INTO …` -/
  | replace (i : InsertS)
  /-- `UPDATE OR IGNORE …` -/
  | updateOr (c : Conflict) (u : UpdateS)

/-- Their tokens. -/
def WordyS.toks (sp : Spelling) : WordyS → List Token
  | .explain false s => kw sp .EXPLAIN_ :: s.toks sp
  | .explain true s => kw sp .EXPLAIN_ :: kw sp .QUERY_ :: kw sp .PLAN_ :: s.toks sp
  | .distinct a s => kw sp .SELECT_ :: kw sp (if a then .ALL_ else .DISTINCT_) :: (s.toks sp).tail
  | .insertOr c i => kw sp .INSERT_ :: kw sp .OR_ :: kw sp c.tok :: (i.toks sp).tail
  | .replace i => kw sp .REPLACE_ :: (i.toks sp).tail
  | .updateOr c u => kw sp .UPDATE_ :: kw sp .OR_ :: kw sp c.tok :: (u.toks sp).tail

/-- The statements without the words. -/
def WordyS.bare : WordyS → StmtS
  | .explain _ s => s
  | .distinct _ s => .select s
  | .insertOr _ i | .replace i => .insert i
  | .updateOr _ u => .update u

end Verif.Spec
