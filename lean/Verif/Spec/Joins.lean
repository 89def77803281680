import Verif.Spec.Clauses
/-! SELECT from joined tables. -/
namespace Verif.Spec
open Verif Verif.Lex

/-- The words before JOIN. -/
inductive JoinKind
  | left | inner | cross
  deriving DecidableEq, Repr

/-- The token of such a word. -/
def JoinKind.tok : JoinKind → Tok
  | .left => .LEFT_
  | .inner => .INNER_
  | .cross => .CROSS_

/-- A joined table with its condition. -/
structure JoinS where
  word : Option JoinKind
  table : Str
  on : Option CondS
  deriving DecidableEq, Repr

/-- The tokens of an ON clause. -/
def onToks (sp : Spelling) : Option CondS → List Token
  | none => []
  | some c => kw sp .ON_ :: c.toks sp

/-- The tokens of the word before JOIN. -/
def wordToks (sp : Spelling) : Option JoinKind → List Token
  | none => []
  | some w => [kw sp w.tok]

/-- The tokens of a joined table. -/
def JoinS.toks (sp : Spelling) (j : JoinS) : List Token := wordToks sp j.word ++ (kw sp .JOIN_ :: ident j.table :: onToks sp j.on)

/-- The tokens of some joined tables. -/
def joinsToks (sp : Spelling) (js : List JoinS) : List Token := js.flatMap (JoinS.toks sp)

/-- The tokens of a SELECT from a table with others joined to it. -/
def SelectS.toksJoin (sp : Spelling) (s : SelectS) (t : Str) (js : List JoinS) : List Token :=
  kw sp .SELECT_ :: (commas sp ((s.item :: s.items).map (ItemS.toks sp)) ++ (kw sp .FROM_ :: ident t :: (joinsToks sp js ++ (whereToks sp s.cond ++
    (groupToks sp s.group ++ (ordersToks sp s.orders ++ s.limit.toks sp))))))

end Verif.Spec
