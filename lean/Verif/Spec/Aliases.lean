import Verif.Spec.Syntax
/-! Tables with aliases. -/
namespace Verif.Spec
open Verif Verif.Lex

/-- An alias: the name, and whether AS is written before it. -/
structure AliasS where
  as_ : Bool
  name : Str
  deriving DecidableEq, Repr

/-- The tokens of an alias. -/
def AliasS.toks (sp : Spelling) (a : AliasS) : List Token := (if a.as_ then [kw sp .AS_] else []) ++ [ident a.name]

/-- A table, possibly with an alias. -/
structure NamedS where
  table : TabS
  also : Option AliasS
  deriving DecidableEq, Repr

/-- The tokens of a table with its alias. -/
def NamedS.toks (sp : Spelling) (t : NamedS) : List Token := t.table.toks sp ++ (t.also.map (AliasS.toks sp)).getD []

/-- A selected item, possibly with an alias. -/
inductive PickS
  | plain (i : ItemS)
  | atom (a : Atom) (x : AliasS)
  | fn (f : Str) (args : ArgsS) (x : AliasS)
  deriving DecidableEq, Repr

/-- The item without its alias. -/
def PickS.item : PickS → ItemS
  | .plain i => i
  | .atom a _ => .atom a
  | .fn f args _ => .fn f args

/-- The tokens of the alias. -/
def PickS.also (sp : Spelling) : PickS → List Token
  | .plain _ => []
  | .atom _ x => x.toks sp
  | .fn _ _ x => x.toks sp

/-- The tokens of a selected item with its alias. -/
def PickS.toks (sp : Spelling) (p : PickS) : List Token := p.item.toks sp ++ p.also sp

/-- The item without the alias if it is a function call. -/
def PickS.bareFn : PickS → PickS
  | .fn f args _ => .plain (.fn f args)
  | p => p

/-- The tokens of a SELECT of other items from other tables. -/
def SelectS.toksFrom (sp : Spelling) (s : SelectS) (p : PickS) (ps : List PickS) (t : NamedS) (ts : List NamedS) : List Token :=
  kw sp .SELECT_ :: (commas sp ((p :: ps).map (PickS.toks sp)) ++ (kw sp .FROM_ :: (commas sp ((t :: ts).map (NamedS.toks sp)) ++
    (whereToks sp s.cond ++ (groupToks sp s.group ++ (ordersToks sp s.orders ++ s.limit.toks sp))))))

/-- The tokens of a DELETE from a table with an alias. -/
def DeleteS.toksAs (sp : Spelling) (d : DeleteS) (x : Str) : List Token :=
  kw sp .DELETE_ :: kw sp .FROM_ :: ident d.table :: kw sp .AS_ :: ident x :: whereToks sp d.cond

/-- The tokens of an UPDATE of a table with an alias. -/
def UpdateS.toksAs (sp : Spelling) (u : UpdateS) (x : Str) : List Token :=
  kw sp .UPDATE_ :: ident u.table :: kw sp .AS_ :: ident x :: kw sp .SET_ :: (commas sp ((u.asg :: u.asgs).map (SetS.toks sp)) ++ whereToks sp u.cond)

/-- The tokens of an INSERT into a table with an alias. -/
def InsertS.toksAs (sp : Spelling) (i : InsertS) (x : Str) : List Token :=
  kw sp .INSERT_ :: kw sp .INTO_ :: ident i.table :: kw sp .AS_ :: ident x ::
    (parens sp (commas sp (i.names.map (fun c => [ident c]))) ++ kw sp .VALUES_ :: commas sp ((i.row :: i.rows).map (RowS.toks sp)))

end Verif.Spec
