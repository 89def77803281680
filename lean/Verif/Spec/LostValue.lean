import Verif.Spec.LostCond
import Verif.Spec.Parse
/-! Values of INSERT rows and UPDATE assignments other than literals. -/
namespace Verif.Spec
open Verif Verif.Lex Verif.Query

/-- What can be written as a value. -/
inductive ValueS
  /-- a literal or parameter -/
  | lit (l : Lit)
  /-- `c + a`, with any of the operators -/
  | arith (c : Str) (o : ArithSym) (a : Atom)
  /-- a comparison, or two with AND or OR -/
  | cond (c : CondS)
  /-- a column -/
  | col (a : Str)
  /-- `f(…)` -/
  | call (f : Str) (args : ArgsS)
  /-- `(v, …)` -/
  | list (v : Lit) (vs : List Lit)
  /-- `v || w` -/
  | cat (v w : Lit)
  /-- one of the other tests -/
  | test (c : OtherCond)

/-- The tokens of a value. -/
def ValueS.toks (sp : Spelling) : ValueS → List Token
  | .lit l => l.toks sp
  | .arith c o a => ident c :: kw sp o.tok :: a.toks sp
  | .cond c => c.toks sp
  | .col a => [ident a]
  | .call f args => (ItemS.fn f args).toks sp
  | .list v vs => kw sp .OPEN_PAR :: (commas sp ((v :: vs).map (Lit.toks sp)) ++ [kw sp .CLOSE_PAR])
  | .cat v w => v.toks sp ++ kw sp .PIPE2 :: w.toks sp
  | .test c => c.toks sp

/-- The literals among the values. -/
def ValueS.lit? : ValueS → Option Lit
  | .lit l => some l
  | _ => none

/-- A value that is one comparison. -/
def ValueS.isCmp : ValueS → Prop
  | .cond (.one _) => True
  | _ => False

/-- The literals of a value that are reported have nothing to be unescaped. -/
def ValueS.Plain : ValueS → Prop
  | .lit l => l.Plain
  | .cond (.one c) => c.lit.Plain
  | _ => True

/-- A row of values. -/
structure ValuesS where
  val : ValueS
  vals : List ValueS

/-- All values of a row. -/
def ValuesS.all (r : ValuesS) : List ValueS := r.val :: r.vals

/-- The tokens of a row. -/
def ValuesS.toks (sp : Spelling) (r : ValuesS) : List Token := parens sp (commas sp (r.all.map (ValueS.toks sp)))

/-- `INSERT INTO t (names) VALUES rows`; without names, without the column list. -/
structure PutS where
  table : Str
  names : List Str
  row : ValuesS
  rows : List ValuesS

/-- The tokens of a column list. -/
def columnToks (sp : Spelling) : List Str → List Token
  | [] => []
  | ns => parens sp (commas sp (ns.map (fun c => [ident c])))

/-- The tokens of such an INSERT. -/
def PutS.toks (sp : Spelling) (i : PutS) : List Token :=
  kw sp .INSERT_ :: kw sp .INTO_ :: ident i.table ::
    (columnToks sp i.names ++ kw sp .VALUES_ :: commas sp ((i.row :: i.rows).map (ValuesS.toks sp)))

/-- `a = v`. -/
structure AssignS where
  col : Str
  val : ValueS

/-- The tokens of an assignment. -/
def AssignS.toks (sp : Spelling) (a : AssignS) : List Token := ident a.col :: kw sp .ASSIGN :: a.val.toks sp

/-- `UPDATE t SET a = v, … WHERE c`. -/
structure ChangeS where
  table : Str
  asg : AssignS
  asgs : List AssignS
  cond : Option CondS

/-- The tokens of such an UPDATE. -/
def ChangeS.toks (sp : Spelling) (u : ChangeS) : List Token :=
  kw sp .UPDATE_ :: ident u.table :: kw sp .SET_ :: (commas sp ((u.asg :: u.asgs).map (AssignS.toks sp)) ++ whereToks sp u.cond)

end Verif.Spec
