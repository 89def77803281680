import Verif.Spec.Syntax
/-! Statements other than SELECT, INSERT, UPDATE and DELETE with parts that change their meaning. -/
namespace Verif.Spec
open Verif Verif.Lex

/-- The kinds of transactions. -/
inductive TxKind | deferred | immediate | exclusive
  deriving DecidableEq, Repr

/-- The token of a kind of transaction. -/
def TxKind.tok : TxKind → Tok
  | .deferred => .DEFERRED_ | .immediate => .IMMEDIATE_ | .exclusive => .EXCLUSIVE_

/-- Statements with such parts. -/
inductive LooseS
  /-- `CREATE UNIQUE INDEX s.n ON t (…) WHERE …` -/
  | createIndex (unique : Bool) (ine : Bool) (schema : Option Str) (n t c : Str) (cs : List Str) (cond : Option CondS)
  /-- `CREATE TEMP TABLE s.t (…)`, `CREATE TEMPORARY TABLE s.t (…)` -/
  | createTable (temp : Option Bool) (ine : Bool) (schema : Option Str) (t : TableS)
  /-- `DROP TABLE s.t, u CASCADE` -/
  | dropTable (ie : Bool) (schema : Option Str) (t : Str) (ts : List Str) (cascade : Bool)
  /-- `ALTER DATABASE s.n RENAME TO m` -/
  | alterDatabase (schema n m : Str)
  /-- `BEGIN IMMEDIATE TRANSACTION x` -/
  | begin (kind : Option TxKind) (tx : Option (Option Str))
  /-- `COMMIT TRANSACTION`, `END TRANSACTION` -/
  | commit («end» : Bool) (tx : Bool)
  /-- `ROLLBACK TRANSACTION TO SAVEPOINT x` -/
  | rollback (tx : Bool) (to : Option (Bool × Str))
  /-- `VACUUM ANALYZE t INTO f` -/
  | vacuum (analyze : Bool) (t : Option Str) (file : Option Str)

/-- A keyword that may be missing. -/
def flagToks (sp : Spelling) (t : Tok) (b : Bool) : List Token := if b then [kw sp t] else []

/-- A schema name with its dot, which may be missing. -/
def dotToks (sp : Spelling) : Option Str → List Token
  | none => []
  | some s => [ident s, kw sp .DOT]

/-- The word for a temporary table. -/
def tempToks (sp : Spelling) : Option Bool → List Token
  | none => []
  | some b => [kw sp (if b then .TEMP_ else .TEMPORARY_)]

/-- A name that may be missing. -/
def nameToks : Option Str → List Token
  | none => []
  | some n => [ident n]

/-- Their tokens. -/
def LooseS.toks (sp : Spelling) : LooseS → List Token
  | .createIndex u b s n t c cs w => kw sp .CREATE_ :: (flagToks sp .UNIQUE_ u ++ kw sp .INDEX_ :: (ineToks sp b ++ (dotToks sp s ++
      ident n :: kw sp .ON_ :: ident t :: (namesToks sp c cs ++ whereToks sp w))))
  | .createTable w b s t => kw sp .CREATE_ :: (tempToks sp w ++ kw sp .TABLE_ :: (ineToks sp b ++ (dotToks sp s ++ t.toks sp)))
  | .dropTable b s t ts w => kw sp .DROP_ :: kw sp .TABLE_ :: (ieToks sp b ++ (dotToks sp s ++
      (commas sp ((t :: ts).map (fun c => [ident c])) ++ flagToks sp .CASCADE_ w)))
  | .alterDatabase s n m => [kw sp .ALTER_, kw sp .DATABASE_, ident s, kw sp .DOT, ident n, kw sp .RENAME_, kw sp .TO_, ident m]
  | .begin w none => kw sp .BEGIN_ :: (w.map (fun w => kw sp w.tok)).toList
  | .begin w (some n) => kw sp .BEGIN_ :: ((w.map (fun w => kw sp w.tok)).toList ++ kw sp .TRANSACTION_ :: nameToks n)
  | .commit e b => kw sp (if e then .END_ else .COMMIT_) :: flagToks sp .TRANSACTION_ b
  | .rollback b none => kw sp .ROLLBACK_ :: flagToks sp .TRANSACTION_ b
  | .rollback b (some (w, n)) => kw sp .ROLLBACK_ :: (flagToks sp .TRANSACTION_ b ++ kw sp .TO_ :: (flagToks sp .SAVEPOINT_ w ++ [ident n]))
  | .vacuum b t none => kw sp .VACUUM_ :: (flagToks sp .ANALYZE_ b ++ nameToks t)
  | .vacuum b t (some f) => kw sp .VACUUM_ :: (flagToks sp .ANALYZE_ b ++ (nameToks t ++ [kw sp .INTO_, ident f]))

/-- The statements without these parts. -/
def LooseS.bare : LooseS → DdlS
  | .createIndex _ b _ n t c cs _ => .createIndex b n t c cs
  | .createTable _ b _ t => .createTable b t
  | .dropTable b _ t ts _ => .dropTable b t ts
  | .alterDatabase _ n m => .alterDatabase n m
  | .begin _ _ => .begin
  | .commit _ _ => .commit
  | .rollback _ _ => .rollback
  | .vacuum _ t _ => .vacuum t

end Verif.Spec
