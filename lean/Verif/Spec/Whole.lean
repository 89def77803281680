import Verif.Spec.Others
import Verif.Spec.Dml
import Verif.Spec.Select
import Verif.Spec.Where
import Verif.Spec.Table
import Verif.Spec.Provenance
import Verif.Spec.Grammar
/-! A query as a whole: every token of it is accounted for. -/
namespace Verif.Spec
open Verif Verif.Lex Verif.Gram Verif.Query

/-- EXPLAIN or EXPLAIN QUERY PLAN, or nothing. -/
def Explain (ts : List Token) : Prop := ts = [] ∨ ts.map (·.kind) = [.EXPLAIN_] ∨ ts.map (·.kind) = [.EXPLAIN_, .QUERY_, .PLAN_]

/-- The statements that are accepted and for which nothing is reported. -/
inductive Skipped : List Token → Prop
  | word (w : Token) (rest : List Token) (hw : w.kind ∈ [.ANALYZE_, .ATTACH_, .DETACH_, .PRAGMA_, .REINDEX_, .RELEASE_, .SAVEPOINT_]) : Skipped (w :: rest)
  | create (w : Token) (tmp : List Token) (k : Token) (rest : List Token) (hw : w.kind = .CREATE_) (ht : Maybe [.TEMP_, .TEMPORARY_] tmp)
      (hk : k.kind ∈ [.TRIGGER_, .VIEW_]) : Skipped (w :: (tmp ++ k :: rest))
  | virtual (w k : Token) (rest : List Token) (hw : w.kind = .CREATE_) (hk : k.kind = .VIRTUAL_) : Skipped (w :: k :: rest)
  | drop (w k : Token) (rest : List Token) (hw : w.kind = .DROP_) (hk : k.kind ∈ [.TRIGGER_, .VIEW_]) : Skipped (w :: k :: rest)
  | limited (pre : List Token) (w : Token) (rest : List Token) (lim : Token) (tail : List Token) (hp : FirstIn [.WITH_] pre) (hw : w.kind ∈ [.DELETE_, .UPDATE_])
      (hl : lim.kind ∈ [.ORDER_, .LIMIT_]) : Skipped (pre ++ w :: (rest ++ lim :: tail))

/-- The tokens are, one after the other, semicolons, statements that are reported (`P` holds of the tokens and the
statement), and statements that are skipped. Nothing else is written, and nothing else is reported. -/
inductive Covered (P : List Token → Statement → Prop) : List Token → List Statement → Prop
  | nil : Covered P [] []
  | semicolon (t : Token) {rest : List Token} {l : List Statement} (ht : t.kind = .SCOL) (hr : Covered P rest l) : Covered P (t :: rest) l
  | reported (ex own : List Token) {rest : List Token} {s : Statement} {l : List Statement} (he : Explain ex) (h : P own s)
      (hs : ∀ t, t ∈ own → t.kind ≠ .SCOL) (hr : Covered P rest l) : Covered P (ex ++ (own ++ rest)) (s :: l)
  | skipped (ex own : List Token) {rest : List Token} {l : List Statement} (he : Explain ex) (h : Skipped own) (hr : Covered P rest l) :
      Covered P (ex ++ (own ++ rest)) l

/-- The keywords that a statement begins with. -/
def startKinds : Statement → List Tok
  | .createDatabase .. | .createTable .. | .createIndex .. => [.CREATE_]
  | .dropDatabase .. | .dropTable .. | .dropIndex .. => [.DROP_]
  | .alterDatabase .. | .alterTable .. => [.ALTER_]
  | .insert .. => [.WITH_, .INSERT_, .REPLACE_]
  | .select .. => [.WITH_, .SELECT_, .VALUES_]
  | .update .. => [.WITH_, .UPDATE_]
  | .delete .. => [.WITH_, .DELETE_]
  | .begin .. => [.BEGIN_]
  | .commit .. => [.COMMIT_, .END_]
  | .rollback .. => [.ROLLBACK_]
  | .use .. => [.USE_]
  | .truncate .. => [.TRUNCATE_]
  | .vacuum .. => [.VACUUM_]
  | .copy .. => [.COPY_]

/-- The statement begins with its keyword. -/
def StartsWell (own : List Token) (s : Statement) : Prop := ∃ t rest, own = t :: rest ∧ t.kind ∈ startKinds s

/-- The statement is what the tokens say: it begins with its keyword, and its parts are the written ones. -/
structure SaysWhat (toUint : Str → Option Nat) (own : List Token) (s : Statement) : Prop where
  starts : StartsWell own s
  written : Written own s
  createTable : CreateTableWritten own s
  select : SelectWritten toUint own s
  insert : InsertWritten own s
  update : UpdateWritten own s
  delete : DeleteWritten own s
  cond : WhereWritten own s

/-- The keywords with which statements begin. -/
def startWords : List Tok :=
  [.CREATE_, .DROP_, .ALTER_, .WITH_, .INSERT_, .REPLACE_, .SELECT_, .VALUES_, .UPDATE_, .DELETE_, .BEGIN_, .COMMIT_, .END_, .ROLLBACK_, .USE_, .TRUNCATE_, .VACUUM_, .COPY_]

end Verif.Spec
