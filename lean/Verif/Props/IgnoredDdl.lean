import Verif.Props.Ignored
import Verif.Lemmas.IgnoredDdl
/-! C136, C137: parts of statements that are not reported, whatever the statement. -/
namespace Verif.Props
open Verif Verif.Lex Verif.Gram Verif.Spec Verif.Query Verif.Parse

variable {sp : Spelling}

/-- C137 is false of the code for every statement of these forms: UNIQUE, the schema name and the condition of any CREATE
INDEX, TEMP, TEMPORARY and the schema name of any CREATE TABLE, the schema name and CASCADE of any DROP TABLE,
the schema name of ALTER DATABASE, the kind and the name of a transaction, the savepoint of ROLLBACK, and ANALYZE and the
file of VACUUM are not reported. The query is accepted and reported exactly as without these parts, whatever statements
follow. -/
theorem C137_parts_fails (toUint : Str → Option Nat) (hg : sp.Good) (q q' : Str) (d : LooseS) (ss : List StmtS) (n : Nat)
    (h : Writes q (d.toks sp ++ (ss.flatMap (fun s => kw sp .SCOL :: s.toks sp) ++ List.replicate n (kw sp .SCOL))))
    (h' : Writes q' (queryToks sp (.ddl d.bare) ss n)) :
    parseQuery toUint q = parseQuery toUint q' ∧ ∃ vs, parseQuery toUint q = .ok vs ∧ vs.length = ss.length + 1 := by
  obtain ⟨ts, h1, h2⟩ := writes_lex.mp h
  have hw := parse_loose toUint hg h1 d ss n h2
  exact ⟨by rw [hw, parse_writes toUint hg _ _ _ h']; rfl, _, hw, by simp⟩

/-- The words of the examples. -/
def looseSp : Spelling
  | .UNIQUE_ => s%"unique" | .TEMP_ => s%"TEMP" | .TEMPORARY_ => s%"TEMPORARY" | .CASCADE_ => s%"CASCADE" | .DEFERRED_ => s%"DEFERRED"
  | .IMMEDIATE_ => s%"IMMEDIATE" | .EXCLUSIVE_ => s%"EXCLUSIVE" | .TRANSACTION_ => s%"TRANSACTION" | .END_ => s%"END"
  | .SAVEPOINT_ => s%"SAVEPOINT" | .ANALYZE_ => s%"ANALYZE"
  | t => Spelling.std t

theorem looseSp_good : looseSp.Good := ⟨rfl, rfl, rfl, rfl, rfl, rfl, rfl, rfl, rfl, rfl, rfl, rfl, rfl⟩

set_option maxRecDepth 10000 in
example : parseQuery (fun _ => none) s%"CREATE unique INDEX s.i ON t (a, b) WHERE a > 1; COMMIT" =
    parseQuery (fun _ => none) s%"CREATE INDEX i ON t (a, b); COMMIT" :=
  (C137_parts_fails (sp := looseSp) (fun _ => none) looseSp_good _ _
    (.createIndex true false (some s%"s") s%"i" s%"t" s%"a" [s%"b"] (some (.one ⟨s%"a", .gt, .num s%"1"⟩))) [.ddl .commit] 0
    (writes_of (by decide +kernel)) (writes_of (by decide +kernel))).1
set_option maxRecDepth 10000 in
example : parseQuery (fun _ => none) s%"DROP TABLE IF EXISTS s.t, u CASCADE;" = parseQuery (fun _ => none) s%"DROP TABLE IF EXISTS t, u;" :=
  (C137_parts_fails (sp := looseSp) (fun _ => none) looseSp_good _ _ (.dropTable true (some s%"s") s%"t" [s%"u"] true) [] 1
    (writes_of (by decide +kernel)) (writes_of (by decide +kernel))).1
set_option maxRecDepth 10000 in
example : parseQuery (fun _ => none) s%"ROLLBACK TRANSACTION TO SAVEPOINT p" = parseQuery (fun _ => none) s%"ROLLBACK" :=
  (C137_parts_fails (sp := looseSp) (fun _ => none) looseSp_good _ _ (.rollback true (some (true, s%"p"))) [] 0
    (writes_of (by decide +kernel)) (writes_of (by decide +kernel))).1
set_option maxRecDepth 10000 in
example : parseQuery (fun _ => none) s%"BEGIN EXCLUSIVE TRANSACTION x; VACUUM t" = parseQuery (fun _ => none) s%"BEGIN; VACUUM t" :=
  (C137_parts_fails (sp := looseSp) (fun _ => none) looseSp_good _ _ (.begin (some .exclusive) (some (some s%"x"))) [.ddl (.vacuum (some s%"t"))] 0
    (writes_of (by decide +kernel)) (writes_of (by decide +kernel))).1
set_option maxRecDepth 10000 in
example : parseQuery (fun _ => none) s%"VACUUM ANALYZE INTO f" = parseQuery (fun _ => none) s%"VACUUM" :=
  (C137_parts_fails (sp := looseSp) (fun _ => none) looseSp_good _ _ (.vacuum true none (some s%"f")) [] 0
    (writes_of (by decide +kernel)) (writes_of (by decide +kernel))).1

/-- C136 is false of the code for every CREATE TABLE with a schema name or one of the words TEMP and TEMPORARY: it is
reported exactly as the permanent table of that name without schema. -/
theorem C136_temp_fails (toUint : Str → Option Nat) (hg : sp.Good) (q q' : Str) (w : Option Bool) (b : Bool) (s : Option Str) (t : TableS)
    (h : Writes q ((LooseS.createTable w b s t).toks sp)) (h' : Writes q' ((DdlS.createTable b t).toks sp)) :
    parseQuery toUint q = parseQuery toUint q' ∧ ∃ c, parseQuery toUint q = .ok [.createTable c b] ∧ c.table.schema = [] := by
  obtain ⟨ts, h1, h2⟩ := writes_lex.mp h
  have hw := parse_loose toUint hg h1 (.createTable w b s t) [] 0 (by rw [h2]; simp [moreToks])
  have hr := parse_writes toUint hg (.ddl (.createTable b t)) [] 0 (q := q') (by simpa [queryToks, StmtS.toks] using h')
  exact ⟨by rw [hw, hr]; rfl, _, hw, rfl⟩

set_option maxRecDepth 10000 in
example : parseQuery (fun _ => none) s%"CREATE TEMP TABLE s.t (a INT)" = parseQuery (fun _ => none) s%"CREATE TABLE t (a INT)" :=
  (C136_temp_fails (sp := looseSp) (fun _ => none) looseSp_good _ _ (some true) false (some s%"s") ⟨s%"t", ⟨s%"a", .ident, s%"INT", none, []⟩, [], [], []⟩
    (writes_of (by decide +kernel)) (writes_of (by decide +kernel))).1

end Verif.Props
