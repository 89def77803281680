import Verif.Props.Parser
import Verif.Lemmas.Ignored
/-! C84: the words in front of a statement are not reported, whatever the statement. -/
namespace Verif.Props
open Verif Verif.Lex Verif.Gram Verif.Spec Verif.Query Verif.Parse

variable {sp : Spelling}

/-- C84 is false of the code for every statement: with EXPLAIN or EXPLAIN QUERY PLAN in front of any statement, with
DISTINCT or ALL in any SELECT, with any conflict clause in any INSERT or UPDATE, and with REPLACE for INSERT, the query is
accepted and reported exactly as without these words. -/
theorem C84_words_fails (toUint : Str → Option Nat) (hg : sp.Good) (q q' : Str) (w : WordyS) (ss : List StmtS) (n : Nat)
    (h : Writes q (w.toks sp ++ (ss.flatMap (fun s => kw sp .SCOL :: s.toks sp) ++ List.replicate n (kw sp .SCOL))))
    (h' : Writes q' (queryToks sp w.bare ss n)) :
    parseQuery toUint q = parseQuery toUint q' ∧ ∃ vs, parseQuery toUint q = .ok vs ∧ vs.length = ss.length + 1 := by
  obtain ⟨ts, h1, h2⟩ := writes_lex.mp h
  have hw := parse_wordy toUint hg h1 w ss n h2
  exact ⟨by rw [hw, parse_writes toUint hg _ _ _ h']; rfl, _, hw, by simp⟩

/-- The words of the examples. -/
def wordySp : Spelling
  | .EXPLAIN_ => s%"explain" | .QUERY_ => s%"QUERY" | .PLAN_ => s%"PLAN" | .DISTINCT_ => s%"DISTINCT" | .ALL_ => s%"ALL"
  | .OR_ => s%"OR" | .ROLLBACK_ => s%"ROLLBACK" | .ABORT_ => s%"ABORT" | .FAIL_ => s%"FAIL" | .IGNORE_ => s%"IGNORE" | .REPLACE_ => s%"REPLACE"
  | t => Spelling.std t

theorem wordySp_good : wordySp.Good := ⟨rfl, rfl, rfl, rfl, rfl, rfl, rfl, rfl, rfl, rfl, rfl, rfl, rfl⟩

set_option maxRecDepth 10000 in
example : parseQuery (fun _ => none) s%"explain QUERY PLAN DELETE FROM t WHERE a = 1;" = parseQuery (fun _ => none) s%"DELETE FROM t WHERE a = 1;" :=
  (C84_words_fails (sp := wordySp) (fun _ => none) wordySp_good _ _ (.explain true (.delete ⟨s%"t", some (.one ⟨s%"a", .eq, .num s%"1"⟩)⟩)) [] 1
    (writes_of (by decide +kernel)) (writes_of (by decide +kernel))).1
set_option maxRecDepth 10000 in
example : parseQuery (fun _ => none) s%"SELECT DISTINCT a FROM t ORDER BY a DESC" = parseQuery (fun _ => none) s%"SELECT a FROM t ORDER BY a DESC" :=
  (C84_words_fails (sp := wordySp) (fun _ => none) wordySp_good _ _
    (.distinct false ⟨.atom (.col s%"a"), [], [⟨none, s%"t"⟩], none, none, [⟨s%"a", some .desc⟩], .none⟩) [] 0
    (writes_of (by decide +kernel)) (writes_of (by decide +kernel))).1
set_option maxRecDepth 10000 in
example : parseQuery (fun _ => none) s%"INSERT OR ROLLBACK INTO t (a) VALUES (1)" = parseQuery (fun _ => none) s%"INSERT INTO t (a) VALUES (1)" :=
  (C84_words_fails (sp := wordySp) (fun _ => none) wordySp_good _ _ (.insertOr .rollback ⟨s%"t", s%"a", [], ⟨.num s%"1", []⟩, []⟩) [] 0
    (writes_of (by decide +kernel)) (writes_of (by decide +kernel))).1
set_option maxRecDepth 10000 in
example : parseQuery (fun _ => none) s%"REPLACE INTO t (a) VALUES (1); INSERT INTO t (a) VALUES (2)" =
    parseQuery (fun _ => none) s%"INSERT INTO t (a) VALUES (1); INSERT INTO t (a) VALUES (2)" :=
  (C84_words_fails (sp := wordySp) (fun _ => none) wordySp_good _ _ (.replace ⟨s%"t", s%"a", [], ⟨.num s%"1", []⟩, []⟩)
    [.insert ⟨s%"t", s%"a", [], ⟨.num s%"2", []⟩, []⟩] 0 (writes_of (by decide +kernel)) (writes_of (by decide +kernel))).1
set_option maxRecDepth 10000 in
example : parseQuery (fun _ => none) s%"UPDATE OR FAIL t SET a = 1" = parseQuery (fun _ => none) s%"UPDATE t SET a = 1" :=
  (C84_words_fails (sp := wordySp) (fun _ => none) wordySp_good _ _ (.updateOr .fail ⟨s%"t", ⟨s%"a", .lit (.num s%"1")⟩, [], none⟩) [] 0
    (writes_of (by decide +kernel)) (writes_of (by decide +kernel))).1

end Verif.Props
