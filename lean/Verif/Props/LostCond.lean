import Verif.Props.Parser
import Verif.Lemmas.LostCond
/-! C81: which conditions are lost, whatever they test and whatever surrounds them. -/
namespace Verif.Props
open Verif Verif.Lex Verif.Gram Verif.Spec Verif.Query Verif.Parse

variable {sp : Spelling}

theorem parse_lost (toUint : Str → Option Nat) (hg : sp.Good) {q : Str} (l : LostS) (ss : List StmtS) (n : Nat)
    (h : Writes q (l.toks sp ++ (ss.flatMap (fun s => kw sp .SCOL :: s.toks sp) ++ List.replicate n (kw sp .SCOL)))) :
    parseQuery toUint q = .ok ((l.bare :: ss).map (stmtV toUint sp)) := by
  obtain ⟨ts, h1, h2⟩ := writes_lex.mp h
  cases l with
  | select s c =>
    refine parse_lost_select toUint hg h1 s c ss n ?_
    rw [h2]; simp only [LostS.toks, moreToks, List.cons_append, List.append_assoc]
  | update t a as c =>
    refine parse_lost_update toUint hg h1 t a as c ss n ?_
    rw [h2]
    show _ = UpdateS.toks sp _ ++ _
    simp only [LostS.toks, UpdateS.toks, whereToks, moreToks, List.cons_append, List.append_assoc, List.nil_append]
  | delete t c => exact parse_lost_delete toUint hg h1 t c ss n h2

/-- C81 is false of the code for every condition in parentheses, every negated condition, and every test with IS, LIKE,
IN, NOT IN, BETWEEN, ISNULL and NOTNULL, in SELECT, UPDATE and DELETE: the query is accepted, and the statement is
reported without a condition, so for all rows. -/
theorem C81_lost_fails (toUint : Str → Option Nat) (hg : sp.Good) (q : Str) (l : LostS) (ss : List StmtS) (n : Nat)
    (h : Writes q (l.toks sp ++ (ss.flatMap (fun s => kw sp .SCOL :: s.toks sp) ++ List.replicate n (kw sp .SCOL)))) :
    ∃ v vs, parseQuery toUint q = .ok (v :: vs) ∧ vs.length = ss.length ∧ reportedCond v = none := by
  refine ⟨_, _, parse_lost toUint hg l ss n h, by simp, ?_⟩
  cases l <;> rfl

/-- Such a query is reported exactly as if its WHERE clause were not there. -/
theorem C81_lost_same_fails (toUint : Str → Option Nat) (hg : sp.Good) (q q' : Str) (l : LostS) (ss : List StmtS) (n : Nat)
    (h : Writes q (l.toks sp ++ (ss.flatMap (fun s => kw sp .SCOL :: s.toks sp) ++ List.replicate n (kw sp .SCOL))))
    (h' : Writes q' (queryToks sp l.bare ss n)) : parseQuery toUint q = parseQuery toUint q' := by
  rw [parse_lost toUint hg l ss n h, parse_writes toUint hg _ _ _ h']

/-- The words of the examples. -/
def lostSp : Spelling
  | .IN_ => s%"IN" | .IS_ => s%"is" | .LIKE_ => s%"LIKE" | .BETWEEN_ => s%"Between" | .ISNULL_ => s%"ISNULL" | .NOTNULL_ => s%"NOTNULL"
  | t => Spelling.std t

theorem lostSp_good : lostSp.Good := ⟨rfl, rfl, rfl, rfl, rfl, rfl, rfl, rfl, rfl, rfl, rfl, rfl, rfl⟩

set_option maxRecDepth 10000 in
example : ∃ v vs, parseQuery (fun _ => none) s%"UPDATE t SET a = 1 WHERE b NOT IN (2, 3)" = .ok (v :: vs) ∧ vs.length = 0 ∧ reportedCond v = none :=
  C81_lost_fails (sp := lostSp) (fun _ => none) lostSp_good _ (.update s%"t" ⟨s%"a", .lit (.num s%"1")⟩ [] (.notIn s%"b" (.num s%"2") [.num s%"3"])) [] 0
    (writes_of (by decide +kernel))
set_option maxRecDepth 10000 in
example : ∃ v vs, parseQuery (fun _ => none) s%"SELECT * FROM t WHERE a Between 1 AND 2 ORDER BY a DESC;" = .ok (v :: vs) ∧ vs.length = 0 ∧ reportedCond v = none :=
  C81_lost_fails (sp := lostSp) (fun _ => none) lostSp_good _ (.select ⟨.star, [], [⟨none, s%"t"⟩], none, none, [⟨s%"a", some .desc⟩], .none⟩
    (.between s%"a" (.num s%"1") (.num s%"2"))) [] 1 (writes_of (by decide +kernel))
set_option maxRecDepth 10000 in
example : parseQuery (fun _ => none) s%"DELETE FROM t WHERE NOT a = 1 AND b = 2;" = parseQuery (fun _ => none) s%"DELETE FROM t;" :=
  C81_lost_same_fails (sp := lostSp) (fun _ => none) lostSp_good _ _
    (.delete s%"t" (.neg (.and ⟨s%"a", .eq, .num s%"1"⟩ ⟨s%"b", .eq, .num s%"2"⟩))) [] 1 (writes_of (by decide +kernel)) (writes_of (by decide +kernel))
set_option maxRecDepth 10000 in
example : parseQuery (fun _ => none) s%"SELECT a FROM t WHERE (a = 1)" = parseQuery (fun _ => none) s%"SELECT a FROM t" :=
  C81_lost_same_fails (sp := lostSp) (fun _ => none) lostSp_good _ _
    (.select ⟨.atom (.col s%"a"), [], [⟨none, s%"t"⟩], none, none, [], .none⟩ (.paren (.one ⟨s%"a", .eq, .num s%"1"⟩))) [] 0
    (writes_of (by decide +kernel)) (writes_of (by decide +kernel))

end Verif.Props
