import Verif.Props.Aliases
import Verif.Lemmas.Clauses
/-! C190: clauses are reported. -/
namespace Verif.Props
open Verif Verif.Lex Verif.Gram Verif.Spec Verif.Query Verif.Parse

variable {sp : Spelling}

/-- C190 is false of the code for RETURNING and ON CONFLICT DO NOTHING. In any layout and whatever statements follow, an INSERT,
UPDATE or DELETE that ends with such a clause is accepted and reported exactly as the same statement without it. -/
theorem C190_returning_fails (toUint : Str → Option Nat) (hg : sp.Good) (q q' : Str) (s : EndedS) (ss : List StmtS) (n : Nat)
    (h : Writes q (s.toks sp ++ (ss.flatMap (fun s => kw sp .SCOL :: s.toks sp) ++ List.replicate n (kw sp .SCOL))))
    (h' : Writes q' (s.bare.toks sp ++ (ss.flatMap (fun s => kw sp .SCOL :: s.toks sp) ++ List.replicate n (kw sp .SCOL)))) :
    parseQuery toUint q = parseQuery toUint q' ∧ ∃ vs, parseQuery toUint q = .ok vs ∧ vs.length = ss.length + 1 := by
  obtain ⟨l, h1, h2⟩ := writes_lex.mp h
  have hp := parse_ended toUint hg h1 s ss n h2
  exact ⟨by rw [hp, parse_writes toUint hg _ _ _ h'], _, hp, by simp⟩

/-- C190 is false of the code for GROUP BY and HAVING. A SELECT that is grouped by more columns than one, or that has a HAVING
clause, or both, is accepted and reported exactly as the SELECT that is grouped by the first column only and has no HAVING
clause. -/
theorem C190_group_fails (toUint : Str → Option Nat) (hg : sp.Good) (q q' : Str) (s : SelectS) (g : Str) (gs : List Str) (c : Option CondS)
    (ss : List StmtS) (n : Nat)
    (h : Writes q (s.toksGroup sp g gs c ++ (ss.flatMap (fun s => kw sp .SCOL :: s.toks sp) ++ List.replicate n (kw sp .SCOL))))
    (h' : Writes q' (StmtS.toks sp (.select { s with group := some g }) ++
      (ss.flatMap (fun s => kw sp .SCOL :: s.toks sp) ++ List.replicate n (kw sp .SCOL)))) :
    parseQuery toUint q = parseQuery toUint q' ∧ ∃ vs, parseQuery toUint q = .ok vs ∧ vs.length = ss.length + 1 := by
  obtain ⟨l, h1, h2⟩ := writes_lex.mp h
  have hp := parse_grouped toUint hg h1 s g gs c ss n h2
  exact ⟨by rw [hp, parse_writes toUint hg _ _ _ h'], _, hp, by simp⟩

/-- What holds of C190, exactly: of two SELECTs that differ in the columns that they are grouped by and in their HAVING clauses
only, the reports are equal if and only if the first columns are. -/
theorem C190_group_exact (toUint : Str → Option Nat) (hg : sp.Good) (q q' : Str) (s : SelectS) (g g' : Str) (gs gs' : List Str) (c c' : Option CondS)
    (ss : List StmtS) (n : Nat)
    (h : Writes q (s.toksGroup sp g gs c ++ (ss.flatMap (fun s => kw sp .SCOL :: s.toks sp) ++ List.replicate n (kw sp .SCOL))))
    (h' : Writes q' (s.toksGroup sp g' gs' c' ++ (ss.flatMap (fun s => kw sp .SCOL :: s.toks sp) ++ List.replicate n (kw sp .SCOL)))) :
    parseQuery toUint q = parseQuery toUint q' ↔ g = g' := by
  obtain ⟨l, h1, h2⟩ := writes_lex.mp h
  obtain ⟨l', h1', h2'⟩ := writes_lex.mp h'
  rw [parse_grouped toUint hg h1 s g gs c ss n h2, parse_grouped toUint hg h1' s g' gs' c' ss n h2']
  constructor
  · intro he
    simp only [List.map_cons, Res.ok.injEq, List.cons.injEq] at he
    have h3 : Statement.select (selectV toUint sp { s with group := some g }) = Statement.select (selectV toUint sp { s with group := some g' }) := he.1
    have h4 := congrArg Select.groupBy (Statement.select.inj h3)
    exact h4
  · rintro rfl; rfl

/-- The reported first column, and what is left of the rest of the statement: a SELECT that is grouped by some columns reports
the first of them as the column it is grouped by. -/
theorem C190_first_partial (toUint : Str → Option Nat) (hg : sp.Good) (q : Str) (s : SelectS) (g : Str) (gs : List Str) (c : Option CondS)
    (ss : List StmtS) (n : Nat)
    (h : Writes q (s.toksGroup sp g gs c ++ (ss.flatMap (fun s => kw sp .SCOL :: s.toks sp) ++ List.replicate n (kw sp .SCOL)))) :
    ∃ (v : Select) (vs : List Statement), parseQuery toUint q = .ok (.select v :: vs) ∧ v.groupBy = g := by
  obtain ⟨l, h1, h2⟩ := writes_lex.mp h
  exact ⟨_, _, parse_grouped toUint hg h1 s g gs c ss n h2, rfl⟩

/-- The words of the examples. -/
def clauseSp : Spelling
  | .RETURNING_ => s%"RETURNING"
  | .HAVING_ => s%"having"
  | .ON_ => s%"on"
  | .CONFLICT_ => s%"Conflict"
  | .DO_ => s%"do"
  | .NOTHING_ => s%"nothing"
  | t => Spelling.std t

theorem clauseSp_good : clauseSp.Good := ⟨rfl, rfl, rfl, rfl, rfl, rfl, rfl, rfl, rfl, rfl, rfl, rfl, rfl⟩

set_option maxRecDepth 10000 in
example : parseQuery (fun _ => none) s%"DELETE FROM t WHERE a = 1 RETURNING *, b;" = parseQuery (fun _ => none) s%"DELETE FROM t WHERE a = 1;" :=
  (C190_returning_fails (sp := clauseSp) (fun _ => none) clauseSp_good _ _
    (.delete ⟨s%"t", some (.one ⟨s%"a", .eq, .num s%"1"⟩)⟩ ⟨.plain .star, [.plain (.atom (.col s%"b"))]⟩) [] 1
    (writes_of (by decide +kernel)) (writes_of (by decide +kernel))).1
set_option maxRecDepth 10000 in
example : parseQuery (fun _ => none) s%"UPDATE t SET a = 1 RETURNING count(*) n" = parseQuery (fun _ => none) s%"UPDATE t SET a = 1" :=
  (C190_returning_fails (sp := clauseSp) (fun _ => none) clauseSp_good _ _
    (.update ⟨s%"t", ⟨s%"a", .lit (.num s%"1")⟩, [], none⟩ ⟨.fn s%"count" .star ⟨false, s%"n"⟩, []⟩) [] 0
    (writes_of (by decide +kernel)) (writes_of (by decide +kernel))).1
set_option maxRecDepth 10000 in
example : parseQuery (fun _ => none) s%"INSERT INTO t (a) VALUES (1) on Conflict do nothing RETURNING a" =
    parseQuery (fun _ => none) s%"INSERT INTO t (a) VALUES (1)" :=
  (C190_returning_fails (sp := clauseSp) (fun _ => none) clauseSp_good _ _
    (.insert ⟨s%"t", s%"a", [], ⟨.num s%"1", []⟩, []⟩ true (some ⟨.plain (.atom (.col s%"a")), []⟩)) [] 0
    (writes_of (by decide +kernel)) (writes_of (by decide +kernel))).1
set_option maxRecDepth 10000 in
example : parseQuery (fun _ => none) s%"SELECT * FROM t GROUP BY a, b having c > 1 ORDER BY d" = parseQuery (fun _ => none) s%"SELECT * FROM t GROUP BY a ORDER BY d" :=
  (C190_group_fails (sp := clauseSp) (fun _ => none) clauseSp_good _ _ ⟨.star, [], [⟨none, s%"t"⟩], none, none, [⟨s%"d", .none⟩], .none⟩ s%"a" [s%"b"]
    (some (.one ⟨s%"c", .gt, .num s%"1"⟩)) [] 0 (writes_of (by decide +kernel)) (writes_of (by decide +kernel))).1
set_option maxRecDepth 10000 in
example : parseQuery (fun _ => none) s%"SELECT * FROM t GROUP BY a, b" ≠ parseQuery (fun _ => none) s%"SELECT * FROM t GROUP BY b, a" := fun h =>
  absurd ((C190_group_exact (sp := clauseSp) (fun _ => none) clauseSp_good _ _ ⟨.star, [], [⟨none, s%"t"⟩], none, none, [], .none⟩ s%"a" s%"b" [s%"b"] [s%"a"]
    none none [] 0 (writes_of (by decide +kernel)) (writes_of (by decide +kernel))).mp h) (by decide)
set_option maxRecDepth 10000 in
example : ∃ v vs, parseQuery (fun _ => none) s%"SELECT * FROM t GROUP BY a, b" = .ok (.select v :: vs) ∧ v.groupBy = s%"a" :=
  C190_first_partial (sp := clauseSp) (fun _ => none) clauseSp_good _ ⟨.star, [], [⟨none, s%"t"⟩], none, none, [], .none⟩ s%"a" [s%"b"] none [] 0
    (writes_of (by decide +kernel))

end Verif.Props
