import Verif.Props.Clauses
import Verif.Lemmas.Joins
/-! C84: joined tables. -/
namespace Verif.Props
open Verif Verif.Lex Verif.Gram Verif.Spec Verif.Query Verif.Parse

variable {sp : Spelling}

/-- C84 is false of the code for every join. In any layout and whatever statements follow, a SELECT from a table with others joined
to it, by any number of JOIN, LEFT JOIN, INNER JOIN or CROSS JOIN with or without an ON condition, is accepted and reported exactly
as the SELECT without a FROM clause: neither the first table, nor the joined ones, nor the conditions are reported. -/
theorem C84_join_fails (toUint : Str → Option Nat) (hg : sp.Good) (q q' : Str) (s : SelectS) (t : Str) (j : JoinS) (js : List JoinS)
    (ss : List StmtS) (n : Nat)
    (h : Writes q (s.toksJoin sp t (j :: js) ++ (ss.flatMap (fun s => kw sp .SCOL :: s.toks sp) ++ List.replicate n (kw sp .SCOL))))
    (h' : Writes q' (StmtS.toks sp (.select { s with tables := [] }) ++
      (ss.flatMap (fun s => kw sp .SCOL :: s.toks sp) ++ List.replicate n (kw sp .SCOL)))) :
    parseQuery toUint q = parseQuery toUint q' ∧
      ∃ (v : Select) (vs : List Statement), parseQuery toUint q = .ok (.select v :: vs) ∧ v.tables = [] ∧ vs.length = ss.length := by
  obtain ⟨l, h1, h2⟩ := writes_lex.mp h
  have hp := parse_joined toUint hg h1 s t j js ss n h2
  exact ⟨by rw [hp, parse_writes toUint hg _ _ _ h'], _, _, hp, rfl, by simp⟩

/-- Two SELECTs that agree but for the tables that they join, the words before JOIN and the ON conditions give the same report, so
no program can tell from it what was joined. -/
theorem C84_joins_fails (toUint : Str → Option Nat) (hg : sp.Good) (q q' : Str) (s : SelectS) (t t' : Str) (j j' : JoinS) (js js' : List JoinS)
    (ss : List StmtS) (n : Nat)
    (h : Writes q (s.toksJoin sp t (j :: js) ++ (ss.flatMap (fun s => kw sp .SCOL :: s.toks sp) ++ List.replicate n (kw sp .SCOL))))
    (h' : Writes q' (s.toksJoin sp t' (j' :: js') ++ (ss.flatMap (fun s => kw sp .SCOL :: s.toks sp) ++ List.replicate n (kw sp .SCOL)))) :
    parseQuery toUint q = parseQuery toUint q' := by
  obtain ⟨l, h1, h2⟩ := writes_lex.mp h
  obtain ⟨l', h1', h2'⟩ := writes_lex.mp h'
  rw [parse_joined toUint hg h1 s t j js ss n h2, parse_joined toUint hg h1' s t' j' js' ss n h2']

/-- What holds of C84 of joins: a SELECT with at least one join is told apart from the one from its first table alone, and from
every SELECT from a list of tables. -/
theorem C84_join_partial (toUint : Str → Option Nat) (hg : sp.Good) (q q' : Str) (s : SelectS) (t : Str) (j : JoinS) (js : List JoinS)
    (u : TabS) (us : List TabS) (ss : List StmtS) (n : Nat)
    (h : Writes q (s.toksJoin sp t (j :: js) ++ (ss.flatMap (fun s => kw sp .SCOL :: s.toks sp) ++ List.replicate n (kw sp .SCOL))))
    (h' : Writes q' (StmtS.toks sp (.select { s with tables := u :: us }) ++
      (ss.flatMap (fun s => kw sp .SCOL :: s.toks sp) ++ List.replicate n (kw sp .SCOL)))) :
    parseQuery toUint q ≠ parseQuery toUint q' := by
  obtain ⟨l, h1, h2⟩ := writes_lex.mp h
  rw [parse_joined toUint hg h1 s t j js ss n h2, parse_writes toUint hg _ _ _ h']
  intro he
  simp only [List.map_cons, Res.ok.injEq, List.cons.injEq] at he
  have h3 : Statement.select (selectV toUint sp { s with tables := [] }) = Statement.select (selectV toUint sp { s with tables := u :: us }) := he.1
  have h4 := congrArg (fun v : Select => v.tables.length) (Statement.select.inj h3)
  simp [selectV] at h4

/-- The words of the examples. -/
def joinSp : Spelling
  | .JOIN_ => s%"JOIN"
  | .LEFT_ => s%"left"
  | .INNER_ => s%"INNER"
  | .CROSS_ => s%"Cross"
  | .ON_ => s%"on"
  | t => Spelling.std t

theorem joinSp_good : joinSp.Good := ⟨rfl, rfl, rfl, rfl, rfl, rfl, rfl, rfl, rfl, rfl, rfl, rfl, rfl⟩

set_option maxRecDepth 10000 in
example : parseQuery (fun _ => none) s%"SELECT a FROM t left JOIN u on b = 1 JOIN w WHERE c = 2;" = parseQuery (fun _ => none) s%"SELECT a WHERE c = 2;" :=
  (C84_join_fails (sp := joinSp) (fun _ => none) joinSp_good _ _ ⟨.atom (.col s%"a"), [], [], some (.one ⟨s%"c", .eq, .num s%"2"⟩), none, [], .none⟩
    s%"t" ⟨some .left, s%"u", some (.one ⟨s%"b", .eq, .num s%"1"⟩)⟩ [⟨none, s%"w", none⟩] [] 1
    (writes_of (by decide +kernel)) (writes_of (by decide +kernel))).1
set_option maxRecDepth 10000 in
example : parseQuery (fun _ => none) s%"SELECT * FROM t INNER JOIN u on b = 1" = parseQuery (fun _ => none) s%"SELECT * FROM secrets Cross JOIN passwords" :=
  C84_joins_fails (sp := joinSp) (fun _ => none) joinSp_good _ _ ⟨.star, [], [], none, none, [], .none⟩
    s%"t" s%"secrets" ⟨some .inner, s%"u", some (.one ⟨s%"b", .eq, .num s%"1"⟩)⟩ ⟨some .cross, s%"passwords", none⟩ [] [] [] 0
    (writes_of (by decide +kernel)) (writes_of (by decide +kernel))
set_option maxRecDepth 10000 in
example : parseQuery (fun _ => none) s%"SELECT * FROM t JOIN u" ≠ parseQuery (fun _ => none) s%"SELECT * FROM t" :=
  C84_join_partial (sp := joinSp) (fun _ => none) joinSp_good _ _ ⟨.star, [], [], none, none, [], .none⟩
    s%"t" ⟨none, s%"u", none⟩ [] ⟨none, s%"t"⟩ [] [] 0 (writes_of (by decide +kernel)) (writes_of (by decide +kernel))

end Verif.Props
