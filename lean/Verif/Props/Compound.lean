import Verif.Props.Clauses
import Verif.Lemmas.Compound
/-! C84: compound SELECTs. -/
namespace Verif.Props
open Verif Verif.Lex Verif.Gram Verif.Spec Verif.Query Verif.Parse

variable {sp : Spelling}

/-- C84 is false of the code for compound SELECTs. In any layout and whatever statements follow, a SELECT of any number of parts with
UNION, UNION ALL, INTERSECT or EXCEPT between them, none of which ends with a table before such an operator, is accepted and
reported exactly as the SELECT of its first part alone, with the ORDER BY and LIMIT that stand after the last part. -/
theorem C84_compound_fails (toUint : Str → Option Nat) (hg : sp.Good) (q q' : Str) (c : CoreS) (ps : List (CompoundOp × CoreS))
    (hc : ClosedParts c ps) (os : List OrderS) (l : LimitS) (ss : List StmtS) (n : Nat)
    (h : Writes q (compoundToks sp c ps os l ++ (ss.flatMap (fun s => kw sp .SCOL :: s.toks sp) ++ List.replicate n (kw sp .SCOL))))
    (h' : Writes q' (StmtS.toks sp (.select (c.full os l)) ++ (ss.flatMap (fun s => kw sp .SCOL :: s.toks sp) ++ List.replicate n (kw sp .SCOL)))) :
    parseQuery toUint q = parseQuery toUint q' ∧ ∃ vs, parseQuery toUint q = .ok vs ∧ vs.length = ss.length + 1 := by
  obtain ⟨ts, h1, h2⟩ := writes_lex.mp h
  have hp := parse_compound toUint hg h1 c ps hc os l ss n h2
  exact ⟨by rw [hp, parse_writes toUint hg _ _ _ h'], _, hp, by simp⟩

/-- Two compound SELECTs that agree in the first part and in what stands after the last give the same report, whatever the operators
and the other parts are, and however many. -/
theorem C84_compounds_fails (toUint : Str → Option Nat) (hg : sp.Good) (q q' : Str) (c : CoreS) (ps ps' : List (CompoundOp × CoreS))
    (hc : ClosedParts c ps) (hc' : ClosedParts c ps') (os : List OrderS) (l : LimitS) (ss : List StmtS) (n : Nat)
    (h : Writes q (compoundToks sp c ps os l ++ (ss.flatMap (fun s => kw sp .SCOL :: s.toks sp) ++ List.replicate n (kw sp .SCOL))))
    (h' : Writes q' (compoundToks sp c ps' os l ++ (ss.flatMap (fun s => kw sp .SCOL :: s.toks sp) ++ List.replicate n (kw sp .SCOL)))) :
    parseQuery toUint q = parseQuery toUint q' := by
  obtain ⟨ts, h1, h2⟩ := writes_lex.mp h
  obtain ⟨ts', h1', h2'⟩ := writes_lex.mp h'
  rw [parse_compound toUint hg h1 c ps hc os l ss n h2, parse_compound toUint hg h1' c ps' hc' os l ss n h2']

/-- The words of the examples. -/
def compoundSp : Spelling
  | .UNION_ => s%"UNION"
  | .ALL_ => s%"all"
  | .INTERSECT_ => s%"intersect"
  | .EXCEPT_ => s%"Except"
  | t => Spelling.std t

theorem compoundSp_good : compoundSp.Good := ⟨rfl, rfl, rfl, rfl, rfl, rfl, rfl, rfl, rfl, rfl, rfl, rfl, rfl⟩

set_option maxRecDepth 10000 in
example : parseQuery (fun _ => none) s%"SELECT a FROM t WHERE b = 1 UNION all SELECT c Except SELECT * FROM u ORDER BY a;" =
    parseQuery (fun _ => none) s%"SELECT a FROM t WHERE b = 1 ORDER BY a;" :=
  (C84_compound_fails (sp := compoundSp) (fun _ => none) compoundSp_good _ _ ⟨.atom (.col s%"a"), [], [⟨none, s%"t"⟩], some (.one ⟨s%"b", .eq, .num s%"1"⟩), none⟩
    [(.unionAll, ⟨.atom (.col s%"c"), [], [], none, none⟩), (.except, ⟨.star, [], [⟨none, s%"u"⟩], none, none⟩)]
    ⟨.inr (.inl (by simp)), .inl rfl, trivial⟩ [⟨s%"a", .none⟩] .none [] 1
    (writes_of (by decide +kernel)) (writes_of (by decide +kernel))).1
set_option maxRecDepth 10000 in
example : parseQuery (fun _ => none) s%"SELECT a UNION SELECT b" = parseQuery (fun _ => none) s%"SELECT a intersect SELECT * FROM passwords" :=
  C84_compounds_fails (sp := compoundSp) (fun _ => none) compoundSp_good _ _ ⟨.atom (.col s%"a"), [], [], none, none⟩
    [(.union, ⟨.atom (.col s%"b"), [], [], none, none⟩)] [(.intersect, ⟨.star, [], [⟨none, s%"passwords"⟩], none, none⟩)]
    ⟨.inl rfl, trivial⟩ ⟨.inl rfl, trivial⟩ [] .none [] 0 (writes_of (by decide +kernel)) (writes_of (by decide +kernel))

end Verif.Props
