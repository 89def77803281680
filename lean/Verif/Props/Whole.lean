import Verif.Lemmas.Whole
import Verif.Lemmas.TestHelper
import Verif.Props.RoundTrip
/-! A query as a whole: C139, and what is true of C84 and C86. -/
namespace Verif.Props
open Verif Verif.Lex Verif.Gram Verif.Query Verif.Parse Verif.Spec Verif.Lemmas

/-! ### C139 -/

/-- C139, without the part that fails: the tokens of every accepted query are, one after the other and with nothing
between them, semicolons, the statements that are reported, in order, each with all its tokens and saying what is
reported (C131 to C138), and statements of the kinds that are never reported. What is missing: those kinds, and EXPLAIN
in front of a statement, are accepted and not reported (C80, C84). -/
theorem C139_whole_partial (toUint : Str → Option Nat) (q : Str) (l : List Statement) (h : parseQuery toUint q = .ok l) :
    ∃ toks, Writes q toks ∧ Covered (SaysWhat toUint) toks l := covered_says h

set_option maxRecDepth 10000 in
/-- A query with all of these. -/
example : parseQuery (fun _ => none) s%"EXPLAIN QUERY PLAN DELETE FROM t; PRAGMA x;; CREATE VIEW v AS SELECT a FROM t; COMMIT" =
    .ok [.delete { table := { name := s%"t" }, cond := none }, .commit] := by krfl

set_option maxRecDepth 10000 in
/-- C139 fails: three of the four statements of this query are accepted and not reported. -/
theorem C139_skipped_fails (toUint : Str → Option Nat) :
    parseQuery toUint s%"SAVEPOINT p; CREATE VIEW v AS SELECT a FROM t; DELETE FROM t WHERE a = 1 LIMIT 1; COMMIT" = .ok [.commit] := by krfl

/-! ### C86 -/

/-- C86 fails for all statements: whenever two queries are accepted, so is every text whose tokens are those of the
first and, with nothing between them, those of the second. -/
theorem C86_never_rejected_fails (toUint : Str → Option Nat) (a b q : Str) (ta tb : List Token) (ha : Writes a ta) (hb : Writes b tb)
    (hq : Writes q (ta ++ tb)) (hne : NonEmpty q) (h1 : parseQuery toUint a ≠ .err) (h2 : parseQuery toUint b ≠ .err) : parseQuery toUint q ≠ .err := by
  rw [Ne, C79_error_iff, Classical.not_not] at h1 h2 ⊢
  have one : ∀ {x : Str} {ts us : List Token}, Writes x ts → Writes x us → ts = us := by
    intro x ts us h k
    obtain ⟨xs, h1, h2⟩ := writes_lex.mp h
    obtain ⟨ys, k1, k2⟩ := writes_lex.mp k
    rw [h1] at k1
    cases k1
    rw [← h2, k2]
  obtain ⟨-, ta', ha', qa⟩ := h1
  obtain ⟨-, tb', hb', qb⟩ := h2
  cases one ha ha'
  cases one hb hb'
  exact ⟨hne, _, hq, query_append qa qb⟩

set_option maxRecDepth 10000 in
example : ∃ ta tb, Writes s%"DELETE FROM t" ta ∧ Writes s%"COMMIT" tb ∧ Writes s%"DELETE FROM t COMMIT" (ta ++ tb) ∧
    parseQuery (fun _ => none) s%"DELETE FROM t COMMIT" = .ok [.delete { table := { name := s%"t" }, cond := none }, .commit] :=
  ⟨_, _, writes_of rfl, writes_of rfl, writes_of (by decide +kernel), by krfl⟩

/-- What holds instead of C86: no statement is reported without its keyword. There are at most as many reported
statements as there are tokens that a statement can begin with. -/
theorem C86_keywords_partial (toUint : Str → Option Nat) (q : Str) (l : List Statement) (h : parseQuery toUint q = .ok l) :
    ∃ toks, Writes q toks ∧ l.length ≤ toks.countP (fun t => startWords.contains t.kind) := by
  obtain ⟨toks, hw, hc⟩ := covered_says h
  exact ⟨toks, hw, count_starts hc⟩

/-! ### C84 -/

theorem reread_text {q : Str} {s : Statement} (h : Reread q s) : s.toStr = .ok q := by
  cases h with
  | select => simp only [Statement.toStr, Verif.Spec.TestHelper.select_asText]
  | insert => simp only [Statement.toStr, Verif.Spec.TestHelper.insert_asText]
  | update => simp only [Statement.toStr, Verif.Spec.TestHelper.update_asText]
  | delete => simp only [Statement.toStr, Verif.Spec.TestHelper.delete_asText]
  | ddl _ h => exact h
  | alter _ h => exact h
  | createTable b _ => rfl

/-- What holds of C84: on the texts of the printable statements nothing is lost. Two scripts of such texts, with
semicolons between, that are read as the same statements are the same text. -/
theorem C84_printed_partial (toUint : Str → Option Nat) (hu : ReadsNumbers toUint) (p p' : Str × Statement) (ps ps' : List (Str × Statement))
    (h : ∀ x ∈ p :: ps, Reread x.1 x.2) (h' : ∀ x ∈ p' :: ps', Reread x.1 x.2)
    (he : parseQuery toUint (Str.join s%";" ((p :: ps).map (·.1))) = parseQuery toUint (Str.join s%";" ((p' :: ps').map (·.1)))) :
    Str.join s%";" ((p :: ps).map (·.1)) = Str.join s%";" ((p' :: ps').map (·.1)) := by
  rw [C88_script_partial toUint hu p ps h, C88_script_partial toUint hu p' ps' h'] at he
  have he : (p :: ps).map (·.2) = (p' :: ps').map (·.2) := by cases hx : (p :: ps).map (·.2); cases hx; rw [hx] at he; injection he
  have text : ∀ l : List (Str × Statement), (∀ x ∈ l, Reread x.1 x.2) → (l.map (·.2)).map Statement.toStr = (l.map (·.1)).map Res.ok := by
    intro l hl
    rw [List.map_map, List.map_map]
    exact List.map_congr_left fun x hx => reread_text (hl x hx)
  have hm := text _ h
  rw [he, text _ h'] at hm
  have := List.map_inj_right (fun a b e => by injection e) |>.mp hm
  rw [this]

/-- Two different texts of the same kind. -/
example : Reread (s%"CREATE DATABASE IF NOT EXISTS d") (.createDatabase s%"d" true) ∧ Reread (s%"CREATE DATABASE d") (.createDatabase s%"d" false) :=
  ⟨.ddl (.createDatabase true (name_of (by decide +kernel))) rfl, .ddl (.createDatabase false (name_of (by decide +kernel))) rfl⟩

end Verif.Props
