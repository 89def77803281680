import Verif.Lemmas.Provenance
/-! Nothing in a reported statement is made up: C120. -/
namespace Verif.Props
open Verif Verif.Lex Verif.Gram Verif.Query Verif.Parse Verif.Spec Verif.Lemmas

/-- C120: for every accepted query the tokens contain, in order and without overlap, one stretch without `;` for each
reported statement, and every name, value and argument of the statement is the text of consecutive tokens of its own
stretch, up to quote characters and parentheses taken off its ends (function names also up to letter case). -/
theorem C120_written (toUint : Str → Option Nat) (q : Str) (l : List Statement) (h : parseQuery toUint q = .ok l) :
    ∃ toks, Writes q toks ∧ Pieces MadeFrom toks l := parsed_pieces h fun hm _ _ => handler_made toUint hm _

set_option maxRecDepth 10000 in
/-- A query with a quoted `;` and two statements. -/
example : parseQuery (fun _ => none) s%"DELETE FROM a WHERE x = 'b; DROP TABLE c'; DROP TABLE `d`" =
    .ok [.delete { table := { name := s%"a" }, cond := some (.cmp { op := .eq, left := { name := s%"x" }, right := some { v := .str s%"b; DROP TABLE c", t := .string } }) },
      .dropTable [{ name := s%"d" }] false] := by krfl

/-- The texts of its two statements. -/
example : stmtTexts (.delete { table := { name := s%"a" }, cond := some (.cmp { op := .eq, left := { name := s%"x" }, right := some { v := .str s%"b; DROP TABLE c", t := .string } }) }) =
    [[], s%"a", s%"x", s%"b; DROP TABLE c"] := rfl

/-- A text that is not written in some tokens: the claim has content. -/
example : ¬ WrittenIn [⟨.DROP_, s%"DROP"⟩, ⟨.IDENTIFIER, s%"a"⟩] s%"b" := by
  rintro ⟨p, k, s, l, r, h1, h2, -, -⟩
  have hb : 'b' ∈ Spec.textOf k := by rw [h2]; simp
  have : 'b' ∈ Spec.textOf [⟨.DROP_, s%"DROP"⟩, ⟨.IDENTIFIER, s%"a"⟩] := by
    rw [h1]; simp only [Spec.textOf, List.flatMap_append, List.mem_append]; exact Or.inl (Or.inr hb)
  revert this; decide

/-- C120: in particular every text of a reported statement is part of the text of the query's tokens. -/
theorem C120_contained (toUint : Str → Option Nat) (q : Str) (l : List Statement) (h : parseQuery toUint q = .ok l) (s : Statement)
    (hs : s ∈ l) (x : Str) (hx : x ∈ stmtTexts s) : ∃ toks a b, Writes q toks ∧ Spec.textOf toks = a ++ x ++ b := by
  obtain ⟨toks, hw, hp⟩ := C120_written toUint q l h
  refine ⟨toks, ?_⟩
  have : ∃ a b, Spec.textOf toks = a ++ x ++ b := by
    clear hw h
    induction hp with
    | nil => cases hs
    | @cons before own rest s' l' hm _ _ ih =>
      rcases List.mem_cons.mp hs with rfl | hs
      · obtain ⟨p, k, u, y, z, h1, h2, -, -⟩ := hm.1 x hx
        refine ⟨Spec.textOf before ++ Spec.textOf p ++ y, z ++ Spec.textOf u ++ Spec.textOf rest, ?_⟩
        rw [h1]
        simp only [Spec.textOf, List.flatMap_append] at h2 ⊢
        rw [h2]; simp
      · obtain ⟨a, b, he⟩ := ih hs
        refine ⟨Spec.textOf before ++ Spec.textOf own ++ a, b, ?_⟩
        simp only [Spec.textOf, List.flatMap_append] at he ⊢
        rw [he]; simp
  obtain ⟨a, b, he⟩ := this
  exact ⟨a, b, hw, he⟩

set_option maxRecDepth 10000 in
/-- A function name in small letters is reported in capitals. -/
example : parseQuery (fun _ => none) s%"SELECT max(a) FROM t" =
    .ok [.select { selectors := [.fn (Function.named s%"max" [s%"a"])], tables := [{ name := s%"t" }], cond := none }] := by krfl

end Verif.Props
