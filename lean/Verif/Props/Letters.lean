import Verif.Lemmas.LetterVisit
import Verif.Props.Blank
/-! C183: letter case changes nothing but letter case. -/
namespace Verif.Props
open Verif Verif.Lex Verif.Gram Verif.Query Verif.Parse Verif.Spec Verif.Lemmas

theorem visible_caps (a : List Token) : ∀ b : List Token, b.map (·.kind) = a.map (·.kind) →
    b.map (fun t => t.text.map Str.upC) = a.map (fun t => t.text.map Str.upC) →
    (visible a).map (retok fun t => Str.upper t.text) = (visible b).map (retok fun t => Str.upper t.text) := by
  induction a with
  | nil => intro b hb _; cases b with
    | nil => rfl
    | cons => cases hb
  | cons x a ih => intro b hb hc; cases b with
    | nil => cases hb
    | cons y b =>
      simp only [List.map_cons, List.cons.injEq] at hb hc
      have := ih b hb.2 hc.2
      simp only [visible, List.filter_cons, hb.1] at this ⊢
      split
      · simp only [List.map_cons, this, retok, hb.1, List.cons.injEq, and_true, Token.mk.injEq, true_and]
        exact hc.1.symm
      · exact this

/-- C183: two queries that differ in letter case only have the same outcome up to letter case: both are errors, both
panic, or both report statements that are the same once their names and values are written in capital letters. Not compared are
the types of functions and the keys of CREATE TABLE. -/
theorem C183_letters_partial (u : Str → Option Nat) (hu : CaseBlind u) (q q' : Str) (h : SameLetters q q') :
    capitals (parseQuery u q) = capitals (parseQuery u q') := by
  by_cases hn : NonEmpty q
  · have hn' : NonEmpty q' := by
      refine ⟨?_, ?_⟩
      · rintro rfl
        exact hn.1 (by simpa [SameLetters] using h)
      · rintro rfl
        exact hn.2 (semicolon h)
    obtain ⟨ts, ts', h1, h2, h3, -, h5⟩ := C68_recasing q q' h
    have w := writes_lex.mpr ⟨ts, h1, rfl⟩
    have w' := writes_lex.mpr ⟨ts', h2, rfl⟩
    rw [parse_of_writes u w hn, parse_of_writes u w' hn']
    have e1 := parseTree_retext (tx := fun t => Str.upper t.text) (visible ts)
    rw [visible_caps _ _ h3 h5, parseTree_retext] at e1
    cases g1 : parseTree (visible ts) <;> cases g2 : parseTree (visible ts') <;> rw [g1, g2] at e1 <;>
      simp only [Option.map_some, Option.map_none, Option.some.injEq, reduceCtorEq] at e1
    · rename_i t t'
      have a := statements_cap u hu t
      have b := statements_cap u hu t'
      rw [capitals_eq, capitals_eq]
      have e1 : t'.cap = t.cap := e1
      rw [e1] at b
      exact Eq.trans (Eq.symm a) b
  · have : q = [] ∨ q = s%";" := by
      by_cases h1 : q = []
      · exact Or.inl h1
      · by_cases h2 : q = s%";"
        · exact Or.inr h2
        · exact absurd ⟨h1, h2⟩ hn
    have hq : q' = q := by
      unfold SameLetters at h
      rcases this with rfl | rfl
      · simpa using h.symm
      · exact semicolon (Eq.symm h)
    rw [hq]

/-- C183 for a query that is written in capital letters. -/
theorem C183_capitals_partial (u : Str → Option Nat) (hu : CaseBlind u) (q : Str) :
    capitals (parseQuery u (Str.upper q)) = capitals (parseQuery u q) := by
  refine C183_letters_partial u hu _ _ ?_
  show Str.upper (Str.upper q) = Str.upper q
  exact Str.upper_upper q

set_option maxRecDepth 10000 in
example : CaseBlind (fun s => Str.toNat? s) ∧
    SameLetters s%"Select max(a) From Users where Name = 'ab' Order By b Desc limit 3" s%"SELECT MAX(A) FROM USERS WHERE NAME = 'AB' ORDER BY B DESC LIMIT 3" ∧
    capitals (parseQuery (fun s => Str.toNat? s) s%"Select max(a) From Users where Name = 'ab' Order By b Desc limit 3") =
      .ok [.select {
        selectors := [.fn { name := s%"MAX", args := [s%"A"] }], tables := [{ name := s%"USERS" }]
        cond := some (.cmp { op := .eq, left := { name := s%"NAME" }, right := some { v := .str s%"AB", t := .string } })
        orderBy := [{ column := s%"B", order := .desc }], limit := { offset := 0, limit := 3 } }] := by
  refine ⟨?_, by unfold SameLetters; decide +kernel, by krfl⟩
  intro s s' h
  show Str.toNat? s = Str.toNat? s'
  rw [← toNat?_upper s, h, toNat?_upper]

/-- What a CREATE TABLE reports as keys, with names in capital letters. -/
def keysOf : Res (List Statement) → Option (List (List Index))
  | .ok l => some (l.map fun
      | .createTable s _ => s.indexes.map capIndex
      | _ => [])
  | _ => none

set_option maxRecDepth 10000 in
/-- C183 fails for the keys of CREATE TABLE: in small letters they are lost. -/
theorem C183_keys_fails (u : Str → Option Nat) : ∃ q q', SameLetters q q' ∧
    keysOf (parseQuery u q) = some [[{ name := s%"K", typ := .secondary, columns := [{ name := s%"A", def_ := some { typ := .int, length := -1 } }] }]] ∧
    keysOf (parseQuery u q') = some [[]] := by
  refine ⟨s%"CREATE TABLE t (a INT, KEY k (a))", s%"create table t (a int, key k (a))", by unfold SameLetters; decide +kernel, ?_, ?_⟩
  · rfl
  · rfl

/-- The types of the functions of a query. -/
def typesOf : Res (List Statement) → Option (List (List Fn.FnType))
  | .ok l => some (l.map fun
      | .select s => s.selectors.map fun
        | .fn f => f.typ
        | .col _ => .unknown
      | _ => [])
  | _ => none

set_option maxRecDepth 10000 in
/-- C183 fails for the types of functions: in small letters they are not known. -/
theorem C183_types_fails (u : Str → Option Nat) : ∃ q q', SameLetters q q' ∧
    typesOf (parseQuery u q) = some [[.aggregate]] ∧ typesOf (parseQuery u q') = some [[.unknown]] :=
  ⟨s%"SELECT MAX(a) FROM t", s%"select max(a) from t", by unfold SameLetters; decide +kernel, rfl, rfl⟩

end Verif.Props
