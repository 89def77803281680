import Verif.Lemmas.SelectWritten
/-! SELECT is reported as it is written: C135. -/
namespace Verif.Props
open Verif Verif.Lex Verif.Gram Verif.Query Verif.Parse Verif.Spec Verif.Lemmas

/-- C135, without the part that fails: for every accepted query, the tokens of a reported SELECT divide into a WITH
clause, the body, further bodies behind UNION, INTERSECT or EXCEPT, ORDER BY and LIMIT. The selectors are the elements
of the list behind SELECT, one for each and in order: function calls with the written name in upper case, the written
arguments and the type that the name has as it is written, and columns named by the whole text of the element; an element
that is plainly a call is never taken for a column. The tables are those elements of the list behind FROM that are not in
parentheses, in order; they are none at all only where FROM is missing, holds no table, or is a join, which has JOIN, ON or
USING outside parentheses. The group is the first expression of GROUP BY. The orders are the terms of ORDER BY that have a
direction, in order and with that direction. The limit and the offset are the numbers of LIMIT. What is missing: aliases,
joins, later groups, terms without a direction and the further bodies are not reported. -/
theorem C135_select_partial (toUint : Str → Option Nat) (q : Str) (l : List Statement) (h : parseQuery toUint q = .ok l) :
    ∃ toks, Writes q toks ∧ Pieces (SelectWritten toUint) toks l := parsed_pieces h (handler_select toUint)

set_option maxRecDepth 10000 in
/-- A SELECT with all its clauses. -/
example : parseQuery (fun s => if s = s%"3" then some 3 else some 4)
    s%"WITH w AS (SELECT 1) SELECT DISTINCT a, COUNT(DISTINCT b, c) AS n, d FROM s.t, u GROUP BY a, d ORDER BY a DESC, b, c asc LIMIT 3 OFFSET 4" =
    .ok [.select { selectors := [.col { name := s%"a" }, .fn { typ := .aggregate, name := s%"COUNT", args := [s%"b", s%"c"] }, .col { name := s%"d" }], tables := [{ schema := s%"s", name := s%"s.t" }, { name := s%"u" }], cond := none, orderBy := [{ column := s%"a", order := .desc }, { column := s%"c", order := .asc }], limit := { offset := 4, limit := 3 }, groupBy := s%"a" }] := by krfl

/-- C135: result columns without parentheses are columns named by their text, one for each and in order. -/
theorem C135_columns (ts : List Token) (l : List Selector) (h : Sep SelTokens ts l) (hn : ∀ t, t ∈ ts → t.kind ≠ .OPEN_PAR) :
    ∃ names, Sep (fun ts a => a = Spec.textOf ts) ts names ∧ l = names.map (fun n => .col { name := n }) := by
  induction h with
  | one ts a hc h =>
    cases h with
    | col => exact ⟨[_], .one _ _ hc rfl, rfl⟩
    | call n o body c rest f _ ho => exact absurd ho (hn o (by simp))
  | cons ts w rest a l hc h hw hr ih =>
    obtain ⟨names, h1, rfl⟩ := ih (fun t ht => hn t (by simp [ht]))
    cases h with
    | col => exact ⟨_ :: names, .cons _ _ _ _ _ hc rfl hw h1, rfl⟩
    | call n o body c rest f _ ho => exact absurd ho (hn o (by simp))

/-- Two result columns. -/
example : Sep SelTokens [⟨.IDENTIFIER, s%"a"⟩, ⟨.COMMA, s%","⟩, ⟨.IDENTIFIER, s%"b"⟩, ⟨.DOT, s%"."⟩, ⟨.IDENTIFIER, s%"c"⟩]
    [.col { name := s%"a" }, .col { name := s%"b.c" }] :=
  .cons [_] _ _ _ _ (clear_part (by decide) (by decide)) (.col _ (by rintro ⟨n, o, bd, c, r, h, -⟩; simp at h)) rfl
    (.one _ _ (clear_part (by decide) (by decide)) (.col _ (by rintro ⟨n, o, bd, c, r, h, -, ho, -⟩; rw [← (List.cons.inj (List.cons.inj h).2).1] at ho; cases ho)))

/-- C135: a result column that is a name with parentheses behind it, and perhaps an alias, is reported as a function
call: with the name in upper case, with the type that belongs to the name if it is the exact name of a documented
function, and with the arguments between the parentheses. -/
theorem C135_call (n o c : Token) (body rest : List Token) (s : Selector) (hn : n.kind = .IDENTIFIER) (ho : o.kind = .OPEN_PAR) (hc : c.kind = .CLOSE_PAR)
    (hb : Balanced body) (hr : FirstIn [.AS_, .IDENTIFIER, .STRING_LITERAL] rest) (h : SelTokens (n :: o :: (body ++ c :: rest)) s) :
    ∃ f, s = .fn f ∧ f.name = Str.upper n.text ∧ TypeNamed n.text f.typ ∧ ArgTokens body f.args := by
  generalize hts : n :: o :: (body ++ c :: rest) = ts at h
  cases h with
  | col _ hp => exact absurd ⟨n, o, body, c, rest, hts.symm, hn, ho, hc, hb, hr⟩ hp
  | call n' o' body' c' rest' f hn' ho' hc' hb' hr' ha hf ht he hg =>
    rcases hn' with ⟨t, rfl⟩ | ⟨t, r, d, rfl, hk, -⟩
    · simp only [List.cons_append, List.nil_append, List.cons.injEq] at hts
      obtain ⟨rfl, rfl, hts⟩ := hts
      obtain ⟨rfl, rfl⟩ := close_unique hb hb' hc hc' hts
      exact ⟨f, rfl, by simpa [Spec.textOf] using hf, by simpa [Spec.textOf] using ht, ha⟩
    · simp only [List.cons_append, List.cons.injEq] at hts
      rw [← hts.1, hn] at hk
      cases hk

/-- `Sum(a) AS s` is reported as a function of unknown type, since the name is not in upper case. -/
example : SelTokens [⟨.IDENTIFIER, s%"Sum"⟩, ⟨.OPEN_PAR, s%"("⟩, ⟨.IDENTIFIER, s%"a"⟩, ⟨.CLOSE_PAR, s%")"⟩, ⟨.AS_, s%"AS"⟩, ⟨.IDENTIFIER, s%"s"⟩]
    (.fn { name := s%"SUM", args := [s%"a"] }) :=
  .call [_] _ [⟨.IDENTIFIER, s%"a"⟩] _ _ _ (Or.inl ⟨_, rfl⟩) rfl rfl (clear_part (by decide) (by decide)).2.1 (by intro t r h; cases h; simp)
    (.list [] _ _ (Or.inl rfl) (.one _ _ (clear_part (by decide) (by decide)) rfl)) (by decide) (Or.inr ⟨rfl, by intro t; cases t <;> decide⟩) rfl rfl

/-- C135: ordering terms that all have ASC or DESC behind them are all reported, one for each and in order. -/
theorem C135_orders (ts : List Token) (items : List (Option Order)) (h : Sep TermTokens ts items) (hs : ∀ o, o ∈ items → o ≠ none) :
    (items.filterMap id).length = items.length ∧ Sep (fun ts o => TermTokens ts (some o)) ts (items.filterMap id) := by
  induction h with
  | one ts a hc h =>
    cases a with
    | none => exact absurd rfl (hs none (by simp))
    | some o => exact ⟨rfl, .one _ _ hc h⟩
  | cons ts w rest a l hc h hw hr ih =>
    obtain ⟨h1, h2⟩ := ih (fun o ho => hs o (by simp [ho]))
    cases a with
    | none => exact absurd rfl (hs none (by simp))
    | some o => exact ⟨by simpa using h1, .cons _ _ _ _ _ hc h hw h2⟩

/-- Two ordering terms. -/
example : Sep TermTokens [⟨.IDENTIFIER, s%"a"⟩, ⟨.ASC_, s%"asc"⟩, ⟨.COMMA, s%","⟩, ⟨.IDENTIFIER, s%"b"⟩, ⟨.DESC_, s%"DESC"⟩]
    [some { column := s%"a", order := .asc }, some { column := s%"b", order := .desc }] :=
  .cons [⟨.IDENTIFIER, s%"a"⟩, ⟨.ASC_, s%"asc"⟩] _ _ _ _ (clear_part (by decide) (by decide))
    (.asc [⟨.IDENTIFIER, s%"a"⟩] [] ⟨.ASC_, s%"asc"⟩ [] (clear_part (by decide) (by decide)) (by intro t r h; cases h) (by simp) (by decide) (by intro t r h; cases h)) rfl
    (.one _ _ (clear_part (by decide) (by decide))
      (.desc [⟨.IDENTIFIER, s%"b"⟩] [] ⟨.DESC_, s%"DESC"⟩ [] (clear_part (by decide) (by decide)) (by intro t r h; cases h) (by simp) (by decide) (by intro t r h; cases h)))

/-- C135 fails: the alias behind a function call and the second group are missing from the reported SELECT. -/
theorem C135_fails (toUint : Str → Option Nat) : parseQuery toUint s%"SELECT COUNT(*) AS n FROM t GROUP BY a, b" =
    .ok [.select { selectors := [.fn { typ := .aggregate, name := s%"COUNT", args := [s%"*"] }], tables := [{ name := s%"t" }], cond := none, orderBy := [], limit := { offset := 0, limit := 0 }, groupBy := s%"a" }] := by krfl

/-- C135 fails: a join reports no tables at all. -/
theorem C135_join_fails (toUint : Str → Option Nat) : parseQuery toUint s%"SELECT a FROM t LEFT JOIN u ON x = 1" =
    .ok [.select { selectors := [.col { name := s%"a" }], tables := [], cond := none, orderBy := [], limit := { offset := 0, limit := 0 }, groupBy := [] }] := by krfl

end Verif.Props
