import Verif.Lemmas.Where
/-! Conditions and parentheses: C130, C131. -/
namespace Verif.Props
open Verif Verif.Lex Verif.Gram Verif.Query Verif.Parse Verif.Spec Verif.Lemmas

/-- C130: for every accepted query, the condition of a reported SELECT, UPDATE or DELETE is what stands in its own
tokens between a WHERE that is not in parentheses and the end of that clause: one comparison of a name with a value, or
two joined by AND or OR, with the operator, name and value written there. A condition is never taken from another
statement or a subquery, and never is a part of a longer condition. -/
theorem C130_where (toUint : Str → Option Nat) (q : Str) (l : List Statement) (h : parseQuery toUint q = .ok l) :
    ∃ toks, Writes q toks ∧ Pieces WhereWritten toks l := parsed_pieces h (handler_where toUint)

set_option maxRecDepth 10000 in
/-- A query with a condition in a subquery, a condition of its own and another statement with one. -/
example : parseQuery (fun _ => none) s%"WITH x AS (SELECT a FROM u WHERE b = 1) DELETE FROM t WHERE c >= 'y' OR d <> 2; DELETE FROM v" =
    .ok [.delete { table := { name := s%"t" }, cond := some (.or
        (.cmp { op := .ge, left := { name := s%"c" }, right := some { v := .str s%"y", t := .string } })
        (.cmp { op := .neq, left := { name := s%"d" }, right := some { v := .str s%"2" } })) },
      .delete { table := { name := s%"v" }, cond := none }] := by krfl

/-- Tokens of a condition. -/
example : CondTokens [⟨.IDENTIFIER, s%"d"⟩, ⟨.NOT_EQ2, s%"<>"⟩, ⟨.NUMERIC_LITERAL, s%"2"⟩]
    (.cmp { op := .neq, left := { name := s%"d" }, right := some { v := .str s%"2" } }) :=
  .one _ _ ⟨[⟨.IDENTIFIER, s%"d"⟩], ⟨.NOT_EQ2, s%"<>"⟩, [⟨.NUMERIC_LITERAL, s%"2"⟩], .neq, _, rfl, by simp, by simp [NoOperator],
    by simp [NoOperator], .ne2, .other _ (.inl ⟨_, rfl, by simp⟩), rfl⟩

/-- C130: without a WHERE among the tokens of a query no reported statement has a condition. -/
theorem C130_no_where (toUint : Str → Option Nat) (q : Str) (toks : List Token) (l : List Statement) (hw : Writes q toks)
    (hn : ∀ t, t ∈ toks → t.kind ≠ .WHERE_) (h : parseQuery toUint q = .ok l) : ∀ s, s ∈ l → condOf s = none := by
  obtain ⟨toks', hw', hp⟩ := C130_where toUint q l h
  obtain ⟨ts, h1, h2⟩ := writes_lex.mp hw
  obtain ⟨ts', h1', h2'⟩ := writes_lex.mp hw'
  rw [h1] at h1'
  cases h1'
  have he : toks' = toks := h2'.symm.trans h2
  subst he
  clear hw hw' h h1 h2 h2'
  induction hp with
  | nil => intro s hs; cases hs
  | cons before own hP _ _ ih =>
    intro s hs
    rcases List.mem_cons.mp hs with rfl | hs
    · cases hc : condOf s with
      | none => rfl
      | some e =>
        obtain ⟨b, w, c, a, h1, h2, -⟩ := hP e hc
        exact absurd h2 (hn w (by rw [h1]; simp))
    · exact ih (fun t ht => hn t (List.mem_append_right _ ht)) s hs

set_option maxRecDepth 10000 in
/-- A query without WHERE. -/
example : Writes s%"DELETE FROM t" [⟨.DELETE_, s%"DELETE"⟩, ⟨.FROM_, s%"FROM"⟩, ⟨.IDENTIFIER, s%"t"⟩] ∧
    parseQuery (fun _ => none) s%"DELETE FROM t" = .ok [.delete { table := { name := s%"t" }, cond := none }] :=
  ⟨writes_of (by decide +kernel), by krfl⟩

/-- C131: the parentheses among the tokens of an accepted query are balanced (those in strings, quoted names and
comments do not count). -/
theorem C131_balanced (toUint : Str → Option Nat) (q : Str) (toks : List Token) (l : List Statement) (hw : Writes q toks)
    (h : parseQuery toUint q = .ok l) : Balanced toks := by
  rw [parseQuery, Parser.parseString] at h
  cases he : isEmptyQuery q with
  | true => simp [he] at h
  | false =>
    cases ht : treeOf q with
    | none => simp [he, ht] at h
    | some t =>
      obtain ⟨ts, hts, hv⟩ := writes_lex.mp hw
      rw [treeOf, hts] at ht
      have hp := parseTree_derives ht
      have hd := derives_leaves hp
      rw [List.append_nil] at hd
      rw [← hv, hd]
      exact walk_balanced (level_sound hp 0 0 rfl)

/-- C131: the parentheses of every reported statement are balanced on their own. -/
theorem C131_each (toUint : Str → Option Nat) (q : Str) (l : List Statement) (h : parseQuery toUint q = .ok l) :
    ∃ toks, Writes q toks ∧ Pieces (fun own s => MadeFrom own s ∧ Balanced own) toks l := by
  refine parsed_pieces h ?_
  intro r f hm cs hs s hr
  have hc : r ≠ .expr := by
    rintro rfl
    simp [Visit.handlers] at hm
  obtain ⟨ts, us, hd⟩ := hs.derives hc
  refine ⟨handler_made toUint hm _ s hr, ?_⟩
  rw [Tree.leaves]
  exact walk_balanced (level_sound hd 0 0 (level_body r))

set_option maxRecDepth 10000 in
/-- An accepted query with parentheses, also in a string. -/
example : parseQuery (fun _ => none) s%"INSERT INTO t (a) VALUES (')')" =
    .ok [.insert { table := { name := s%"t" }, values := [[{ name := s%"a", lit := some { v := .str s%")", t := .string } }]] }] := by krfl

/-- Tokens that are not balanced. -/
example : ¬ Balanced [⟨.CLOSE_PAR, s%")"⟩, ⟨.OPEN_PAR, s%"("⟩] := by
  intro h
  have := h.2 [⟨.CLOSE_PAR, s%")"⟩] [⟨.OPEN_PAR, s%"("⟩] rfl
  revert this; decide

end Verif.Props
