import Verif.Lemmas.Dml
/-! UPDATE, INSERT and DELETE are reported as they are written: C132, C133, C134. -/
namespace Verif.Props
open Verif Verif.Lex Verif.Gram Verif.Query Verif.Parse Verif.Spec Verif.Lemmas

/-- C132, without the part that fails: for every accepted query, a reported UPDATE has the table written between UPDATE
(with its OR clause) and SET, and one column for each assignment of its SET clause, in the order of the clause, with the
written name and literal, parameter or calculation. What is missing: a value of another form is not reported at all, so
its column has no value. Numbers, blobs and parameters are never missing. -/
theorem C132_update_partial (toUint : Str → Option Nat) (q : Str) (l : List Statement) (h : parseQuery toUint q = .ok l) :
    ∃ toks, Writes q toks ∧ Pieces UpdateWritten toks l := parsed_pieces h (handler_update toUint)

set_option maxRecDepth 10000 in
/-- An UPDATE with three assignments. -/
example : parseQuery (fun _ => none) s%"UPDATE t SET a = 'x', b = ?, c = -2 WHERE d = 1" =
    .ok [.update { table := { name := s%"t" }, columns := [{ name := s%"a", lit := some { v := .str s%"x", t := .string } }, { name := s%"b", lit := some { v := .str s%"?" } }, { name := s%"c", lit := some { v := .str s%"-2" } }], cond := some (.cmp { op := .eq, left := { name := s%"d" }, right := some { v := .str s%"1" } }) }] := by krfl

/-- Tokens of assignments, with and without a reported value. -/
example : Sep SetTokens
    [⟨.IDENTIFIER, s%"a"⟩, ⟨.ASSIGN, s%"="⟩, ⟨.NUMERIC_LITERAL, s%"1"⟩, ⟨.COMMA, s%","⟩, ⟨.IDENTIFIER, s%"b"⟩, ⟨.ASSIGN, s%"="⟩, ⟨.OPEN_PAR, s%"("⟩,
      ⟨.NUMERIC_LITERAL, s%"2"⟩, ⟨.CLOSE_PAR, s%")"⟩]
    [{ name := s%"a", lit := some { v := .str s%"1" } }, { name := s%"b" }] :=
  .cons [⟨.IDENTIFIER, s%"a"⟩, ⟨.ASSIGN, s%"="⟩, ⟨.NUMERIC_LITERAL, s%"1"⟩] _ _ _ _
    (clear_part (by decide) (by decide)) (.lit [⟨.IDENTIFIER, s%"a"⟩] _ [⟨.NUMERIC_LITERAL, s%"1"⟩] _ rfl (by simp) (by simp [NoOperator]) (.other _ (.inl ⟨_, rfl, by simp⟩))) rfl
    (.one _ _ (clear_part (by decide) (by decide)) (.lost [⟨.IDENTIFIER, s%"b"⟩] _ _ rfl (by simp) (by simp [NoOperator]) (by intro b h; cases h)))

/-- C132 fails: the value of an assignment written in parentheses is missing from the reported UPDATE. -/
theorem C132_fails (toUint : Str → Option Nat) : parseQuery toUint s%"UPDATE t SET a = (1)" =
    .ok [.update { table := { name := s%"t" }, columns := [{ name := s%"a" }], cond := none }] := by krfl

/-- C133, without the part that fails: for every accepted query, a reported INSERT has the table written behind INTO
and one row for each row of its VALUES clause, in that order. The values of a row have the names of the column list in
order. What is missing: elements of a row that are not values are left out, with the later values moved forward;
comparisons in a row are taken as a value with a column; values without a column are left out. Numbers, blobs and
parameters are always taken as values. -/
theorem C133_insert_partial (toUint : Str → Option Nat) (q : Str) (l : List Statement) (h : parseQuery toUint q = .ok l) :
    ∃ toks, Writes q toks ∧ Pieces InsertWritten toks l := parsed_pieces h (handler_insert toUint)

/-- C133: a row that consists of values has the first name with the first value, the second with the second, and so on. -/
theorem C133_row (names : List Str) (vs : List Literal) :
    pairUp names (vs.map .value) = (names.zip vs).map (fun p => { name := p.1, lit := some p.2 }) := by
  induction vs generalizing names with
  | nil => cases names <;> rfl
  | cons v vs ih =>
    cases names with
    | nil => rw [List.map_cons, pairUp, ih]; simp
    | cons n names => rw [List.map_cons, pairUp, ih]; rfl

/-- C133: a row that is written as numbers, blobs and parameters has, with the names of the column list in order, just
these as they are written. -/
theorem C133_numbers (names : List Str) (body : List Token) (o c : Token) (row : List Column) (vals : List Token)
    (h : RowTokens names (o :: (body ++ [c])) row) (hv : Sep (fun ts b => ts = [b]) body vals)
    (hk : ∀ b, b ∈ vals → b.kind ∈ [Tok.NUMERIC_LITERAL, .BLOB_LITERAL, .BIND_PARAMETER]) :
    row = (names.zip vals).map (fun p => { name := p.1, lit := some { v := .str p.2.text } }) := by
  obtain ⟨o', body', c', items, he, -, -, hs, rfl⟩ := h
  obtain ⟨rfl, he2⟩ := List.cons.inj he
  cases (List.append_inj' he2 rfl).1
  obtain ⟨hl, hz⟩ := hs.unique hv
  have hi : items = (vals.map (fun b => ({ v := .str b.text } : Literal))).map .value := by
    rw [List.map_map]
    refine zip_eq_map hl fun p hp => ?_
    obtain ⟨ts, h1, h2⟩ := hz.mem p hp
    subst h2
    exact item_number h1 (hk _ (List.of_mem_zip hp).2)
  rw [hi, C133_row, List.zip_map_right, List.map_map]
  rfl

/-- A row of two numbers. -/
example : RowTokens [s%"a", s%"b"]
    [⟨.OPEN_PAR, s%"("⟩, ⟨.NUMERIC_LITERAL, s%"1"⟩, ⟨.COMMA, s%","⟩, ⟨.NUMERIC_LITERAL, s%"2"⟩, ⟨.CLOSE_PAR, s%")"⟩]
    [{ name := s%"a", lit := some { v := .str s%"1" } }, { name := s%"b", lit := some { v := .str s%"2" } }] ∧
    Sep (fun ts b => ts = [b]) [⟨.NUMERIC_LITERAL, s%"1"⟩, ⟨.COMMA, s%","⟩, ⟨.NUMERIC_LITERAL, s%"2"⟩]
      [⟨.NUMERIC_LITERAL, s%"1"⟩, ⟨.NUMERIC_LITERAL, s%"2"⟩] :=
  ⟨⟨_, [⟨.NUMERIC_LITERAL, s%"1"⟩, ⟨.COMMA, s%","⟩, ⟨.NUMERIC_LITERAL, s%"2"⟩], _, [.value { v := .str s%"1" }, .value { v := .str s%"2" }], rfl, rfl, rfl,
    .cons [_] _ _ _ _ (clear_part (by decide) (by decide)) (.lit _ _ (.other _ (.inl ⟨_, rfl, by simp⟩))) rfl
      (.one _ _ (clear_part (by decide) (by decide)) (.lit _ _ (.other _ (.inl ⟨_, rfl, by simp⟩)))), rfl⟩,
    .cons [_] _ _ _ _ (clear_part (by decide) (by decide)) rfl rfl (.one _ _ (clear_part (by decide) (by decide)) rfl)⟩

set_option maxRecDepth 10000 in
/-- An INSERT with two rows. -/
example : parseQuery (fun _ => none) s%"INSERT INTO t (a, b) VALUES (1, 'x'), (?, NULL)" =
    .ok [.insert { table := { name := s%"t" }, values := [
      [{ name := s%"a", lit := some { v := .str s%"1" } }, { name := s%"b", lit := some { v := .str s%"x", t := .string } }],
      [{ name := s%"a", lit := some { v := .str s%"?" } }, { name := s%"b", lit := some { v := .str s%"NULL" } }]] }] := by krfl

/-- C133 fails: a comparison among the values is reported as an assignment to the column it names, whatever its
operator, and the next value moves to the first column. -/
theorem C133_fails (toUint : Str → Option Nat) : parseQuery toUint s%"INSERT INTO t (a, b) VALUES (x < 1, 2)" =
    .ok [.insert { table := { name := s%"t" }, values := [
      [{ name := s%"x", lit := some { v := .str s%"1" } }, { name := s%"a", lit := some { v := .str s%"2" } }]] }] := by krfl

/-- C134: for every accepted query, a reported DELETE has the table written behind DELETE FROM and before its WHERE or
RETURNING clause or its end; it is never that of another statement or of a WITH clause. -/
theorem C134_delete (toUint : Str → Option Nat) (q : Str) (l : List Statement) (h : parseQuery toUint q = .ok l) :
    ∃ toks, Writes q toks ∧ Pieces DeleteWritten toks l := parsed_pieces h (handler_delete toUint)

set_option maxRecDepth 10000 in
/-- A DELETE behind a WITH clause that contains other tables. -/
example : parseQuery (fun _ => none) s%"WITH x AS (SELECT a FROM u) DELETE FROM t WHERE c = 1" =
    .ok [.delete { table := { name := s%"t" }, cond := some (.cmp { op := .eq, left := { name := s%"c" }, right := some { v := .str s%"1" } }) }] := by krfl

end Verif.Props
