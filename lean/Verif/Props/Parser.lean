import Verif.Lemmas.VisitAll
import Verif.Lemmas.VisitQuery
import Verif.Props.Lexer
/-! C66, C69-C71, C79-C87: parsing query texts. -/
namespace Verif.Props
open Verif Verif.Lex Verif.Gram Verif.Spec Verif.Query Verif.Parse

/-! ### Acceptance -/

theorem nonEmpty_iff (q : Str) : isEmptyQuery q = false ↔ NonEmpty q := by
  simp [isEmptyQuery, NonEmpty]

theorem writes_lex {q : Str} {toks : List Token} : Writes q toks ↔ ∃ ts, lex q = some ts ∧ visible ts = toks := by
  constructor
  · rintro ⟨ts, h, hv⟩; exact ⟨ts, (lex_iff _ _).mpr h, hv⟩
  · rintro ⟨ts, h, hv⟩; exact ⟨ts, (lex_iff _ _).mp h, hv⟩

theorem writes_of {q : Str} {toks : List Token} (h : (lex q).map visible = some toks) : Writes q toks := by
  rw [Option.map_eq_some_iff] at h
  exact writes_lex.mpr h

theorem treeOf_some {q : Str} : (∃ t, treeOf q = some t) ↔ ∃ toks, Writes q toks ∧ Query toks := by
  obtain ⟨ts, hts, -⟩ := lex_spec q
  constructor
  · rintro ⟨t, h⟩
    rw [treeOf, hts] at h
    exact ⟨_, writes_lex.mpr ⟨ts, hts, rfl⟩, parseTree_isSome.mp ⟨t, h⟩⟩
  · rintro ⟨toks, hw, hq⟩
    obtain ⟨ts', h1, h2⟩ := writes_lex.mp hw
    rw [hts] at h1; cases h1
    obtain ⟨t, ht⟩ := parseTree_isSome.mpr hq
    exact ⟨t, by rw [treeOf, hts, Option.bind_some, h2, ht]⟩

theorem parse_sound {ts : List Token} {t : Tree} (h : parseTree ts = some t) : Sound t ∧ ∃ ls, t = .node .parse ls := by
  have hd := parseTree_chosen h
  refine ⟨chosen_sound hd t (List.mem_singleton.mpr rfl), ?_⟩
  cases hd with
  | nt r hd => exact ⟨_, rfl⟩

theorem treeOf_sound {q : Str} {t : Tree} (h : treeOf q = some t) : Sound t ∧ ∃ ls, t = .node .parse ls := by
  obtain ⟨ts, hts, -⟩ := lex_spec q
  rw [treeOf, hts] at h
  exact parse_sound h

theorem statements_not_err (toUint : Str → Option Nat) {t : Tree} (h : Sound t ∧ ∃ ls, t = .node .parse ls) :
    Visit.statements toUint t ≠ .err := by
  intro he
  rcases statements_unless toUint h.1 h.2 with ⟨-, h1⟩ | ⟨-, a, h1⟩ <;> rw [he] at h1 <;> cases h1

/-- C79: a new parser reports an error for a text exactly if the text is empty, a single `;`, or its tokens (spaces
and comments left out) are not derived by the grammar. -/
theorem C79_error_iff (toUint : Str → Option Nat) (q : Str) : parseQuery toUint q = .err ↔ ¬ WellFormed q := by
  have hw : WellFormed q ↔ isEmptyQuery q = false ∧ ∃ t, treeOf q = some t := by
    rw [WellFormed, ← nonEmpty_iff, treeOf_some]
  rw [hw, parseQuery, Parser.parseString]
  cases he : isEmptyQuery q with
  | true => simp
  | false =>
    cases ht : treeOf q with
    | none => simp
    | some t => simp [newParser, statements_not_err toUint (treeOf_sound ht)]

example : Writes s%"delete /* x */ from t" [⟨.DELETE_, s%"delete"⟩, ⟨.FROM_, s%"from"⟩, ⟨.IDENTIFIER, s%"t"⟩] :=
  writes_of (by decide +kernel)
set_option maxRecDepth 10000 in
example : parseQuery (fun _ => none) s%"DELETE t" = .err ∧ parseQuery (fun _ => none) s%"delete /* x */ from t" ≠ .err := by
  decide +kernel

/-! ### Parser objects -/

/-- The parser after a history of queries. -/
def afterAll (toUint : Str → Option Nat) (hist : List Str) : Parser :=
  hist.foldl (fun p q => (p.parseString toUint q).1) newParser

theorem failed_step (toUint : Str → Option Nat) (p : Parser) (q : Str) :
    (p.parseString toUint q).1.failed = true ↔ p.failed = true ∨ (NonEmpty q ∧ ¬ WellFormed q) := by
  have hw : (NonEmpty q ∧ ¬ WellFormed q) ↔ isEmptyQuery q = false ∧ ¬ ∃ t, treeOf q = some t := by
    rw [WellFormed, ← nonEmpty_iff, treeOf_some]
    constructor
    · rintro ⟨a, b⟩; exact ⟨a, fun c => b ⟨a, c⟩⟩
    · rintro ⟨a, b⟩; exact ⟨a, fun c => b c.2⟩
  rw [hw, Parser.parseString]
  cases he : isEmptyQuery q with
  | true => simp
  | false =>
    cases ht : treeOf q with
    | none => simp
    | some t =>
      simp only [Bool.false_eq_true, if_false]
      split <;> simp

theorem failed_after (toUint : Str → Option Nat) (hist : List Str) :
    (afterAll toUint hist).failed = true ↔ ∃ b, b ∈ hist ∧ NonEmpty b ∧ ¬ WellFormed b := by
  have go : ∀ (p : Parser), (hist.foldl (fun p q => (p.parseString toUint q).1) p).failed = true ↔
      p.failed = true ∨ ∃ b, b ∈ hist ∧ NonEmpty b ∧ ¬ WellFormed b := by
    induction hist with
    | nil => simp
    | cons q l ih =>
      intro p
      rw [List.foldl_cons, ih, failed_step]
      simp [or_assoc]
  rw [afterAll, go]
  simp [newParser]

/-- C66, exactly: what a parser object answers after any history. Once a query of the history was a syntax error,
every later query is answered with an error; otherwise the answer is that of a new parser. -/
theorem C66_history (toUint : Str → Option Nat) (hist : List Str) (q : Str) :
    ((∃ b, b ∈ hist ∧ NonEmpty b ∧ ¬ WellFormed b) → ((afterAll toUint hist).parseString toUint q).2 = .err) ∧
    ((¬ ∃ b, b ∈ hist ∧ NonEmpty b ∧ ¬ WellFormed b) →
      ((afterAll toUint hist).parseString toUint q).2 = parseQuery toUint q) := by
  rw [← failed_after toUint hist]
  constructor
  · intro h
    rw [Parser.parseString]
    split
    · rfl
    · split
      · rfl
      · rfl
  · intro h
    have : afterAll toUint hist = newParser := by
      cases hp : afterAll toUint hist with
      | mk f => simp [hp] at h; simp [newParser, h]
    rw [this]; rfl

/-- C66 for histories without a syntax error: the answer depends only on the query. Missing: histories with one, see
`C66_reuse_fails`. -/
theorem C66_reuse_partial (toUint : Str → Option Nat) (hist : List Str) (h : ∀ b, b ∈ hist → NonEmpty b → WellFormed b) (q : Str) :
    ((afterAll toUint hist).parseString toUint q).2 = parseQuery toUint q := by
  refine (C66_history toUint hist q).2 ?_
  rintro ⟨b, hb, h1, h2⟩
  exact h2 (h b hb h1)

set_option maxRecDepth 10000 in
/-- C66 is false of the code: after one syntax error the parser rejects a query that a new parser accepts. -/
theorem C66_reuse_fails : ∃ bad q : Str,
    ((afterAll (fun _ => none) [bad]).parseString (fun _ => none) q).2 = .err ∧ parseQuery (fun _ => none) q ≠ .err :=
  ⟨s%"x", s%"BEGIN", by decide +kernel⟩

/-! ### Statement objects -/

/-- C80, exactly: the objects returned for a query are, in order and one for one, those of the statements in it that
have an object at all; `t` is a derivation of the query's tokens by the grammar. -/
theorem C80_statements (toUint : Str → Option Nat) (q : Str) (l : List Statement) (h : parseQuery toUint q = .ok l) :
    ∃ toks t, Writes q toks ∧ Derives (.nt .parse) toks [t] [] ∧
      l.map kindOf = ((queryStmts t).map (·.1)).filter Represented := by
  obtain ⟨ts, hts, -⟩ := lex_spec q
  rw [parseQuery, Parser.parseString] at h
  split at h
  · cases h
  · split at h
    · cases h
    · rename_i t ht
      have hs := treeOf_sound ht
      have hp : parseTree (visible ts) = some t := by rw [treeOf, hts] at ht; exact ht
      refine ⟨_, t, writes_lex.mpr ⟨ts, hts, rfl⟩, parseTree_derives hp, ?_⟩
      exact statements_kinds toUint hs.1 hs.2 (by simpa [newParser] using h)

set_option maxRecDepth 10000 in
example : (match parseQuery (fun _ => none) s%"BEGIN; SAVEPOINT a; COMMIT" with
    | .ok l => some (l.map kindOf)
    | _ => none) = some [.begin_stmt, .commit_stmt] := by decide +kernel

set_option maxRecDepth 10000 in
/-- C80 is false of the code: `DELETE FROM t WHERE a = 1 LIMIT 1` is accepted and no statement is returned; neither is
one for PRAGMA. -/
theorem C80_statements_fails : parseQuery (fun _ => none) s%"DELETE FROM t WHERE a = 1 LIMIT 1" = .ok [] ∧
    parseQuery (fun _ => none) s%"PRAGMA a" = .ok [] := by
  decide +kernel

/-- C82, exactly: parsing panics if and only if the query is one of the grammar and some statement in it is one the
code is not prepared for. -/
theorem C82_panic_iff (toUint : Str → Option Nat) (q : Str) : parseQuery toUint q = .panic ↔
    NonEmpty q ∧ ∃ toks t, Writes q toks ∧ parseTree toks = some t ∧ ∃ x, x ∈ queryStmts t ∧ Unprepared x.1 x.2 := by
  obtain ⟨ts, hts, -⟩ := lex_spec q
  have hw : ∀ toks, Writes q toks → toks = visible ts := by
    intro toks hw
    obtain ⟨ts', h1, h2⟩ := writes_lex.mp hw
    rw [hts] at h1; cases h1; exact h2.symm
  rw [← nonEmpty_iff, parseQuery, Parser.parseString]
  cases he : isEmptyQuery q with
  | true => simp
  | false =>
    cases ht : treeOf q with
    | none =>
      simp only [Bool.false_eq_true, if_false, true_and, reduceCtorEq, false_iff]
      rintro ⟨toks, t, h1, h2, -⟩
      rw [treeOf, hts, Option.bind_some, ← hw toks h1, h2] at ht
      cases ht
    | some t =>
      have hs := treeOf_sound ht
      have hp : parseTree (visible ts) = some t := by rw [treeOf, hts] at ht; exact ht
      have hu := statements_unless toUint hs.1 hs.2
      simp only [Bool.false_eq_true, if_false, newParser, true_and]
      constructor
      · intro h
        rcases hu with ⟨hx, -⟩ | ⟨-, a, ha⟩
        · exact ⟨_, t, writes_lex.mpr ⟨ts, hts, rfl⟩, hp, hx⟩
        · rw [h] at ha; cases ha
      · rintro ⟨toks, t', h1, h2, hx⟩
        rw [hw toks h1, hp] at h2
        cases h2
        rcases hu with ⟨-, h⟩ | ⟨hn, -⟩
        · exact h
        · exact absurd hx hn

/-- C82 for queries all of whose statements the code is prepared for: whatever history the parser object has, parsing
returns statements or an error. Missing: the four forms of statement in `Unprepared`. -/
theorem C82_no_panic_partial (toUint : Str → Option Nat) (hist : List Str) (q : Str)
    (h : ∀ toks t, Writes q toks → Derives (.nt .parse) toks [t] [] → ∀ x, x ∈ queryStmts t → ¬ Unprepared x.1 x.2) :
    ((afterAll toUint hist).parseString toUint q).2 ≠ .panic := by
  by_cases hb : ∃ b, b ∈ hist ∧ NonEmpty b ∧ ¬ WellFormed b
  · rw [(C66_history toUint hist q).1 hb]; simp
  · rw [(C66_history toUint hist q).2 hb]
    intro hp
    obtain ⟨-, toks, t, h1, h2, x, hx, hu⟩ := (C82_panic_iff toUint q).mp hp
    exact h toks t h1 (parseTree_derives h2) x hx hu

set_option maxRecDepth 10000 in
/-- C82 is false of the code: four queries of the grammar on which parsing panics. -/
theorem C82_no_panic_fails : parseQuery (fun _ => none) s%"INSERT INTO t DEFAULT VALUES" = .panic ∧
    parseQuery (fun _ => none) s%"UPDATE t SET (a, b) = 1" = .panic ∧
    parseQuery (fun _ => none) s%"CREATE INDEX i ON t (1)" = .panic ∧
    parseQuery (fun _ => none) s%"CREATE TABLE t (a INT, PRIMARY KEY (1))" = .panic := by
  decide +kernel

/-! ### Layout and letter case -/

/-- C83 for two texts neither of which is empty: if they have the same tokens, spaces and comments left out, every
parser object gives the same answer to both and is left in the same state. Missing: the empty text, see
`C83_layout_fails`. -/
theorem C83_layout_partial (toUint : Str → Option Nat) (p : Parser) (q q' : Str) (toks : List Token) (h : Writes q toks)
    (h' : Writes q' toks) (hn : NonEmpty q) (hn' : NonEmpty q') : p.parseString toUint q = p.parseString toUint q' := by
  obtain ⟨ts, h1, h2⟩ := writes_lex.mp h
  obtain ⟨ts', h1', h2'⟩ := writes_lex.mp h'
  have : treeOf q = treeOf q' := by rw [treeOf, treeOf, h1, h1', Option.bind_some, Option.bind_some, h2, h2']
  rw [Parser.parseString, Parser.parseString, this, (nonEmpty_iff q).mpr hn, (nonEmpty_iff q').mpr hn']

example : ∃ toks, Writes s%"DELETE FROM t" toks ∧ Writes s%"DELETE/* all */FROM   t -- now" toks :=
  ⟨[⟨.DELETE_, s%"DELETE"⟩, ⟨.FROM_, s%"FROM"⟩, ⟨.IDENTIFIER, s%"t"⟩], writes_of (by decide +kernel),
    writes_of (by decide +kernel)⟩

/-- C83 is false of the code: the empty text is an error, a blank is not. -/
theorem C83_layout_fails : parseQuery (fun _ => none) s%"" = .err ∧ parseQuery (fun _ => none) s%" " = .ok [] := by
  decide +kernel

/-! ### SELECT, INSERT, UPDATE and DELETE -/

variable {sp : Spelling}

theorem parse_writes (toUint : Str → Option Nat) (hg : sp.Good) {q : Str} (s : StmtS) (ss : List StmtS) (n : Nat)
    (h : Writes q (queryToks sp s ss n)) : parseQuery toUint q = .ok ((s :: ss).map (stmtV toUint sp)) := by
  obtain ⟨ts, h1, h2⟩ := writes_lex.mp h
  exact parse_text toUint hg h1 s ss n h2

theorem litV_plain {l : Lit} (h : l.Plain) : litV sp l = l.value sp := by
  cases l with
  | str s =>
    obtain ⟨v, rfl, hb⟩ := h
    have := (bareEnds_iff v).mpr hb
    have he : Util.escapeString v = '\'' :: v ++ ['\''] := by simp [Util.escapeString]
    rw [he] at this
    rw [List.cons_append] at this
    simp [litV, Lit.value, this]
  | _ => rfl

theorem condV_plain {c : CondS} (h : c.Plain) : condV sp c = c.value sp := by
  cases c with
  | one c => simp [condV, CondS.value, cmpV, CmpS.value, litV_plain (sp := sp) h]; rfl
  | and a b => simp [condV, CondS.value, cmpV, CmpS.value, litV_plain (sp := sp) h.1, litV_plain (sp := sp) h.2]; exact ⟨rfl, rfl⟩
  | or a b => simp [condV, CondS.value, cmpV, CmpS.value, litV_plain (sp := sp) h.1, litV_plain (sp := sp) h.2]; exact ⟨rfl, rfl⟩

/-- An INSERT of two rows, the second one short. -/
def exInsert : InsertS := ⟨s%"t", s%"a", [s%"b"], ⟨.num s%"1", [.str s%"'x'"]⟩, [⟨.minus s%"2", []⟩]⟩

example : Spelling.std.Good ∧ Writes s%"INSERT INTO t (a,b) VALUES (1, 'x'), (-2);" (queryToks .std (.insert exInsert) [] 1) ∧
    Lit.Plain (.str s%"'x'") :=
  ⟨std_good, writes_of (by decide +kernel), s%"x", rfl, by
    constructor <;> intro c r h
    · cases h; decide
    · have : c = 'x' := by
        have := congrArg List.getLast? h
        simpa using this.symm
      subst this; decide⟩

/-- C69 for rows of literals: in every row the k-th value is reported for the k-th listed column, and a row reports
as many columns as both lists have. `q` is any text with the tokens of the INSERT. Missing: values that are not
literals and INSERT without a column list, see `C69_pairing_fails`. -/
theorem C69_pairing_partial (toUint : Str → Option Nat) (hg : sp.Good) (q : Str) (i : InsertS) (n : Nat)
    (h : Writes q (queryToks sp (.insert i) [] n)) : ∃ v : Insert, parseQuery toUint q = .ok [.insert v] ∧
      v.values.length = (i.row :: i.rows).length ∧
      ∀ (r : Nat) (row : RowS), (i.row :: i.rows)[r]? = some row → ∃ cols, v.values[r]? = some cols ∧
        cols.length = min i.names.length row.all.length ∧
        ∀ (k : Nat) (c : Str) (x : Lit), i.names[k]? = some c → row.all[k]? = some x → x.Plain →
          ∃ col, cols[k]? = some col ∧ col.name = c ∧ col.lit = some (x.value sp) := by
  refine ⟨insertV sp i, parse_writes toUint hg _ [] n h, by simp [insertV], ?_⟩
  intro r row hr
  refine ⟨rowV sp i.names row, by
    show ((i.row :: i.rows).map (rowV sp i.names))[r]? = _
    rw [List.getElem?_map, hr]; rfl, by simp [rowV], ?_⟩
  intro k c x hc hx hp
  refine ⟨{ name := c, lit := some (litV sp x) }, by simp [rowV, List.getElem?_zipWith, hc, hx], rfl, ?_⟩
  rw [litV_plain hp]

set_option maxRecDepth 10000 in
/-- C69 is false of the code: a value that is not a literal is skipped, so that the next one is reported for its
column; without a column list no value is reported at all. -/
theorem C69_pairing_fails :
    parseQuery (fun _ => none) s%"INSERT INTO t (a, b) VALUES (f(1), 2)" =
      .ok [.insert { table := { name := s%"t" }, values := [[{ name := s%"a", lit := some { v := .str s%"2" } }]] }] ∧
    parseQuery (fun _ => none) s%"INSERT INTO t VALUES (1, 2)" = .ok [.insert { table := { name := s%"t" }, values := [[]] }] := by
  decide +kernel

theorem orders_explicit {os : List OrderS} (h : ∀ o, o ∈ os → o.dir.isSome) : os.filterMap orderV = os.map OrderS.value := by
  induction os with
  | nil => rfl
  | cons o os ih =>
    have ho := h o (List.mem_cons_self ..)
    obtain ⟨c, d⟩ := o
    cases d with
    | none => cases ho
    | some d =>
      rw [List.filterMap_cons]
      have : orderV ⟨c, some d⟩ = some (OrderS.value ⟨c, some d⟩) := by cases d <;> rfl
      rw [this, List.map_cons]
      simp only
      rw [ih (fun o hm => h o (List.mem_cons_of_mem _ hm))]

/-- A SELECT with everything. -/
def exSelect : SelectS := ⟨.fn s%"COUNT" .star, [.atom (.col s%"a")], [{ name := s%"t" }, { schema := some s%"s", name := s%"u" }], some (.and ⟨s%"a", .ge, .num s%"1"⟩ ⟨s%"b", .ne2, .word .null s%"NULL"⟩),
  some s%"a", [⟨s%"a", some .desc⟩, ⟨s%"b", some .asc⟩], .offset s%"3" s%"4"⟩

example : Writes s%"SELECT COUNT(*), a FROM t, s.u WHERE a >= 1 AND b <> NULL GROUP BY a ORDER BY a DESC, b ASC LIMIT 3 OFFSET 4"
    (queryToks .std (.select exSelect) [] 0) := writes_of (by decide +kernel)

/-- C70, exactly: for every text with the tokens of a SELECT, the reported ordering terms are the written ones, in
order and ascending by default, if and only if every term has a direction. -/
theorem C70_order_iff (toUint : Str → Option Nat) (hg : sp.Good) (q : Str) (s : SelectS) (n : Nat)
    (h : Writes q (queryToks sp (.select s) [] n)) : ∃ v : Select, parseQuery toUint q = .ok [.select v] ∧
      (v.orderBy = s.orders.map OrderS.value ↔ ∀ o, o ∈ s.orders → o.dir.isSome) := by
  refine ⟨selectV toUint sp s, parse_writes toUint hg _ [] n h, ?_⟩
  show s.orders.filterMap orderV = _ ↔ _
  constructor
  · intro he o ho
    have hl : (s.orders.filterMap orderV).length = s.orders.length := by rw [he, List.length_map]
    have := List.filterMap_length_eq_length.mp hl o ho
    simpa [orderV] using this
  · exact orders_explicit

/-- C70 for ordering terms that all have a direction: they are reported as written. Missing: terms without one, which
are dropped, see `C70_order_fails`. -/
theorem C70_order_partial (toUint : Str → Option Nat) (hg : sp.Good) (q : Str) (s : SelectS) (n : Nat)
    (h : Writes q (queryToks sp (.select s) [] n)) (hd : ∀ o, o ∈ s.orders → o.dir.isSome) :
    ∃ v : Select, parseQuery toUint q = .ok [.select v] ∧ v.orderBy = s.orders.map OrderS.value := by
  obtain ⟨v, h1, h2⟩ := C70_order_iff toUint hg q s n h
  exact ⟨v, h1, h2.mpr hd⟩

set_option maxRecDepth 10000 in
/-- C70 is false of the code: of `ORDER BY b, c DESC` only the second term is reported. -/
theorem C70_order_fails : (match parseQuery (fun _ => none) s%"SELECT a FROM t ORDER BY b, c DESC" with
    | .ok [.select s] => some s.orderBy
    | _ => none) = some [{ column := s%"c", order := .desc }] := by
  decide +kernel

/-- C71 for `LIMIT n` and `LIMIT n OFFSET m` with numbers that the conversion to `uint` accepts: the limit and the
offset are the numbers written. Missing: the form `LIMIT m, n`, see `C71_limit_fails`, and numbers out of range, see
`C71_out_of_range`. -/
theorem C71_limit_partial (toUint : Str → Option Nat) (hg : sp.Good) (q : Str) (s : SelectS) (k : Nat)
    (h : Writes q (queryToks sp (.select s) [] k)) : ∃ v : Select, parseQuery toUint q = .ok [.select v] ∧
      (∀ n x, s.limit = .only n → toUint n = some x → v.limit.limit = x ∧ v.limit.offset = 0) ∧
      (∀ n m x y, s.limit = .offset n m → toUint n = some x → toUint m = some y → v.limit.limit = x ∧ v.limit.offset = y) ∧
      (s.limit = .none → v.limit.limit = 0 ∧ v.limit.offset = 0) := by
  refine ⟨selectV toUint sp s, parse_writes toUint hg _ [] k h, ?_, ?_, ?_⟩
  · intro n x hl hx
    simp [selectV, hl, limitV, hx]
  · intro n m x y hl hx hy
    simp [selectV, hl, limitV, hx, hy]
  · intro hl
    simp [selectV, hl, limitV]

/-- C71 is false of the code for the second written form: `LIMIT m, n` (offset m, at most n rows) is reported with the
two numbers exchanged, so correctly only if they are equal. -/
theorem C71_limit_fails (toUint : Str → Option Nat) (hg : sp.Good) (q : Str) (s : SelectS) (k : Nat)
    (h : Writes q (queryToks sp (.select s) [] k)) (m n : Str) (x y : Nat) (hl : s.limit = .comma m n)
    (hm : toUint m = some x) (hn : toUint n = some y) : ∃ v : Select, parseQuery toUint q = .ok [.select v] ∧
      v.limit.limit = x ∧ v.limit.offset = y ∧ ((v.limit.limit = y ∧ v.limit.offset = x) ↔ x = y) := by
  refine ⟨selectV toUint sp s, parse_writes toUint hg _ [] k h, ?_, ?_, ?_⟩
  · simp [selectV, hl, limitV, hm]
  · simp [selectV, hl, limitV, hn]
  · simp only [selectV, hl, limitV, hm, hn, Option.getD_some]
    omega

/-- A number after LIMIT that the conversion rejects is not an error: the SELECT is returned without a limit. -/
theorem C71_out_of_range (toUint : Str → Option Nat) (hg : sp.Good) (q : Str) (s : SelectS) (k : Nat)
    (h : Writes q (queryToks sp (.select s) [] k)) (n : Str) (hl : s.limit = .only n) (hn : toUint n = none) :
    ∃ v : Select, parseQuery toUint q = .ok [.select v] ∧ v.limit.limit = 0 := by
  exact ⟨selectV toUint sp s, parse_writes toUint hg _ [] k h, by simp [selectV, hl, limitV, hn]⟩

/-- C81 for conditions that are a comparison of a column with a literal, or two of them with AND or OR: the condition
is reported as written. Missing: all other conditions, see `C81_where_fails`. -/
theorem C81_where_partial (toUint : Str → Option Nat) (hg : sp.Good) (q : Str) (s : StmtS) (n : Nat)
    (h : Writes q (queryToks sp s [] n)) (hp : ∀ c, s.cond = some c → c.Plain) :
    ∃ v : Statement, parseQuery toUint q = .ok [v] ∧ reportedCond v = s.cond.map (CondS.value sp) := by
  refine ⟨stmtV toUint sp s, parse_writes toUint hg s [] n h, ?_⟩
  have go : ∀ o : Option CondS, (∀ c, o = some c → c.Plain) → o.map (condV sp) = o.map (CondS.value sp) := by
    intro o ho
    cases o with
    | none => rfl
    | some c => simp [condV_plain (ho c rfl)]
  cases s with
  | select s => exact go s.cond hp
  | update u => exact go u.cond hp
  | delete d => exact go d.cond hp
  | insert i => rfl
  | ddl d => cases d <;> rfl

set_option maxRecDepth 10000 in
/-- C81 is false of the code: these statements are accepted and returned without any condition, so for all rows. -/
theorem C81_where_fails :
    parseQuery (fun _ => none) s%"DELETE FROM t WHERE (a = 1)" = .ok [.delete { table := { name := s%"t" }, cond := none }] ∧
    parseQuery (fun _ => none) s%"DELETE FROM t WHERE NOT a = 1" = .ok [.delete { table := { name := s%"t" }, cond := none }] ∧
    parseQuery (fun _ => none) s%"DELETE FROM t WHERE a IN (1)" = .ok [.delete { table := { name := s%"t" }, cond := none }] ∧
    (match parseQuery (fun _ => none) s%"UPDATE t SET a = 1 WHERE b IS NULL" with
      | .ok [s] => some (reportedCond s)
      | _ => none) = some none := by
  decide +kernel

set_option maxRecDepth 10000 in
/-- C84 is false of the code: EXPLAIN, DISTINCT, OR IGNORE and the second table of a join are accepted and leave no
trace in the objects, and UNION is taken for the name of the table and splits the query in two. -/
theorem C84_clauses_fails :
    parseQuery (fun _ => none) s%"EXPLAIN DELETE FROM t" = parseQuery (fun _ => none) s%"DELETE FROM t" ∧
    parseQuery (fun _ => none) s%"SELECT DISTINCT a FROM t" = parseQuery (fun _ => none) s%"SELECT a FROM t" ∧
    parseQuery (fun _ => none) s%"INSERT OR IGNORE INTO t (a) VALUES (1)" = parseQuery (fun _ => none) s%"INSERT INTO t (a) VALUES (1)" ∧
    parseQuery (fun _ => none) s%"SELECT a FROM t JOIN u" = parseQuery (fun _ => none) s%"SELECT a" ∧
    (match parseQuery (fun _ => none) s%"SELECT a FROM t UNION SELECT b FROM u" with
      | .ok l => some (l.map (fun s => match s with
        | .select s => s.tables.map (·.name)
        | _ => []))
      | _ => none) = some [[s%"tUNION"], [s%"u"]] := by
  decide +kernel

/-- C85: a query of several statements of Spec/Syntax.lean (SELECT, INSERT, UPDATE, DELETE, CREATE, DROP, ALTER, COPY,
USE, TRUNCATE, VACUUM, BEGIN, COMMIT, ROLLBACK) with `;` between them gives the statements that the parts give each by itself, in order. -/
theorem C85_lists (toUint : Str → Option Nat) (hg : sp.Good) (q : Str) (s : StmtS) (ss : List StmtS) (n : Nat)
    (h : Writes q (queryToks sp s ss n)) (qs : StmtS → Str) (hq : ∀ x, x ∈ s :: ss → Writes (qs x) (queryToks sp x [] 0)) :
    ∃ l, parseQuery toUint q = .ok l ∧ l.length = (s :: ss).length ∧
      ∀ (k : Nat) (x : StmtS), (s :: ss)[k]? = some x → ∃ v, l[k]? = some v ∧ parseQuery toUint (qs x) = .ok [v] := by
  refine ⟨_, parse_writes toUint hg s ss n h, by simp, ?_⟩
  intro k x hx
  exact ⟨stmtV toUint sp x, by rw [List.getElem?_map, hx]; rfl, parse_writes toUint hg x [] 0 (hq x (List.mem_of_getElem? hx))⟩

set_option maxRecDepth 10000 in
/-- C86 is false of the code: two statements without anything between them are accepted as two. -/
theorem C86_separators_fails : parseQuery (fun _ => none) s%"DELETE FROM t DELETE FROM u" =
    parseQuery (fun _ => none) s%"DELETE FROM t; DELETE FROM u" ∧
    parseQuery (fun _ => none) s%"DELETE FROM t DELETE FROM u" ≠ .err := by
  decide +kernel

theorem text_same {sp' : Spelling} (hg : sp.Good) (hg' : sp'.Good) (l : Lit) :
    Spec.textOf (l.toks sp) = Spec.textOf (l.toks sp') := by
  cases l with
  | plus s => simp [Spec.textOf, Lit.toks, kw, hg.add, hg'.add]
  | minus s => simp [Spec.textOf, Lit.toks, kw, hg.sub, hg'.sub]
  | _ => rfl

theorem litV_same {sp' : Spelling} (hg : sp.Good) (hg' : sp'.Good) (l : Lit) : litV sp l = litV sp' l := by
  have := text_same hg hg' l
  cases l with
  | str s => rfl
  | _ => simp only [litV, this]

theorem atom_same {sp' : Spelling} (hg : sp.Good) (hg' : sp'.Good) (a : Atom) :
    Spec.textOf (a.toks sp) = Spec.textOf (a.toks sp') := by
  cases a with
  | col a => rfl
  | lit l => exact text_same hg hg' l

theorem stmtV_same (toUint : Str → Option Nat) {sp' : Spelling} (hg : sp.Good) (hg' : sp'.Good) (s : StmtS) :
    stmtV toUint sp s = stmtV toUint sp' s := by
  have h1 := funext (litV_same hg hg')
  have h2 := funext (atom_same hg hg')
  have hc : condV sp = condV sp' := by
    funext c
    cases c <;> simp only [condV, cmpV, h1]
  have hi : itemV sp = itemV sp' := by
    funext i
    cases i with
    | star => simp only [itemV, hg.mul, hg'.mul]
    | atom a => simp only [itemV, atom_same hg hg']
    | fn f args => cases args <;> simp only [itemV, argsV, hg.mul, hg'.mul, h2]
  have ht : tabV sp = tabV sp' := by
    funext t
    obtain ⟨s, a⟩ := t
    cases s <;> simp [tabV, TabS.toks, Spec.textOf, kw, hg.dot, hg'.dot]
  cases s with
  | select s => simp only [stmtV, selectV, hi, hc, ht]
  | insert i =>
    have hr : rowV sp i.names = rowV sp' i.names := by
      funext r
      simp only [rowV, h1]
    simp only [stmtV, insertV, hr]
  | update u =>
    have hs : setV sp = setV sp' := by
      funext a
      obtain ⟨c, r⟩ := a
      cases r with
      | lit l => simp only [setV, h1]
      | arith c o a => simp only [setV, atom_same hg hg']
    simp only [stmtV, updateV, hs, hc]
  | delete d => simp only [stmtV, deleteV, hc]
  | ddl d => rfl

/-- C87 for queries of the statements of Spec/Syntax.lean: two texts that write the same statements with
keywords in different letter case give equal objects; the words NULL, TRUE, FALSE, CURRENT_…, and INDEX and DROP inside of
tables, have to be written alike. Missing: those words, whose letter case changes the objects, see `C87_keyword_case_fails`
and `C87_index_case_fails`. -/
theorem C87_keyword_case_partial (toUint : Str → Option Nat) {sp' : Spelling} (hg : sp.Good) (hg' : sp'.Good) (q q' : Str)
    (s : StmtS) (ss : List StmtS) (n n' : Nat)
    (h : Writes q (queryToks sp s ss n)) (h' : Writes q' (queryToks sp' s ss n')) :
    parseQuery toUint q = parseQuery toUint q' := by
  rw [parse_writes toUint hg s ss n h, parse_writes toUint hg' s ss n' h', funext (stmtV_same toUint hg hg')]

set_option maxRecDepth 10000 in
/-- C87 is false of the code: `NULL` and `null` give different values. -/
theorem C87_keyword_case_fails : parseQuery (fun _ => none) s%"DELETE FROM t WHERE a = NULL" ≠
    parseQuery (fun _ => none) s%"DELETE FROM t WHERE a = null" := by
  decide +kernel

set_option maxRecDepth 10000 in
/-- C87 is false of the code for INDEX in a table definition, which is lost in small letters, and for DROP in ALTER
TABLE, which becomes part of the column's name. -/
theorem C87_index_case_fails :
    (match parseQuery (fun _ => none) s%"CREATE TABLE t (a INT, INDEX i (a))" with
      | .ok [.createTable s _] => some (s.indexes.map (·.name))
      | _ => none) = some [s%"i"] ∧
    (match parseQuery (fun _ => none) s%"CREATE TABLE t (a INT, index i (a))" with
      | .ok [.createTable s _] => some (s.indexes.map (·.name))
      | _ => none) = some [] ∧
    (match parseQuery (fun _ => none) s%"ALTER TABLE t DROP a" with
      | .ok [.alterTable s] => s.dropColumn.map (·.name)
      | _ => none) = some s%"DROPa" ∧
    (match parseQuery (fun _ => none) s%"ALTER TABLE t drop a" with
      | .ok [.alterTable s] => s.dropColumn.map (·.name)
      | _ => none) = some s%"dropa" := by
  decide +kernel

end Verif.Props
