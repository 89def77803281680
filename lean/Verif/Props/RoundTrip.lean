import Verif.Lemmas.WritingDdl
import Verif.Props.Parser
import Verif.Props.System
/-! Printing a statement and parsing the text: C08-C10, C65, C88, C89. -/
namespace Verif.Props
open Verif Verif.Lex Verif.Gram Verif.Parse Verif.Spec Verif.Query

/-- The conversion of decimal texts to numbers of 64 bits is right. -/
def ReadsNumbers (toUint : Str → Option Nat) : Prop := ∀ n, n < 2 ^ 64 → toUint (Str.ofNat n) = some n

theorem parse_writing (toUint : Str → Option Nat) {q : Str} (s : StmtS) (h : Writing q (s.toks .std)) :
    parseQuery toUint q = .ok [stmtV toUint .std s] := by
  refine parse_writes toUint std_good s [] 0 ?_
  have := h.writes
  simpa [queryToks] using this

/-- C08 for SELECT statements with at least one selector and table, names with or without quotes, conditions of at most two comparisons,
explicit directions, an offset only with a limit, and no GROUP BY together with ORDER BY or LIMIT: parsing the printed
text gives exactly the statement, with the values of literals as texts. Missing: the other ones, see `C08_fails`. -/
theorem C08_roundtrip_partial (toUint : Str → Option Nat) (hu : ReadsNumbers toUint) (s : Select) (h : PrintableSelect s) :
    parseQuery toUint s.toStr = .ok [.select (selectAsText s)] := by
  obtain ⟨S, hw, hv⟩ := Writing.select hu h
  rw [parse_writing toUint (.select S) hw, stmtV, hv]

/-- C09 for INSERT statements into a table with or without quotes, but no backquotes, with at least one row and column, the same column names in
every row, and printable values: parsing the printed text gives exactly the statement, with the values as texts.
Missing: the other ones, see `C09_fails`. -/
theorem C09_roundtrip_partial (toUint : Str → Option Nat) (i : Insert) (h : PrintableInsert i) :
    parseQuery toUint i.toStr = .ok [.insert (insertAsText i)] := by
  obtain ⟨S, hw, hv⟩ := Writing.insert h
  rw [parse_writing toUint (.insert S) hw, stmtV, hv]

/-- C10 for UPDATE statements of a table without a schema with assignments of printable literals or of an arithmetic
operation on a column, and a condition of at most two comparisons: parsing the printed text gives exactly the statement.
Missing: the other ones, see `C10_fails`. -/
theorem C10_update_partial (toUint : Str → Option Nat) (u : Update) (h : PrintableUpdate u) :
    parseQuery toUint u.toStr = .ok [.update (updateAsText u)] := by
  obtain ⟨S, hw, hv⟩ := Writing.update h
  rw [parse_writing toUint (.update S) hw, stmtV, hv]

/-- C10 for DELETE statements from a table without a schema with a condition of at most two comparisons: parsing the printed
text gives exactly the statement. Missing: the other ones, see `C10_fails`. -/
theorem C10_delete_partial (toUint : Str → Option Nat) (d : Delete) (h : PrintableDelete d) :
    parseQuery toUint d.toStr = .ok [.delete (deleteAsText d)] := by
  obtain ⟨S, hw, hv⟩ := Writing.delete h
  rw [parse_writing toUint (.delete S) hw, stmtV, hv]

/-! ### Statements that meet the hypotheses -/

theorem name_of {n : Str} (h : isWord n = true ∧ wordKind n = .IDENTIFIER) : Name n := by
  obtain ⟨hw, hk⟩ := h
  refine ⟨?_, ?_, ?_⟩
  · cases n with
    | nil => cases hw
    | cons c r =>
      simp only [isWord, Bool.and_eq_true] at hw
      exact ⟨c, r, rfl, (inSet_iff _ _).mp hw.1⟩
  · intro c hc
    have := isWord_all n hw
    rw [List.all_eq_true] at this
    exact (inSet_iff _ _).mp (this c hc)
  · intro k hk' he
    unfold wordKind at hk
    split at hk
    · rename_i k2 hk2
      have hm := List.mem_of_find?_eq_some hk2
      have : ∀ k ∈ keywords, k.1 ≠ .IDENTIFIER := by decide +kernel
      exact this k2 hm hk
    · rename_i hn
      have := List.find?_eq_none.mp hn k hk'
      exact this (by simp [he])

theorem any_of {n : Str} (h : isWord n = true ∧ wordKind n = .IDENTIFIER) : AnyName n := .inl (name_of h)

theorem kept {n : Str} (h : Name n) : KeptName n := by
  refine ⟨.inl h, ?_⟩
  obtain ⟨c, r, rfl, hc⟩ := h.start
  rintro ⟨⟩
  have := (inSet_iff _ _).mpr hc
  revert this
  decide

theorem kept_of {n : Str} (h : isWord n = true ∧ wordKind n = .IDENTIFIER) : KeptName n := kept (name_of h)

theorem litText_int (i : Int) : LitText (Str.ofInt i) := by
  cases i with
  | ofNat n => exact .number (Writing.ofNat_number n)
  | negSucc n => exact .minus (Writing.ofNat_number (n + 1))

theorem printable_text {v : Val} (h : LitText v.print) : PrintableLit { v := v } := h

theorem printable_i64 (i : Int) : PrintableLit { v := .i64 i } := printable_text (v := .i64 i) (litText_int i)
theorem printable_i32 (i : Int) : PrintableLit { v := .i32 i } := printable_text (v := .i32 i) (litText_int i)

theorem quotesPaired_plain {v : Str} (h : '\'' ∉ v) : QuotesPaired v := (doubled_iff v).mp (doubled_of_no_quote v h)

/-- Strings without quote characters are printable. -/
theorem printable_str {v : Str} (h : '\'' ∉ v) (h' : '"' ∉ v) : PrintableLit { v := .str v, t := .string } := by
  refine ⟨quotesPaired_plain h, ?_, ?_⟩
  · rintro c r he
    rw [show v = c :: r from he] at h h'
    exact ⟨fun e => h (by simp [e]), fun e => h' (by simp [e])⟩
  · rintro c r he
    rw [show v = r ++ [c] from he] at h h'
    exact ⟨fun e => h (by simp [e]), fun e => h' (by simp [e])⟩

example : PrintableSelect
    { selectors := [.fn (Function.named s%"COUNT" [s%"*"]), .fn (Function.named s%"MAX" [s%"a"]), .col { name := s%"b" }],
      tables := [{ name := s%"t" }, { schema := s%"s", name := s%"s.u" }],
      cond := some (.and (.cmp ⟨.le, { name := s%"a" }, some { v := .i64 (-3) }⟩)
        (.cmp ⟨.neq, { name := s%"b" }, some { v := .str s%"x y", t := .string }⟩)),
      orderBy := [⟨s%"a", .desc⟩], limit := { limit := 10, offset := 5 } } where
  selected := by simp
  selectors := by
    intro x hx
    simp only [List.mem_cons, List.not_mem_nil, or_false] at hx
    rcases hx with rfl | rfl | rfl
    · exact .count (name_of (by decide +kernel)) (by decide)
    · refine .fn (name_of (by decide +kernel)) (by decide) ?_
      intro a ha
      rw [List.mem_singleton] at ha
      subst ha
      exact Or.inl (any_of (by decide +kernel))
    · exact .column (Or.inl (any_of (by decide +kernel)))
  some_table := by simp
  tables := by
    intro x hx
    simp only [List.mem_cons, List.not_mem_nil, or_false] at hx
    rcases hx with rfl | rfl
    · exact .bare (any_of (by decide +kernel))
    · exact .full (s := s%"s") (n := s%"u") (any_of (by decide +kernel)) (any_of (by decide +kernel))
  cond := by
    intro e he
    injection he with he
    subst he
    exact .and ⟨rfl, any_of (by decide +kernel), by simp, _, rfl, printable_i64 _⟩
      ⟨rfl, any_of (by decide +kernel), by simp, _, rfl, printable_str (by decide) (by decide)⟩
  orders := by
    intro o ho
    rw [List.mem_singleton] at ho
    subst ho
    exact ⟨any_of (by decide +kernel), by decide⟩
  limit := by decide
  offset := by intro h; cases h
  group := Or.inl rfl

example : PrintableInsert { table := { name := s%"t" }, values := [[{ name := s%"a", lit := some { v := .i64 7 } }], [{ name := s%"a", lit := some { v := .str s%"x", t := .string } }]] } where
  table := ⟨_, kept_of (by decide +kernel), rfl⟩
  row := ⟨_, _, rfl, by simp, by decide⟩
  values := by
    intro r hr c hc
    simp only [List.mem_cons, List.not_mem_nil, or_false] at hr
    rcases hr with rfl | rfl <;> (rw [List.mem_singleton] at hc; subst hc)
    · exact ⟨rfl, any_of (by decide +kernel), _, rfl, printable_i64 _⟩
    · exact ⟨rfl, any_of (by decide +kernel), _, rfl, printable_str (by decide) (by decide)⟩

example : PrintableUpdate { table := { name := s%"t" }, columns := [
      { name := s%"a", fn := some (arithFunction .opAdd [s%"a", s%"1"]), args := [s%"a", s%"1"] },
      { name := s%"b", lit := some { v := .bool true } }], cond := some (.cmp ⟨.eq, { name := s%"id" }, some { v := .i32 1 }⟩) } where
  table := ⟨_, any_of (by decide +kernel), rfl⟩
  assigned := by simp
  columns := by
    intro c hc
    simp only [List.mem_cons, List.not_mem_nil, or_false] at hc
    rcases hc with rfl | rfl
    · exact .arith (any_of (by decide +kernel)) (any_of (by decide +kernel)) (Or.inr (.number (matches_digits _ _ _ (by decide)))) (by simp)
    · exact .lit ⟨rfl, any_of (by decide +kernel), _, rfl, printable_text (.word .true (by decide))⟩
  cond := by
    intro e he
    injection he with he
    subst he
    exact .one ⟨rfl, any_of (by decide +kernel), by simp, _, rfl, printable_i32 1⟩

example : PrintableDelete { table := { name := s%"[my t]" }, cond := some (.cmp ⟨.lt, { name := s%"`a``b`" }, some { v := .i32 1 }⟩) } where
  table := ⟨_, .inr (.bracket (v := s%"my t") (by decide)), rfl⟩
  cond := by
    intro e he
    injection he with he
    subst he
    exact .one ⟨rfl, .inr (.back (v := s%"a``b") (.char _ _ (by decide) (.pair _ (.char _ _ (by decide) .nil)))), by simp, _, rfl, printable_i32 1⟩

example : PrintableDelete { table := { name := s%"t" }, cond := some (.cmp ⟨.lt, { name := s%"id" }, some { v := .i32 1 }⟩) } where
  table := ⟨_, any_of (by decide +kernel), rfl⟩
  cond := by
    intro e he
    injection he with he
    subst he
    exact .one ⟨rfl, any_of (by decide +kernel), by simp, _, rfl, printable_i32 1⟩

/-! ### Statements whose text is not read back -/

/-- A SELECT of the column `a` from the table `t`. -/
def selectA (ob : List Order := []) (gb : Str := []) (l : Limit := ⟨0, 0⟩) (t : Table := { name := s%"t" }) : Select :=
  { selectors := [.col { name := s%"a" }], tables := [t], cond := none, orderBy := ob, groupBy := gb, limit := l }

set_option maxRecDepth 10000 in
/-- C08 is false of the code: with both GROUP BY and ORDER BY the parser rejects the printed text, and with an offset
alone as well; a table with a schema comes back with the schema in its name; no selectors come back as `*`; and a
function made with a name in small letters has another type. -/
theorem C08_fails :
    parseQuery (fun _ => some 5) (selectA (ob := [⟨s%"a", .asc⟩]) (gb := s%"b")).toStr = .err ∧
    parseQuery (fun _ => some 5) (selectA (l := ⟨5, 0⟩)).toStr = .err ∧
    parseQuery (fun _ => none) (selectA (t := { schema := s%"s", name := s%"t" })).toStr =
      .ok [.select (selectA (t := { schema := s%"s", name := s%"s.t" }))] ∧
    parseQuery (fun _ => none) ({ selectors := [], tables := [{ name := s%"t" }], cond := none } : Select).toStr =
      .ok [.select { selectors := [.col { name := s%"*" }], tables := [{ name := s%"t" }], cond := none }] ∧
    parseQuery (fun _ => none) ({ selectors := [.fn (Function.named s%"max" [s%"a"])], tables := [{ name := s%"t" }], cond := none } : Select).toStr ≠
      .ok [.select { selectors := [.fn (Function.named s%"max" [s%"a"])], tables := [{ name := s%"t" }], cond := none }] := by
  decide +kernel

set_option maxRecDepth 10000 in
/-- C09 is false of the code: the schema of the table is lost, a row with other column names comes back with those of
the first row, and a nil value is printed as a text the parser rejects. -/
theorem C09_fails :
    parseQuery (fun _ => none) ({ table := { schema := s%"s", name := s%"t" }, values := [[{ name := s%"a", lit := some { v := .i64 1 } }]] } : Insert).toStr =
      .ok [.insert { table := { name := s%"t" }, values := [[{ name := s%"a", lit := some { v := .str s%"1" } }]] }] ∧
    parseQuery (fun _ => none) ({ table := { name := s%"t" }, values := [[{ name := s%"a", lit := some { v := .i64 1 } }],
        [{ name := s%"b", lit := some { v := .i64 2 } }]] } : Insert).toStr =
      .ok [.insert { table := { name := s%"t" }, values := [[{ name := s%"a", lit := some { v := .str s%"1" } }],
        [{ name := s%"a", lit := some { v := .str s%"2" } }]] }] ∧
    parseQuery (fun _ => none) ({ table := { name := s%"t" }, values := [[{ name := s%"a", lit := some { v := .nil } }]] } : Insert).toStr = .err := by
  decide +kernel

/-- The comparison `n = 1`. -/
def cmpOne (n : Str) : Expr := .cmp ⟨.eq, { name := n }, some { v := .i64 1 }⟩

set_option maxRecDepth 10000 in
/-- C10 is false of the code: a condition of three comparisons is rejected, and an assignment of a function other than
the arithmetic operators is printed as a text the parser rejects. -/
theorem C10_fails :
    parseQuery (fun _ => none) ({ table := { name := s%"t" }, cond := some (.and (cmpOne s%"a") (.and (cmpOne s%"b") (cmpOne s%"c"))) } : Delete).toStr = .err ∧
    parseQuery (fun _ => none) ({ table := { name := s%"t" }, columns := [{ name := s%"a", fn := some (Function.named s%"ABS" [s%"b"]), args := [s%"b"] }], cond := none } : Update).toStr = .err := by
  decide +kernel

/-! ### Several statements -/

/-- A printable statement, its text, and what is expected back. -/
inductive Reread : Str → Statement → Prop
  | select {s : Select} : PrintableSelect s → Reread s.toStr (.select (selectAsText s))
  | insert {i : Insert} : PrintableInsert i → Reread i.toStr (.insert (insertAsText i))
  | update {u : Update} : PrintableUpdate u → Reread u.toStr (.update (updateAsText u))
  | delete {d : Delete} : PrintableDelete d → Reread d.toStr (.delete (deleteAsText d))
  | ddl {s : Statement} {q : Str} : PrintableDdl s → s.toStr = .ok q → Reread q s
  | alter {a : AlterTable} {q : Str} : PrintableAlter a → a.toStr = .ok q → Reread q (.alterTable a)
  | createTable {s : Schema} (b : Bool) : PrintableSchema s → Reread (createTableString s b) (.createTable s b)

theorem reread_writing {toUint : Str → Option Nat} (hu : ReadsNumbers toUint) {q : Str} {s : Statement} (h : Reread q s) :
    ∃ S : StmtS, Writing q (S.toks .std) ∧ stmtV toUint .std S = s := by
  cases h with
  | select h => obtain ⟨S, hw, hv⟩ := Writing.select hu h; exact ⟨.select S, hw, by rw [stmtV, hv]⟩
  | insert h => obtain ⟨S, hw, hv⟩ := Writing.insert h; exact ⟨.insert S, hw, by rw [stmtV, hv]⟩
  | update h => obtain ⟨S, hw, hv⟩ := Writing.update h; exact ⟨.update S, hw, by rw [stmtV, hv]⟩
  | delete h => obtain ⟨S, hw, hv⟩ := Writing.delete h; exact ⟨.delete S, hw, by rw [stmtV, hv]⟩
  | ddl h hq =>
    obtain ⟨q', hq', D, hw, hv⟩ := Writing.ddl h
    rw [hq] at hq'
    cases hq'
    exact ⟨.ddl D, hw, by rw [stmtV, hv]⟩
  | alter h hq =>
    obtain ⟨q', hq', D, hw, hv⟩ := Writing.alter h
    rw [hq] at hq'
    cases hq'
    exact ⟨.ddl D, hw, by rw [stmtV, hv]⟩
  | createTable b h =>
    obtain ⟨D, hw, hv⟩ := Writing.createTable b h
    exact ⟨.ddl D, hw, by rw [stmtV, hv]⟩

theorem Writing.semicolon {a b : Str} {ta tb : List Token} (ha : Writing a ta) (hb : Writing b tb) :
    Writing (a ++ ';' :: b) (ta ++ kw .std .SCOL :: tb) := by
  intro rest ts hs hr
  rw [List.append_assoc, List.append_assoc]
  exact ha _ _ rfl (Lx.cons (longest_semicolon _) rfl (hb rest ts hs hr))

theorem script_writing {toUint : Str → Option Nat} (hu : ReadsNumbers toUint) (p : Str × Statement) (ps : List (Str × Statement))
    (h : ∀ x ∈ p :: ps, Reread x.1 x.2) : ∃ (S : StmtS) (SS : List StmtS),
      Writing (Str.join s%";" ((p :: ps).map (·.1))) (S.toks .std ++ SS.flatMap (fun s => kw .std .SCOL :: s.toks .std)) ∧
      (S :: SS).map (stmtV toUint .std) = (p :: ps).map (·.2) := by
  induction ps generalizing p with
  | nil =>
    obtain ⟨S, hw, hv⟩ := reread_writing hu (h p (by simp))
    exact ⟨S, [], by simpa [Str.join] using hw, by simp [hv]⟩
  | cons x ps ih =>
    obtain ⟨S, hw, hv⟩ := reread_writing hu (h p (by simp))
    obtain ⟨S', SS, hw', hv'⟩ := ih x (fun y hy => h y (List.mem_cons_of_mem _ hy))
    refine ⟨S, S' :: SS, ?_, by rw [List.map_cons, hv, hv']; rfl⟩
    have := Writing.semicolon hw hw'
    simpa [Str.join] using this

/-- C88 for the statements of C08, C09, C10 and C105 to C107: the texts of any number of them, with semicolons between, are parsed to
those statements in the same order. Missing: the statements for which these fail. -/
theorem C88_script_partial (toUint : Str → Option Nat) (hu : ReadsNumbers toUint) (p : Str × Statement) (ps : List (Str × Statement))
    (h : ∀ x ∈ p :: ps, Reread x.1 x.2) :
    parseQuery toUint (Str.join s%";" ((p :: ps).map (·.1))) = .ok ((p :: ps).map (·.2)) := by
  obtain ⟨S, SS, hw, hv⟩ := script_writing hu p ps h
  have := hw.writes
  rw [parse_writes toUint std_good S SS 0 (by simpa [queryToks] using this), hv]

example : ∀ x ∈ [(({ table := { name := s%"t" }, cond := none } : Delete).toStr, Statement.delete { table := { name := s%"t" }, cond := none }),
    (s%"BEGIN", Statement.begin),
    (({ table := { name := s%"u" }, cond := none } : Delete).toStr, Statement.delete { table := { name := s%"u" }, cond := none })], Reread x.1 x.2 := by
  intro x hx
  simp only [List.mem_cons, List.not_mem_nil, or_false] at hx
  rcases hx with rfl | rfl | rfl
  · exact .delete ⟨⟨_, any_of (by decide +kernel), rfl⟩, fun e he => by cases he⟩
  · exact .ddl .begin rfl
  · exact .delete ⟨⟨_, any_of (by decide +kernel), rfl⟩, fun e he => by cases he⟩

set_option maxRecDepth 10000 in
/-- C88 is false of the code: a statement without text in its condition (a comparison with a nil literal) makes the
whole script unreadable. -/
theorem C88_fails : parseQuery (fun _ => none) (Str.join s%";" [
    ({ table := { name := s%"t" }, cond := some (.cmp ⟨.eq, { name := s%"a" }, none⟩) } : Delete).toStr,
    ({ table := { name := s%"u" }, cond := none } : Delete).toStr]) = .err := by
  decide +kernel

/-! ### Queries of the information schema -/

open Verif.Sys

/-- A comparison of a column with a string. -/
def eqStr (n v : Str) : Expr := .cmp ⟨.eq, { name := n }, some { v := .str v, t := .string }⟩

/-- The SELECT of all columns of the information schema that meet a condition. -/
def infoSelect (c : Condition) : Select :=
  { selectors := [.col { name := s%"*" }], tables := [{ schema := infoSchema, name := schemaColumnsTable }], cond := c }

/-- A name that can stand between quotes as it is. -/
def Quotable (v : Str) : Prop := QuotesPaired v ∧ BareEnds v

theorem printable_eqStr {n v : Str} (hn : Name n) (hv : Quotable v) : PrintableCmp ⟨.eq, { name := n }, some { v := .str v, t := .string }⟩ :=
  ⟨rfl, (.inl hn), by simp, _, rfl, hv⟩

theorem printable_info {c : Condition} (h : PrintableCond c) : PrintableSelect (infoSelect c) where
  selected := by simp [infoSelect]
  selectors := by
    intro x hx
    simp only [infoSelect, List.mem_singleton] at hx
    subst hx
    exact .star
  some_table := by simp [infoSelect]
  tables := by
    intro x hx
    simp only [infoSelect, List.mem_singleton] at hx
    subst hx
    exact .full (s := infoSchema) (n := infoColumns) (any_of (by decide +kernel)) (any_of (by decide +kernel))
  cond := h
  orders := by intro o ho; cases ho
  limit := by simp [infoSelect]
  offset := by simp [infoSelect]
  group := Or.inl rfl

/-- The condition for a database and at most one table. -/
def infoCond (db : Str) : List Str → Expr
  | [] => eqStr kSchema db
  | t :: _ => .and (eqStr kSchema db) (eqStr kTable t)

theorem infoCond_asText (db : Str) (tbls : List Str) : exprAsText (infoCond db tbls) = infoCond db tbls := by
  cases tbls <;> rfl

theorem printable_infoCond {db : Str} {tbls : List Str} (hq : Quotable db) (ht : ∀ t ∈ tbls, Quotable t) :
    PrintableCond (some (infoCond db tbls)) := by
  intro e he
  injection he with he
  subst he
  cases tbls with
  | nil => exact .one (printable_eqStr (name_of (by decide +kernel)) hq)
  | cons t ts => exact .and (printable_eqStr (name_of (by decide +kernel)) hq) (printable_eqStr (name_of (by decide +kernel)) (ht t (by simp)))

theorem traverse_info (parse : Str → Res (List Statement)) (db : Str) (tbls : List Str) (hl : tbls.length ≤ 1) :
    newStatement parse (some (infoSelect (some (infoCond db tbls)))) [] [] =
      .ok { stmt := some (infoSelect (some (infoCond db tbls))), dbName := db, tblNames := tbls } := by
  have h1 : Str.eqFold kSchema kSchema = true := by decide
  have h2 : Str.eqFold kTable kSchema = false := by decide
  have h3 : Str.eqFold kTable kTable = true := by decide
  match tbls, hl with
  | [], _ => simp [newStatement, traverse, infoSelect, infoCond, eqStr, traverseExpr, h1]
  | [t], _ => simp [newStatement, traverse, infoSelect, infoCond, eqStr, traverseExpr, h1, h2, h3]

theorem info_text (c : Expr) : (infoSelect (some c)).toStr = schemaColumnsQuery ++ s%" WHERE " ++ c.toStr := by
  have : (infoSelect (some c)).toStr = Util.joinWithSpace [s%"SELECT", s%"*", s%"FROM", schemaColumnsTable, s%"WHERE", c.toStr] := rfl
  rw [this]
  simp [Util.joinWithSpace, Str.join, schemaColumnsQuery]

/-- C65 for a database name that is not empty and at most one table name, both without quote characters (or with doubled
ones inside): the statement is made, its query is a query of the information schema, and traversing that query reports
the same database and table. Missing: an empty database name, several tables, other names; see `C65_fails`. -/
theorem C65_generated_partial (toUint : Str → Option Nat) (hu : ReadsNumbers toUint) (db : Str) (tbls : List Str) (hdb : db ≠ [])
    (hq : Quotable db) (ht : ∀ t ∈ tbls, Quotable t) (hl : tbls.length ≤ 1) :
    ∃ s, newStatement (parseQuery toUint) none db tbls = .ok { stmt := some s, dbName := db, tblNames := tbls } ∧
      isSchemaColumnsQuery s = true ∧
      newStatement (parseQuery toUint) (some s) [] [] = .ok { stmt := some s, dbName := db, tblNames := tbls } := by
  have hl' : 0 < db.length := List.length_pos_iff.mpr hdb
  have hg : generatedQuery db tbls = (infoSelect (some (infoCond db tbls))).toStr := by
    rw [info_text]
    match tbls, hl with
    | [], _ =>
      have : (infoCond db []).toStr = kSchema ++ s%" = '" ++ db ++ s%"'" := by
        simp [infoCond, eqStr, Expr.toStr, Cmp.toStr, Column.toStr, CmpOp.toStr, Literal.valueString, Val.print, Util.escapeString]
      rw [this, generatedQuery, if_pos hl', List.append_nil]
    | [t], _ =>
      have : (infoCond db [t]).toStr = (kSchema ++ s%" = '" ++ db ++ s%"'") ++ (s%" AND " ++ kTable ++ s%" = '" ++ t ++ s%"'") := by
        simp [infoCond, eqStr, Expr.toStr, Cmp.toStr, Column.toStr, CmpOp.toStr, Literal.valueString, Val.print, Util.escapeString]
      rw [this, generatedQuery, if_pos hl']
      simp only [List.append_assoc]
  have hr := C08_roundtrip_partial toUint hu _ (printable_info (printable_infoCond hq ht))
  have hs : selectAsText (infoSelect (some (infoCond db tbls))) = infoSelect (some (infoCond db tbls)) := by
    simp only [selectAsText, infoSelect, Option.map_some, infoCond_asText]
  rw [hs] at hr
  refine ⟨infoSelect (some (infoCond db tbls)), ?_, ?_, ?_⟩
  · rw [newStatement, hg, hr]
    rfl
  · show Str.eqFold (Table.fullTableName { schema := infoSchema, name := schemaColumnsTable }) schemaColumnsTable = true
    decide +kernel
  · exact traverse_info _ db tbls hl

example : Quotable s%"shop" ∧ ∀ t ∈ [s%"orders of 2024"], Quotable t := by
  refine ⟨printable_str (by decide) (by decide), ?_⟩
  intro t ht
  rw [List.mem_singleton] at ht
  subst ht
  exact printable_str (by decide) (by decide)

set_option maxRecDepth 20000 in
/-- C65 is false of the code: two tables give a query the parser rejects, so does a table without a database, and so
does a database name with a quote. -/
theorem C65_fails :
    newStatement (parseQuery (fun _ => none)) none s%"d" [s%"t", s%"u"] = .err ∧
    newStatement (parseQuery (fun _ => none)) none [] [s%"t"] = .err ∧
    newStatement (parseQuery (fun _ => none)) none s%"d'" [] = .err := by
  decide +kernel

set_option maxRecDepth 20000 in
/-- C65 is false of the code: without a database and tables the query is accepted, but the word WHERE has become part
of the table name, so that the query is none of the information schema any more, and it cannot be traversed. -/
theorem C65_empty_fails : ∃ s, newStatement (parseQuery (fun _ => none)) none [] [] = .ok { stmt := some s } ∧
    s.tables = [{ schema := infoSchema, name := s%"information_schema.COLUMNSWHERE" }] ∧
    isSchemaColumnsQuery s = false ∧ newStatement (parseQuery (fun _ => none)) (some s) [] [] = .err := by
  refine ⟨{ selectors := [.col { name := s%"*" }], tables := [{ schema := infoSchema, name := s%"information_schema.COLUMNSWHERE" }], cond := none }, ?_, rfl, ?_, rfl⟩
  · decide +kernel
  · decide +kernel

/-- The condition for at most two table names. -/
def namesCond : List Str → Condition
  | [] => none
  | [t] => some (eqStr kTable t)
  | t :: u :: _ => some (.or (eqStr kTable t) (eqStr kTable u))

theorem namesCond_asText (tbls : List Str) : (namesCond tbls).map exprAsText = namesCond tbls := by
  match tbls with
  | [] => rfl
  | [t] => rfl
  | t :: u :: _ => rfl

theorem printable_namesCond {tbls : List Str} (ht : ∀ t ∈ tbls, Quotable t) : PrintableCond (namesCond tbls) := by
  have hT : Name kTable := name_of (by decide +kernel)
  intro e he
  match tbls with
  | [] => cases he
  | [t] =>
    injection he with he
    subst he
    exact .one (printable_eqStr hT (ht t (by simp)))
  | t :: u :: _ =>
    injection he with he
    subst he
    exact .or (printable_eqStr hT (ht t (by simp))) (printable_eqStr hT (ht u (by simp)))

/-- C89 for at most two table names without quote characters (or with doubled ones inside): the query returned is the
query of the information schema for exactly these table names. Missing: three or more names and other names; see
`C89_fails`. -/
theorem C89_table_names_partial (toUint : Str → Option Nat) (hu : ReadsNumbers toUint) (tbls : List Str)
    (ht : ∀ t ∈ tbls, Quotable t) (hl : tbls.length ≤ 2) :
    queryFromTableNames (parseQuery toUint) tbls = .ok (infoSelect (namesCond tbls)) := by
  have hg : tableNamesQuery tbls = (infoSelect (namesCond tbls)).toStr := by
    match tbls, hl with
    | [], _ => decide +kernel
    | [t], _ =>
      rw [namesCond, info_text]
      simp [tableNamesQuery, eqStr, Expr.toStr, Cmp.toStr, Column.toStr, CmpOp.toStr, Literal.valueString, Val.print, Util.escapeString, kTable]
    | [t, u], _ =>
      rw [namesCond, info_text]
      simp [tableNamesQuery, eqStr, Expr.toStr, Cmp.toStr, Column.toStr, CmpOp.toStr, Literal.valueString, Val.print, Util.escapeString, Str.join, kTable]
  have hr := C08_roundtrip_partial toUint hu _ (printable_info (printable_namesCond ht))
  have hs : selectAsText (infoSelect (namesCond tbls)) = infoSelect (namesCond tbls) := by
    simp only [selectAsText, infoSelect, namesCond_asText]
  rw [queryFromTableNames, hg, hr, hs]
  rfl

set_option maxRecDepth 20000 in
/-- C89 is false of the code: the query for three table names is rejected by the parser. -/
theorem C89_fails : queryFromTableNames (parseQuery (fun _ => none)) [s%"t", s%"u", s%"v"] = .err := by
  decide +kernel

end Verif.Props
