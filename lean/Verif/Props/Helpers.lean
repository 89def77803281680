import Verif.Spec.Helpers
import Verif.Lemmas.Parsed
import Verif.Props.QueryMore
import Verif.Props.Schema
/-! C108–C115: statement types, index statements as ALTER TABLE, aggregators of a SELECT, scanning rows, column
accessors, data types of values, executors by type, group column texts. -/
namespace Verif.Props
open Verif Verif.Query Verif.Spec Verif.Util Verif.Lemmas Verif.Lex Verif.Gram Verif.Parse

/-! ### C108 -/

theorem join_begins (pre rest : List Str) (h : pre ≠ []) : BeginsWith (Str.join s%" " pre) (Str.join s%" " (pre ++ rest)) := by
  cases rest with
  | nil => left; rw [List.append_nil]
  | cons x r =>
    right
    exact ⟨Str.join s%" " (x :: r), by rw [Str.join_append _ _ _ h (by simp)]; rw [List.append_assoc]; rfl⟩

/-- C108: the text of every statement is the name of its type, or begins with that name and a space. For all
statements that have a text. -/
theorem C108_text (s : Statement) (text : Str) (h : s.toStr = .ok text) : BeginsWith s.type.toStr text := by
  have go : ∀ (pre rest : List Str), pre ≠ [] → Str.join s%" " pre = s.type.toStr → joinWithSpace (pre ++ rest) = text →
      BeginsWith s.type.toStr text := by
    intro pre rest h1 h2 h3
    rw [← h2, ← h3]; exact join_begins pre rest h1
  cases s with
  | createDatabase n ine => cases h; exact go [s%"CREATE DATABASE"] _ (by simp) rfl rfl
  | createTable s ine => cases h; exact go [s%"CREATE TABLE"] _ (by simp) rfl rfl
  | createIndex s ine => cases h; exact go [s%"CREATE", s%"INDEX"] _ (by simp) rfl (by rw [createIndexString, List.append_assoc])
  | insert i => cases h; exact go [s%"INSERT"] _ (by simp) rfl rfl
  | select s => cases h; exact go [s%"SELECT"] _ (by simp) rfl rfl
  | update u => cases h; exact go [s%"UPDATE"] _ (by simp) rfl rfl
  | delete d => cases h; exact go [s%"DELETE"] _ (by simp) rfl rfl
  | dropDatabase n ie => cases h; exact go [s%"DROP", s%"DATABASE"] _ (by simp) rfl rfl
  | dropTable ts ie => cases h; exact go [s%"DROP", s%"TABLE"] _ (by simp) rfl rfl
  | dropIndex sn idx ie => cases h; exact go [s%"DROP", s%"INDEX"] _ (by simp) rfl rfl
  | alterDatabase n t => cases h; exact go [s%"ALTER", s%"DATABASE"] _ (by simp) rfl rfl
  | alterTable a =>
    have h : a.toStr = .ok text := h
    unfold AlterTable.toStr at h
    simp only at h
    split at h
    · cases h; exact go [s%"ALTER", s%"TABLE"] _ (by simp) rfl rfl
    · split at h
      · cases h; exact go [s%"ALTER", s%"TABLE"] _ (by simp) rfl rfl
      · cases h
      · cases h
  | copy c => cases h; exact go [s%"COPY"] _ (by simp) rfl rfl
  | commit => cases h; exact go [s%"COMMIT"] [] (by simp) rfl rfl
  | vacuum t => cases t <;> cases h <;> exact go [s%"VACUUM"] _ (by simp) rfl rfl
  | truncate ts => cases h; exact go [s%"TRUNCATE"] _ (by simp) rfl rfl
  | begin => cases h; exact go [s%"BEGIN"] [] (by simp) rfl rfl
  | rollback => cases h; exact go [s%"ROLLBACK"] [] (by simp) rfl rfl
  | use n => cases h; exact go [s%"USE"] _ (by simp) rfl rfl

/-- C108: different types have different names, so the name of a statement's type tells its kind. -/
theorem C108_names (a b : StatementType) (h : a.toStr = b.toStr) : a = b := by
  revert h
  cases a <;> cases b <;> first | (intro _; rfl) | (intro h; exact absurd h (by decide))

theorem begins_prefix {w t : Str} (h : BeginsWith w t) : (w ++ [' ']) <+: (t ++ [' ']) := by
  rcases h with rfl | ⟨r, rfl⟩
  · exact List.prefix_refl _
  · exact ⟨r ++ [' '], by simp⟩

theorem names_prefix_free : ∀ a b : StatementType, (a.toStr ++ [' ']).isPrefixOf (b.toStr ++ [' ']) = true → a = b := by
  intro a b
  cases a <;> cases b <;> first | (intro _; rfl) | (intro h; exact absurd h (by decide))

/-- C108: two statements with the same text have the same type. For all statements. -/
theorem C108_kind (s s' : Statement) (text : Str) (h : s.toStr = .ok text) (h' : s'.toStr = .ok text) : s.type = s'.type := by
  have h1 := begins_prefix (C108_text s text h)
  have h2 := begins_prefix (C108_text s' text h')
  rcases List.prefix_or_prefix_of_prefix h1 h2 with h | h
  · exact names_prefix_free _ _ (List.isPrefixOf_iff_prefix.mpr h)
  · exact (names_prefix_free _ _ (List.isPrefixOf_iff_prefix.mpr h)).symm

example : (Statement.alterTable { table := { name := s%"t" }, renameTo := some { name := s%"u" } }).toStr = .ok s%"ALTER TABLE t RENAME TO u" ∧
    (Statement.alterTable { table := { name := s%"t" }, renameTo := some { name := s%"u" } }).type.toStr = s%"ALTER TABLE" := by decide +kernel

/-! ### C109 -/

/-- C109 for CREATE INDEX: the ALTER TABLE statement made of it names the same table, and applied to any schema it
appends exactly the first index of the statement and changes nothing else. Missing: DROP INDEX, see
`C109_drop_index_fails`. -/
theorem C109_create_index_partial (s : Schema) (ine : Bool) (i : Index) (hi : s.indexes[0]? = some i) (sch : Schema) :
    ∃ a, newAlterTableFrom (.createIndex s ine) = some a ∧ a.table.name = s.table.fullTableName ∧
      sch.alter a = ({ sch with indexes := sch.indexes ++ [i] }, .ok ()) :=
  ⟨_, rfl, rfl, by simp [List.head?_eq_getElem?, hi, Schema.alter, Schema.alterDropColumn, Schema.alterDropIndex, Schema.alterRename, Schema.addIndex]⟩

/-- C109: of all other statements but DROP INDEX no ALTER TABLE statement can be made. -/
theorem C109_refused (st : Statement) :
    newAlterTableFrom st = none ↔ st.type ≠ .createIndex ∧ st.type ≠ .dropIndex := by
  cases st <;> simp [newAlterTableFrom, Statement.type]

/-- C109 for DROP INDEX: the statement made of it asks to drop the index of that name and nothing else. -/
theorem C109_drop_index_partial (sn idx : Str) (ie : Bool) (sch : Schema) :
    ∃ a, newAlterTableFrom (.dropIndex sn idx ie) = some a ∧
      sch.alter a = ((sch.dropIndex idx).1, if (sch.dropIndex idx).2 then .ok () else .err) := by
  refine ⟨_, rfl, ?_⟩
  simp only [Schema.alter, Schema.alterDropColumn, Schema.alterDropIndex, Schema.alterRename]
  split <;> simp

/-- C109 is false for DROP INDEX: applied to a schema with the index it is an error, and the text of the ALTER TABLE
statement does not mention the index at all. -/
theorem C109_drop_index_fails :
    (∃ (sch : Schema) (a : AlterTable), newAlterTableFrom (.dropIndex s%"t" s%"i" false) = some a ∧
      (∃ x, x ∈ sch.indexes ∧ x.name = s%"i") ∧ (sch.alter a).2 = .err) ∧
    ∀ sn idx idx' ie, (newAlterTableFrom (.dropIndex sn idx ie)).map (·.toStr) = (newAlterTableFrom (.dropIndex sn idx' ie)).map (·.toStr) :=
  ⟨⟨newSchemaWith s%"t" [] [⟨s%"i", .secondary, []⟩], _, rfl, ⟨⟨s%"i", .secondary, []⟩, List.mem_singleton.mpr rfl, rfl⟩, by decide +kernel⟩, fun _ _ _ _ => rfl⟩

example : newAlterTableFrom (.createIndex (newSchemaWith s%"t" [] [⟨s%"i", .secondary, [{ name := s%"a" }]⟩]) false) =
    some { table := { name := s%"t" }, addIndex := some ⟨s%"i", .secondary, [{ name := s%"a" }]⟩ } := by decide +kernel

/-! ### C112: accessors of parsed columns -/

/-- C112: `Value` and `ValueType` of a column work exactly if it has a literal, and `DataType`, `DataTypeSize` and
`Constraint` exactly if it has a definition; otherwise they panic. -/
theorem C112_accessors (c : Column) :
    ((∃ v, c.value = .ok v) ↔ c.hasValue = true) ∧ ((∃ v, c.valueType = .ok v) ↔ c.hasValue = true) ∧
    (c.value = .panic ↔ c.hasValue = false) ∧
    ((∃ t, c.dataType = .ok t) ↔ c.def_.isSome = true) ∧ (c.dataType = .panic ↔ c.def_.isSome = false) ∧
    (c.dataTypeSize = .panic ↔ c.def_.isSome = false) ∧ (c.constraint = .panic ↔ c.def_.isSome = false) := by
  obtain ⟨n, l, d, f, a⟩ := c
  cases l <;> cases d <;>
    simp [Column.value, Column.valueType, Column.hasValue, Column.dataType, Column.dataTypeSize, Column.constraint]

theorem handlers_select {toUint : Str → Option Nat} {r : Rule} {f : Tree → Res Statement} (h : (r, f) ∈ Visit.handlers toUint) {t : Tree}
    {s : Statement} (hs : f t = .ok s) {r' : Rule} {f' : Tree → Res Statement} (hk : kindOf s = r') (h' : (Visit.handlers toUint).lookup r' = some f') :
    r = r' ∧ f = f' := by
  have hr : r = r' := (handlers_gives toUint h t s hs).symm.trans hk
  subst hr
  refine ⟨rfl, ?_⟩
  simp only [Visit.handlers, List.mem_cons, Prod.mk.injEq, List.not_mem_nil, or_false] at h
  rcases h with ⟨rfl, rfl⟩ | ⟨rfl, rfl⟩ | ⟨rfl, rfl⟩ | ⟨rfl, rfl⟩ | ⟨rfl, rfl⟩ | ⟨rfl, rfl⟩ | ⟨rfl, rfl⟩ | ⟨rfl, rfl⟩ | ⟨rfl, rfl⟩ |
    ⟨rfl, rfl⟩ | ⟨rfl, rfl⟩ | ⟨rfl, rfl⟩ | ⟨rfl, rfl⟩ | ⟨rfl, rfl⟩ | ⟨rfl, rfl⟩ | ⟨rfl, rfl⟩ | ⟨rfl, rfl⟩ | ⟨rfl, rfl⟩ | ⟨rfl, rfl⟩ <;>
    exact Option.some.inj h'

/-- C112: in everything the parser reports, for all queries: the columns and the index columns of a CREATE TABLE have a
data type. -/
theorem C112_create_table (toUint : Str → Option Nat) (q : Str) (l : List Statement) (h : parseQuery toUint q = .ok l)
    (sch : Schema) (ine : Bool) (hs : .createTable sch ine ∈ l) :
    (∀ c, c ∈ sch.columns → ∃ t, c.dataType = .ok t) ∧ ∀ i, i ∈ sch.indexes → ∀ c, c ∈ i.columns → ∃ t, c.dataType = .ok t := by
  obtain ⟨t, r, cs, f, -, -, hso, hm, hf⟩ := parsed_object h hs
  obtain ⟨rfl, rfl⟩ := handlers_select hm hf (r' := .create_table_stmt) rfl rfl
  have hp : (Visit.createTable (.node .create_table_stmt cs)).Post (fun s => ∃ x b, s = .createTable x b ∧
      (∀ c, c ∈ x.columns → Defined c) ∧ ∀ i, i ∈ x.indexes → ∀ c, c ∈ i.columns → Defined c) :=
    (tableSchema_post _).bind (fun a ha => .ok ⟨_, _, rfl, ha⟩)
  obtain ⟨x, b, he, h1, h2⟩ := hp _ hf
  cases he
  exact ⟨fun c hc => (C112_accessors c).2.2.2.1.mpr (h1 c hc).1, fun i hi c hc => (C112_accessors c).2.2.2.1.mpr (h2 i hi c hc).1⟩

/-- C112: every column of every row of a reported INSERT has a value. For all queries. -/
theorem C112_insert (toUint : Str → Option Nat) (q : Str) (l : List Statement) (h : parseQuery toUint q = .ok l)
    (i : Insert) (hs : .insert i ∈ l) (row : List Column) (hr : row ∈ i.values) (c : Column) (hc : c ∈ row) : ∃ v, c.value = .ok v := by
  obtain ⟨t, r, cs, f, -, -, hso, hm, hf⟩ := parsed_object h hs
  obtain ⟨rfl, rfl⟩ := handlers_select hm hf (r' := .insert_stmt) rfl rfl
  obtain ⟨x, he, h1⟩ := insert_post cs hso _ hf
  cases he
  exact (C112_accessors c).1.mpr (h1 row hr c hc).1

set_option maxRecDepth 10000 in
/-- C112 is false of UPDATE: the column of an assignment that is neither a literal nor an operation on a column has no
value (and no function either), so that asking for its value panics. -/
theorem C112_update_fails : ∃ c : Column,
    parseQuery (fun _ => none) s%"UPDATE t SET a = b" = .ok [.update { table := { name := s%"t" }, columns := [c], cond := none }] ∧
    c.value = .panic ∧ c.fn = none :=
  ⟨{ name := s%"a" }, by decide +kernel, rfl, rfl⟩

set_option maxRecDepth 10000 in
example : ∃ l, parseQuery (fun _ => none) s%"CREATE TABLE t (a INT, b VARCHAR(10), PRIMARY KEY (a)); INSERT INTO t (a, b) VALUES (1, 'x')" = .ok l ∧
    l.length = 2 ∧ l[1]? = some (.insert { table := { name := s%"t" }, values := [[{ name := s%"a", lit := some { v := .str s%"1" } },
      { name := s%"b", lit := some { v := .str s%"x", t := .string } }]] }) :=
  ⟨_, rfl, by decide +kernel, by decide +kernel⟩

/-- C109 for parsed statements: every CREATE INDEX that the parser reports has exactly one index, so that the ALTER TABLE
statement made of it adds that index. For all queries and schemas. -/
theorem C109_parsed (toUint : Str → Option Nat) (q : Str) (l : List Statement) (h : parseQuery toUint q = .ok l)
    (s : Schema) (ine : Bool) (hs : .createIndex s ine ∈ l) (sch : Schema) :
    ∃ i a, s.indexes = [i] ∧ newAlterTableFrom (.createIndex s ine) = some a ∧
      sch.alter a = ({ sch with indexes := sch.indexes ++ [i] }, .ok ()) := by
  obtain ⟨t, r, cs, f, -, -, hso, hm, hf⟩ := parsed_object h hs
  obtain ⟨rfl, rfl⟩ := handlers_select hm hf (r' := .create_index_stmt) rfl rfl
  have hp : (Visit.createIndex (.node .create_index_stmt cs)).Post (fun s => ∃ x b i, s = .createIndex x b ∧ x.indexes = [i]) :=
    Res.Post.bind (Q := fun x : Schema => ∃ i, x.indexes = [i]) (.next fun _ => .next fun _ => .next fun _ => .ok ⟨_, rfl⟩)
      (fun a ⟨i, hi⟩ => .ok ⟨_, _, i, rfl, hi⟩)
  obtain ⟨x, b, i, he, hi⟩ := hp _ hf
  cases he
  obtain ⟨a, h1, -, h2⟩ := C109_create_index_partial s ine i (by rw [hi]; rfl) sch
  exact ⟨i, a, hi, h1, h2⟩

/-! ### C116: asterisks and placeholders -/

/-- C116 is false for every asterisk: no column of the selection list of a reported SELECT is recognised as an asterisk by `IsAsterisk`, the selector `*`
included. For all queries, whatever safecast's comparison is. -/
theorem C116_asterisk_fails (eq : Val → Val → Bool) (toUint : Str → Option Nat) (q : Str) (l : List Statement)
    (h : parseQuery toUint q = .ok l) (s : Select) (hs : .select s ∈ l) (c : Column) (hc : .col c ∈ s.selectors) :
    c.isAsterisk eq = false := by
  obtain ⟨t, r, cs, f, -, -, hso, hm, hf⟩ := parsed_object h hs
  obtain ⟨rfl, rfl⟩ := handlers_select hm hf (r' := .select_stmt) rfl rfl
  obtain ⟨x, he, h1⟩ := select_post toUint _ _ hf
  cases he
  rw [Column.isAsterisk, (h1 c hc).1]; rfl

set_option maxRecDepth 10000 in
/-- C116 is false of the code: the asterisk of `SELECT *` is not recognised by the column's `IsAsterisk`, a text literal
`'?'` is taken for a placeholder, and the placeholder `$1` is not. Whatever safecast's comparison is, as long as it
compares texts. -/
theorem C116_fails (eq : Val → Val → Bool) (heq : TextEqual eq) :
    (∃ s c, parseQuery (fun _ => none) s%"SELECT * FROM t" = .ok [.select s] ∧ s.selectors = [.col c] ∧ c.name = s%"*" ∧ c.isAsterisk eq = false) ∧
    (∃ c d, parseQuery (fun _ => none) s%"INSERT INTO t (a, b) VALUES ('?', $1)" = .ok [.insert { table := { name := s%"t" }, values := [[c, d]] }] ∧
      c.isPlaceHolder eq = true ∧ d.isPlaceHolder eq = false) := by
  refine ⟨⟨_, { name := s%"*" }, rfl, by decide +kernel, rfl, rfl⟩,
    ⟨{ name := s%"a", lit := some { v := .str s%"?", t := .string } }, { name := s%"b", lit := some { v := .str s%"$1" } }, by decide +kernel, ?_, ?_⟩⟩
  · exact (heq _ _).mpr rfl
  · exact Bool.eq_false_iff.mpr (fun h => by have := (heq _ _).mp h; revert this; decide)

/-- C116 for the rows of literals of an INSERT: a value is taken for a placeholder exactly if it is written `?`, or is a
string literal of this one character. Missing: the string literal and the other placeholders, see `C116_fails`. -/
theorem C116_placeholder_partial (eq : Val → Val → Bool) (heq : TextEqual eq) (toUint : Str → Option Nat) (sp : Spelling) (hg : sp.Good)
    (q : Str) (i : InsertS) (n : Nat) (h : Writes q (queryToks sp (.insert i) [] n)) :
    ∃ v : Insert, parseQuery toUint q = .ok [.insert v] ∧
      ∀ (r : Nat) (row : RowS) (k : Nat) (x : Lit), (i.row :: i.rows)[r]? = some row → k < i.names.length → row.all[k]? = some x → x.Plain →
        ∃ cols col, v.values[r]? = some cols ∧ cols[k]? = some col ∧
          (col.isPlaceHolder eq = true ↔ textOf (x.toks sp) = s%"?" ∨ x = .str s%"'?'") := by
  obtain ⟨v, h1, -, h2⟩ := C69_pairing_partial toUint hg q i n h
  refine ⟨v, h1, ?_⟩
  intro r row k x hr hk hx hp
  obtain ⟨cols, hc, -, h3⟩ := h2 r row hr
  obtain ⟨col, hcol, -, hl⟩ := h3 k i.names[k] x (List.getElem?_eq_getElem hk) hx hp
  refine ⟨cols, col, hc, hcol, ?_⟩
  rw [Column.isPlaceHolder, hl]
  cases x with
  | str s =>
    obtain ⟨w, rfl, -⟩ := hp
    show eq (.str (('\'' :: w ++ ['\'']).tail.dropLast)) (.str s%"?") = true ↔ _
    rw [heq]
    have : ('\'' :: w ++ ['\'']).tail.dropLast = w := by simp
    rw [this]
    constructor
    · rintro rfl; exact Or.inr rfl
    · rintro (h | h)
      · exfalso
        simp [textOf, Lit.toks] at h
      · have h := Lit.str.inj h
        have : w ++ ['\''] = s%"?" ++ ['\''] := List.cons.inj h |>.2
        exact List.append_cancel_right this
  | _ => exact (heq _ _).trans (by simp)

/-- C116 is false of the code for values, too: among the literals of an INSERT exactly those written `*`, and the string
literal of this one character, which is no asterisk, are taken for asterisks. -/
theorem C116_value_fails (eq : Val → Val → Bool) (heq : TextEqual eq) (toUint : Str → Option Nat) (sp : Spelling) (hg : sp.Good)
    (q : Str) (i : InsertS) (n : Nat) (h : Writes q (queryToks sp (.insert i) [] n)) :
    ∃ v : Insert, parseQuery toUint q = .ok [.insert v] ∧
      ∀ (r : Nat) (row : RowS) (k : Nat) (x : Lit), (i.row :: i.rows)[r]? = some row → k < i.names.length → row.all[k]? = some x → x.Plain →
        ∃ cols col, v.values[r]? = some cols ∧ cols[k]? = some col ∧
          (col.isAsterisk eq = true ↔ textOf (x.toks sp) = s%"*" ∨ x = .str s%"'*'") := by
  obtain ⟨v, h1, -, h2⟩ := C69_pairing_partial toUint hg q i n h
  refine ⟨v, h1, ?_⟩
  intro r row k x hr hk hx hp
  obtain ⟨cols, hc, -, h3⟩ := h2 r row hr
  obtain ⟨col, hcol, -, hl⟩ := h3 k i.names[k] x (List.getElem?_eq_getElem hk) hx hp
  refine ⟨cols, col, hc, hcol, ?_⟩
  rw [Column.isAsterisk, hl]
  cases x with
  | str s =>
    obtain ⟨w, rfl, -⟩ := hp
    show eq (.str (('\'' :: w ++ ['\'']).tail.dropLast)) (.str s%"*") = true ↔ _
    rw [heq]
    have : ('\'' :: w ++ ['\'']).tail.dropLast = w := by simp
    rw [this]
    constructor
    · rintro rfl; exact Or.inr rfl
    · rintro (h | h)
      · exfalso
        simp [textOf, Lit.toks] at h
      · have h := Lit.str.inj h
        have : w ++ ['\''] = s%"*" ++ ['\''] := List.cons.inj h |>.2
        exact List.append_cancel_right this
  | _ => exact (heq _ _).trans (by simp)

set_option maxRecDepth 10000 in
example (eq : Val → Val → Bool) (heq : TextEqual eq) : ∃ v : Insert, parseQuery (fun _ => none) s%"INSERT INTO t (a) VALUES ('*')" = .ok [.insert v] ∧
    ∃ cols col, v.values[0]? = some cols ∧ cols[0]? = some col ∧ col.isAsterisk eq = true := by
  obtain ⟨v, h1, h2⟩ := C116_value_fails eq heq (fun _ => none) .std std_good s%"INSERT INTO t (a) VALUES ('*')"
    ⟨s%"t", s%"a", [], ⟨.str s%"'*'", []⟩, []⟩ 0 (writes_of (by decide +kernel))
  obtain ⟨cols, col, h3, h4, h5⟩ := h2 0 _ 0 _ rfl (by decide) rfl ⟨s%"*", rfl, (bareEnds_iff _).mp (by decide +kernel)⟩
  exact ⟨v, h1, cols, col, h3, h4, h5.mpr (.inr rfl)⟩

/-! ### C117 -/

/-- C117: every statement the parser reports has a text: `String` does not panic. For all queries. -/
theorem C117_printable (toUint : Str → Option Nat) (q : Str) (l : List Statement) (h : parseQuery toUint q = .ok l)
    (s : Statement) (hs : s ∈ l) : ∃ text, s.toStr = .ok text := by
  cases s with
  | alterTable a =>
    obtain ⟨t, r, cs, f, -, -, hso, hm, hf⟩ := parsed_object h hs
    obtain ⟨rfl, rfl⟩ := handlers_select hm hf (r' := .alter_table_stmt) rfl rfl
    obtain ⟨x, he, h1⟩ := alterTable_post _ _ hf
    cases he
    show ∃ text, a.toStr = .ok text
    cases hc : a.addColumn with
    | none => exact ⟨_, by rw [AlterTable.toStr, hc]⟩
    | some c =>
      obtain ⟨d, hd⟩ := Option.isSome_iff_exists.mp (h1 c hc).1
      have hm : ∃ m, addColumnClause c = .ok m := ⟨_, by rw [addColumnClause, hd]⟩
      obtain ⟨m, hm⟩ := hm
      exact ⟨_, by simp only [AlterTable.toStr, hc, hm]; rfl⟩
  | vacuum t => cases t <;> exact ⟨_, rfl⟩
  | _ => exact ⟨_, rfl⟩

set_option maxRecDepth 10000 in
example : ∃ a : AlterTable, parseQuery (fun _ => none) s%"ALTER TABLE t ADD COLUMN c INT" = .ok [.alterTable a] ∧
    a.toStr = .ok s%"ALTER TABLE t ADD c INT" := ⟨_, rfl, by decide +kernel⟩

end Verif.Props
