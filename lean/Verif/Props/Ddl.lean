import Verif.Props.RoundTrip
import Verif.Props.Util
/-! Statements that define data: C102-C107. -/
namespace Verif.Props
open Verif Verif.Lex Verif.Gram Verif.Parse Verif.Spec Verif.Query

/-! ### C102 -/

theorem unEscape_good {n : Str} (h : GoodName n) : Util.unEscapeNameString n = plainName n := by
  rcases h with h | ⟨m, rfl, hm⟩
  · rw [Writing.unEscape_name h]
    obtain ⟨c, r, rfl, hc⟩ := h.start
    have : c ≠ '`' := by
      rintro rfl
      exact Writing.name_not h '`' (by decide) (by simp)
    unfold plainName
    split
    · rename_i heq
      exact absurd (List.cons.inj heq).1 this
    · rfl
  · have := (C03_name_roundtrip_iff m).mpr hm
    have e : Util.escapeNameString m = '`' :: m ++ ['`'] := by simp [Util.escapeNameString]
    rw [e] at this
    rw [this]
    simp [plainName]

theorem unEscape_good_parens {n : Str} (h : GoodName n) : Util.unEscapeNameString (s%"(" ++ n ++ s%")") = plainName n := by
  rw [← unEscape_good h]
  exact Str.trim_wrap _ n '(' ')' (by decide) (by decide)

theorem colV_reports {c : ColS} (hn : GoodName c.name) (hk : Str.upper (plainName c.name) ∉ clauseWords)
    (ht : ∃ ty : DataType, ty.toStr ≠ [] ∧ ty.toStr = Str.upper c.typ) (hl : ∀ l, c.len = some l → ∃ n : Nat, n < 2 ^ 63 ∧ l = Str.ofNat n) :
    ∃ x, colV c = some x ∧ ReportsColumn c x := by
  obtain ⟨ty, hne, hty⟩ := ht
  have hup : Str.upper ty.toStr = ty.toStr := by cases ty <;> decide +kernel
  have hr : newDataTypeFromString c.typ = some ty :=
    (C21_data_type_names dataTypeStrings (List.Perm.refl _) ty hne c.typ).mpr (Or.inl ((Lemmas.sameName_iff _ _).mp ((Str.eqFold_iff _ _).mpr (by rw [hup, hty]))))
  have hkw : Visit.columnKeywords.any (Str.eqFold (plainName c.name)) = false := by
    rw [← Bool.not_eq_true, List.any_eq_true]
    rintro ⟨k, hk', he⟩
    have hup : ∀ k ∈ Visit.columnKeywords, Str.upper k ∈ clauseWords := by decide
    apply hk
    have he : Str.upper (plainName c.name) = Str.upper k := by simpa [Str.eqFold] using he
    rw [he]
    exact hup k hk'
  obtain ⟨cn, kd, tp, len, cons⟩ := c
  cases len with
  | none =>
    refine ⟨{ name := plainName cn, def_ := some { typ := ty, length := -1 } }, ?_, _, rfl, hty, hne, fun _ => rfl, by simp⟩
    rw [colV, unEscape_good hn, hkw, if_neg (by simp)]
    simp only [ColS.words, newDataDefFromStrings, newDataDefFrom, hr]
    rfl
  | some l =>
    obtain ⟨n, hm, rfl⟩ := hl _ rfl
    refine ⟨{ name := plainName cn, def_ := some { typ := ty, length := n } }, ?_, _, rfl, hty, hne, by simp, ?_⟩
    · rw [colV, unEscape_good hn, hkw, if_neg (by simp)]
      simp only [ColS.words, newDataDefFromStrings, Str.atoi_ofNat n hm, newDataDefFrom, hr]
      rfl
    · intro m hm'
      have := Str.ofNat_inj (Option.some.inj hm')
      rw [this]

theorem columns_report {cs : List ColS} (h : ∀ c ∈ cs, ∃ x, colV c = some x ∧ ReportsColumn c x) :
    Each ReportsColumn cs (cs.filterMap colV) ∧ Each (fun x i => i = { name := x.name, typ := .primary, columns := [x] })
      ((cs.zip (cs.filterMap colV)).flatMap (fun p => List.replicate (p.1.cons.count .primaryKey) p.2)) (cs.flatMap colKeysV) := by
  induction cs with
  | nil => exact ⟨.nil, .nil⟩
  | cons c cs ih =>
    obtain ⟨x, hx, hr⟩ := h c (by simp)
    obtain ⟨h1, h2⟩ := ih (fun c hc => h c (List.mem_cons_of_mem _ hc))
    rw [List.filterMap_cons_some hx, List.zip_cons_cons, List.flatMap_cons, List.flatMap_cons]
    refine ⟨.cons hr h1, ?_⟩
    have hk : colKeysV c = List.replicate (c.cons.count .primaryKey) { name := x.name, typ := .primary, columns := [x] } := by
      simp only [colKeysV, hx, List.map_const', List.count_eq_length_filter]
      congr 1
    rw [hk]
    have app : ∀ n : Nat, Each (fun (x : Column) (i : Index) => i = { name := x.name, typ := .primary, columns := [x] })
        (List.replicate n x ++ (cs.zip (cs.filterMap colV)).flatMap (fun p => List.replicate (p.1.cons.count .primaryKey) p.2))
        (List.replicate n { name := x.name, typ := .primary, columns := [x] } ++ cs.flatMap colKeysV) := by
      intro n
      induction n with
      | zero => exact h2
      | succ n ihn => exact .cons rfl ihn
    exact app _

theorem indexes_report {cs : List Column} {is : List IdxS} (h : ∀ i ∈ is, GoodName i.name ∧ GoodName i.col ∧
    ∃ c ∈ cs, Str.upper c.name = Str.upper (plainName i.col)) : Each (ReportsIndex cs) is (is.filterMap (idxV cs)) := by
  induction is with
  | nil => exact .nil
  | cons i is ih =>
    obtain ⟨hn, hc, c, hm, he⟩ := h i (by simp)
    have hl : ∃ x, lookupColumn cs (plainName i.col) = some x := by
      cases hf : lookupColumn cs (plainName i.col) with
      | some x => exact ⟨x, rfl⟩
      | none =>
        rw [lookupColumn, List.find?_eq_none] at hf
        exact absurd (by simpa [Str.eqFold] using he) (hf c hm)
    obtain ⟨x, hx⟩ := hl
    have hxm : x ∈ cs := List.mem_of_find?_eq_some hx
    have hxe : Str.upper x.name = Str.upper (plainName i.col) := by
      have := List.find?_some hx
      simpa [Str.eqFold] using this
    have hv : idxV cs i = some { name := plainName i.name, typ := .secondary, columns := [x] } := by
      rw [idxV, unEscape_good_parens hc, hx, unEscape_good hn]; rfl
    rw [List.filterMap_cons_some hv]
    exact .cons ⟨x, hxm, hxe, rfl⟩ (ih (fun j hj => h j (List.mem_cons_of_mem _ hj)))

theorem keys_report {ks : List KeyS} (h : ∀ k ∈ ks, ∀ c ∈ k.col :: k.cols, GoodName c) : Each ReportsKey ks (ks.map keyV) := by
  induction ks with
  | nil => exact .nil
  | cons k ks ih =>
    refine .cons ⟨rfl, ?_⟩ (ih (fun j hj => h j (List.mem_cons_of_mem _ hj)))
    simp only [keyV, newPrimaryIndexWith, List.map_map]
    exact List.map_congr_left (fun c hc => unEscape_good (h k (by simp) c hc))

/-- C102 for tables written with columns of known types of one word, then secondary indexes (with the word INDEX in
capital letters) on one of the columns, then primary keys; names may be in backquotes. In any layout and letter case,
the statement reports the name of the table, every column with its type and length, a primary key for every PRIMARY KEY
constraint, and the indexes and keys, all in the order written. Missing: what `C102_fails` lists. -/
theorem C102_create_table_partial {sp : Spelling} (toUint : Str → Option Nat) (hg : sp.Good) (q : Str) (b : Bool) (t : TableS) (n : Nat)
    (h : Writes q (queryToks sp (.ddl (.createTable b t)) [] n)) (ht : WellWritten t) :
    ∃ s, parseQuery toUint q = .ok [.createTable s b] ∧ ReportsTable t s := by
  refine ⟨tableV t, parse_writes toUint hg _ [] n h, ?_⟩
  have hc : ∀ c ∈ t.col :: t.cols, ∃ x, colV c = some x ∧ ReportsColumn c x := fun c hc => by
    obtain ⟨h1, h2, h3, h4⟩ := ht.columns c hc
    exact colV_reports h1 h2 h3 h4
  obtain ⟨h1, h2⟩ := columns_report hc
  refine ⟨by rw [tableV, unEscape_good ht.name]; rfl, h1, _, _, _, rfl, h2, indexes_report ?_, keys_report ht.keys⟩
  intro i hi
  obtain ⟨a1, a2, c, hm, he⟩ := ht.indexes i hi
  refine ⟨a1, a2, ?_⟩
  obtain ⟨x, hx, d, rfl, _⟩ := hc c hm
  exact ⟨_, List.mem_filterMap.mpr ⟨c, hm, hx⟩, he⟩

/-- A table with a quoted name, types in small letters, a key, an index and a length. -/
def shopTable : TableS :=
  { name := s%"`shop items`", col := ⟨s%"id", .ident, s%"bigint", none, [.notNull, .primaryKey]⟩,
    cols := [⟨s%"title", .ident, s%"VarChar", some s%"80", []⟩], idxs := [⟨s%"by_title", s%"Title"⟩], keys := [⟨s%"id", [s%"title"]⟩] }

example : WellWritten shopTable where
  name := Or.inr ⟨s%"shop items", rfl, by rw [← C03_name_roundtrip_iff]; decide⟩
  columns := by
    intro c hc
    simp only [shopTable, List.mem_cons, List.not_mem_nil, or_false] at hc
    rcases hc with rfl | rfl
    · exact ⟨Or.inl (name_of (by decide +kernel)), by decide, ⟨.bigInt, by decide, by decide⟩, by simp⟩
    · refine ⟨Or.inl (name_of (by decide +kernel)), by decide, ⟨.varChar, by decide, by decide⟩, ?_⟩
      intro l hl
      injection hl with hl
      exact ⟨80, by decide, by rw [← hl]; decide +kernel⟩
  indexes := by
    intro i hi
    simp only [shopTable, List.mem_cons, List.not_mem_nil, or_false] at hi
    subst hi
    exact ⟨Or.inl (name_of (by decide +kernel)), Or.inl (name_of (by decide +kernel)), _, List.mem_cons_of_mem _ (List.mem_cons_self ..), by decide⟩
  keys := by
    intro k hk c hc
    simp only [shopTable, List.mem_cons, List.not_mem_nil, or_false] at hk
    subst hk
    simp only [List.mem_cons, List.not_mem_nil, or_false] at hc
    rcases hc with rfl | rfl
    · exact Or.inl (name_of (by decide +kernel))
    · exact Or.inl (name_of (by decide +kernel))

/-- A column of a type. -/
def col (n : Str) (t : DataType := .int) (l : Int := -1) (k : Constraint := 0) : Column :=
  { name := n, def_ := some { consts := k, typ := t, length := l } }

/-- CREATE TABLE t. -/
def createT (cs : List Column) (is : List Index := []) : Statement := .createTable (newSchemaWith s%"t" cs is) false

set_option maxRecDepth 10000 in
/-- C102 is false of the code: the constraints NOT NULL and UNIQUE are not reported; a type with a precision and scale
is reported as unknown; a column of type BINARY is a syntax error; a column without a type, and one in backquotes
that is called like a keyword, are not reported; an index is lost if its keyword is in small letters; an index on two
columns is a syntax error; the columns of a primary key have no type; and the schema of the table is lost. -/
theorem C102_fails (toUint : Str → Option Nat) :
    parseQuery toUint s%"CREATE TABLE t (a INT NOT NULL UNIQUE)" = .ok [createT [col s%"a"]] ∧
    parseQuery toUint s%"CREATE TABLE t (a NUMERIC(10, 2))" = .ok [createT [col s%"a" .unknown 0]] ∧
    parseQuery toUint s%"CREATE TABLE t (a BINARY)" = .err ∧
    parseQuery toUint s%"CREATE TABLE t (a, b INT, `key` INT)" = .ok [createT [col s%"b"]] ∧
    parseQuery toUint s%"CREATE TABLE t (a INT, index i (a))" = .ok [createT [col s%"a"]] ∧
    parseQuery toUint s%"CREATE TABLE t (a INT, INDEX i (a))" = .ok [createT [col s%"a"] [newSecondaryIndexWith s%"i" [col s%"a"]]] ∧
    parseQuery toUint s%"CREATE TABLE t (a INT, b INT, INDEX i (a, b))" = .err ∧
    parseQuery toUint s%"CREATE TABLE t (a INT, PRIMARY KEY (a))" = .ok [createT [col s%"a"] [newPrimaryIndexWith [col s%"a" .unknown 0]]] ∧
    parseQuery toUint s%"CREATE TABLE s.t (a INT)" = .ok [createT [col s%"a"]] := by
  refine ⟨?_, ?_, ?_, ?_, ?_, ?_, ?_, ?_, ?_⟩ <;> krfl

/-! ### C103 -/

theorem nameV_good {l : List Str} (h : ∀ x ∈ l, GoodName x) : l.map nameV = l.map writtenColumn :=
  List.map_congr_left (fun x hx => by rw [nameV, unEscape_good (h x hx)]; rfl)

/-- C103 for one table, index or database at a time or several, without schemas except in DROP INDEX, and names in
backquotes in CREATE INDEX, DROP TABLE and DROP INDEX: in any layout and letter case, the statement reports exactly the
names and options written, in the order written. Missing: what `C103_fails` lists. -/
theorem C103_reports_partial {sp : Spelling} (toUint : Str → Option Nat) (hg : sp.Good) (q : Str) (d : DdlS) (s : Statement) (n : Nat)
    (h : Writes q (queryToks sp (.ddl d) [] n)) (hs : Says d s) : parseQuery toUint q = .ok [s] := by
  rw [parse_writes toUint hg _ [] n h]
  show Res.ok [ddlV d] = _
  congr 2
  cases hs with
  | createIndex hn ht hc =>
    simp only [ddlV, unEscape_good hn, unEscape_good ht, nameV_good hc]
    rfl
  | dropTable ht =>
    simp only [ddlV]
    congr 1
    exact List.map_congr_left (fun x hx => by rw [unEscape_good (ht x hx)]; rfl)
  | dropIndex hn => simp [ddlV, unEscape_good hn]
  | dropIndexOf hs hn => simp [ddlV, unEscape_good hn, unEscape_good hs]
  | @copy _ _ cs _ _ ht hc hs hf =>
    simp only [List.mem_cons, List.not_mem_nil, or_false, Prod.mk.injEq] at hf
    have e := List.map_congr_left (l := cs) (f := fun c => Visit.columnNamed (Util.unEscapeString c)) (g := fun n => ({ name := n } : Column))
      (fun x hx => by rw [Writing.unEscapeString_name (hc x hx)]; rfl)
    rcases hf with ⟨rfl, rfl⟩ | ⟨rfl, rfl⟩ | ⟨rfl, rfl⟩ <;> simp only [ddlV, formatV, Writing.unEscapeString_name ht, Writing.unEscapeString_name hs, e]
  | _ => rfl

example : Says (.createIndex true s%"`by name`" s%"users" s%"`last name`" [s%"given"])
    (.createIndex { table := { name := s%"users" }, indexes := [{ name := s%"by name", typ := .secondary, columns := [{ name := s%"last name" }, { name := s%"given" }] }] } true) := by
  refine .createIndex (Or.inr ⟨s%"by name", rfl, by rw [← C03_name_roundtrip_iff]; decide⟩) (Or.inl (name_of (by decide +kernel))) ?_
  intro x hx
  simp only [List.mem_cons, List.not_mem_nil, or_false] at hx
  rcases hx with rfl | rfl
  · exact Or.inr ⟨s%"last name", rfl, by rw [← C03_name_roundtrip_iff]; decide⟩
  · exact Or.inl (name_of (by decide +kernel))

set_option maxRecDepth 10000 in
/-- C103 is false of the code: DROP TABLE and CREATE INDEX lose the schema; TRUNCATE, VACUUM and CREATE INDEX reject
a table with a schema, and COPY takes it as part of the name; the names of databases and of the tables of TRUNCATE keep
their backquotes; CREATE UNIQUE INDEX is reported as a plain index; ROLLBACK TO a savepoint is reported as ROLLBACK. -/
theorem C103_fails (toUint : Str → Option Nat) :
    parseQuery toUint s%"DROP TABLE s.t" = .ok [.dropTable [{ name := s%"t" }] false] ∧
    parseQuery toUint s%"CREATE INDEX s.i ON t (a)" = .ok [.createIndex (newSchemaWith s%"t" [] [newSecondaryIndexWith s%"i" [{ name := s%"a" }]]) false] ∧
    parseQuery toUint s%"TRUNCATE TABLE s.t" = .err ∧
    parseQuery toUint s%"VACUUM s.t" = .err ∧
    parseQuery toUint s%"CREATE INDEX i ON s.t (a)" = .err ∧
    parseQuery toUint s%"COPY s.t FROM f CSV" = .ok [.copy { table := { name := s%"s.t" }, columns := [], source := s%"f", format := .csv }] ∧
    parseQuery toUint s%"CREATE DATABASE `d`" = .ok [.createDatabase s%"`d`" false] ∧
    parseQuery toUint s%"USE `d`" = .ok [.use s%"`d`"] ∧
    parseQuery toUint s%"TRUNCATE TABLE `t`" = .ok [.truncate [{ name := s%"`t`" }]] ∧
    parseQuery toUint s%"CREATE UNIQUE INDEX i ON t (a)" = .ok [.createIndex (newSchemaWith s%"t" [] [newSecondaryIndexWith s%"i" [{ name := s%"a" }]]) false] ∧
    parseQuery toUint s%"ROLLBACK TO SAVEPOINT p" = .ok [.rollback] := by
  refine ⟨?_, ?_, ?_, ?_, ?_, ?_, ?_, ?_, ?_, ?_, ?_⟩ <;> krfl

/-! ### C104 -/

/-- C104 for all changes but DROP; names may be in backquotes in RENAME TO and ADD: in any layout and letter case, the
statement reports the table and exactly the change written. Missing: what `C104_fails` lists. -/
theorem C104_reports_partial {sp : Spelling} (toUint : Str → Option Nat) (hg : sp.Good) (q : Str) (t : TabS) (a : AlterS) (T : Table) (n : Nat)
    (h : Writes q (queryToks sp (.ddl (.alterTable t a)) [] n)) (ht : SaysTarget t T) (ha : WrittenAlter a) :
    ∃ x, parseQuery toUint q = .ok [.alterTable x] ∧ SaysAlter T a x := by
  refine ⟨alterV t a, parse_writes toUint hg _ [] n h, ?_⟩
  have hT : ({ schema := (t.schema.map Util.unEscapeNameString).getD [], name := t.name } : Table) = T := by
    cases ht with
    | plain _ => rfl
    | ofSchema hs _ => simp [unEscape_good hs]
  cases a with
  | renameTo u =>
    simp only [alterV, hT, unEscape_good (show GoodName u from ha)]
    exact .renameTo
  | renameColumn a b =>
    simp only [alterV, hT]
    exact .renameColumn
  | addIndex i c cs =>
    simp only [alterV, hT, unEscape_good ha.1, nameV_good ha.2]
    exact .addIndex
  | addKey c cs =>
    simp only [alterV, hT, nameV_good (show ∀ x ∈ c :: cs, GoodName x from ha)]
    exact .addKey
  | addColumn c =>
    obtain ⟨h1, h2, h3, h4⟩ := ha
    obtain ⟨x, hx, hr⟩ := colV_reports h1 h2 h3 h4
    simp only [alterV, hT, hx]
    exact .addColumn hr
  | dropColumn w c => exact ha.elim

example : SaysTarget ⟨some s%"`my db`", s%"users"⟩ { schema := s%"my db", name := s%"users" } ∧
    WrittenAlter (.addColumn ⟨s%"`e mail`", .ident, s%"varchar", some s%"255", [.unique]⟩) :=
  ⟨.ofSchema (Or.inr ⟨s%"my db", rfl, by rw [← C03_name_roundtrip_iff]; decide⟩) (name_of (by decide +kernel)),
   Or.inr ⟨s%"e mail", rfl, by rw [← C03_name_roundtrip_iff]; decide⟩, by decide, ⟨.varChar, by decide, by decide⟩,
   fun l hl => ⟨255, by decide, by injection hl with hl; rw [← hl]; decide +kernel⟩⟩

set_option maxRecDepth 10000 in
/-- C104 is false of the code: DROP reports a column whose name is the whole clause; the name of a table and renamed
columns keep their backquotes; a table of a schema as the new name is rejected; a UNIQUE key is reported as an index of
an unknown kind; the PRIMARY KEY of an added column is lost; and an added column that is called like a keyword is not
reported at all. -/
theorem C104_fails (toUint : Str → Option Nat) :
    parseQuery toUint s%"ALTER TABLE t DROP COLUMN a" = .ok [.alterTable { table := { name := s%"t" }, dropColumn := some { name := s%"DROPCOLUMNa" } }] ∧
    parseQuery toUint s%"ALTER TABLE `t` RENAME COLUMN `a` TO b" = .ok [.alterTable { table := { name := s%"`t`" }, renameColumnFrom := some { name := s%"`a`" }, renameColumnTo := some { name := s%"b" } }] ∧
    parseQuery toUint s%"ALTER TABLE t RENAME TO s.u" = .err ∧
    parseQuery toUint s%"ALTER TABLE t ADD UNIQUE (a)" = .ok [.alterTable { table := { name := s%"t" }, addIndex := some { name := [], typ := .unknown, columns := [{ name := s%"a" }] } }] ∧
    parseQuery toUint s%"ALTER TABLE t ADD a INT PRIMARY KEY" = .ok [.alterTable { table := { name := s%"t" }, addColumn := some (col s%"a") }] ∧
    parseQuery toUint s%"ALTER TABLE t ADD `key` INT" = .ok [.alterTable { table := { name := s%"t" } }] := by
  refine ⟨?_, ?_, ?_, ?_, ?_, ?_⟩ <;> krfl

/-! ### C105 -/

/-- C105 for CREATE, DROP and ALTER DATABASE, USE, CREATE INDEX on a table without schema, DROP TABLE and TRUNCATE of
tables without schemas, DROP INDEX, COPY, VACUUM, BEGIN, COMMIT and ROLLBACK with plain names: the statement has a text,
and parsing the text gives exactly the statement. Missing: tables with schemas, see `C105_fails`. -/
theorem C105_roundtrip_partial (toUint : Str → Option Nat) (s : Statement) (h : PrintableDdl s) :
    ∃ q, s.toStr = .ok q ∧ parseQuery toUint q = .ok [s] := by
  obtain ⟨q, hq, D, hw, hv⟩ := Writing.ddl h
  exact ⟨q, hq, by rw [parse_writing toUint (.ddl D) hw, stmtV, hv]⟩

/-- The result of parsing the text of a statement, if it has one. -/
def reparse (s : Statement) : Res (List Statement) :=
  match s.toStr with
  | .ok q => parseQuery (fun _ => none) q
  | .err => .err
  | .panic => .panic

set_option maxRecDepth 10000 in
/-- C105 is false of the code for tables with schemas: DROP TABLE loses the schema, and the texts of TRUNCATE, VACUUM
and CREATE INDEX are rejected; it is false for a CREATE INDEX without an index, and for DROP TABLE without tables. -/
theorem C105_fails :
    reparse (.dropTable [{ schema := s%"s", name := s%"t" }] false) = .ok [.dropTable [{ name := s%"t" }] false] ∧
    reparse (.truncate [{ schema := s%"s", name := s%"t" }]) = .err ∧
    reparse (.vacuum (some { schema := s%"s", name := s%"t" })) = .err ∧
    reparse (.createIndex { table := { schema := s%"s", name := s%"t" }, indexes := [newSecondaryIndexWith s%"i" [{ name := s%"a" }]] } false) = .err ∧
    reparse (.createIndex { table := { name := s%"t" } } false) = .err ∧
    reparse (.dropTable [] false) = .err := by
  decide +kernel

example : PrintableDdl (.createIndex { table := { name := s%"t" }, indexes := [{ name := s%"i", typ := .secondary, columns := [{ name := s%"a" }, { name := s%"b" }] }] } true) := by
  refine .createIndex true (name_of (by decide +kernel)) (name_of (by decide +kernel)) (by simp) ?_
  intro c hc
  simp only [List.mem_cons, List.not_mem_nil, or_false] at hc
  rcases hc with rfl | rfl
  · exact ⟨_, name_of (by decide +kernel), rfl⟩
  · exact ⟨_, name_of (by decide +kernel), rfl⟩

example : PrintableDdl (.dropIndex s%"shop" s%"idx_1" true) :=
  .dropIndex true (Or.inr (name_of (by decide +kernel))) (name_of (by decide +kernel))

/-- C106 for renaming a table or a column, adding a column without constraints, and adding a secondary index, on a
table with or without a schema: parsing the text gives exactly the statement. Missing: the other changes, see
`C106_fails`. -/
theorem C106_roundtrip_partial (toUint : Str → Option Nat) (a : AlterTable) (h : PrintableAlter a) :
    ∃ q, a.toStr = .ok q ∧ parseQuery toUint q = .ok [.alterTable a] := by
  obtain ⟨q, hq, D, hw, hv⟩ := Writing.alter h
  exact ⟨q, hq, by rw [parse_writing toUint (.ddl D) hw, stmtV, hv]⟩

set_option maxRecDepth 10000 in
/-- C106 is false of the code: dropping a column comes back with the keyword in the name of the column; dropping an
index is not printed at all, which leaves a text that is rejected; the name of an added primary key is lost; an added
column with a constraint comes back as a column named `NOT`; a column without definition makes the printer panic; and
of two changes the second makes the text unreadable. -/
theorem C106_fails :
    reparse (.alterTable { table := { name := s%"t" }, dropColumn := some { name := s%"a" } }) =
      .ok [.alterTable { table := { name := s%"t" }, dropColumn := some { name := s%"DROPa" } }] ∧
    reparse (.alterTable { table := { name := s%"t" }, dropIndex := some (newSecondaryIndexWith s%"i" []) }) = .err ∧
    reparse (.alterTable { table := { name := s%"t" }, addIndex := some (newPrimaryIndexWith [{ name := s%"a" }]) }) =
      .ok [.alterTable { table := { name := s%"t" }, addIndex := some { name := [], typ := .primary, columns := [{ name := s%"a" }] } }] ∧
    reparse (.alterTable { table := { name := s%"t" }, addColumn := some { name := s%"a", def_ := some { consts := 2, typ := .int, length := -1 } } }) =
      .ok [.alterTable { table := { name := s%"t" }, addColumn := some { name := s%"NOT", def_ := some unknownDataDef } }] ∧
    reparse (.alterTable { table := { name := s%"t" }, addColumn := some { name := s%"a" } }) = .panic ∧
    reparse (.alterTable { table := { name := s%"t" }, renameTo := some { name := s%"u" }, renameColumnFrom := some { name := s%"a" }, renameColumnTo := some { name := s%"b" } }) = .err := by
  decide +kernel

example : PrintableAlter { table := { schema := s%"s", name := s%"t" }, addColumn := some { name := s%"a", def_ := some { typ := .varChar, length := 20 } } } :=
  .addColumn ⟨name_of (by decide +kernel), Or.inr (name_of (by decide +kernel))⟩
    ⟨_, _, _, rfl, name_of (by decide +kernel), by simp [PrintableType], Or.inr (by decide)⟩

/-- C107 for tables with at least one column, all with types of one word and without constraints, then secondary indexes
on one of the columns, then primary keys as the parser makes them: parsing the text gives exactly the statement.
Missing: the other tables, see `C107_fails`. -/
theorem C107_roundtrip_partial (toUint : Str → Option Nat) (s : Schema) (b : Bool) (h : PrintableSchema s) :
    parseQuery toUint (createTableString s b) = .ok [.createTable s b] := by
  obtain ⟨D, hw, hv⟩ := Writing.createTable b h
  rw [parse_writing toUint (.ddl D) hw, stmtV, hv]

set_option maxRecDepth 10000 in
/-- C107 is false of the code: an index on two columns and a column of type BINARY make a text that is rejected; a
DOUBLE PRECISION comes back as DOUBLE; constraints are not printed; a length of 0 comes back as −1; a column without
definition is lost; the columns of a primary key lose their definitions; a table of a schema loses it; and a table
without columns has a text that is rejected. -/
theorem C107_fails :
    reparse (createT [col s%"a", col s%"b"] [newSecondaryIndexWith s%"i" [col s%"a", col s%"b"]]) = .err ∧
    reparse (createT [col s%"a" .binary]) = .err ∧
    reparse (createT [col s%"a" .doublePrecision]) = .ok [createT [col s%"a" .double]] ∧
    reparse (createT [col s%"a" (k := 2)]) = .ok [createT [col s%"a"]] ∧
    reparse (createT [col s%"a" (l := 0)]) = .ok [createT [col s%"a"]] ∧
    reparse (createT [col s%"a", { name := s%"b" }]) = .ok [createT [col s%"a"]] ∧
    reparse (createT [col s%"a"] [newPrimaryIndexWith [col s%"a"]]) = .ok [createT [col s%"a"] [newPrimaryIndexWith [{ name := s%"a", def_ := some unknownDataDef }]]] ∧
    reparse (.createTable { table := { schema := s%"s", name := s%"t" }, columns := [col s%"a"] } false) = .ok [createT [col s%"a"]] ∧
    reparse (createT []) = .err := by
  decide +kernel

example : PrintableSchema { table := { name := s%"t" }, columns := [col s%"a", col s%"b" .varChar 20], indexes := [{ name := s%"i", typ := .secondary, columns := [col s%"b" .varChar 20] }, { name := s%"a_b", typ := .primary, columns := [{ name := s%"a", def_ := some { typ := .unknown, length := 0 } }, { name := s%"b", def_ := some { typ := .unknown, length := 0 } }] }] } where
  table := ⟨_, name_of (by decide +kernel), rfl⟩
  some_column := by simp
  columns := by
    intro c hc
    simp only [List.mem_cons, List.not_mem_nil, or_false] at hc
    rcases hc with rfl | rfl
    · exact ⟨_, _, _, rfl, name_of (by decide +kernel), by simp [PrintableType], Or.inl rfl⟩
    · exact ⟨_, _, _, rfl, name_of (by decide +kernel), by simp [PrintableType], Or.inr (by decide)⟩
  indexes := by
    refine ⟨[_], [_], rfl, ?_, ?_⟩
    · intro i hi
      rw [List.mem_singleton] at hi
      subst hi
      exact ⟨s%"i", col s%"b" .varChar 20, [col s%"a"], [], rfl, name_of (by decide +kernel), rfl, by simp [col]; decide⟩
    · intro i hi
      rw [List.mem_singleton] at hi
      subst hi
      refine ⟨[s%"a", s%"b"], by simp, ?_, rfl⟩
      intro n hn
      simp only [List.mem_cons, List.not_mem_nil, or_false] at hn
      rcases hn with rfl | rfl
      · exact name_of (by decide +kernel)
      · exact name_of (by decide +kernel)

end Verif.Props
