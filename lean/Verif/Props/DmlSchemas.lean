import Verif.Props.RoundTrip
import Verif.Lemmas.DmlSchemas
/-! C08, C09, C10 and C84 for tables with schemas. -/
namespace Verif.Props
open Verif Verif.Lex Verif.Gram Verif.Spec Verif.Query Verif.Parse

theorem repeated_iff (t : Table) (h : Name t.name) : repeated t = t ↔ t.schema = [] := by
  obtain ⟨s, n⟩ := t
  by_cases he : s = []
  · subst he; simp [repeated, dotted]
  · simp only [repeated, dotted, he, if_false, Table.mk.injEq, true_and, iff_false]
    intro hn
    have := congrArg List.length hn
    simp at this
    omega

/-- C08 for tables with schemas: a SELECT of the kinds of C08, with plain table names of which any may have schemas, is
read as the same SELECT in which the name of each table repeats its schema. -/
theorem C08_schemas (toUint : Str → Option Nat) (hu : ReadsNumbers toUint) (s : Select)
    (h : PrintableSelect { s with tables := s.tables.map bareTable }) (ht : ∀ t ∈ s.tables, PlainTable t) :
    parseQuery toUint s.toStr = .ok [.select (selectAsText { s with tables := s.tables.map repeated })] := by
  have e : s.toStr = Select.toStr { s with tables := s.tables.map repeated } := by
    have : tablesString s.tables = tablesString (s.tables.map repeated) := by
      simp only [tablesString, List.map_map]
      exact congrArg _ (List.map_congr_left (fun t hm => (full_repeated (ht t hm)).symm))
    simp only [Select.toStr, this]
  rw [e]
  refine C08_roundtrip_partial toUint hu _ { h with some_table := ?_, tables := ?_ }
  · intro he
    exact h.some_table (by simpa using he)
  · intro t hm
    obtain ⟨x, hx, rfl⟩ := List.mem_map.mp hm
    obtain ⟨hn, hs⟩ := ht x hx
    obtain ⟨sc, n⟩ := x
    by_cases he : sc = []
    · subst he; exact .bare (.inl hn)
    · have : repeated ⟨sc, n⟩ = { schema := sc, name := sc ++ '.' :: n } := by simp [repeated, dotted, he]
      rw [this]
      exact .full (.inl (hs.resolve_left he)) (.inl hn)

/-- C08 for tables with schemas: a SELECT of the kinds of C08 with plain table names is read back if and only if none of
its tables has a schema. -/
theorem C08_schemas_iff (toUint : Str → Option Nat) (hu : ReadsNumbers toUint) (s : Select)
    (h : PrintableSelect { s with tables := s.tables.map bareTable }) (ht : ∀ t ∈ s.tables, PlainTable t) :
    parseQuery toUint s.toStr = .ok [.select (selectAsText s)] ↔ ∀ t ∈ s.tables, t.schema = [] := by
  rw [C08_schemas toUint hu s h ht]
  have : (∀ t ∈ s.tables, t.schema = []) ↔ s.tables.map repeated = s.tables := by
    constructor
    · intro ha
      conv => rhs; rw [← List.map_id s.tables]
      exact List.map_congr_left (fun t hm => (repeated_iff t (ht t hm).1).mpr (ha t hm))
    · intro hm t htm
      rw [← hm] at htm
      obtain ⟨x, hx, rfl⟩ := List.mem_map.mp htm
      obtain ⟨j, hj, rfl⟩ := List.getElem_of_mem hx
      have : (s.tables.map repeated)[j]'(by simpa using hj) = s.tables[j] := by simp only [hm]
      rw [List.getElem_map] at this
      exact (repeated_iff _ (ht _ (List.getElem_mem hj)).1).mp this
  rw [this]
  constructor
  · intro he
    have : (selectAsText { s with tables := s.tables.map repeated }).tables = (selectAsText s).tables := by
      injection he with he
      injection he with he _
      injection he with he
      rw [he]
    exact this
  · intro he
    rw [he]

/-- C09 for a table with a schema: an INSERT of the kinds of C09 into a table with a plain name is read as the same INSERT
into the table of that name without its schema. -/
theorem C09_schema (toUint : Str → Option Nat) (i : Insert) (h : PrintableInsert { i with table := bareTable i.table }) (ht : PlainTable i.table) :
    parseQuery toUint i.toStr = .ok [.insert (insertAsText { i with table := bareTable i.table })] := by
  by_cases he : i.table.schema = []
  · have : bareTable i.table = i.table := by
      obtain ⟨⟨s, n⟩, vs⟩ := i
      have : s = [] := he
      subst this; rfl
    rw [this] at h ⊢
    exact C09_roundtrip_partial toUint i h
  · obtain ⟨I, hI, hw, hv⟩ := insert_writing (i := i) i.table.name h.row h.values (dotted_writing ht he)
    obtain ⟨tk, hl, hvis⟩ := writes_lex.mp hw.writes
    have := parse_insert_dot (sp := .std) toUint std_good hl i.table.schema I [] 0 (by rw [hvis, hI]; simp [moreToks])
    refine Eq.trans this ?_
    simp only [List.map_cons, List.map_nil, stmtV, insertV, hI, hv, insertAsText, Writing.unEscape_name ht.1, bareTable]

/-- C09 for a table with a plain name: an INSERT of the kinds of C09 is read back if and only if its table has no
schema. -/
theorem C09_schema_iff (toUint : Str → Option Nat) (i : Insert) (h : PrintableInsert { i with table := bareTable i.table }) (ht : PlainTable i.table) :
    parseQuery toUint i.toStr = .ok [.insert (insertAsText i)] ↔ i.table.schema = [] := by
  rw [C09_schema toUint i h ht]
  constructor
  · intro he
    injection he with he
    injection he with he _
    injection he with he
    have : bareTable i.table = i.table := congrArg Insert.table he
    rw [← this]; rfl
  · intro he
    have : bareTable i.table = i.table := by
      obtain ⟨⟨s, n⟩, vs⟩ := i
      have : s = [] := he
      subst this; rfl
    rw [this]

/-- C10 for a table with a schema: an UPDATE of the kinds of C10 of a table with a plain name is read as the same UPDATE
of a table without a schema whose name is the schema, a dot and the name. -/
theorem C10_update_schema (toUint : Str → Option Nat) (u : Update) (h : PrintableUpdate { u with table := bareTable u.table }) (ht : PlainTable u.table) :
    parseQuery toUint u.toStr = .ok [.update (updateAsText { u with table := { name := dotted u.table } })] := by
  by_cases he : u.table.schema = []
  · have : ({ name := dotted u.table } : Table) = u.table ∧ bareTable u.table = u.table := by
      obtain ⟨⟨s, n⟩, cs, w⟩ := u
      have : s = [] := he
      subst this; exact ⟨rfl, rfl⟩
    rw [this.1]
    rw [this.2] at h
    exact C10_update_partial toUint u h
  · obtain ⟨U, hU, hw, hc, hv⟩ := update_writing (u := u) (n := u.table.name) h.cond h.assigned h.columns (dotted_writing ht he)
    obtain ⟨tk, hl, hvis⟩ := writes_lex.mp hw.writes
    have := parse_update_dot (sp := .std) toUint std_good hl u.table.schema U [] 0 (by rw [hvis, hU]; simp [moreToks])
    refine Eq.trans this ?_
    simp only [List.map_cons, List.map_nil] at hv
    simp only [List.map_cons, List.map_nil, stmtV, updateV, hU, hv, hc, updateAsText, dotted, he, if_false]

/-- C10 for a table with a schema: a DELETE of the kinds of C10 from a table with a plain name is read as the same DELETE
from a table without a schema whose name is the schema, a dot and the name. -/
theorem C10_delete_schema (toUint : Str → Option Nat) (d : Delete) (h : PrintableDelete { d with table := bareTable d.table }) (ht : PlainTable d.table) :
    parseQuery toUint d.toStr = .ok [.delete (deleteAsText { d with table := { name := dotted d.table } })] := by
  by_cases he : d.table.schema = []
  · have : ({ name := dotted d.table } : Table) = d.table ∧ bareTable d.table = d.table := by
      obtain ⟨⟨s, n⟩, w⟩ := d
      have : s = [] := he
      subst this; exact ⟨rfl, rfl⟩
    rw [this.1]
    rw [this.2] at h
    exact C10_delete_partial toUint d h
  · obtain ⟨D, hD, hw, hc⟩ := delete_writing (d := d) (n := d.table.name) h.cond (dotted_writing ht he)
    obtain ⟨tk, hl, hvis⟩ := writes_lex.mp hw.writes
    have := parse_delete_dot (sp := .std) toUint std_good hl d.table.schema D [] 0 (by rw [hvis, hD]; simp [moreToks])
    refine Eq.trans this ?_
    simp only [List.map_cons, List.map_nil, stmtV, deleteV, hD, hc, deleteAsText, dotted, he, if_false]

theorem dotted_iff (t : Table) : ({ name := dotted t } : Table) = t ↔ t.schema = [] := by
  obtain ⟨s, n⟩ := t
  by_cases he : s = []
  · subst he; simp [dotted]
  · simp [he, eq_comm]

/-- C10 for a table with a plain name: an UPDATE or a DELETE of the kinds of C10 is read back if and only if its table has
no schema. -/
theorem C10_schema_iff (toUint : Str → Option Nat) :
    (∀ u : Update, PrintableUpdate { u with table := bareTable u.table } → PlainTable u.table →
      (parseQuery toUint u.toStr = .ok [.update (updateAsText u)] ↔ u.table.schema = [])) ∧
    (∀ d : Delete, PrintableDelete { d with table := bareTable d.table } → PlainTable d.table →
      (parseQuery toUint d.toStr = .ok [.delete (deleteAsText d)] ↔ d.table.schema = [])) := by
  constructor
  · intro u h ht
    rw [C10_update_schema toUint u h ht, ← dotted_iff u.table]
    constructor
    · intro he
      injection he with he
      injection he with he _
      injection he with he
      exact congrArg Update.table he
    · intro he; rw [he]
  · intro d h ht
    rw [C10_delete_schema toUint d h ht, ← dotted_iff d.table]
    constructor
    · intro he
      injection he with he
      injection he with he _
      injection he with he
      exact congrArg Delete.table he
    · intro he; rw [he]

/-- C84 fails for the schema of the table of an INSERT: in any layout, and whatever statements follow, a query that begins
with an INSERT is reported in the same way with any schema written before the table and without one. -/
theorem C84_schema_fails {sp : Spelling} (toUint : Str → Option Nat) (hg : sp.Good) (q q' : Str) (s : Str) (i : InsertS) (ss : List StmtS) (n : Nat)
    (h : Writes q (kw sp .INSERT_ :: kw sp .INTO_ :: ident s :: kw sp .DOT :: (((StmtS.insert i).toks sp).drop 2 ++
      (ss.flatMap (fun s => kw sp .SCOL :: s.toks sp) ++ List.replicate n (kw sp .SCOL)))))
    (h' : Writes q' (queryToks sp (.insert i) ss n)) :
    parseQuery toUint q = parseQuery toUint q' ∧ ∃ vs, parseQuery toUint q = .ok vs ∧ vs.length = ss.length + 1 := by
  obtain ⟨tk, hl, hv⟩ := writes_lex.mp h
  have := parse_insert_dot (sp := sp) toUint hg hl s i ss n (by rw [hv]; simp [moreToks, StmtS.toks, InsertS.toks, valuesToks])
  rw [parse_writes toUint hg (.insert i) ss n h']
  exact ⟨this, _, this, by simp⟩

/-! ### Statements that meet the hypotheses -/

theorem plain_st : PlainTable { schema := s%"s", name := s%"t" } := ⟨name_of (by decide +kernel), .inr (name_of (by decide +kernel))⟩

/-- A SELECT from two tables, one of them with a schema. -/
def selectST : Select :=
  { selectors := [.col { name := s%"a" }], tables := [{ name := s%"t" }, { schema := s%"s", name := s%"t" }], cond := some (cmpOne s%"a") }

theorem selectST_plain : ∀ t ∈ selectST.tables, PlainTable t := by
  intro t ht
  simp only [selectST, List.mem_cons, List.not_mem_nil, or_false] at ht
  rcases ht with rfl | rfl
  · exact ⟨plain_st.1, .inl rfl⟩
  · exact plain_st

theorem selectST_printable : PrintableSelect { selectST with tables := selectST.tables.map bareTable } where
  selected := by simp [selectST]
  selectors := by
    intro x hx
    simp only [selectST, List.mem_cons, List.not_mem_nil, or_false] at hx
    subst hx
    exact .column (Or.inl (any_of (by decide +kernel)))
  some_table := by simp [selectST]
  tables := by
    intro x hx
    simp only [selectST, bareTable, List.map_cons, List.map_nil, List.mem_cons, List.not_mem_nil, or_false, or_self] at hx
    subst hx
    exact .bare (any_of (by decide +kernel))
  cond := by
    intro e he
    injection he with he
    subst he
    exact .one ⟨rfl, any_of (by decide +kernel), by simp, _, rfl, printable_i64 _⟩
  orders := by simp [selectST]
  limit := by decide
  offset := by intro; rfl
  group := Or.inl rfl

example (toUint : Str → Option Nat) (hu : ReadsNumbers toUint) : parseQuery toUint selectST.toStr ≠ .ok [.select (selectAsText selectST)] :=
  fun h => absurd ((C08_schemas_iff toUint hu selectST selectST_printable selectST_plain).mp h) (by decide)
example (toUint : Str → Option Nat) (hu : ReadsNumbers toUint) : ∃ r, parseQuery toUint selectST.toStr = .ok [.select r] ∧
    r.tables = [{ name := s%"t" }, { schema := s%"s", name := s%"s.t" }] :=
  ⟨_, C08_schemas toUint hu selectST selectST_printable selectST_plain, by decide⟩

/-- An INSERT into a table with a schema. -/
def insertST : Insert := { table := { schema := s%"s", name := s%"t" }, values := [[{ name := s%"a", lit := some { v := .i64 1 } }]] }

theorem insertST_printable : PrintableInsert { insertST with table := bareTable insertST.table } where
  table := ⟨_, kept plain_st.1, rfl⟩
  row := ⟨_, [], rfl, by simp, by simp⟩
  values := by
    intro r hr c hc
    simp only [insertST, List.mem_cons, List.not_mem_nil, or_false] at hr
    subst hr
    rw [List.mem_singleton] at hc
    subst hc
    exact ⟨rfl, any_of (by decide +kernel), _, rfl, printable_i64 _⟩

example (toUint : Str → Option Nat) : ∃ r, parseQuery toUint insertST.toStr = .ok [.insert r] ∧ r.table = { name := s%"t" } :=
  ⟨_, C09_schema toUint insertST insertST_printable plain_st, rfl⟩
example (toUint : Str → Option Nat) : parseQuery toUint insertST.toStr ≠ .ok [.insert (insertAsText insertST)] :=
  fun h => absurd ((C09_schema_iff toUint insertST insertST_printable plain_st).mp h) (by decide)
example (toUint : Str → Option Nat) : ∃ r, parseQuery toUint
    (Update.toStr { table := { schema := s%"s", name := s%"t" }, columns := [{ name := s%"a", lit := some { v := .i64 1 } }], cond := some (cmpOne s%"b") }) = .ok [.update r] ∧
    r.table = { name := s%"s.t" } := by
  refine ⟨_, C10_update_schema toUint _ ⟨⟨_, any_of (n := s%"t") (by decide +kernel), rfl⟩, by simp, ?_, ?_⟩ plain_st, rfl⟩
  · intro c hc
    simp only [List.mem_cons, List.not_mem_nil, or_false] at hc
    subst hc
    exact .lit ⟨rfl, any_of (by decide +kernel), _, rfl, printable_i64 _⟩
  · intro e he
    injection he with he
    subst he
    exact .one ⟨rfl, any_of (by decide +kernel), by simp, _, rfl, printable_i64 _⟩
example (toUint : Str → Option Nat) : parseQuery toUint (Delete.toStr { table := { schema := s%"s", name := s%"t" }, cond := some (cmpOne s%"b") }) =
    .ok [.delete { table := { name := s%"s.t" }, cond := some (exprAsText (cmpOne s%"b")) }] := by
  refine C10_delete_schema toUint { table := { schema := s%"s", name := s%"t" }, cond := some (cmpOne s%"b") } ⟨⟨_, any_of (n := s%"t") (by decide +kernel), rfl⟩, ?_⟩ plain_st
  intro e he
  injection he with he
  subst he
  exact .one ⟨rfl, any_of (by decide +kernel), by simp, _, rfl, printable_i64 _⟩
example (toUint : Str → Option Nat) : parseQuery toUint (Delete.toStr { table := { schema := s%"s", name := s%"t" }, cond := none }) ≠
    .ok [.delete { table := { schema := s%"s", name := s%"t" }, cond := none }] := by
  refine fun h => absurd (((C10_schema_iff toUint).2 { table := { schema := s%"s", name := s%"t" }, cond := none } ⟨⟨_, any_of (n := s%"t") (by decide +kernel), rfl⟩, ?_⟩ plain_st).mp h) (by decide)
  intro e he
  cases he
example : Writes s%"INSERT INTO s.t (a) VALUES (1); BEGIN;"
    (kw .std .INSERT_ :: kw .std .INTO_ :: ident s%"s" :: kw .std .DOT :: (((StmtS.insert ⟨s%"t", s%"a", [], ⟨.num s%"1", []⟩, []⟩).toks .std).drop 2 ++
      ([StmtS.ddl .begin].flatMap (fun s => kw .std .SCOL :: s.toks .std) ++ List.replicate 1 (kw .std .SCOL)))) :=
  writes_lex.mpr ⟨_, rfl, by decide +kernel⟩
example : Writes s%"INSERT INTO t (a) VALUES (1); BEGIN;" (queryToks .std (.insert ⟨s%"t", s%"a", [], ⟨.num s%"1", []⟩, []⟩) [.ddl .begin] 1) :=
  writes_lex.mpr ⟨_, rfl, by decide +kernel⟩

end Verif.Props
