import Verif.Props.Ddl
import Verif.Lemmas.DdlSchemas
/-! C105 for tables with schemas. -/
namespace Verif.Props
open Verif Verif.Lex Verif.Gram Verif.Spec Verif.Query Verif.Parse

/-- C105 for DROP TABLE with plain names: if at most the first table has a schema, the text is read as the statement on
the tables of these names without schemas; if another table has one, the text is a syntax error. -/
theorem C105_drop_table (toUint : Str → Option Nat) (ts : List Table) (b : Bool) (hne : ts ≠ []) (h : ∀ t ∈ ts, PlainTable t) :
    ∃ q, (Statement.dropTable ts b).toStr = .ok q ∧
      ((∀ t ∈ ts.tail, t.schema = []) → parseQuery toUint q = .ok [.dropTable (ts.map bareTable) b]) ∧
      ((¬ ∀ t ∈ ts.tail, t.schema = []) → parseQuery toUint q = .err) := by
  have hw : Writing (Util.joinWithSpace ([s%"DROP", s%"TABLE"] ++ (if b then [ifExistsString b] else []) ++ [tablesString ts]))
      (kw .std .DROP_ :: kw .std .TABLE_ :: (ieToks .std b ++ Spec.commas .std (ts.map (fun t => (tabOf t).toks .std)))) := by
    have := Writing.spaces (.cons (Writing.keyword .DROP_ (by decide +kernel)) (.cons (Writing.keyword .TABLE_ (by decide +kernel))
    ((Writing.ieParts b).append (.one (tabsOf_writing h)))))
    simpa [Spelling.std] using this
  refine ⟨_, rfl, ?_⟩
  obtain ⟨t, ts, rfl⟩ : ∃ t l, ts = t :: l := by
    cases ts with
    | nil => exact absurd rfl hne
    | cons t l => exact ⟨t, l, rfl⟩
  have e : (tabOf t).toks .std = dotToks .std (tabOf t).schema ++ [ident t.name] := by
    unfold tabOf; split <;> rfl
  rw [commas_map, e] at hw
  rw [List.tail_cons]
  rcases tails_cases ts with ⟨h1, h2⟩ | ⟨h1, n, ns, r, h2⟩
  · refine ⟨fun _ => ?_, fun hn => absurd h1 hn⟩
    obtain ⟨tk, hl, hv⟩ := writes_lex.mp hw.writes
    have := parse_loose (sp := .std) toUint std_good hl (.dropTable b (tabOf t).schema t.name (ts.map Table.name) false) [] 0 (by
      rw [hv, h2, LooseS.toks, commas_map]; simp [moreToks, flagToks, Spelling.std, kw])
    refine Eq.trans this ?_
    have := unEscape_names h
    simp only [LooseS.bare, ddlV, List.map_cons, List.map_nil] at this ⊢
    rw [this]
  · refine ⟨fun hn => absurd hn h1, fun _ => ?_⟩
    refine parse_none toUint (ts := kw .std .DROP_ :: kw .std .TABLE_ :: (ieToks .std b ++ (dotToks .std (tabOf t).schema ++ ident t.name ::
      (tailToks .std (fun c => [ident c]) (n :: ns) ++ kw .std .DOT :: r)))) ?_ (query_no Heads.kw (by simp) (fun hq => drop_no b _ _ _ (by simp) _ hq))
    have := hw [] [] rfl Lx.nil
    rw [h2] at this
    simpa using this

/-- C105 for DROP TABLE with plain names: the text is read as the statement if and only if no table has a schema. -/
theorem C105_drop_table_iff (toUint : Str → Option Nat) (ts : List Table) (b : Bool) (hne : ts ≠ []) (h : ∀ t ∈ ts, PlainTable t) :
    (∃ q, (Statement.dropTable ts b).toStr = .ok q ∧ parseQuery toUint q = .ok [.dropTable ts b]) ↔ ∀ t ∈ ts, t.schema = [] := by
  obtain ⟨q, hq, h1, h2⟩ := C105_drop_table toUint ts b hne h
  constructor
  · rintro ⟨q', hq', hp⟩
    rw [hq] at hq'
    injection hq' with hq'
    subst hq'
    by_cases ht : ∀ t ∈ ts.tail, t.schema = []
    · rw [h1 ht] at hp
      have hm : ts.map bareTable = ts := by simpa using hp
      intro t ht
      rw [← hm] at ht
      obtain ⟨x, -, rfl⟩ := List.mem_map.mp ht
      rfl
    · rw [h2 ht] at hp; cases hp
  · intro ha
    exact ⟨q, hq, by rw [h1 (fun t ht => ha t (List.mem_of_mem_tail ht)), bare_map ha]⟩

/-- C105 for TRUNCATE with plain names: the text is read as the statement if no table has a schema, and is a syntax
error otherwise. -/
theorem C105_truncate (toUint : Str → Option Nat) (ts : List Table) (hne : ts ≠ []) (h : ∀ t ∈ ts, PlainTable t) :
    ∃ q, (Statement.truncate ts).toStr = .ok q ∧
      ((∀ t ∈ ts, t.schema = []) → parseQuery toUint q = .ok [.truncate ts]) ∧
      ((¬ ∀ t ∈ ts, t.schema = []) → parseQuery toUint q = .err) := by
  have hw : Writing (Util.joinWithSpace [s%"TRUNCATE", s%"TABLE", tablesString ts])
      (kw .std .TRUNCATE_ :: kw .std .TABLE_ :: Spec.commas .std (ts.map (fun t => (tabOf t).toks .std))) := by
    have := Writing.spaces (.cons (Writing.keyword .TRUNCATE_ (by decide +kernel)) (.cons (Writing.keyword .TABLE_ (by decide +kernel)) (.one (tabsOf_writing h))))
    simpa [Spelling.std] using this
  refine ⟨_, rfl, ?_, ?_⟩
  · intro ha
    obtain ⟨q, hq, hp⟩ := C105_roundtrip_partial toUint (.truncate ts) (.truncate hne (fun t ht => ⟨t.name, (h t ht).1, by
      obtain ⟨s, n⟩ := t
      have : s = [] := ha _ ht
      subst this; rfl⟩))
    have : q = Util.joinWithSpace [s%"TRUNCATE", s%"TABLE", tablesString ts] := by injection hq with hq; exact hq.symm
    rw [← this]; exact hp
  · intro hn
    obtain ⟨t, ts, rfl⟩ : ∃ t l, ts = t :: l := by
      cases ts with
      | nil => exact absurd rfl hne
      | cons t l => exact ⟨t, l, rfl⟩
    rw [commas_map] at hw
    have key : ∃ n ns r, (tabOf t).toks .std ++ tailToks .std (fun t => (tabOf t).toks .std) ts = ident n :: (tailToks .std (fun c => [ident c]) ns ++ kw .std .DOT :: r) := by
      obtain ⟨s, n⟩ := t
      by_cases he : s = []
      · subst he
        rcases tails_cases ts with ⟨h1, -⟩ | ⟨-, m, ms, r, h2⟩
        · exact absurd (by simpa using h1) hn
        · exact ⟨n, m :: ms, r, by rw [h2]; simp [tabOf, TabS.toks]⟩
      · exact ⟨s, [], ident n :: tailToks .std (fun t => (tabOf t).toks .std) ts, by simp [tabOf, TabS.toks, he, tailToks]⟩
    obtain ⟨n, ns, r, hk⟩ := key
    rw [hk] at hw
    refine parse_none toUint ?_ (query_no (Heads.kw (sp := .std)) (by simp) (fun hq => truncate_no (sp := .std) n ns r hq))
    have := hw [] [] rfl Lx.nil
    simpa using this

/-- C105 for VACUUM: the text of the statement on a table with a schema is a syntax error, for all plain names. -/
theorem C105_vacuum_fails (toUint : Str → Option Nat) (t : Table) (h : PlainTable t) (hs : t.schema ≠ []) :
    ∃ q, (Statement.vacuum (some t)).toStr = .ok q ∧ parseQuery toUint q = .err := by
  refine ⟨_, rfl, ?_⟩
  have hw := Writing.spaces (.cons (Writing.keyword .VACUUM_ (by decide +kernel)) (.one (tabOf_writing h)))
  have := hw [] [] rfl Lx.nil
  rw [show (tabOf t).toks .std = [ident t.schema, kw .std .DOT, ident t.name] by simp [tabOf, TabS.toks, hs]] at this
  exact parse_none toUint (by simpa [Spelling.std] using this) (vacuum_no t.schema t.name)

/-- C105 for CREATE INDEX: the text of the statement on a table with a schema is a syntax error, for all plain names of
the table and the index, and whatever the columns and further indexes. -/
theorem C105_create_index_fails (toUint : Str → Option Nat) (s : Schema) (i : Index) (is : List Index) (b : Bool) (hi : s.indexes = i :: is) (hn : Name i.name)
    (h : PlainTable s.table) (hs : s.table.schema ≠ []) :
    ∃ q, (Statement.createIndex s b).toStr = .ok q ∧ parseQuery toUint q = .err := by
  refine ⟨_, rfl, ?_⟩
  obtain ⟨r, hr⟩ := lx_any ('(' :: (Util.joinWithComma (columnNames i.columns) ++ s%")"))
  have hw := Writing.spaces (.cons (Writing.keyword .CREATE_ (by decide +kernel)) (.cons (Writing.keyword .INDEX_ (by decide +kernel)) ((Writing.ineParts b).append
    (.cons (Writing.name hn) (.cons (Writing.keyword .ON_ (by decide +kernel)) (.one (tabOf_writing h)))))))
  have := hw _ _ rfl hr
  rw [show (tabOf s.table).toks .std = [ident s.table.schema, kw .std .DOT, ident s.table.name] by simp [tabOf, TabS.toks, hs]] at this
  refine parse_none toUint ?_ (query_no (Heads.kw (sp := .std)) (by simp) (fun _ => index_no (sp := .std) b i.name s.table.schema (ident s.table.name :: r)))
  cases b <;> simpa [createIndexString, hi, Util.joinWithSpace, Str.join, Spelling.std] using this

/-- Two tables, the second with a schema. -/
def twoTables : List Table := [{ name := s%"a" }, { schema := s%"s", name := s%"b" }]

theorem twoTables_plain : ∀ t ∈ twoTables, PlainTable t := by
  intro t ht
  simp only [twoTables, List.mem_cons, List.not_mem_nil, or_false] at ht
  rcases ht with rfl | rfl
  · exact ⟨name_of (by decide +kernel), .inl rfl⟩
  · exact ⟨name_of (by decide +kernel), .inr (name_of (by decide +kernel))⟩

example (toUint : Str → Option Nat) : ∃ q, (Statement.dropTable twoTables true).toStr = .ok q ∧ parseQuery toUint q = .err := by
  obtain ⟨q, h1, -, h2⟩ := C105_drop_table toUint twoTables true (by decide) twoTables_plain
  exact ⟨q, h1, h2 (by decide)⟩
example (toUint : Str → Option Nat) : ¬ ∃ q, (Statement.dropTable twoTables true).toStr = .ok q ∧ parseQuery toUint q = .ok [.dropTable twoTables true] := by
  rw [C105_drop_table_iff toUint twoTables true (by decide) twoTables_plain]; decide
example (toUint : Str → Option Nat) : ∃ q, (Statement.truncate twoTables).toStr = .ok q ∧ parseQuery toUint q = .err := by
  obtain ⟨q, h1, -, h2⟩ := C105_truncate toUint twoTables (by decide) twoTables_plain
  exact ⟨q, h1, h2 (by decide)⟩
example (toUint : Str → Option Nat) : ∃ q, (Statement.vacuum (some { schema := s%"s", name := s%"b" })).toStr = .ok q ∧ parseQuery toUint q = .err :=
  C105_vacuum_fails toUint _ (twoTables_plain _ (by simp [twoTables])) (by decide)
example (toUint : Str → Option Nat) : ∃ q, (Statement.createIndex { table := { schema := s%"s", name := s%"b" }, indexes := [newSecondaryIndexWith s%"i" [{ name := s%"c" }]] } true).toStr = .ok q ∧
    parseQuery toUint q = .err :=
  C105_create_index_fails toUint _ _ _ true rfl (name_of (by decide +kernel)) (twoTables_plain _ (by simp [twoTables])) (by decide)

end Verif.Props
