import Verif.Lemmas.Find
/-! Properties C11–C20: lookups, schema changes, table names, coercion. -/
namespace Verif.Props
open Verif Verif.Util Verif.Query Verif.Spec Verif.Lemmas

/-! ### C11, C12: lookups -/

private theorem index_from (cs : List Column) (n : Str) (k : Nat) :
    lookupIndexOfColumnFrom k cs n = (cs.findIdx? (fun c => Str.eqFold c.name n)).map (· + k) := by
  induction cs generalizing k with
  | nil => simp [lookupIndexOfColumnFrom]
  | cons c cs ih =>
    simp only [lookupIndexOfColumnFrom, List.findIdx?_cons]
    split
    · simp
    · rw [ih]; cases cs.findIdx? (fun c => Str.eqFold c.name n) <;> simp; omega

private theorem indexIdx_from (is : List Index) (n : Str) (k : Nat) :
    lookupIndexOfIndexFrom k is n = (is.findIdx? (fun c => Str.eqFold c.name n)).map (· + k) := by
  induction is generalizing k with
  | nil => simp [lookupIndexOfIndexFrom]
  | cons c cs ih =>
    simp only [lookupIndexOfIndexFrom, List.findIdx?_cons]
    split
    · simp
    · rw [ih]; cases cs.findIdx? (fun c => Str.eqFold c.name n) <;> simp; omega

private theorem findIdx_firstAt {α : Type} (p : α → Bool) (l : List α) (i : Nat) :
    l.findIdx? p = some i ↔ ∃ x, FirstAt (fun y => p y = true) l i x := by
  rw [List.findIdx?_eq_some_iff_getElem]
  constructor
  · rintro ⟨h, h1, h2⟩
    refine ⟨l[i], by simp [h], h1, ?_⟩
    intro j y hj hy
    obtain ⟨hjl, rfl⟩ := List.getElem?_eq_some_iff.mp hy
    exact h2 j hj
  · rintro ⟨x, h1, h2, h3⟩
    obtain ⟨hi, rfl⟩ := List.getElem?_eq_some_iff.mp h1
    refine ⟨hi, h2, ?_⟩
    intro j hj
    exact h3 j l[j] hj (by simp)

private theorem firstAt_unique {α : Type} {p : α → Prop} {l : List α} {i j : Nat} {x y : α}
    (h : FirstAt p l i x) (h' : FirstAt p l j y) : i = j ∧ x = y := by
  have hij : i = j := by
    rcases Nat.lt_trichotomy i j with hl | he | hg
    · exact absurd h.2.1 (h'.2.2 i x hl h.1)
    · exact he
    · exact absurd h'.2.1 (h.2.2 j y hg h'.1)
  subst hij
  exact ⟨rfl, by have := h.1.symm.trans h'.1; simpa using this⟩

/-- C11: the column lookup returns the first column with the name (ignoring case) and fails exactly when
there is none; the index lookup returns the position of that column. -/
theorem C11_lookup_column (cs : List Column) (n : Str) :
    (∀ c, lookupColumn cs n = some c ↔ ∃ i, FirstAt (fun d : Column => SameName d.name n) cs i c) ∧
    (∀ i, lookupIndexOfColumn cs n = some i ↔ ∃ c, FirstAt (fun d : Column => SameName d.name n) cs i c) ∧
    (lookupColumn cs n = none ↔ NoneOf (fun d : Column => SameName d.name n) cs) ∧
    (lookupIndexOfColumn cs n = none ↔ NoneOf (fun d : Column => SameName d.name n) cs) := by
  have e : (fun d : Column => SameName d.name n) = (fun d => Str.eqFold d.name n = true) :=
    funext fun d => propext (sameName_iff d.name n).symm
  simp only [e]
  have hi : lookupIndexOfColumn cs n = cs.findIdx? (fun c => Str.eqFold c.name n) := by
    rw [lookupIndexOfColumn, index_from]; cases cs.findIdx? (fun c => Str.eqFold c.name n) <;> simp
  refine ⟨fun c => find?_iff_firstAt _ cs c, fun i => ?_, find?_none_iff _ cs, ?_⟩
  · rw [hi]; exact findIdx_firstAt _ cs i
  · rw [hi, List.findIdx?_eq_none_iff]; simp [NoneOf]

example : lookupIndexOfColumn [{ name := s%"a" }, { name := s%"Name" }, { name := s%"NAME" }] s%"name" = some 1 := by
  decide +kernel

/-- C12: the same for indexes. -/
theorem C12_lookup_index (is : List Index) (n : Str) :
    (∀ x, lookupIndex is n = some x ↔ ∃ i, FirstAt (fun d : Index => SameName d.name n) is i x) ∧
    (∀ i, lookupIndexOfIndex is n = some i ↔ ∃ x, FirstAt (fun d : Index => SameName d.name n) is i x) ∧
    (lookupIndex is n = none ↔ NoneOf (fun d : Index => SameName d.name n) is) ∧
    (lookupIndexOfIndex is n = none ↔ NoneOf (fun d : Index => SameName d.name n) is) := by
  have e : (fun d : Index => SameName d.name n) = (fun d => Str.eqFold d.name n = true) :=
    funext fun d => propext (sameName_iff d.name n).symm
  simp only [e]
  have hi : lookupIndexOfIndex is n = is.findIdx? (fun c => Str.eqFold c.name n) := by
    rw [lookupIndexOfIndex, indexIdx_from]; cases is.findIdx? (fun c => Str.eqFold c.name n) <;> simp
  refine ⟨fun c => find?_iff_firstAt _ is c, fun i => ?_, find?_none_iff _ is, ?_⟩
  · rw [hi]; exact findIdx_firstAt _ is i
  · rw [hi, List.findIdx?_eq_none_iff]; simp [NoneOf]

example : lookupIndexOfIndex [⟨s%"i1", .secondary, []⟩, ⟨s%"I2", .secondary, []⟩] s%"i2" = some 1 := by decide +kernel

/-! ### C13, C14: dropping -/

private theorem exists_firstAt {α : Type} (p : α → Prop) [DecidablePred p] (l : List α) (h : ∃ x ∈ l, p x) :
    ∃ i x, FirstAt p l i x := by
  cases hf : l.find? (fun x => decide (p x)) with
  | none =>
    obtain ⟨x, hx, hp⟩ := h
    have := List.find?_eq_none.mp hf x hx
    simp [hp] at this
  | some x =>
    obtain ⟨i, hi⟩ := (find?_iff_firstAt _ l x).mp hf
    exact ⟨i, x, by simpa [FirstAt] using hi⟩

/-- the shared loop of DropColumn and DropIndex never meets the specification on a non-empty list -/
private theorem drop_never {α : Type} (nm : α → Str) (n : Str) (l l' : List α) (ok : Bool)
    (hm : (∃ i x, FirstAt (fun y => ¬ SameName (nm y) n) l i x ∧ l' = l.take i ++ l.drop (i + 1) ∧ ok = true) ∨
      ((∀ x ∈ l, SameName (nm x) n) ∧ l' = l ∧ ok = false)) :
    DropSpec nm n l l' ok ↔ l = [] := by
  constructor
  · intro hs
    unfold DropSpec at hs
    rcases hm with ⟨i, x, hf, hl, hok⟩ | ⟨hall, hl, hok⟩
    · split at hs
      · next hex =>
        obtain ⟨_, hr⟩ := hs
        obtain ⟨j, y, hg, hl'⟩ := (removedFirst_eraseIdx _ l l').mp hr
        have hne : i ≠ j := by
          rintro rfl
          have := hf.1.symm.trans hg.1
          simp at this; subst this
          exact hf.2.1 hg.2.1
        have he : l.take i ++ l.drop (i + 1) = l.take j ++ l.drop (j + 1) := hl ▸ hl'
        rcases Nat.lt_or_gt_of_ne hne with h | h
        · have := erase_eq_imp l i j x y h hf.1 hg.1 he
          subst this; exact absurd hg.2.1 hf.2.1
        · have := erase_eq_imp l j i y x h hg.1 hf.1 he.symm
          subst this; exact absurd hg.2.1 hf.2.1
      · rw [hok] at hs; simp at hs
    · split at hs
      · rw [hok] at hs; simp at hs
      · next hex =>
        cases l with
        | nil => rfl
        | cons a l => exact absurd ⟨a, by simp, hall a (by simp)⟩ hex
  · rintro rfl
    rcases hm with ⟨i, x, hf, _⟩ | ⟨_, hl, hok⟩
    · simp [FirstAt] at hf
    · simp [DropSpec, hl, hok]

theorem dropColumn_cases (s : Schema) (n : Str) :
    (∃ i x, FirstAt (fun y : Column => ¬ SameName y.name n) s.columns i x ∧
      (s.dropColumn n).1.columns = s.columns.take i ++ s.columns.drop (i + 1) ∧ (s.dropColumn n).2 = true) ∨
    ((∀ x ∈ s.columns, SameName x.name n) ∧ (s.dropColumn n).1.columns = s.columns ∧ (s.dropColumn n).2 = false) := by
  unfold Schema.dropColumn
  split
  · next h =>
    right
    rw [List.findIdx?_eq_none_iff] at h
    refine ⟨fun x hx => (sameName_iff _ _).mp ?_, rfl, rfl⟩
    simpa using h x hx
  · next i h =>
    left
    obtain ⟨x, hx⟩ := (findIdx_firstAt _ _ _).mp h
    refine ⟨i, x, ?_, rfl, rfl⟩
    exact (firstAt_congr (fun y => by rw [← sameName_iff]; simp) _ _ _).mp hx

private theorem dropIndex_cases (s : Schema) (n : Str) :
    (∃ i x, FirstAt (fun y : Index => ¬ SameName y.name n) s.indexes i x ∧
      (s.dropIndex n).1.indexes = s.indexes.take i ++ s.indexes.drop (i + 1) ∧ (s.dropIndex n).2 = true) ∨
    ((∀ x ∈ s.indexes, SameName x.name n) ∧ (s.dropIndex n).1.indexes = s.indexes ∧ (s.dropIndex n).2 = false) := by
  unfold Schema.dropIndex
  split
  · next h =>
    right
    rw [List.findIdx?_eq_none_iff] at h
    refine ⟨fun x hx => (sameName_iff _ _).mp ?_, rfl, rfl⟩
    simpa using h x hx
  · next i h =>
    left
    obtain ⟨x, hx⟩ := (findIdx_firstAt _ _ _).mp h
    refine ⟨i, x, ?_, rfl, rfl⟩
    exact (firstAt_congr (fun y => by rw [← sameName_iff]; simp) _ _ _).mp hx

/-- C13 characterised: DropColumn meets its specification exactly on a schema without columns. -/
theorem C13_drop_column_iff (s : Schema) (n : Str) :
    DropSpec (fun c : Column => c.name) n s.columns (s.dropColumn n).1.columns (s.dropColumn n).2 ↔ s.columns = [] :=
  drop_never _ n _ _ _ (dropColumn_cases s n)

/-- C13 as stated is false: dropping `b` from (a, b) keeps `b` and removes `a`. -/
theorem C13_drop_column_fails : ∃ s : Schema, ∃ n,
    (s.dropColumn n).2 = true ∧ lookupColumn s.columns n ≠ none ∧
    (s.dropColumn n).1.columns.map (·.name) = [n] :=
  ⟨newSchemaWith s%"t" [{ name := s%"a" }, { name := s%"b" }], s%"b", by decide +kernel⟩

/-- C13, what does hold: at most one column disappears, nothing is reordered, indexes and table are kept,
and a failing call changes nothing. Missing: that the column removed is the one named (false). -/
theorem C13_drop_column_partial (s : Schema) (n : Str) :
    let r := s.dropColumn n
    r.1.indexes = s.indexes ∧ r.1.table = s.table ∧
    (r.2 = false → r.1 = s) ∧
    (r.2 = true → RemovedFirst (fun c : Column => ¬ SameName c.name n) s.columns r.1.columns) := by
  refine ⟨?_, ?_, ?_, ?_⟩
  · unfold Schema.dropColumn; split <;> rfl
  · unfold Schema.dropColumn; split <;> rfl
  · unfold Schema.dropColumn; split <;> simp
  · intro hok
    rcases dropColumn_cases s n with ⟨i, x, hf, hl, _⟩ | ⟨_, _, hno⟩
    · exact (removedFirst_eraseIdx _ _ _).mpr ⟨i, x, hf, hl⟩
    · rw [hok] at hno; cases hno

example : let s := newSchemaWith s%"t" [{ name := s%"a" }, { name := s%"b" }, { name := s%"c" }]
    (s.dropColumn s%"c").2 = true ∧ ((s.dropColumn s%"c").1.columns.map (·.name) = [s%"b", s%"c"]) := by
  decide +kernel

/-- C14 characterised: DropIndex meets its specification exactly on a schema without indexes. -/
theorem C14_drop_index_iff (s : Schema) (n : Str) :
    DropSpec (fun c : Index => c.name) n s.indexes (s.dropIndex n).1.indexes (s.dropIndex n).2 ↔ s.indexes = [] :=
  drop_never _ n _ _ _ (dropIndex_cases s n)

/-- C14 as stated is false: the only index of a schema cannot be dropped by its name. -/
theorem C14_drop_index_fails : ∃ s : Schema, ∃ n,
    (s.dropIndex n).2 = false ∧ lookupIndex s.indexes n ≠ none :=
  ⟨newSchemaWith s%"t" [] [⟨s%"i", .secondary, []⟩], s%"i", by decide +kernel⟩

/-- C14, what does hold; see C13. -/
theorem C14_drop_index_partial (s : Schema) (n : Str) :
    let r := s.dropIndex n
    r.1.columns = s.columns ∧ r.1.table = s.table ∧
    (r.2 = false → r.1 = s) ∧
    (r.2 = true → RemovedFirst (fun c : Index => ¬ SameName c.name n) s.indexes r.1.indexes) := by
  refine ⟨?_, ?_, ?_, ?_⟩
  · unfold Schema.dropIndex; split <;> rfl
  · unfold Schema.dropIndex; split <;> rfl
  · unfold Schema.dropIndex; split <;> simp
  · intro hok
    rcases dropIndex_cases s n with ⟨i, x, hf, hl, _⟩ | ⟨_, _, hno⟩
    · exact (removedFirst_eraseIdx _ _ _).mpr ⟨i, x, hf, hl⟩
    · rw [hok] at hno; cases hno

/-! ### C15: adding -/

/-- A schema-building call. -/
inductive AddOp | col (c : Column) | idx (i : Index)

/-- Running a history of AddColumn/AddIndex calls. -/
def addAll (s : Schema) : List AddOp → Schema
  | [] => s
  | .col c :: os => addAll (s.addColumn c) os
  | .idx i :: os => addAll (s.addIndex i) os

/-- C15: for every history of additions, the columns (indexes) are the old ones followed by the added
ones in order, positions are kept, and successful lookups are unchanged. -/
theorem C15_add_extends (s : Schema) (os : List AddOp) :
    let r := addAll s os
    r.table = s.table ∧
    r.columns = s.columns ++ os.filterMap (fun o => match o with | .col c => some c | .idx _ => none) ∧
    r.indexes = s.indexes ++ os.filterMap (fun o => match o with | .col _ => none | .idx i => some i) ∧
    (∀ (i : Nat) c, s.columns[i]? = some c → r.columns[i]? = some c) ∧
    (∀ (i : Nat) c, s.indexes[i]? = some c → r.indexes[i]? = some c) ∧
    (∀ n c, lookupColumn s.columns n = some c → lookupColumn r.columns n = some c) ∧
    (∀ n c, lookupIndex s.indexes n = some c → lookupIndex r.indexes n = some c) := by
  have h : ∀ (os : List AddOp) (s : Schema), (addAll s os).table = s.table ∧
      (addAll s os).columns = s.columns ++ os.filterMap (fun o => match o with | .col c => some c | .idx _ => none) ∧
      (addAll s os).indexes = s.indexes ++ os.filterMap (fun o => match o with | .col _ => none | .idx i => some i) := by
    intro os
    induction os with
    | nil => intro s; simp [addAll]
    | cons o os ih =>
      intro s
      cases o with
      | col c => have := ih (s.addColumn c); simpa [addAll, Schema.addColumn, List.append_assoc] using this
      | idx i => have := ih (s.addIndex i); simpa [addAll, Schema.addIndex, List.append_assoc] using this
  obtain ⟨h1, h2, h3⟩ := h os s
  refine ⟨h1, h2, h3, ?_, ?_, ?_, ?_⟩
  · intro i c hc
    rw [h2, List.getElem?_append_left (List.getElem?_eq_some_iff.mp hc).1, hc]
  · intro i c hc
    rw [h3, List.getElem?_append_left (List.getElem?_eq_some_iff.mp hc).1, hc]
  · intro n c hc
    rw [h2, lookupColumn, List.find?_append]
    simp [lookupColumn] at hc; simp [hc]
  · intro n c hc
    rw [h3, lookupIndex, List.find?_append]
    simp [lookupIndex] at hc; simp [hc]

example : lookupColumn (addAll (newSchemaWith s%"t" [{ name := s%"a" }])
    [.col { name := s%"A", args := [s%"x"] }, .idx ⟨s%"i", .primary, []⟩]).columns s%"A" = some { name := s%"a" } := by
  decide +kernel

/-! ### C16: ALTER TABLE -/

/-- C16 as stated is false: a statement that adds a column and renames the table fails and leaves the
column added. -/
theorem C16_alter_atomic_fails : ∃ (s : Schema) (a : AlterTable), (s.alter a).2 = .err ∧ (s.alter a).1 ≠ s :=
  ⟨newSchemaWith s%"t",
   { table := { name := s%"t" }, addColumn := some { name := s%"a", def_ := some { typ := .int, length := -1 } },
     renameTo := some { name := s%"u" } }, by decide +kernel⟩

/-- C16, the part that holds: a statement with at most one clause (all the parser produces) that does not
succeed leaves the schema as it was. Missing: statements built with several clauses (false). -/
theorem C16_alter_atomic_partial (s : Schema) (a : AlterTable) (h1 : clauseCount a ≤ 1)
    (he : (s.alter a).2 ≠ .ok ()) : (s.alter a).1 = s := by
  obtain ⟨tb, rt, rf, rc, ac, ai, dc, di⟩ := a
  have dcf := fun n => (C13_drop_column_partial s n).2.2.1
  have dif := fun n => (C14_drop_index_partial s n).2.2.1
  revert h1 he
  simp only [clauseCount]
  cases ac with
  | some c =>
    cases ai <;> cases dc <;> cases di <;> cases rt <;> cases rf <;> cases rc <;>
      simp [Schema.alter, Schema.alterDropColumn, Schema.alterDropIndex, Schema.alterRename] <;> omega
  | none =>
    cases ai with
    | some i =>
      cases dc <;> cases di <;> cases rt <;> cases rf <;> cases rc <;>
        simp [Schema.alter, Schema.alterDropColumn, Schema.alterDropIndex, Schema.alterRename] <;> omega
    | none =>
      cases dc with
      | some c =>
        cases di <;> cases rt <;> cases rf <;> cases rc <;>
          simp [Schema.alter, Schema.alterDropColumn, Schema.alterDropIndex, Schema.alterRename] <;>
          (try omega) <;> (split <;> simp <;> (next h => exact dcf _ (by simpa using h)))
      | none =>
        cases di with
        | some i =>
          cases rt <;> cases rf <;> cases rc <;>
            simp [Schema.alter, Schema.alterDropColumn, Schema.alterDropIndex, Schema.alterRename] <;>
            (try omega) <;> (split <;> simp <;> (next h => exact dif _ (by simpa using h)))
        | none =>
          cases rt <;> cases rf <;> cases rc <;>
            simp [Schema.alter, Schema.alterDropColumn, Schema.alterDropIndex, Schema.alterRename]

example : let a : AlterTable := { table := { name := s%"t" }, renameTo := some { name := s%"u" } }
    clauseCount a ≤ 1 ∧ ((newSchemaWith s%"t" [{ name := s%"a" }]).alter a).2 ≠ .ok () := by decide +kernel

/-! ### C17, C18: table names -/

private theorem hasDot (s : Str) : Str.hasSub s s%"." = true ↔ '.' ∈ s := Str.hasSub_single s '.'

/-- C17: the full name is the bare name when there is no schema or the name already contains a dot,
`schema.name` otherwise, empty for an empty name; qualifying a full name again changes nothing. -/
theorem C17_full_table_name (sch name : Str) :
    let full := Table.fullTableName { schema := sch, name := name }
    (name = [] → full = []) ∧
    (name ≠ [] → sch = [] ∨ '.' ∈ name → full = name) ∧
    (name ≠ [] → sch ≠ [] → '.' ∉ name → full = sch ++ '.' :: name) ∧
    Table.fullTableName { schema := sch, name := full } = full := by
  have h1 : name = [] → Table.fullTableName { schema := sch, name := name } = [] := by
    rintro rfl; simp [Table.fullTableName]
  have h2 : name ≠ [] → sch = [] ∨ '.' ∈ name → Table.fullTableName { schema := sch, name := name } = name := by
    intro hn h
    have hp : 0 < name.length := List.length_pos_iff.mpr hn
    rcases h with rfl | h
    · simp [Table.fullTableName, hp]
    · simp [Table.fullTableName, hp, (hasDot name).mpr h]
  have h3 : name ≠ [] → sch ≠ [] → '.' ∉ name →
      Table.fullTableName { schema := sch, name := name } = sch ++ '.' :: name := by
    intro hn hs h
    have hp : 0 < name.length := List.length_pos_iff.mpr hn
    have hq : 0 < sch.length := List.length_pos_iff.mpr hs
    have hf : Str.hasSub name s%"." = false := by
      rw [Bool.eq_false_iff]; exact fun e => h ((hasDot name).mp e)
    simp [Table.fullTableName, hp, hq, hf, Str.join]
  refine ⟨h1, h2, h3, ?_⟩
  by_cases hn : name = []
  · rw [h1 hn]; simp [Table.fullTableName]
  · by_cases hs : sch = [] ∨ '.' ∈ name
    · rw [h2 hn hs, h2 hn hs]
    · simp only [not_or] at hs
      rw [h3 hn hs.1 hs.2]
      have hp : 0 < sch.length + (name.length + 1) := by omega
      simp [Table.fullTableName, (hasDot (sch ++ '.' :: name)).mpr (by simp), hp]

example : Table.fullTableName { schema := s%"s", name := s%"t" } = s%"s.t" := by decide +kernel

/-- C18: membership holds exactly when some given name equals some listed table name ignoring case; the
printed list is the full names in order. -/
theorem C18_has_table (ts : List Table) (names : List Str) :
    (hasTable ts names = true ↔ ∃ n ∈ names, ∃ t ∈ ts, SameName t.name n) ∧
    (hasSchemaTable ts names = true ↔ ∃ n ∈ names, ∃ t ∈ ts, SameName t.schema n) ∧
    (∀ (i : Nat) (t : Table), ts[i]? = some t → (tableNames ts)[i]? = some t.fullTableName) ∧
    (tableNames ts).length = ts.length ∧
    tablesString ts = Str.join s%", " (tableNames ts) := by
  refine ⟨?_, ?_, ?_, by simp [tableNames], rfl⟩
  · simp [hasTable, Table.isTableName, ← sameName_iff]
  · simp [hasSchemaTable, Table.isSchemaName, ← sameName_iff]
  · intro i t h; simp [tableNames, h]

example : hasTable [{ name := s%"Orders" }] [s%"x", s%"ORDERS"] = true := by decide +kernel

/-! ### C19, C20: coercion -/

private theorem coerce_typed (k : Caster) (t : DataType) (v w : Val) (ht : Converted t)
    (h : k.coerce t v = some w) : HasType t w := by
  unfold Converted at ht
  simp only [List.mem_cons, List.not_mem_nil, or_false] at ht
  rcases ht with rfl | rfl | rfl | rfl | rfl | rfl | rfl | rfl <;>
    (simp only [Caster.coerce, Option.map_eq_some_iff] at h; obtain ⟨i, _, rfl⟩ := h; constructor)

/-- C19 as stated is false, first way: a failing conversion leaves the new definition in the column. -/
theorem C19_set_definition_fails (k : Caster) (v : Val) (hv : k.toInt8 v = none) :
    ∃ (c : Column) (d : ColumnDef), (c.setDefinition k (some d)).2 = false ∧ (c.setDefinition k (some d)).1 ≠ c :=
  ⟨{ name := s%"a", lit := some { v := v } }, { typ := .tinyInt, length := -1 },
    by simp [Column.setDefinition, Caster.coerce, hv], by simp [Column.setDefinition, Caster.coerce, hv]⟩

/-- C19 as stated is false, second way: numeric types outside the converted ones accept any value
unchanged. -/
theorem C19_unconverted_types_fails (k : Caster) :
    ∃ (c : Column) (d : ColumnDef) (l : Literal), NumericOrBool d.typ ∧
      (c.setDefinition k (some d)).2 = true ∧ (c.setDefinition k (some d)).1.lit = some l ∧ ¬ IsNumericOrBool l.v :=
  ⟨{ name := s%"a", lit := some { v := .str s%"x" } }, { typ := .mediumInt, length := -1 }, { v := .str s%"x" },
    Or.inr (by decide), by simp [Column.setDefinition, Caster.coerce], by simp [Column.setDefinition, Caster.coerce],
    by simp [IsNumericOrBool]⟩

/-- C19, the part that holds: on success with one of the eight converted types the value has that type;
on failure the value is unchanged (only the definition is replaced). Missing: the definition after a
failure, and the numeric types the code does not convert (both false). -/
theorem C19_set_definition_partial (k : Caster) (c : Column) (d : ColumnDef) (l : Literal) (hl : c.lit = some l) :
    let r := c.setDefinition k (some d)
    (Converted d.typ → r.2 = true → ∃ v, r.1.lit = some { l with v := v } ∧ HasType d.typ v) ∧
    (r.2 = false → r.1 = { c with def_ := some d }) ∧
    (r.2 = false → Converted d.typ) := by
  simp only [Column.setDefinition, hl]
  refine ⟨?_, ?_, ?_⟩
  · intro ht hok
    split at hok
    · next v hv => exact ⟨v, by simp, coerce_typed k d.typ l.v v ht hv⟩
    · simp at hok
  · split <;> simp
  · split
    · simp
    · next h =>
      intro _
      revert h
      cases d.typ <;> simp [Caster.coerce, Converted]

/-- C20 as stated is false: when the second column is unknown to the schema the first one has already
been changed. -/
theorem C20_set_schema_atomic_fails (k : Caster) : ∃ (sc cs : List Column),
    (setSchema k sc cs).2 = false ∧ (setSchema k sc cs).1 ≠ cs :=
  ⟨[{ name := s%"a", def_ := some { typ := .text, length := -1 } }], [{ name := s%"a" }, { name := s%"b" }],
    by simp [setSchema, lookupColumn, Str.eqFold, Str.upper, Str.upC, Column.setDefinition],
    by simp [setSchema, lookupColumn, Str.eqFold, Str.upper, Str.upC, Column.setDefinition]⟩

private theorem coerce_id (k : Caster) (t : DataType) (v : Val) (h : ¬ Converted t) : k.coerce t v = some v := by
  revert h; cases t <;> simp [Converted, Caster.coerce]

private theorem applied_of (k : Caster) (sc : List Column) (c s : Column) (hl : lookupColumn sc c.name = some s)
    (hok : (c.setDefinition k s.def_).2 = true) : Applied sc c (c.setDefinition k s.def_).1 := by
  obtain ⟨j, hj⟩ := ((C11_lookup_column sc c.name).1 s).mp hl
  refine ⟨j, s, hj, ?_⟩
  revert hok
  unfold Column.setDefinition
  split
  · next dd l hd hc =>
    simp only [hd, hc]
    split
    · next v hv =>
      intro _
      refine ⟨rfl, rfl, rfl, rfl, by simp, ?_⟩
      rintro l' ⟨⟩
      refine ⟨v, rfl, ?_, ?_, by simp⟩
      · rintro d ⟨⟩ ht; exact coerce_typed k _ _ _ ht hv
      · rintro d ⟨⟩ ht; rw [coerce_id k _ _ ht] at hv; simpa using hv.symm
    · simp
  · next hno =>
    intro _
    refine ⟨rfl, rfl, rfl, rfl, fun h => h, ?_⟩
    intro l hl'
    refine ⟨l.v, hl', ?_, fun _ _ _ => rfl, fun _ => rfl⟩
    intro d hd; exact absurd hl' (by intro; exact hno d l hd hl')

/-- C20, the part that holds: success means every column was brought to its schema definition; failure
means exactly a prefix was, then one column failed (unknown, or not convertible and keeping its value), and
all later columns are untouched. Missing: that a failure changes nothing (false). -/
theorem C20_set_schema_partial (k : Caster) (sc cs : List Column) :
    ((setSchema k sc cs).2 = true → Pairwise2 (Applied sc) cs (setSchema k sc cs).1) ∧
    ((setSchema k sc cs).2 = false → ∃ a a' c c' b, cs = a ++ c :: b ∧ (setSchema k sc cs).1 = a' ++ c' :: b ∧
      Pairwise2 (Applied sc) a a' ∧
      ((NoneOf (fun d : Column => SameName d.name c.name) sc ∧ c' = c) ∨
       ∃ j s, FirstAt (fun d : Column => SameName d.name c.name) sc j s ∧
        (∃ d, s.def_ = some d ∧ Converted d.typ) ∧ c' = { c with def_ := s.def_ })) := by
  induction cs with
  | nil => simp [setSchema, Pairwise2.nil]
  | cons c cs ih =>
    simp only [setSchema]
    cases hl : lookupColumn sc c.name with
    | none =>
      simp only [Bool.false_eq_true, false_implies, true_and]
      intro _
      exact ⟨[], [], c, c, cs, rfl, rfl, .nil, Or.inl ⟨(C11_lookup_column sc c.name).2.2.1.mp hl, rfl⟩⟩
    | some s =>
      simp only
      cases hd : (c.setDefinition k s.def_).2 with
      | true =>
        simp only [if_true]
        have happ : Applied sc c (c.setDefinition k s.def_).1 := applied_of k sc c s hl hd
        refine ⟨fun h => .cons happ (ih.1 h), fun h => ?_⟩
        obtain ⟨a, a', x, x', b, h1, h2, h3, h4⟩ := ih.2 h
        exact ⟨c :: a, _ :: a', x, x', b, by rw [h1]; rfl, by rw [h2]; rfl, .cons happ h3, h4⟩
      | false =>
        simp only [Bool.false_eq_true, if_false, false_implies, true_and]
        intro _
        obtain ⟨j, hj⟩ := ((C11_lookup_column sc c.name).1 s).mp hl
        refine ⟨[], [], c, _, cs, rfl, rfl, .nil, Or.inr ⟨j, s, hj, ?_⟩⟩
        revert hd
        unfold Column.setDefinition
        split
        · next dd l hdd hc =>
          split
          · simp
          · next hv =>
            intro _
            refine ⟨⟨dd, hdd, ?_⟩, by rw [hdd]⟩
            by_cases h : Converted dd.typ
            · exact h
            · rw [coerce_id k _ _ h] at hv; cases hv
        · simp

example (k : Caster) : (setSchema k [{ name := s%"A", def_ := some { typ := .text, length := -1 } }]
    [{ name := s%"a", lit := some { v := .str s%"x" } }]).2 = true := by
  simp [setSchema, lookupColumn, Str.eqFold, Str.upper, Str.upC, Column.setDefinition, Caster.coerce]

end Verif.Props
