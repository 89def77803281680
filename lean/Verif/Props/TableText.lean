import Verif.Props.DdlSchemas
import Verif.Spec.TableText
/-! C106, C107: what the texts of tables and of their changes are read as. -/
namespace Verif.Props
open Verif Verif.Lex Verif.Gram Verif.Spec Verif.Query Verif.Parse

theorem columnRead_text {c : Column} (h : PrintableColumn (columnRead c)) : (columnRead c).definitionString = c.definitionString := by
  obtain ⟨n, t, l, e, -⟩ := h
  obtain ⟨m, d, lit, f, as⟩ := c
  cases d with
  | none => simp [columnRead] at e
  | some d =>
    simp only [columnRead, Column.definitionString, Option.map_some, ColumnDef.toStr]
    by_cases h0 : 0 < d.length <;> simp [h0]

theorem indexRead_text (cs : List Column) (i : Index) : (indexRead cs i).definitionString = i.definitionString := by
  by_cases h : i.typ = .secondary
  · simp only [indexRead, h, if_true, Index.definitionString, columnNames, List.map_map, Function.comp_def]
    congr 3
    apply List.map_congr_left
    intro c _
    cases hf : cs.find? (fun d => d.name = c.name) with
    | none => rfl
    | some d =>
      have := List.find?_some hf
      simpa using this
  · simp only [indexRead, h, if_false, Index.definitionString, columnNames, List.map_map, Function.comp_def]

theorem schemaRead_text (s : Schema) (b : Bool) (h : PrintableSchema (schemaRead s)) : createTableString (schemaRead s) b = createTableString s b := by
  have h1 : columnsDefinitionString (schemaRead s).columns = columnsDefinitionString s.columns := by
    simp only [columnsDefinitionString, schemaRead, List.map_map]
    congr 1
    apply List.map_congr_left
    intro c hc
    exact columnRead_text (h.columns _ (List.mem_map_of_mem hc))
  have h2 : indexesDefinitionString (schemaRead s).indexes = indexesDefinitionString s.indexes := by
    simp only [indexesDefinitionString, schemaRead, List.map_map]
    congr 1
    apply List.map_congr_left
    intro i _
    exact indexRead_text _ i
  simp only [createTableString, h1, h2]
  simp only [schemaRead, bareTable, List.length_map]

/-- C107 for tables of schemas, with constraints, with any lengths, and with any keys: if what the text says can be read
back, the text is read as exactly that. The schema of the table, the constraints of its columns, lengths that are not
positive, the name of a primary key and the types of its columns are always lost. -/
theorem C107_exact (toUint : Str → Option Nat) (s : Schema) (b : Bool) (h : PrintableSchema (schemaRead s)) :
    parseQuery toUint (createTableString s b) = .ok [.createTable (schemaRead s) b] := by
  rw [← schemaRead_text s b h]
  exact C107_roundtrip_partial toUint _ b h

/-- C107: such a table is read back if and only if it is one of the tables of `C107_roundtrip_partial`. -/
theorem C107_iff (toUint : Str → Option Nat) (s : Schema) (b : Bool) (h : PrintableSchema (schemaRead s)) :
    parseQuery toUint (createTableString s b) = .ok [.createTable s b] ↔ PrintableSchema s := by
  constructor
  · intro e
    rw [C107_exact toUint s b h] at e
    simp only [Res.ok.injEq, List.cons.injEq, Statement.createTable.injEq, and_true] at e
    exact e ▸ h
  · exact C107_roundtrip_partial toUint s b

/-- C107 fails for every table of a schema, every table with a constraint on a column, and every table with a column of
length zero, of the kinds of `C107_exact`. -/
theorem C107_lost_fails (toUint : Str → Option Nat) (s : Schema) (b : Bool) (h : PrintableSchema (schemaRead s))
    (hl : s.table.schema ≠ [] ∨ (∃ c ∈ s.columns, ∃ d, c.def_ = some d ∧ (d.consts ≠ 0 ∨ d.length = 0))) :
    ∃ s', parseQuery toUint (createTableString s b) = .ok [.createTable s' b] ∧ s' ≠ s := by
  refine ⟨_, C107_exact toUint s b h, fun e => ?_⟩
  have hs : PrintableSchema s := e ▸ h
  rcases hl with hl | ⟨c, hc, d, hd, hl⟩
  · obtain ⟨n, -, ht⟩ := hs.table
    exact hl (by rw [ht])
  · obtain ⟨n, t, l, rfl, -, -, hr⟩ := hs.columns c hc
    simp only [Option.some.injEq] at hd
    subst hd
    rcases hl with hl | hl
    · exact hl rfl
    · simp only at hl
      omega

/-- C106 for one change with plain names, whatever index is dropped with it: the statement has a text, which is read as
what the text says. An index to be dropped and the name of a primary key are always lost, and the column to be dropped
always has the word DROP in its name. -/
theorem C106_exact (toUint : Str → Option Nat) (a : AlterTable) (h : OneChange a) :
    ∃ q, a.toStr = .ok q ∧ parseQuery toUint q = .ok [.alterTable (alterRead a)] := by
  have via : ∀ x : AlterTable, PrintableAlter x → alterRead a = x → a.toStr = x.toStr →
      ∃ q, a.toStr = .ok q ∧ parseQuery toUint q = .ok [.alterTable (alterRead a)] := by
    intro x hx e ht
    obtain ⟨q, h1, h2⟩ := C106_roundtrip_partial toUint x hx
    exact ⟨q, ht.trans h1, by rw [e]; exact h2⟩
  have hp : ∀ {t : Table} {s : TabS} {l : List Str} {tl : List Token}, Writing t.fullTableName (s.toks .std) → Writing.Parts l tl →
      Writing (Util.joinWithSpace ([s%"ALTER", s%"TABLE", t.fullTableName] ++ l)) (kw .std .ALTER_ :: kw .std .TABLE_ :: (s.toks .std ++ tl)) := by
    intro t s l tl hw hl
    have := Writing.spaces (.cons (Writing.keyword .ALTER_ (by decide +kernel)) (.cons (Writing.keyword .TABLE_ (by decide +kernel)) (.cons hw hl)))
    simpa [Spelling.std] using this
  have as : ∀ {x : Str} {l : List Token}, Writing x l → ∀ D : DdlS, l = D.toks .std → Writing x (D.toks .std) := fun h _ e => e ▸ h
  cases h with
  | renameTo ht hu => exact via _ (.renameTo ht hu) rfl rfl
  | @renameColumn t a b d ht ha hb => exact via _ (.renameColumn ht ⟨_, ha, rfl⟩ ⟨_, hb, rfl⟩) rfl rfl
  | @addColumn t c ty l d ht hn hd hty hl =>
    obtain ⟨n, df, lit, f, as⟩ := c
    simp only at hd hn
    subst hd
    refine via { table := t, addColumn := some { name := n, def_ := some { typ := ty, length := if 0 < l then l else -1 } } }
      (.addColumn ht ⟨n, ty, _, rfl, hn, hty, ?_⟩) rfl ?_
    · by_cases h0 : 0 < l
      · exact .inr (by rw [if_pos h0]; exact ⟨h0, hl⟩)
      · exact .inl (if_neg h0)
    · by_cases h0 : 0 < l <;> simp [AlterTable.toStr, addColumnClause, Column.definitionString, ColumnDef.toStr, h0]
  | @addIndex t i d ht hi hn hne hc =>
    obtain ⟨n, ty, cs⟩ := i
    simp only at hi hn hne hc
    subst hi
    refine via { table := t, addIndex := some { name := n, typ := .secondary, columns := cs.map bareColumn } }
      (.addIndex ht hn (by simpa using hne) ?_) rfl ?_
    · intro c hm
      obtain ⟨x, hx, rfl⟩ := List.mem_map.mp hm
      exact ⟨_, hc x hx, rfl⟩
    · simp [AlterTable.toStr, Index.definitionString, columnNames, bareColumn, Function.comp_def]
  | @addKey t i d ht hi hne hc =>
    obtain ⟨n, ty, cs⟩ := i
    simp only at hi hne hc
    subst hi
    obtain ⟨s, hw, hv⟩ := Writing.target ht
    cases cs with
    | nil => exact absurd rfl hne
    | cons c cs =>
      have hns : ∀ m ∈ c.name :: cs.map (·.name), Name m := by
        intro m hm
        rcases List.mem_cons.mp hm with rfl | hm
        · exact hc _ (by simp)
        · obtain ⟨x, hx, rfl⟩ := List.mem_map.mp hm
          exact hc x (by simp [hx])
      have hi := Writing.two (Writing.keyword .PRIMARY_ (by decide +kernel)) (Writing.two (Writing.keyword .KEY_ (by decide +kernel)) (Writing.parens (Writing.names hns)))
      have hq := hp hw (.cons (Writing.keyword .ADD_ (by decide +kernel)) (.one hi))
      refine ⟨_, rfl, ?_⟩
      have hw' := as hq (.alterTable s (.addKey c.name (cs.map (·.name)))) (by simp [DdlS.toks, AlterS.toks, namesToks, Spelling.std, kw])
      have := parse_writing toUint (.ddl (.alterTable s (.addKey c.name (cs.map (·.name))))) hw'
      have h1 := Writing.unEscape_map (fun n => ({ name := n } : Column)) hns
      have h2 : (c.name :: cs.map (·.name)).map nameV = (c.name :: cs.map (·.name)).map (fun n => ({ name := n } : Column)) := h1
      rw [stmtV, ddlV] at this
      simp only [alterV, hv, h2] at this
      have e : ∀ x y : Str, x = y → parseQuery toUint y = .ok [.alterTable { table := t, addIndex := some { name := [], typ := .primary, columns := (c.name :: cs.map (·.name)).map (fun n => { name := n }) } }] →
          parseQuery toUint x = .ok [.alterTable (alterRead { table := t, addIndex := some { name := n, typ := .primary, columns := c :: cs }, dropIndex := d })] := by
        intro x y hxy hy
        rw [hxy, hy]
        simp [alterRead, bareColumn, Function.comp_def]
      refine e _ _ ?_ this
      simp [Index.definitionString, IndexType.toStr, columnNames, Function.comp_def, Spelling.std, Util.joinWithComma]
  | @dropColumn t c d ht hn =>
    obtain ⟨s, hw, hv⟩ := Writing.target ht
    have hq := hp hw (.cons (Writing.keyword .DROP_ (by decide +kernel)) (.one (Writing.name hn)))
    refine ⟨_, rfl, ?_⟩
    have hw' := as hq (.alterTable s (.dropColumn s%"DROP" c.name)) (by simp [DdlS.toks, AlterS.toks, Spelling.std, kw])
    have := parse_writing toUint (.ddl (.alterTable s (.dropColumn s%"DROP" c.name))) hw'
    rw [stmtV, ddlV] at this
    simp only [alterV, hv] at this
    exact this

/-- C106 for one change with plain names: the statement is read back if and only if its change is not the addition of a
primary key with a name or the removal of a column, no index is dropped with it, and its columns have nothing that is
not said. -/
theorem C106_iff (toUint : Str → Option Nat) (a : AlterTable) (h : OneChange a) :
    (∃ q, a.toStr = .ok q ∧ parseQuery toUint q = .ok [.alterTable a]) ↔ alterRead a = a := by
  obtain ⟨q, hq, hr⟩ := C106_exact toUint a h
  constructor
  · rintro ⟨q', hq', hr'⟩
    rw [hq] at hq'
    cases hq'
    rw [hr] at hr'
    simpa using hr'
  · intro e
    exact ⟨q, hq, by rw [hr, e]⟩

/-- C106 fails for every removal of a column, every named primary key, and every change with which an index is dropped,
of the kinds of `C106_exact`. -/
theorem C106_lost_fails (toUint : Str → Option Nat) (a : AlterTable) (h : OneChange a)
    (hl : a.dropColumn ≠ none ∨ a.dropIndex ≠ none ∨ ∃ i, a.addIndex = some i ∧ i.typ = .primary ∧ i.name ≠ []) :
    ∃ q a', a.toStr = .ok q ∧ parseQuery toUint q = .ok [.alterTable a'] ∧ a' ≠ a := by
  obtain ⟨q, hq, hr⟩ := C106_exact toUint a h
  refine ⟨q, _, hq, hr, fun e => ?_⟩
  rcases hl with hl | hl | ⟨i, hi, ht, hn⟩
  · cases hc : a.dropColumn with
    | none => exact hl hc
    | some c =>
      have := congrArg AlterTable.dropColumn e
      rw [alterRead, hc] at this
      simp only [Option.map_some, Option.some.injEq] at this
      have := congrArg (fun c => c.name.length) this
      simp at this
      omega
  · exact hl (congrArg AlterTable.dropIndex e).symm
  · have := congrArg AlterTable.addIndex e
    rw [alterRead, hi] at this
    simp only [Option.map_some, ht, if_true, Option.some.injEq] at this
    exact hn (congrArg Index.name this).symm

/-! ### Statements that meet the hypotheses -/

example : OneChange { table := { schema := s%"s", name := s%"t" }, dropColumn := some { name := s%"a" }, dropIndex := some (newSecondaryIndexWith s%"i" []) } :=
  .dropColumn ⟨name_of (by decide +kernel), .inr (name_of (by decide +kernel))⟩ (name_of (by decide +kernel))
example : OneChange { table := { name := s%"t" }, addIndex := some (newPrimaryIndexWith [col s%"a"]) } :=
  .addKey ⟨name_of (by decide +kernel), .inl rfl⟩ rfl (by simp [newPrimaryIndexWith]) (by
    intro c hc
    simp only [newPrimaryIndexWith, List.mem_singleton] at hc
    subst hc
    exact name_of (by decide +kernel))
example : PrintableSchema (schemaRead { table := { schema := s%"s", name := s%"t" }, columns := [col s%"a" (k := 2), col s%"b" .varChar 20], indexes := [newSecondaryIndexWith s%"i" [{ name := s%"b" }], { name := s%"p", typ := .primary, columns := [{ name := s%"a" }] }] }) where
  table := ⟨_, name_of (by decide +kernel), rfl⟩
  some_column := by simp [schemaRead]
  columns := by
    intro c hc
    simp only [schemaRead, List.map_cons, List.map_nil, List.mem_cons, List.not_mem_nil, or_false] at hc
    rcases hc with rfl | rfl
    · exact ⟨_, _, _, rfl, name_of (by decide +kernel), by simp [PrintableType], Or.inl rfl⟩
    · exact ⟨_, _, _, rfl, name_of (by decide +kernel), by simp [PrintableType], Or.inr (by decide)⟩
  indexes := by
    refine ⟨[_], [_], rfl, ?_, ?_⟩
    · intro i hi
      rw [List.mem_singleton] at hi
      subst hi
      exact ⟨s%"i", col s%"b" .varChar 20, [col s%"a"], [], by decide +kernel, name_of (by decide +kernel), by decide +kernel, by simp [col]; decide⟩
    · intro i hi
      rw [List.mem_singleton] at hi
      subst hi
      refine ⟨[s%"a"], by simp, ?_, rfl⟩
      intro n hn
      rw [List.mem_singleton] at hn
      subst hn
      exact name_of (by decide +kernel)

end Verif.Props
