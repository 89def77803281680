import Verif.Lemmas.Writing
import Verif.Lemmas.Join
import Verif.Spec.Ddl
import Verif.Props.Types
/-! Tokens of the printed texts of statements other than SELECT, INSERT, UPDATE and DELETE. -/
namespace Verif.Lex.Writing
open Verif Verif.Spec Verif.Query Verif.Props Verif.Gram Verif.Visit

theorem unEscapeString_name {n : Str} (h : Name n) : Util.unEscapeString n = n := by
  have hc : ∀ a ∈ n, (s%"'\"").contains a = false := by
    intro a ha
    rw [← Bool.not_eq_true, List.contains_iff_mem]
    intro hm
    have : ∀ x ∈ s%"'\"", isWordChar x = false := by decide
    exact name_not h a (this a hm) ha
  exact Str.trim_eq_self_of _ n (fun a r he => hc a (by simp [he])) (fun r a he => hc a (by simp [he]))

theorem unEscape_parens {n : Str} (h : Name n) : Util.unEscapeNameString (s%"(" ++ n ++ s%")") = n := by
  have := unEscape_name h
  unfold Util.unEscapeNameString at *
  conv => rhs; rw [← this]
  exact Str.trim_wrap _ n '(' ')' (by decide) (by decide)

/-! ### Words -/

theorem two {a b : Str} {ta tb : List Token} (ha : Writing a ta) (hb : Writing b tb) : Writing (a ++ ' ' :: b) (ta ++ tb) := space ha hb

theorem ine (b : Bool) : Writing (ifNotExistsString b) (ineToks .std b) := by
  cases b with
  | false => exact nil
  | true => exact two (keyword .IF_ (by decide +kernel)) (two (keyword .NOT_ (by decide +kernel)) (keyword .EXISTS_ (by decide +kernel)))

theorem ie (b : Bool) : Writing (ifExistsString b) (ieToks .std b) := by
  cases b with
  | false => exact nil
  | true => exact two (keyword .IF_ (by decide +kernel)) (keyword .EXISTS_ (by decide +kernel))

theorem ineParts (b : Bool) : Parts (if b then [ifNotExistsString b] else []) (ineToks .std b) := by
  cases b with
  | false => exact .nil
  | true => exact .one (ine true)

theorem ieParts (b : Bool) : Parts (if b then [ifExistsString b] else []) (ieToks .std b) := by
  cases b with
  | false => exact .nil
  | true => exact .one (ie true)

/-- Names in a list. -/
theorem names {ns : List Str} (h : ∀ n ∈ ns, Name n) : Writing (Util.joinWithComma ns) (Spec.commas .std (ns.map (fun n => [ident n]))) := by
  have := commas ns id (fun n => [ident n]) (fun n hn => name (h n hn))
  rwa [List.map_id] at this

theorem namedTables {ts : List Table} (h : ∀ t ∈ ts, NamedTable t) : ∃ ns : List Str, (∀ n ∈ ns, Name n) ∧ ts = ns.map (fun n => { name := n }) := by
  induction ts with
  | nil => exact ⟨[], by simp, rfl⟩
  | cons t ts ih =>
    obtain ⟨n, hn, rfl⟩ := h t (by simp)
    obtain ⟨ns, h1, h2⟩ := ih (fun x hx => h x (List.mem_cons_of_mem _ hx))
    exact ⟨n :: ns, by simpa [hn] using h1, by simp [h2]⟩

theorem namedColumns {ts : List Column} (h : ∀ t ∈ ts, NamedColumn t) : ∃ ns : List Str, (∀ n ∈ ns, Name n) ∧ ts = ns.map (fun n => { name := n }) := by
  induction ts with
  | nil => exact ⟨[], by simp, rfl⟩
  | cons t ts ih =>
    obtain ⟨n, hn, rfl⟩ := h t (by simp)
    obtain ⟨ns, h1, h2⟩ := ih (fun x hx => h x (List.mem_cons_of_mem _ hx))
    exact ⟨n :: ns, by simpa [hn] using h1, by simp [h2]⟩

theorem tablesString_names {ns : List Str} (h : ∀ n ∈ ns, Name n) : tablesString (ns.map (fun n => { name := n })) = Util.joinWithComma ns := by
  rw [tablesString, List.map_map]
  congr 1
  conv => rhs; rw [← List.map_id ns]
  exact List.map_congr_left (fun n hn => fullTableName_bare (h n hn))

theorem columnNames_names (ns : List Str) : columnNames (ns.map (fun n => { name := n })) = ns := by
  simp [columnNames, Function.comp_def]

theorem unEscape_map {β : Type} (f : Str → β) {ns : List Str} (h : ∀ n ∈ ns, Name n) :
    ns.map (fun n => f (Util.unEscapeNameString n)) = ns.map f :=
  List.map_congr_left (fun n hn => by rw [unEscape_name (h n hn)])

theorem unEscapeString_map {β : Type} (f : Str → β) {ns : List Str} (h : ∀ n ∈ ns, Name n) :
    ns.map (fun n => f (Util.unEscapeString n)) = ns.map f :=
  List.map_congr_left (fun n hn => by rw [unEscapeString_name (h n hn)])

/-! ### Columns -/

theorem typeWord {t : DataType} (h : PrintableType t) : ∃ k : TypeKind, Writing t.toStr [⟨k.tok, t.toStr⟩] ∧
    newDataTypeFromString t.toStr = some t := by
  obtain ⟨h1, h2, h3, h4⟩ := h
  have hw : isWord t.toStr = true := by
    cases t <;> first | contradiction | decide +kernel
  have hn : t.toStr ≠ [] := by
    intro e
    rw [e] at hw
    cases hw
  have hr : newDataTypeFromString t.toStr = some t :=
    (C21_data_type_names dataTypeStrings (List.Perm.refl _) t hn t.toStr).mpr (Or.inl rfl)
  have hk : wordKind t.toStr = .IDENTIFIER ∨ wordKind t.toStr = .TEXT_ ∨ wordKind t.toStr = .SET_ := by
    cases t <;> first | contradiction | decide +kernel
  have h := word hw
  rcases hk with hk | hk | hk
  · exact ⟨.ident, by rw [hk] at h; exact h, hr⟩
  · exact ⟨.text, by rw [hk] at h; exact h, hr⟩
  · exact ⟨.set, by rw [hk] at h; exact h, hr⟩

theorem not_keyword {n : Str} (h : Name n) : columnKeywords.any (Str.eqFold n) = false := by
  rw [← Bool.not_eq_true, List.any_eq_true]
  rintro ⟨k, hk, he⟩
  have h1 : ∀ k ∈ columnKeywords, ∃ x ∈ keywords, x.2 = Str.upper k := by decide +kernel
  obtain ⟨x, hx, hx2⟩ := h1 k hk
  refine h.free x hx ?_
  rw [hx2]
  simpa [Str.eqFold] using he

theorem column {c : Column} (h : PrintableColumn c) : ∃ s : ColS, Writing c.definitionString (s.toks .std) ∧ colV s = some c ∧ s.cons = [] := by
  obtain ⟨n, t, l, rfl, hn, ht, hl⟩ := h
  obtain ⟨k, hk, hr⟩ := typeWord ht
  rcases hl with rfl | ⟨h0, hm⟩
  · refine ⟨⟨n, k, t.toStr, none, []⟩, ?_, ?_, rfl⟩
    · have := two (name hn) hk
      simpa [Column.definitionString, ColumnDef.toStr, ColS.toks, lenToks] using this
    · rw [colV, unEscape_name hn, not_keyword hn, if_neg (by simp)]
      simp [ColS.words, newDataDefFromStrings, newDataDefFrom, hr]
  · obtain ⟨m, rfl⟩ : ∃ m : Nat, l = m := ⟨l.toNat, by omega⟩
    refine ⟨⟨n, k, t.toStr, some (Str.ofNat m), []⟩, ?_, ?_, rfl⟩
    · have := two (name hn) (call hk (num (ofNat_number m)))
      have h0' : 0 < m := by omega
      simpa [Column.definitionString, ColumnDef.toStr, h0', ColS.toks, lenToks, Str.ofInt] using this
    · rw [colV, unEscape_name hn, not_keyword hn, if_neg (by simp)]
      simp [ColS.words, newDataDefFromStrings, newDataDefFrom, hr, Str.atoi_ofNat m (by omega)]

/-! ### Indexes -/

theorem secondary {cs : List Column} {i : Index} (hc : ∀ c ∈ cs, PrintableColumn c) (h : PrintableSecondary cs i) :
    ∃ s : IdxS, Writing i.definitionString (s.toks .std) ∧ idxV cs s = some i := by
  obtain ⟨n, c, pre, post, rfl, hn, hcs, hp⟩ := h
  have hcn : Name c.name := by
    obtain ⟨m, t, l, rfl, hm, _⟩ := hc c (by simp [hcs])
    exact hm
  refine ⟨⟨n, c.name⟩, ?_, ?_⟩
  · have := two (keyword .INDEX_ (by decide +kernel)) (two (name hn) (parens (name hcn)))
    simpa [Index.definitionString, IndexType.toStr, columnNames, Str.join, IdxS.toks, Spelling.std, kw] using this
  · have hl : lookupColumn cs c.name = some c := by
      rw [lookupColumn, hcs, List.find?_append, List.find?_eq_none.mpr]
      · simp [Str.eqFold]
      · intro d hd
        simpa [Str.eqFold] using hp d hd
    rw [idxV, unEscape_name hn, unEscape_parens hcn, hl]
    rfl

theorem primary {i : Index} (h : PrintablePrimary i) : ∃ s : KeyS, Writing i.definitionString (s.toks .std) ∧ keyV s = i := by
  obtain ⟨ns, hne, hn, rfl⟩ := h
  cases ns with
  | nil => exact absurd rfl hne
  | cons n ns =>
    refine ⟨⟨n, ns⟩, ?_, ?_⟩
    · have := two (keyword .PRIMARY_ (by decide +kernel)) (two (keyword .KEY_ (by decide +kernel)) (parens (names hn)))
      simpa [Index.definitionString, IndexType.toStr, columnNames, Function.comp_def, KeyS.toks, namesToks, Spelling.std, kw, Util.joinWithComma] using this
    · have h1 := unEscape_map (fun n => ({ name := n, def_ := some unknownDataDef } : Column)) hn
      simp only [keyV, h1, newPrimaryIndexWith, columnNames, List.map_map, Function.comp_def, List.map_id']
      rfl

theorem indexList {cs : List Column} {is : List Index} (hc : ∀ c ∈ cs, PrintableColumn c) (h : ∀ i ∈ is, PrintableSecondary cs i) :
    ∃ ss : List IdxS, ∃ ps : List (Str × List Token), (∀ p ∈ ps, Writing p.1 p.2) ∧ is.map (·.definitionString) = ps.map (·.1) ∧
      ss.map (IdxS.toks .std) = ps.map (·.2) ∧ ss.filterMap (idxV cs) = is := by
  induction is with
  | nil => exact ⟨[], [], by simp, rfl, rfl, rfl⟩
  | cons i is ih =>
    obtain ⟨s, hw, hv⟩ := secondary hc (h i (by simp))
    obtain ⟨ss, ps, h1, h2, h3, h4⟩ := ih (fun x hx => h x (List.mem_cons_of_mem _ hx))
    refine ⟨s :: ss, (i.definitionString, s.toks .std) :: ps, ?_, by simp [h2], by simp [h3], by simp [hv, h4]⟩
    intro p hp
    rcases List.mem_cons.mp hp with rfl | hp
    · exact hw
    · exact h1 p hp

theorem keyList {is : List Index} (h : ∀ i ∈ is, PrintablePrimary i) :
    ∃ ss : List KeyS, ∃ ps : List (Str × List Token), (∀ p ∈ ps, Writing p.1 p.2) ∧ is.map (·.definitionString) = ps.map (·.1) ∧
      ss.map (KeyS.toks .std) = ps.map (·.2) ∧ ss.map keyV = is := by
  induction is with
  | nil => exact ⟨[], [], by simp, rfl, rfl, rfl⟩
  | cons i is ih =>
    obtain ⟨s, hw, hv⟩ := primary (h i (by simp))
    obtain ⟨ss, ps, h1, h2, h3, h4⟩ := ih (fun x hx => h x (List.mem_cons_of_mem _ hx))
    refine ⟨s :: ss, (i.definitionString, s.toks .std) :: ps, ?_, by simp [h2], by simp [h3], by simp [hv, h4]⟩
    intro p hp
    rcases List.mem_cons.mp hp with rfl | hp
    · exact hw
    · exact h1 p hp

theorem columnList {cs : List Column} (h : ∀ c ∈ cs, PrintableColumn c) :
    ∃ ss : List ColS, ∃ ps : List (Str × List Token), (∀ p ∈ ps, Writing p.1 p.2) ∧ cs.map (·.definitionString) = ps.map (·.1) ∧
      ss.map (ColS.toks .std) = ps.map (·.2) ∧ ss.filterMap colV = cs ∧ ss.length = cs.length ∧ ss.flatMap colKeysV = [] := by
  induction cs with
  | nil => exact ⟨[], [], by simp, rfl, rfl, rfl, rfl, rfl⟩
  | cons i is ih =>
    obtain ⟨s, hw, hv, hs⟩ := column (h i (by simp))
    obtain ⟨ss, ps, h1, h2, h3, h4, h5, h6⟩ := ih (fun x hx => h x (List.mem_cons_of_mem _ hx))
    refine ⟨s :: ss, (i.definitionString, s.toks .std) :: ps, ?_, by simp [h2], by simp [h3], by simp [hv, h4], by simp [h5], by simp [h6, colKeysV, hv, hs]⟩
    intro p hp
    rcases List.mem_cons.mp hp with rfl | hp
    · exact hw
    · exact h1 p hp

/-! ### CREATE TABLE -/

theorem createTable {s : Schema} (b : Bool) (h : PrintableSchema s) : ∃ d : DdlS, Writing (createTableString s b) (d.toks .std) ∧
    ddlV d = .createTable s b := by
  obtain ⟨t, cs, is⟩ := s
  obtain ⟨n, hn, ht⟩ := h.table
  obtain ⟨secs, prims, hi, hs, hp⟩ := h.indexes
  simp only at ht hi hs
  subst ht hi
  obtain ⟨cS, cP, c1, c2, c3, c4, c5, c6⟩ := columnList h.columns
  obtain ⟨iS, iP, i1, i2, i3, i4⟩ := indexList h.columns hs
  obtain ⟨kS, kP, k1, k2, k3, k4⟩ := keyList hp
  have hne := h.some_column
  simp only at c2 c4 c5 hne
  cases cS with
  | nil => rw [List.length_nil] at c5; exact absurd (List.eq_nil_of_length_eq_zero c5.symm) hne
  | cons c cS =>
    refine ⟨.createTable b ⟨n, c, cS, iS, kS⟩, ?_, ?_⟩
    · have hw := commas (cP ++ (iP ++ kP)) (·.1) (·.2) (by
        intro x hx
        rcases List.mem_append.mp hx with hx | hx
        · exact c1 x hx
        · rcases List.mem_append.mp hx with hx | hx
          · exact i1 x hx
          · exact k1 x hx)
      simp only [List.map_append, ← c2, ← i2, ← k2, ← c3, ← i3, ← k3] at hw
      have e : Util.joinWithComma (cs.map (·.definitionString) ++ (secs.map (·.definitionString) ++ prims.map (·.definitionString))) =
          columnsDefinitionString cs ++ (if 0 < (secs ++ prims).length then s%", " ++ indexesDefinitionString (secs ++ prims) else []) := by
        rw [← List.map_append]
        by_cases h0 : 0 < (secs ++ prims).length
        · rw [if_pos h0, Util.joinWithComma, Str.join_append _ _ _ (by simpa using hne) (by simpa using List.length_pos_iff.mp h0), List.append_assoc]
          rfl
        · have : secs ++ prims = [] := List.length_eq_zero_iff.mp (by omega)
          rw [if_neg h0, this]
          simp [columnsDefinitionString]
      rw [e] at hw
      have := spaces (.cons (two (keyword .CREATE_ (by decide +kernel)) (keyword .TABLE_ (by decide +kernel)))
        (.cons (ine b) (.cons (name hn) (.one (parens hw)))))
      simpa [createTableString, DdlS.toks, TableS.toks, Spelling.std, kw] using this
    · rw [ddlV, tableV]
      simp only [c4, i4, k4, c6, unEscape_name hn]
      rfl

/-! ### ALTER TABLE -/

theorem target {t : Table} (h : AlterTarget t) : ∃ s : TabS, Writing t.fullTableName (s.toks .std) ∧
    ({ schema := (s.schema.map Util.unEscapeNameString).getD [], name := s.name } : Table) = t := by
  obtain ⟨s, n⟩ := t
  obtain ⟨hn, hs⟩ := h
  simp only at hn hs
  rcases hs with rfl | hs
  · refine ⟨{ name := n }, ?_, rfl⟩
    rw [fullTableName_bare hn]
    exact name hn
  · refine ⟨{ schema := some s, name := n }, ?_, by simp [unEscape_name hs]⟩
    have h1 : 0 < n.length := List.length_pos_iff.mpr (name_ne hn)
    have h2 : 0 < s.length := List.length_pos_iff.mpr (name_ne hs)
    have e : ({ schema := s, name := n } : Table).fullTableName = s ++ '.' :: n := by
      simp [Table.fullTableName, h1, h2, name_no_dot hn, Str.join]
    rw [e]
    exact dotted (.inl hs) (.inl hn)

theorem alter {a : AlterTable} (h : PrintableAlter a) : ∃ q, a.toStr = .ok q ∧ ∃ d : DdlS, Writing q (d.toks .std) ∧ ddlV d = .alterTable a := by
  have hp : ∀ {t : Table} {s : TabS} {l : List Str} {tl : List Token}, Writing t.fullTableName (s.toks .std) → Parts l tl →
      Writing (Util.joinWithSpace ([s%"ALTER", s%"TABLE", t.fullTableName] ++ l)) (kw .std .ALTER_ :: kw .std .TABLE_ :: (s.toks .std ++ tl)) := by
    intro t s l tl hw hl
    have := spaces (.cons (keyword .ALTER_ (by decide +kernel)) (.cons (keyword .TABLE_ (by decide +kernel)) (.cons hw hl)))
    simpa [Spelling.std] using this
  cases h with
  | renameTo ht hu =>
    obtain ⟨s, hw, hv⟩ := target ht
    obtain ⟨m, hm, rfl⟩ := hu
    have := hp hw (.cons (keyword .RENAME_ (by decide +kernel)) (.cons (keyword .TO_ (by decide +kernel)) (.one (name hm))))
    refine ⟨_, rfl, .alterTable s (.renameTo m), ?_, ?_⟩
    · simpa [fullTableName_bare hm, DdlS.toks, AlterS.toks, Spelling.std] using this
    · simp [ddlV, alterV, hv, unEscape_name hm]
  | renameColumn ht ha hb =>
    obtain ⟨s, hw, hv⟩ := target ht
    obtain ⟨a, ha, rfl⟩ := ha
    obtain ⟨b, hb, rfl⟩ := hb
    have := hp hw (.cons (keyword .RENAME_ (by decide +kernel)) (.cons (keyword .COLUMN_ (by decide +kernel)) (.cons (name ha) (.cons (keyword .TO_ (by decide +kernel)) (.one (name hb))))))
    refine ⟨_, rfl, .alterTable s (.renameColumn a b), ?_, ?_⟩
    · simpa [DdlS.toks, AlterS.toks, Spelling.std] using this
    · simp [ddlV, alterV, hv, columnNamed]
  | addColumn ht hc =>
    obtain ⟨s, hw, hv⟩ := target ht
    obtain ⟨x, hx, hxv, _⟩ := column hc
    obtain ⟨n, t, l, rfl, _⟩ := hc
    have := hp hw (.cons (keyword .ADD_ (by decide +kernel)) (.one hx))
    refine ⟨_, rfl, .alterTable s (.addColumn x), ?_, ?_⟩
    · simpa [DdlS.toks, AlterS.toks, Spelling.std] using this
    · simp [ddlV, alterV, hv, hxv]
  | @addIndex t n cs ht hn hne hc =>
    obtain ⟨s, hw, hv⟩ := target ht
    obtain ⟨ns, hns, rfl⟩ := namedColumns hc
    cases ns with
    | nil => exact absurd rfl hne
    | cons m ms =>
      have hi := two (keyword .INDEX_ (by decide +kernel)) (two (name hn) (parens (names hns)))
      have := hp hw (.cons (keyword .ADD_ (by decide +kernel)) (.one hi))
      refine ⟨_, rfl, .alterTable s (.addIndex n m ms), ?_, ?_⟩
      · simpa [DdlS.toks, AlterS.toks, Index.definitionString, IndexType.toStr, columnNames, Function.comp_def, namesToks, Spelling.std, kw, Util.joinWithComma] using this
      · have h1 := unEscape_map (fun n => ({ name := n } : Column)) hns
        have h2 : (m :: ms).map nameV = (m :: ms).map (fun n => ({ name := n } : Column)) := h1
        simp only [ddlV, alterV, hv, unEscape_name hn, h2]

/-! ### The other statements -/

theorem format (f : CopyFormat) : ∃ g : FormatS, Writing f.toStr [kw .std g.tok] ∧ formatV g = f := by
  cases f with
  | text => exact ⟨.text, keyword .TEXT_ (by decide +kernel), rfl⟩
  | csv => exact ⟨.csv, keyword .CSV_ (by decide +kernel), rfl⟩
  | binary => exact ⟨.binary, keyword .BINARY_ (by decide +kernel), rfl⟩

theorem ddl {s : Statement} (h : PrintableDdl s) : ∃ q, s.toStr = .ok q ∧ ∃ d : DdlS, Writing q (d.toks .std) ∧ ddlV d = s := by
  have kCREATE : Writing s%"CREATE" [kw .std .CREATE_] := keyword .CREATE_ (by decide +kernel)
  have kDROP : Writing s%"DROP" [kw .std .DROP_] := keyword .DROP_ (by decide +kernel)
  have kDB : Writing s%"DATABASE" [kw .std .DATABASE_] := keyword .DATABASE_ (by decide +kernel)
  have kTABLE : Writing s%"TABLE" [kw .std .TABLE_] := keyword .TABLE_ (by decide +kernel)
  have kINDEX : Writing s%"INDEX" [kw .std .INDEX_] := keyword .INDEX_ (by decide +kernel)
  cases h with
  | @createDatabase n b hn =>
    have := spaces (Parts.append (.one (two kCREATE kDB)) ((ineParts b).append (.one (name hn))))
    exact ⟨_, rfl, .createDatabase b n, by simpa [DdlS.toks] using this, rfl⟩
  | @dropDatabase n b hn =>
    have := spaces (.cons kDROP (.cons kDB ((ieParts b).append (.one (name hn)))))
    exact ⟨_, rfl, .dropDatabase b n, by simpa [DdlS.toks] using this, rfl⟩
  | @alterDatabase n m hn hm =>
    have := spaces (.cons (keyword .ALTER_ (by decide +kernel)) (.cons kDB (.cons (name hn) (.cons (keyword .RENAME_ (by decide +kernel))
      (.cons (keyword .TO_ (by decide +kernel)) (.one (name hm)))))))
    exact ⟨_, rfl, .alterDatabase n m, by simpa [DdlS.toks, Spelling.std] using this, rfl⟩
  | @use n hn =>
    have := spaces (.cons (keyword .USE_ (by decide +kernel)) (.one (name hn)))
    exact ⟨_, rfl, .use n, by simpa [DdlS.toks, Spelling.std] using this, rfl⟩
  | @createIndex t i cs b ht hi hne hc =>
    obtain ⟨ns, hns, rfl⟩ := namedColumns hc
    cases ns with
    | nil => exact absurd rfl hne
    | cons m ms =>
      have := spaces (.cons kCREATE (.cons kINDEX ((ineParts b).append (.cons (name hi) (.cons (keyword .ON_ (by decide +kernel))
        (.one (call (name ht) (names hns))))))))
      refine ⟨_, rfl, .createIndex b i t m ms, ?_, ?_⟩
      · simpa [DdlS.toks, createIndexString, fullTableName_bare ht, columnNames, Function.comp_def, namesToks, Spelling.std] using this
      · have h1 := unEscape_map (fun n => ({ name := n } : Column)) hns
        have h2 : (m :: ms).map nameV = (m :: ms).map (fun n => ({ name := n } : Column)) := h1
        simp only [ddlV, unEscape_name ht, unEscape_name hi, h2]
        rfl
  | @dropTable ts b hne ht =>
    obtain ⟨ns, hns, rfl⟩ := namedTables ht
    cases ns with
    | nil => exact absurd rfl hne
    | cons m ms =>
      have := spaces (.cons kDROP (.cons kTABLE ((ieParts b).append (.one (names hns)))))
      rw [← tablesString_names hns] at this
      refine ⟨_, rfl, .dropTable b m ms, by simpa [DdlS.toks] using this, ?_⟩
      have h1 := unEscape_map (fun n => ({ name := n } : Table)) hns
      simp only [ddlV, h1]
  | @dropIndex s i b hs hi =>
    have hp : ∀ {x : Str} {tx : List Token}, Writing x tx → Writing (Util.joinWithSpace ([s%"DROP", s%"INDEX"] ++ (if b then [ifExistsString b] else []) ++ [x]))
        (kw .std .DROP_ :: kw .std .INDEX_ :: (ieToks .std b ++ tx)) := by
      intro x tx hx
      have := spaces (.cons kDROP (.cons kINDEX ((ieParts b).append (.one hx))))
      simpa using this
    rcases hs with rfl | hs
    · have := hp (name hi)
      exact ⟨_, rfl, .dropIndex b { name := i }, this, by simp [ddlV, unEscape_name hi]⟩
    · have := hp (dotted (.inl hs) (.inl hi))
      have h2 : 0 < s.length := List.length_pos_iff.mpr (name_ne hs)
      refine ⟨_, rfl, .dropIndex b { schema := some s, name := i }, ?_, by simp [ddlV, unEscape_name hi, unEscape_name hs]⟩
      rw [dropIndexString]
      simp only [fullTableName_bare hs, h2, if_true]
      rw [List.append_assoc s]
      exact this
  | @truncate ts hne ht =>
    obtain ⟨ns, hns, rfl⟩ := namedTables ht
    cases ns with
    | nil => exact absurd rfl hne
    | cons m ms =>
      have := spaces (.cons (keyword .TRUNCATE_ (by decide +kernel)) (.cons kTABLE (.one (names hns))))
      rw [← tablesString_names hns] at this
      exact ⟨_, rfl, .truncate m ms, by simpa [DdlS.toks, Spelling.std] using this, rfl⟩
  | @copy t cs s f ht hc hs =>
    obtain ⟨n, hn, rfl⟩ := ht
    obtain ⟨ns, hns, rfl⟩ := namedColumns hc
    obtain ⟨g, hg, hgv⟩ := format f
    have h3 : ddlV (.copy n ns s g) = .copy { table := { name := n }, columns := ns.map (fun n => { name := n }), source := s, format := f } := by
      have h1 := unEscapeString_map (fun n => columnNamed n) hns
      simp only [ddlV, unEscapeString_name hn, unEscapeString_name hs, hgv, h1]
      rfl
    have hcols : Parts (if 0 < (ns.map (fun n => ({ name := n } : Column))).length then [s%"(" ++ Util.joinWithComma (columnNames (ns.map (fun n => ({ name := n } : Column)))) ++ s%")"] else []) (copyColsToks .std ns) := by
      cases ns with
      | nil => exact .nil
      | cons m ms =>
        rw [columnNames_names, if_pos (by simp)]
        exact .one (parens (names hns))
    have := spaces (.cons (keyword .COPY_ (by decide +kernel)) (.cons (name hn) (hcols.append (.cons (keyword .FROM_ (by decide +kernel)) (.cons (name hs) (.one hg))))))
    exact ⟨_, rfl, .copy n ns s g, by simpa [Copy.toStr, DdlS.toks, Spelling.std] using this, h3⟩
  | vacuum => exact ⟨_, rfl, .vacuum none, keyword .VACUUM_ (by decide +kernel), rfl⟩
  | vacuumTable ht =>
    obtain ⟨n, hn, rfl⟩ := ht
    have := spaces (.cons (keyword .VACUUM_ (by decide +kernel)) (.one (name hn)))
    refine ⟨_, rfl, .vacuum (some n), ?_, rfl⟩
    rw [fullTableName_bare hn]
    exact this
  | begin => exact ⟨_, rfl, .begin, keyword .BEGIN_ (by decide +kernel), rfl⟩
  | commit => exact ⟨_, rfl, .commit, keyword .COMMIT_ (by decide +kernel), rfl⟩
  | rollback => exact ⟨_, rfl, .rollback, keyword .ROLLBACK_ (by decide +kernel), rfl⟩

end Verif.Lex.Writing
