import Verif.Lemmas.System
import Verif.Lemmas.Str
import Verif.Props.Types
import Verif.Props.ResultSet
/-! C61–C64: the information_schema helpers. -/
namespace Verif.Props
open Verif Verif.Query Verif.Spec Verif.Lemmas Verif.Sys Verif.Rs
variable {V F T : Type}

/-- What is known of the safecast and type switch operations on Go strings: a string casts to itself and is
recognised as a string. -/
structure TextLaws (S : SEnv V F T) : Prop where
  cast : ∀ s, S.R.X.toText (some (S.R.X.ofText s)) = some s
  dyn : ∀ s, S.dyn (some (S.R.X.ofText s)) = .text s

/-- Example values: texts. -/
def yEnv : SEnv Str Int Unit where
  R :=
    { E := { zero := 0, add := (· + ·), div := (· / ·), lt := fun a b => decide (a < b), ofNat := fun n => n,
             maxFloat := 1000, negInf := -1000, toFloat := fun _ => none, toText := fun v => v, cmp := fun _ _ => none }
      X := { toFloat := fun _ => none, toText := fun v => v, ofText := id, zero := 0, add := (· + ·), sub := (· - ·),
             mul := (· * ·), div := (· / ·), le := fun a b => decide (a ≤ b), lt := fun a b => decide (a < b),
             eq := fun a b => decide (a = b), trunc := id, ofInt := id, abs := id, floor := id, ceil := id, round := id,
             sqrt := id, log := id, log10 := id, exp := id, pow := fun a _ => a, fmod := fun a _ => a, sin := id,
             cos := id, tan := id, pi := 3, random := none, now := () }
      ofFloat := fun _ => [], ofInt := fun _ => [], ofTime := fun _ => [] }
  dyn := fun | some s => .text s | none => .other

theorem yEnv_laws : TextLaws yEnv := ⟨fun _ => rfl, fun _ => rfl⟩

/-- Example schema: a table with an integer and a text column. -/
def ySchema : Query.Schema :=
  newSchemaWith s%"users" [{ name := s%"id", def_ := some { typ := .integer, length := -1 } },
    { name := s%"mail", def_ := some { typ := .text, length := -1 } }]

/-! ### C61 -/

/-- The values a visited row gives for some column names. -/
def readRow (names : List Str) : Res (Row V F T) → List (Res (Option V))
  | .ok row => names.map (fun n => (row.valueBy n).2)
  | _ => []

/-- C61 without the table name: for all schemas whose columns have definitions the result set is built, its
`for Next { Row }` loop ends, and the rows visited are, in order, one per column of every schema, giving the
column's name as COLUMN_NAME and its type's name as DATA_TYPE. Missing from the full statement: the schema's
table name, see `C61_fails`, and columns without definition, see `C61_undefined`. -/
theorem C61_rows_partial (R : REnv V F T) (schemas : List Query.Schema)
    (hd : ∀ s ∈ schemas, ∀ c ∈ s.columns, c.def_ ≠ none) (hn : (columnsOf schemas).length < 2 ^ 63) :
    ∃ rs : RSet V F T, fromSchemas R.X.ofText schemas = .ok rs ∧
      (∃ l rs', Loop RSet.next (RSet.row R) rs l rs') ∧
      ∀ l rs', Loop RSet.next (RSet.row R) rs l rs' →
        l.map (readRow [s%"COLUMN_NAME", s%"DATA_TYPE"]) =
          (columnsOf schemas).map (fun p => [.ok (some (R.X.ofText p.2.name)),
            .ok (some (R.X.ofText ((p.2.def_.map (·.typ.toStr)).getD [])))]) := by
  have hd' : ∀ s ∈ schemas, ∀ c ∈ s.columns, c.def_.isSome = true := by
    intro s hs c hc
    cases h : c.def_ with
    | none => exact absurd h (hd s hs c hc)
    | some _ => rfl
  refine ⟨_, fromSchemas_ok R.X.ofText schemas hd', ?_, ?_⟩
  · obtain ⟨rs', h⟩ := sysSet_loop R R.X.ofText schemas hn
    exact ⟨_, rs', h⟩
  · intro l rs' h
    obtain ⟨_, h'⟩ := sysSet_loop R R.X.ofText schemas hn
    rw [(loop_det h h').1, List.map_map]
    refine List.map_congr_left ?_
    intro p hp
    obtain ⟨s, hs, hp⟩ := List.mem_flatMap.mp hp
    obtain ⟨c, hc, rfl⟩ := List.mem_map.mp hp
    cases h : c.def_ with
    | none => exact absurd h (hd s hs c hc)
    | some d =>
      simp only [Function.comp_apply, sysRow, h, Option.getD_some, Option.map_some]
      rfl

example : ∀ s ∈ [ySchema], ∀ c ∈ s.columns, c.def_ ≠ none := by decide
example : (columnsOf [ySchema]).length = 2 := by decide

/-- C61, what the rows say instead of the schema's names: every row has "def" as TABLE_CATALOG,
"information_schema" as TABLE_SCHEMA and "COLUMNS" as TABLE_NAME, whatever the schema. -/
theorem C61_constant (R : REnv V F T) (schemas : List Query.Schema) (rs rs' : RSet V F T)
    (l : List (Res (Row V F T))) (hb : fromSchemas R.X.ofText schemas = .ok rs)
    (hn : (columnsOf schemas).length < 2 ^ 63) (h : Loop RSet.next (RSet.row R) rs l rs') :
    ∀ r ∈ l, readRow [s%"TABLE_CATALOG", s%"TABLE_SCHEMA", s%"TABLE_NAME"] r =
      [.ok (some (R.X.ofText s%"def")), .ok (some (R.X.ofText s%"information_schema")), .ok (some (R.X.ofText s%"COLUMNS"))] := by
  have hd : ∀ s ∈ schemas, ∀ c ∈ s.columns, c.def_.isSome = true := by
    intro s hs c hc
    cases hc' : c.def_ with
    | some _ => rfl
    | none =>
      unfold fromSchemas at hb
      rw [rowsOfSchemas_panic _ _ _ ⟨s, hs, c, hc, hc'⟩] at hb
      cases hb
  rw [fromSchemas_ok _ _ hd] at hb
  cases hb
  obtain ⟨_, h'⟩ := sysSet_loop R R.X.ofText schemas hn
  rw [(loop_det h h').1]
  intro r hr
  obtain ⟨p, _, rfl⟩ := List.mem_map.mp hr
  rfl

/-- C61 fails: the row of the table "users" does not carry that name. -/
theorem C61_fails : ¬ ∀ (schemas : List Query.Schema) (rs : RSet Str Int Unit), fromSchemas id schemas = .ok rs →
    rs.rows.map (fun row => (row.valueBy s%"TABLE_NAME").2) =
      (columnsOf schemas).map (fun p => .ok (some p.1.table.name)) := by
  intro h
  have hb := fromSchemas_ok (F := Int) (T := Unit) (id : Str → Str) [ySchema] (by decide)
  have := h [ySchema] _ hb
  revert this; decide

/-- C61: with a column without definition the call panics. -/
theorem C61_undefined (ofText : Str → V) (schemas : List Query.Schema) :
    fromSchemas (F := F) (T := T) ofText schemas = .panic ↔ ∃ s ∈ schemas, ∃ c ∈ s.columns, c.def_ = none := by
  constructor
  · intro h
    refine Classical.byContradiction fun hne => ?_
    rw [fromSchemas_ok ofText schemas] at h
    · cases h
    · intro s hs c hc
      cases hd : c.def_ with
      | some _ => rfl
      | none => exact absurd ⟨s, hs, c, hc, hd⟩ hne
  · intro h
    unfold fromSchemas
    rw [rowsOfSchemas_panic _ _ _ h]

example : ∃ s ∈ [newSchemaWith s%"t" [{ name := s%"c" }]], ∃ c ∈ s.columns, c.def_ = none := by decide

/-! ### C62 -/

/-- C62: for all schemas whose columns have named types (and whatever the iteration order of the type table),
reading back the result set built from them ends without error, with exactly the columns' names and data types,
in order. -/
theorem C62_round_trip (S : SEnv V F T) (hS : TextLaws S) (ord : List (DataType × Str))
    (ho : ord.Perm dataTypeStrings) (schemas : List Query.Schema)
    (hd : ∀ s ∈ schemas, ∀ c ∈ s.columns, ∃ d, c.def_ = some d ∧ d.typ.toStr ≠ [])
    (hn : (columnsOf schemas).length < 2 ^ 63) :
    ∃ (rs : RSet V F T) (cols : List SysColumn), fromSchemas S.R.X.ofText schemas = .ok rs ∧
      (∃ n, ∀ fuel, n ≤ fuel → fromResultSet S ord fuel rs = some (.ok cols)) ∧
      cols.map (fun c => (c.name, some c.typ)) = (columnsOf schemas).map (fun p => (p.2.name, p.2.def_.map (·.typ))) := by
  let cols : List SysColumn := (columnsOf schemas).map (fun p =>
    { catalog := catalogDefault, schema := infoSchema, table := infoColumns, name := p.2.name,
      typ := (p.2.def_.getD unknownDataDef).typ })
  have hmem : ∀ p ∈ columnsOf schemas, ∃ d, p.2.def_ = some d ∧ d.typ.toStr ≠ [] := by
    intro p hp
    obtain ⟨s, hs, hp⟩ := List.mem_flatMap.mp hp
    obtain ⟨c, hc, rfl⟩ := List.mem_map.mp hp
    exact hd s hs c hc
  refine ⟨sysSet S.R.X.ofText schemas, cols, ?_, ⟨(columnsOf schemas).length + 1, ?_⟩, ?_⟩
  · refine fromSchemas_ok _ _ ?_
    intro s hs c hc
    obtain ⟨d, h, _⟩ := hd s hs c hc
    rw [h]; rfl
  · intro fuel hf
    obtain ⟨rs', hl⟩ := sysSet_loop S.R S.R.X.ofText schemas hn
    have := readLoop_eq S ord hl ((columnsOf schemas).map (fun p => sysRow S.R.X.ofText p.2)) cols [] fuel
      (by simp) ?_ (by simp only [List.length_map]; omega)
    · simpa [fromResultSet] using this
    · rw [List.map_map, List.map_map]
      refine List.map_congr_left ?_
      intro p hp
      obtain ⟨d, h, ht⟩ := hmem p hp
      have e1 : (newDataTypeFrom S ord (some (S.R.X.ofText d.typ.toStr))) = some d.typ := by
        unfold newDataTypeFrom
        rw [hS.dyn]
        exact (C21_data_type_names ord ho d.typ ht d.typ.toStr).mpr (.inl rfl)
      have e2 : columnOfRow S ord (sysRow S.R.X.ofText p.2) =
          newColumn S ord [.catalog (some (S.R.X.ofText catalogDefault)), .schema (some (S.R.X.ofText infoSchema)),
            .table (some (S.R.X.ofText infoColumns)), .name (some (S.R.X.ofText p.2.name)),
            .typ (some (S.R.X.ofText (p.2.def_.getD unknownDataDef).typ.toStr))] := rfl
      simp only [Function.comp_apply, e2, newColumn, applyOpts, ColOpt.apply, hS.cast, Option.map_some, h,
        Option.getD_some, e1]
  · rw [List.map_map]
    refine List.map_congr_left ?_
    intro p hp
    obtain ⟨d, h, _⟩ := hmem p hp
    simp [h]

example : ∀ s ∈ [ySchema], ∀ c ∈ s.columns, ∃ d, c.def_ = some d ∧ d.typ.toStr ≠ [] := by
  intro s hs c hc
  simp only [List.mem_singleton] at hs
  subst hs
  simp only [ySchema, newSchemaWith, List.mem_cons, List.not_mem_nil, or_false] at hc
  rcases hc with rfl | rfl
  · exact ⟨_, rfl, by decide⟩
  · exact ⟨_, rfl, by decide⟩
example : fromResultSet yEnv dataTypeStrings 3 (sysSet id [ySchema]) = some (.ok
    [{ catalog := s%"def", schema := s%"information_schema", table := s%"COLUMNS", name := s%"id", typ := .integer },
     { catalog := s%"def", schema := s%"information_schema", table := s%"COLUMNS", name := s%"mail", typ := .text }]) := by
  decide

/-! ### C63 -/

/-- C63: a SELECT is recognised exactly when its FROM list is the single table information_schema.columns, in
any letter case, given as schema and name or as a full name. -/
theorem C63_iff (s : Query.Select) : isSchemaColumnsQuery s = true ↔ ∃ t, s.tables = [t] ∧ IsInfoColumns t := by
  have key : ∀ t : Table, Str.eqFold t.fullTableName schemaColumnsTable = true ↔ IsInfoColumns t := by
    intro t
    obtain ⟨schema, name⟩ := t
    have hcons : schemaColumnsTable.map Char.toLower = s%"information_schema" ++ '.' :: s%"columns" := by decide
    have dot : ∀ x : Str, '.' ∈ x.map Char.toLower ↔ '.' ∈ x := by
      intro x
      rw [List.mem_map]
      constructor
      · rintro ⟨c, hc, h⟩
        have h' := congrArg Char.toNat h
        rw [Str.toLower_toNat] at h'
        have : ('.' : Char).toNat = 46 := rfl
        have : c = '.' := Str.char_ext (by split at h' <;> omega)
        exact this ▸ hc
      · intro h; exact ⟨_, h, rfl⟩
    have full : ∀ x : Str, Str.eqFold x schemaColumnsTable = true ↔ SameName x s%"information_schema.columns" :=
      fun x => sameName_iff x schemaColumnsTable
    by_cases hdot : '.' ∈ name
    · have hlen : 0 < name.length := List.length_pos_of_mem hdot
      have e : Table.fullTableName ⟨schema, name⟩ = name := by
        have hs : Str.hasSub name s%"." = true := (Str.hasSub_single name '.').mpr hdot
        simp [Table.fullTableName, hlen, hs]
      rw [e, full]
      refine ⟨.inl, ?_⟩
      rintro (h | ⟨_, h⟩)
      · exact h
      · have := (dot name).mpr hdot
        rw [show name.map Char.toLower = s%"columns" from h] at this
        exact absurd this (by decide)
    · have hno : ¬ SameName name s%"information_schema.columns" := by
        intro h
        refine hdot ((dot name).mp ?_)
        rw [show name.map Char.toLower = s%"information_schema.columns" from h]
        decide
      have hs : Str.hasSub name s%"." = false := by
        cases h : Str.hasSub name s%"." with
        | false => rfl
        | true => exact absurd ((Str.hasSub_single name '.').mp h) hdot
      cases name with
      | nil =>
        refine ⟨fun h => ?_, ?_⟩
        · exact absurd (show Str.eqFold [] schemaColumnsTable = true from h) (by decide)
        · rintro (h | ⟨_, h⟩)
          · exact absurd h hno
          · exact absurd (show SameName [] s%"columns" from h) (by decide)
      | cons c name =>
        cases schema with
        | nil =>
          have e : Table.fullTableName ⟨[], c :: name⟩ = c :: name := by simp [Table.fullTableName]
          rw [e, full]
          refine ⟨.inl, ?_⟩
          rintro (h | ⟨h, _⟩)
          · exact h
          · exact absurd (show SameName [] s%"information_schema" from h) (by decide)
        | cons d schema =>
          have e : Table.fullTableName ⟨d :: schema, c :: name⟩ = (d :: schema) ++ '.' :: (c :: name) := by
            simp [Table.fullTableName, hs, Str.join]
          rw [e, full]
          have h2 : SameName ((d :: schema) ++ '.' :: (c :: name)) s%"information_schema.columns" ↔
              (d :: schema).map Char.toLower ++ '.' :: (c :: name).map Char.toLower =
                s%"information_schema" ++ '.' :: s%"columns" := by
            unfold SameName
            rw [List.map_append, List.map_cons (a := '.'), show ('.' : Char).toLower = '.' from rfl]
            exact Iff.rfl
          rw [h2]
          constructor
          · intro h
            have h' := congrArg List.reverse h
            simp only [List.reverse_append, List.reverse_cons, List.append_assoc, List.singleton_append] at h'
            have := Str.append_cons_inj '.' ((c :: name).map Char.toLower).reverse (s%"columns").reverse _ _
              (by rw [List.mem_reverse, dot]; exact hdot) (by decide) (by simpa using h')
            refine .inr ⟨?_, ?_⟩
            · have h3 := congrArg List.reverse this.2
              simpa [SameName] using h3
            · have h3 := congrArg List.reverse this.1
              simpa [SameName] using h3
          · rintro (h | ⟨ha, hb⟩)
            · exact absurd h hno
            · rw [show (d :: schema).map Char.toLower = s%"information_schema" from ha,
                show (c :: name).map Char.toLower = s%"columns" from hb]
  unfold isSchemaColumnsQuery
  split
  · next t ht => rw [key]; simp [ht]
  · next hne =>
    constructor
    · intro h; cases h
    · rintro ⟨t, ht, _⟩; exact absurd ht (hne t)

example : IsInfoColumns { schema := s%"Information_Schema", name := s%"columns" } := .inr (by decide)
example : IsInfoColumns { name := s%"information_schema.COLUMNS" } := .inl (by decide)
example : ¬ IsInfoColumns { name := s%"columns" } := by
  rintro (h | ⟨h, _⟩) <;> exact absurd h (by decide)

/-! ### C64 -/

/-- C64: a condition is traversed successfully exactly when it is a conjunction of equalities with strings; the
statement then reports the last value given for TABLE_SCHEMA (the database name it had before, when there is
none) and every value given for TABLE_NAME, in order. -/
theorem C64_iff (parse : Str → Res (List Statement)) (s : Query.Select) (db : Str) (tbls : List Str) (r : Stmt) :
    newStatement parse (some s) db tbls = .ok r ↔
      ∃ e ps, s.cond = some e ∧ Conjunction e ps ∧
        r = { stmt := some s, dbName := ((valuesFor s%"TABLE_SCHEMA" ps).getLast?).getD db,
              tblNames := valuesFor s%"TABLE_NAME" ps } := by
  have ht : ∀ e ps, s.cond = some e → Conjunction e ps → newStatement parse (some s) db tbls =
      .ok { stmt := some s, dbName := ((valuesFor s%"TABLE_SCHEMA" ps).getLast?).getD db,
            tblNames := valuesFor s%"TABLE_NAME" ps } := by
    intro e ps he hc
    simp only [newStatement, traverse, he, traverse_conj hc, foldl_pairStep, List.nil_append]
    rfl
  constructor
  · intro h
    have h0 := h
    simp only [newStatement, traverse] at h
    cases he : s.cond with
    | none => rw [he] at h; cases h
    | some e =>
      simp only [he] at h
      cases hx : traverseExpr e (db, []) with
      | err => rw [hx] at h; cases h
      | panic => rw [hx] at h; cases h
      | ok st =>
        obtain ⟨ps, hc⟩ := traverse_ok hx
        rw [ht e ps he hc] at h0
        cases h0
        exact ⟨e, ps, rfl, hc, rfl⟩
  · rintro ⟨e, ps, he, hc, rfl⟩
    exact ht e ps he hc

/-- C64: any other condition whose comparisons all have a right-hand side (those of parsed statements do), and
a missing condition, is an error. -/
theorem C64_error (parse : Str → Res (List Statement)) (s : Query.Select) (db : Str) (tbls : List Str)
    (hc : ∀ e, s.cond = some e → Complete e ∧ ∀ ps, ¬ Conjunction e ps) :
    newStatement parse (some s) db tbls = .err := by
  cases he : s.cond with
  | none => simp only [newStatement, traverse, he]
  | some e =>
    obtain ⟨h1, h2⟩ := hc e he
    simp only [newStatement, traverse, he]
    cases hx : traverseExpr e (db, []) with
    | err => rfl
    | panic => exact absurd hx (traverse_complete h1 _)
    | ok st => obtain ⟨ps, hc⟩ := traverse_ok hx; exact absurd hc (h2 ps)

/-- Example comparison. -/
def yEq (n v : Str) : Expr := .cmp { op := .eq, left := { name := n }, right := some { v := .str v, t := .string } }

example : Conjunction (.and (yEq s%"table_schema" s%"db") (.and (yEq s%"TABLE_NAME" s%"a") (yEq s%"TABLE_NAME" s%"b")))
    [(s%"table_schema", s%"db"), (s%"TABLE_NAME", s%"a"), (s%"TABLE_NAME", s%"b")] :=
  .and .eq (.and .eq .eq)
example : valuesFor s%"TABLE_NAME" [(s%"table_schema", s%"db"), (s%"TABLE_NAME", s%"a"), (s%"TABLE_NAME", s%"b")] =
    [s%"a", s%"b"] := by decide
example : Complete (.or (yEq s%"TABLE_NAME" s%"a") (yEq s%"TABLE_NAME" s%"b")) ∧
    ∀ ps, ¬ Conjunction (.or (yEq s%"TABLE_NAME" s%"a") (yEq s%"TABLE_NAME" s%"b")) ps :=
  ⟨⟨(fun h => nomatch h), (fun h => nomatch h)⟩, fun _ h => nomatch h⟩

end Verif.Props
