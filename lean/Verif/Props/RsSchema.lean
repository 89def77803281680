import Verif.Lemmas.RsSchema
/-! Result sets, their columns and schemas as they are made: C140 to C146. -/
namespace Verif.Props
open Verif Verif.Query Verif.Rs Verif.Spec Verif.Lemmas

/-! ### C140 -/

/-- A table with a column `a`. -/
def tableA : Query.Schema := { table := { name := s%"t" }, columns := [{ name := s%"a", def_ := some { typ := .int, length := 0 } }] }

/-- C140, without the part that fails: a schema made from a table schema and a selection list has exactly one column
per selector, in order: for a plain selector the first column of the table of that name, letter case aside, and for a
mathematical, aggregate, cast or arithmetic function a FLOAT column named by the text of the call. It has the name of
the table. What is missing: `*` and functions of other types are rejected, and a column keeps the table's spelling of
the name. -/
theorem C140_columns_partial (s : Query.Schema) (ss : List Selector) (r : RSchema) :
    newSchemaFrom [.tableSchema (some s), .selectors ss] = .ok r ↔
      r.database = [] ∧ r.table = s.table.name ∧ r.base = some s ∧ Pairwise2 (SelectorColumn s) ss r.columns := by
  rw [← selectorColumns_iff]
  simp only [newSchemaFrom, applyUntil, SchemaOption.apply]
  cases hc : selectorColumns s ss with
  | none => simp
  | some cs =>
    cases r
    simp only [Res.ok.injEq, RSchema.mk.injEq, Option.some.injEq]
    constructor
    · rintro ⟨h1, h2, h3, h4⟩; exact ⟨h1.symm, h2.symm, h4.symm, h3⟩
    · rintro ⟨h1, h2, h3, h4⟩; exact ⟨h1.symm, h2.symm, h4, h3.symm⟩

/-- C140, when it is refused: exactly if some selector has no such column. -/
theorem C140_error_iff (s : Query.Schema) (ss : List Selector) :
    newSchemaFrom [.tableSchema (some s), .selectors ss] = .err ↔ ∃ x, x ∈ ss ∧ ∀ c, ¬ SelectorColumn s x c := by
  rw [← selectorColumns_none]
  simp only [newSchemaFrom, applyUntil, SchemaOption.apply]
  cases hc : selectorColumns s ss with
  | none => simp
  | some cs => simp

example : newSchemaFrom [.tableSchema (some tableA), .selectors [.col { name := s%"A" }, .fn (Function.named s%"MAX" [s%"a"])]] =
    .ok { table := s%"t", base := some tableA, columns :=
      [.query { name := s%"a", def_ := some { typ := .int, length := 0 } }, .own { name := s%"MAX(a)", typ := .float, fn := some (Function.named s%"MAX" [s%"a"]) }] } := by
  decide +kernel

/-- C140 fails: the selection lists `*`, `NOW()` and, the name of the function being in small letters, `max(a)` are
refused. -/
theorem C140_star_fails : newSchemaFrom [.tableSchema (some tableA), .selectors [.col { name := s%"*" }]] = .err ∧
    newSchemaFrom [.tableSchema (some tableA), .selectors [.fn (Function.named s%"NOW" [])]] = .err ∧
    newSchemaFrom [.tableSchema (some tableA), .selectors [.fn (Function.named s%"max" [s%"a"])]] = .err := by decide +kernel

/-! ### C141 -/

/-- C141, without the part that fails: `NewSchemaFrom` fails exactly if, applied one after the other, some option
fails. Missing: `NewSchema` does not. -/
theorem C141_schema_partial (os : List SchemaOption) : newSchemaFrom os = .err ↔
    ∃ before o after m, os = before ++ o :: after ∧ newSchemaFrom before = .ok m ∧ o.apply m = .err := until_err

/-- As `C141_schema_partial`, for result sets. -/
theorem C141_resultset_partial {V F T : Type} (os : List (RSetOption V F T)) : newResultSetFrom os = .err ↔
    ∃ before o after m, os = before ++ o :: after ∧ newResultSetFrom before = .ok m ∧ o.apply m = .err := until_err

example : newSchemaFrom [.selectors [.col { name := s%"a" }], .tableSchema (some tableA)] = .err := by decide +kernel

/-- C141 fails for all options: `NewSchema` never reports an error. What it makes is what `NewSchemaFrom` makes of the
options that do not fail, all of them if none fails. -/
theorem C141_schema_silent_fails (os : List SchemaOption) : newSchema os ≠ .err ∧
    (∀ r, newSchemaFrom os = .ok r → newSchema os = .ok r) ∧
    ∀ r, newSchema os = .ok r → ∃ os', os'.Sublist os ∧ newSchemaFrom os' = .ok r ∧ (newSchemaFrom os ≠ .err → os' = os) :=
  ⟨all_not_err os _, fun _ => until_all, fun _ => all_sublist⟩

/-- C141 fails for all options: `NewResultSet` never reports an error either. -/
theorem C141_resultset_silent_fails {V F T : Type} (os : List (RSetOption V F T)) : newResultSet os ≠ .err ∧
    (∀ r, newResultSetFrom os = .ok r → newResultSet os = .ok r) ∧
    ∀ r, newResultSet os = .ok r → ∃ os', os'.Sublist os ∧ newResultSetFrom os' = .ok r ∧ (newResultSetFrom os ≠ .err → os' = os) :=
  ⟨all_not_err os _, fun _ => until_all, fun _ => all_sublist⟩

/-- C141 fails: the schema of `SELECT *` on a table, made with `NewSchema`, silently has no columns. -/
theorem C141_empty_fails : newSchema [.tableSchema (some tableA), .selectors [.col { name := s%"*" }]] =
    .ok { table := s%"t", base := some tableA, columns := [] } := by decide +kernel

/-! ### C142 -/

/-- C142, without the part that fails: options that concern different parts of a schema can be given in any order. -/
theorem C142_schema_partial (os os' : List SchemaOption) (hp : os.Perm os') (ha : os.Pairwise Apart) (r : RSchema) :
    (newSchemaFrom os = .ok r → newSchemaFrom os' = .ok r) ∧ (newSchema os = .ok r → newSchema os' = .ok r) := by
  refine ⟨until_perm apart_symm apart_swaps hp ha, ?_⟩
  rw [newSchema, newSchema, applyAll_until, applyAll_until]
  exact until_perm apart_symm apart_swaps_lenient hp ha

/-- As `C142_schema_partial`, for result sets. -/
theorem C142_resultset_partial {V F T : Type} (os os' : List (RSetOption V F T)) (hp : os.Perm os') (ha : os.Pairwise RApart) (r : RSet V F T) :
    (newResultSetFrom os = .ok r → newResultSetFrom os' = .ok r) ∧ (newResultSet os = .ok r → newResultSet os' = .ok r) := by
  refine ⟨until_perm rapart_symm rapart_swaps hp ha, ?_⟩
  rw [newResultSet, newResultSet, applyAll_until, applyAll_until]
  exact until_perm rapart_symm rapart_swaps_lenient hp ha

example : [SchemaOption.database s%"d", .table s%"t", .columns []].Pairwise Apart := by
  simp [Apart, setsPart, needsPart]

example : [RSetOption.limit 1, .offset 2, .rowsOf (.maps []), .groupBy s%"a"].Pairwise (RApart (V := Nat) (F := Nat) (T := Nat)) := by
  simp [RApart, setsRPart, needsRSchema]

/-- C142 fails: the selection list given before the table schema is refused, and `NewSchema` then leaves it out. -/
theorem C142_schema_fails : newSchemaFrom [.selectors [.col { name := s%"a" }], .tableSchema (some tableA)] = .err ∧
    newSchema [.selectors [.col { name := s%"a" }], .tableSchema (some tableA)] ≠ newSchema [.tableSchema (some tableA), .selectors [.col { name := s%"a" }]] := by
  decide +kernel

/-- C142 fails: rows given as maps before the schema have no schema of their own, so that their values come in the order
of their names instead of that of the columns. -/
theorem C142_rows_fails {V F T : Type} (s : Rs.Schema V F T) (m : GoMap Str (Option V)) :
    newResultSet [.rowsOf (.maps [m]), .schema (some s)] = .ok { schema := some s, rows := [{ object := some m, schema := none }] } ∧
    newResultSet [.schema (some s), .rowsOf (.maps [m])] = .ok { schema := some s, rows := [{ object := some m, schema := some s }] } :=
  ⟨rfl, rfl⟩

/-! ### C143 -/

/-- C143, exactly: `IsFunction()` agrees with `Function()` unless the column was made by the result-set package without
a function. -/
theorem C143_function_iff (c : AnyCol) : (c.isFunction = true ↔ ∃ f, c.function = some f) ↔ ∀ d, c = .own d → d.fn ≠ none := by
  cases c with
  | query c =>
    simp only [AnyCol.isFunction, AnyCol.function, reduceCtorEq, false_implies, implies_true, iff_true]
    cases c.fn <;> simp
  | own d =>
    simp only [AnyCol.isFunction, AnyCol.function, RCol.isFunction, RCol.function, AnyCol.own.injEq, true_iff]
    constructor
    · rintro ⟨f, hf⟩ e rfl; simp [hf]
    · intro h
      cases hf : d.fn with
      | none => exact absurd hf (h d rfl)
      | some f => exact ⟨f, rfl⟩

/-- C143 fails: a plain column of a result set says it is a function, and has none. -/
theorem C143_fails (n : Str) (t : DataType) : (AnyCol.own (newRCol [.name n, .typ t])).isFunction = true ∧
    (AnyCol.own (newRCol [.name n, .typ t])).function = none := ⟨rfl, rfl⟩

/-- C143 for columns of the query package, such as those of a table schema. -/
theorem C143_query_partial (c : Column) : (AnyCol.query c).isFunction = true ↔ ∃ f, (AnyCol.query c).function = some f :=
  (C143_function_iff _).mpr (by simp)

/-! ### C144 -/

/-- C144, without the part that fails: `NewColumnFrom` makes a column with the name, data type and constraints of the
given one if that has a definition. Missing: it panics if not; and the function of the given column is lost. -/
theorem C144_column_partial (c : Column) (r : RCol) : newColumnFrom c = .ok r ↔
    ∃ d, c.def_ = some d ∧ r = { name := c.name, typ := d.typ, consts := d.consts, fn := none } := by
  unfold newColumnFrom Column.dataType Column.constraint
  cases hd : c.def_ with
  | none => simp
  | some d =>
    simp only [Res.ok.injEq, Option.some.injEq, exists_eq_left', newRCol, List.foldl, ColumnOption.apply]
    exact eq_comm

/-- C144: it panics exactly for a column without a definition, and never reports an error. -/
theorem C144_panic_iff (c : Column) : (newColumnFrom c = .panic ↔ c.def_ = none) ∧ newColumnFrom c ≠ .err := by
  unfold newColumnFrom Column.dataType Column.constraint
  cases hd : c.def_ <;> simp

/-- C144 fails: a column of a selection list makes it panic. -/
theorem C144_fails (n : Str) : newColumnFrom { name := n } = .panic := rfl

example : newColumnFrom { name := s%"a", def_ := some { typ := .int, length := 0, consts := 1 } } = .ok { name := s%"a", typ := .int, consts := 1 } := rfl

/-- C144 for lists: `NewColumnsFrom` keeps every column as it is, in order: its name, its function, and its type, which
can be asked for exactly if the column has a definition. -/
theorem C144_columns (cs : List Column) (i : Nat) (c : Column) (h : cs[i]? = some c) :
    ∃ r, (newColumnsFrom cs)[i]? = some r ∧ r.name = c.name ∧ r.function = c.fn ∧
      (∀ d, c.def_ = some d → r.dataType = .ok d.typ) ∧ (c.def_ = none → r.dataType = .panic) := by
  refine ⟨.query c, by simp [newColumnsFrom, h], rfl, rfl, fun d hd => ?_, fun hd => ?_⟩ <;>
    simp [AnyCol.dataType, Column.dataType, hd]

example : ([{ name := s%"a" }] : List Column)[0]? = some { name := s%"a" } := rfl

/-- C144: the definition text of a column made from a column with a definition is its name, the name of its type and its
constraints. It is the definition text of the given column if that has no length and no constraints. -/
theorem C144_text_partial (c : Column) (d : ColumnDef) (hd : c.def_ = some d) (hl : d.length ≤ 0) (hc : d.consts.toStr = []) (r : RCol)
    (hr : newColumnFrom c = .ok r) : r.definitionString = c.definitionString := by
  obtain ⟨d', hd', rfl⟩ := (C144_column_partial c r).mp hr
  cases hd.symm.trans hd'
  have : ¬ 0 < d.length := by omega
  simp [RCol.definitionString, Column.definitionString, hd, hc, ColumnDef.toStr, this]

/-- C144 fails for the definition text: for every column with a length, the text of the column made from it lacks the length. -/
theorem C144_text_fails (n : Str) (l : Nat) (hl : 0 < l) : ∃ r : RCol,
    newColumnFrom { name := n, def_ := some { typ := .varChar, length := l } } = .ok r ∧ r.definitionString = n ++ s%" VARCHAR" ∧
      ({ name := n, def_ := some { typ := .varChar, length := l } } : Column).definitionString = n ++ s%" VARCHAR(" ++ Str.ofNat l ++ s%")" := by
  refine ⟨_, rfl, ?_, ?_⟩
  · show (n ++ s%" " ++ DataType.toStr .varChar) ++ [] = _
    rw [List.append_nil, List.append_assoc]; rfl
  · have h : (0 : Int) < l := by omega
    have ht : DataType.toStr .varChar = s%"VARCHAR" := rfl
    simp [Column.definitionString, ColumnDef.toStr, hl, ht, Str.ofInt]

/-- C144: a result-set column is an asterisk exactly if it is named so, and has the arguments of its function. -/
theorem C144_own (c : RCol) : (c.isAsterisk = true ↔ c.name = s%"*") ∧ (∀ f, c.fn = some f → c.arguments = f.args) ∧
    (c.fn = none → c.arguments = []) := by
  refine ⟨by simp [RCol.isAsterisk], fun f h => by simp [RCol.arguments, h], fun h => by simp [RCol.arguments, h]⟩

/-! ### C145 -/

/-- C145, without the part that fails: the schema made from an object has one column for each of its keys, with the type
for its value, and is refused exactly if a value has a type without a data type. Missing: the columns come in the order
in which Go yields the keys of the map, which differs from call to call. -/
theorem C145_object_partial (o : List (Str × GoKind)) :
    (∀ r, newSchemaFrom [.rowObject o] = .ok r ↔ r.database = [] ∧ r.table = [] ∧ r.base = none ∧
      Pairwise2 (fun (e : Str × GoKind) c => ∃ t, newDataTypeForValue e.2 = some t ∧ c = AnyCol.own { name := e.1, typ := t }) o r.columns) ∧
    (newSchemaFrom [.rowObject o] = .err ↔ ∃ e, e ∈ o ∧ newDataTypeForValue e.2 = none) := by
  simp only [← objectColumns_iff, ← objectColumns_none]
  simp only [newSchemaFrom, applyUntil, SchemaOption.apply]
  cases hc : objectColumns o with
  | none => simp
  | some cs =>
    refine ⟨fun r => ?_, by simp⟩
    cases r
    simp only [Res.ok.injEq, RSchema.mk.injEq, Option.some.injEq]
    constructor
    · rintro ⟨h1, h2, h3, h4⟩; exact ⟨h1.symm, h2.symm, h4.symm, h3⟩
    · rintro ⟨h1, h2, h3, h4⟩; exact ⟨h1.symm, h2.symm, h4, h3.symm⟩

example : newSchemaFrom [.rowObject [(s%"a", .int), (s%"b", .string)]] =
    .ok { columns := [.own { name := s%"a", typ := .int }, .own { name := s%"b", typ := .varChar }] } := by decide +kernel

/-- C145 fails: the same object, its keys met in another order, gives another schema. -/
theorem C145_order_fails : newSchemaFrom [.rowObject [(s%"a", .int), (s%"b", .string)]] ≠ newSchemaFrom [.rowObject [(s%"b", .string), (s%"a", .int)]] := by
  decide +kernel

/-! ### C146 -/

/-- C146: an aggregated result set cannot be made without a table schema, selectors and a source; for each of the three
the last option given counts. With all three and no aggregate function among the selectors it is the source itself. -/
theorem C146_required {V F T : Type} (R : REnv V F T) (typed : Fn.Func V F T → Bool) (chs : List Fn.Choice) (fuel : Nat)
    (t : Option (Str × List (Col V F T))) (ss : Option (List (Sel V F T))) (src : Option (RSet V F T)) (g : Option Str) (os : List (AggrOption V F T))
    (hp : os.Perm [.tbl t, .selectors ss, .src src, .groupBy g]) :
    ((t = none ∨ ss = none ∨ src = none) → newAggregatedResultSetFrom R typed chs fuel os = some .err) ∧
    ∀ t' ss' src', t = some t' → ss = some ss' → src = some src' →
      newAggregatedResultSetFrom R typed chs fuel os = newAggregatedResultSet R typed chs fuel t'.1 t'.2 ss' g src' ∧
      (hasAggregator ss' = false → newAggregatedResultSetFrom R typed chs fuel os = some (.ok src')) := by
  have hs : applyUntil AggrOption.apply ({} : AggrOptions V F T) os = .ok { tbl := t, selectors := ss, src := src, groupBy := g } := by
    refine until_perm (C := fun x y => x.ctorIdx ≠ y.ctorIdx) (fun x y h => h.symm) (fun x y h => ?_) hp.symm (by simp [AggrOption.ctorIdx]) rfl
    intro s a b hx hy
    cases x <;> cases y <;> first
      | exact absurd rfl h
      | (cases hx; cases hy; exact ⟨_, rfl, rfl⟩)
  unfold newAggregatedResultSetFrom
  rw [hs]
  constructor
  · rintro (rfl | rfl | rfl)
    · rfl
    · cases t <;> rfl
    · cases t <;> cases ss <;> rfl
  · rintro t' ss' src' rfl rfl rfl
    refine ⟨rfl, fun h => ?_⟩
    simp [newAggregatedResultSet, h]

example : [AggrOption.selectors (V := Nat) (F := Nat) (T := Nat) (some []), .src (some {}), .groupBy none, .tbl (some (s%"t", []))].Perm
    [.tbl (some (s%"t", [])), .selectors (some []), .src (some {}), .groupBy none] :=
  (List.perm_append_comm (l₁ := [AggrOption.selectors (some []), .src (some {}), .groupBy none]) (l₂ := [.tbl (some (s%"t", []))]))

end Verif.Props
