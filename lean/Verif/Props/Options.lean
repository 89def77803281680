import Verif.Lemmas.Options
/-! Properties C162 to C166: tables, columns, literals, statements, rows and schemas made with options. -/
namespace Verif.Props
open Verif Verif.Query Verif.Spec.FnState Verif.Lemmas.Options

/-! ### C162 -/

/-- What an option of a schema gives for its columns. -/
def schemaColumnsOf : SchemaOpt → Option (List Column) | .columns cs => some cs | _ => none
/-- What an option of a schema gives for its indexes. -/
def schemaIndexesOf : SchemaOpt → Option (List Index) | .indexes is => some is | _ => none
/-- What an option of SELECT gives for ORDER BY. -/
def selectOrderOf : SelectOption → Option (List Order) | .orderBy os => some os | _ => none
/-- What an option of SELECT gives for LIMIT: the offset and the number of rows. -/
def selectLimitOf : SelectOption → Option (Nat × Nat) | .limit o l => some (o, l) | _ => none
/-- What an option of SELECT gives for GROUP BY. -/
def selectGroupOf : SelectOption → Option Str | .groupBy n => some n | _ => none

/-- C162 for tables, literals and schemas: a table has the name it is made with and the schema name of the last option; a
literal the value it is made with and the type of the last option; a schema the name it is made with, no schema name of
its own, and the columns and indexes of the last option for them. Without an option they have none. -/
theorem C162_parts :
    (∀ n os, (newTableWith n os).name = n ∧ (newTableWith n os).schema = lastGiven (fun o : TableOption => match o with | .schema s => some s) [] os) ∧
    (∀ v os, (newLiteralWith v os).v = v ∧
      (newLiteralWith v os).t = lastGiven (fun o : LiteralOption => match o with | .type t => some t) .unknown os) ∧
    (∀ n os, (newSchemaOf n os).table = { schema := [], name := n } ∧ (newSchemaOf n os).columns = lastGiven schemaColumnsOf [] os ∧
      (newSchemaOf n os).indexes = lastGiven schemaIndexesOf [] os) := by
  refine ⟨fun n os => ⟨?_, ?_⟩, fun v os => ⟨?_, ?_⟩, fun n os => ⟨?_, ?_, ?_⟩⟩
  · exact fold_const TableOption.apply (·.name) (fun s o => by cases o; rfl) os _
  · exact fold_field TableOption.apply (·.schema) _ (fun s o => by cases o; rfl) os _
  · exact fold_const LiteralOption.apply (·.v) (fun s o => by cases o; rfl) os _
  · exact fold_field LiteralOption.apply (·.t) _ (fun s o => by cases o; rfl) os _
  · exact fold_const SchemaOpt.apply (·.table) (fun s o => by cases o <;> rfl) os _
  · exact fold_field SchemaOpt.apply (·.columns) schemaColumnsOf (fun s o => by cases o <;> rfl) os _
  · exact fold_field SchemaOpt.apply (·.indexes) schemaIndexesOf (fun s o => by cases o <;> rfl) os _

/-- C162 for SELECT: selectors, tables and condition are those it is made with; ORDER BY, LIMIT and GROUP BY are those of
the last option for them, and without one are empty (no LIMIT is the pair 0, 0). -/
theorem C162_select (ss : List Selector) (ts : List Table) (w : Condition) (os : List SelectOption) :
    (newSelectWith ss ts w os).selectors = ss ∧ (newSelectWith ss ts w os).tables = ts ∧ (newSelectWith ss ts w os).cond = w ∧
    (newSelectWith ss ts w os).orderBy = lastGiven selectOrderOf [] os ∧
    ((newSelectWith ss ts w os).limit.offset, (newSelectWith ss ts w os).limit.limit) = lastGiven selectLimitOf (0, 0) os ∧
    (newSelectWith ss ts w os).groupBy = lastGiven selectGroupOf [] os := by
  refine ⟨?_, ?_, ?_, ?_, ?_, ?_⟩
  · exact fold_const SelectOption.apply (·.selectors) (fun s o => by cases o <;> rfl) os _
  · exact fold_const SelectOption.apply (·.tables) (fun s o => by cases o <;> rfl) os _
  · exact fold_const SelectOption.apply (·.cond) (fun s o => by cases o <;> rfl) os _
  · exact fold_field SelectOption.apply (·.orderBy) selectOrderOf (fun s o => by cases o <;> rfl) os _
  · exact fold_field SelectOption.apply (fun s => (s.limit.offset, s.limit.limit)) selectLimitOf (fun s o => by cases o <;> rfl) os _
  · exact fold_field SelectOption.apply (·.groupBy) selectGroupOf (fun s o => by cases o <;> rfl) os _

/-- What an option of a schema columns statement gives for the database. -/
def stmtDbOf : Sys.StmtOption → Option Str | .db s => some s | _ => none
/-- What an option of a schema columns statement gives for the tables. -/
def stmtTablesOf : Sys.StmtOption → Option (List Str) | .tables ts => some ts | _ => none
/-- What an option of a schema columns statement gives for the SELECT. -/
def stmtSelectOf : Sys.StmtOption → Option (Option Select) | .select s => some s | _ => none

/-- C162 for schema columns statements: the statement is the one made from the last SELECT, database and list of tables
given; in particular names given together with a SELECT do not add up. -/
theorem C162_statement (parse : Str → Res (List Statement)) (os : List Sys.StmtOption) :
    Sys.newStatementWith parse os =
      Sys.newStatement parse (lastGiven stmtSelectOf none os) (lastGiven stmtDbOf [] os) (lastGiven stmtTablesOf [] os) := by
  unfold Sys.newStatementWith
  have h1 := fold_field Sys.StmtOption.apply (·.1) stmtSelectOf (fun s o => by cases o <;> rfl) os (none, [], [])
  have h2 := fold_field Sys.StmtOption.apply (·.2.1) stmtDbOf (fun s o => by cases o <;> rfl) os (none, [], [])
  have h3 := fold_field Sys.StmtOption.apply (·.2.2) stmtTablesOf (fun s o => by cases o <;> rfl) os (none, [], [])
  dsimp only at h1 h2 h3 ⊢
  rw [h1, h2, h3]

section
variable {V F T : Type}

/-- What an option of a row gives for its object. -/
def rowObjectOf : Rs.RowOption V F T → Option (Option (GoMap Str (Option V))) | .object o => some o | _ => none
/-- What an option of a row gives for its schema. -/
def rowSchemaOf : Rs.RowOption V F T → Option (Option (Rs.Schema V F T)) | .schema s => some s | _ => none
/-- What an option of a row gives for its values. -/
def rowValuesOf : Rs.RowOption V F T → Option (Option (List (Option V))) | .values vs => some vs | _ => none
/-- What an option of a bind statement gives for the query. -/
def bindQueryOf : Bind.StmtOption T F V → Option Str | .query q => some q | _ => none
/-- What an option of a bind statement gives for the parameters. -/
def bindParamsOf : Bind.StmtOption T F V → Option (List (Bind.Param T F V)) | .params ps => some ps | _ => none

/-- C162 for rows and bind statements: each part is that of the last option for it. -/
theorem C162_rows (os : List (Rs.RowOption V F T)) (bs : List (Bind.StmtOption T F V)) :
    (Rs.newRow os).object = lastGiven rowObjectOf none os ∧ (Rs.newRow os).schema = lastGiven rowSchemaOf none os ∧
    (Rs.newRow os).values = lastGiven rowValuesOf none os ∧
    Bind.newBindStatement bs = (lastGiven bindQueryOf [] bs, lastGiven bindParamsOf [] bs) := by
  refine ⟨?_, ?_, ?_, Prod.ext ?_ ?_⟩
  · exact fold_field Rs.RowOption.apply (·.object) rowObjectOf (fun s o => by cases o <;> rfl) os _
  · exact fold_field Rs.RowOption.apply (·.schema) rowSchemaOf (fun s o => by cases o <;> rfl) os _
  · exact fold_field Rs.RowOption.apply (·.values) rowValuesOf (fun s o => by cases o <;> rfl) os _
  · exact fold_field Bind.StmtOption.apply (·.1) bindQueryOf (fun s o => by cases o <;> rfl) bs _
  · exact fold_field Bind.StmtOption.apply (·.2) bindParamsOf (fun s o => by cases o <;> rfl) bs _

end

example : (newTableWith s%"t" [.schema s%"a", .schema s%"b"]).fullTableName = s%"b.t" := by decide
example : ((newSelectWith [] [] none [.limit 3 5, .groupBy s%"g", .limit 0 7]).limit.limit,
    (newSelectWith [] [] none [.limit 3 5, .groupBy s%"g", .limit 0 7]).groupBy) = (7, s%"g") := by decide

/-! ### C163 -/

/-- What an option of a column gives for its name. -/
def colNameOf : ColOption → Option Str | .name s => some s | _ => none
/-- What an option of a column gives for its definition. -/
def colDataOf : ColOption → Option (Option ColumnDef) | .data d => some d | _ => none
/-- What an option of a column gives for its literal. -/
def colLiteralOf : ColOption → Option (Option Literal) | .literal l => some l | _ => none
/-- What an option of a column gives for its arguments. -/
def colArgsOf : ColOption → Option (List Str) | .args as => some as | _ => none
/-- What an option of a column gives for its function: an executor makes a function without arguments that has its name,
its type and itself as executor. -/
def colFunctionOf : ColOption → Option (Option Function)
  | .function f => some f
  | .executor (some e) => some (some { typ := e.typ, name := e.name, executor := some e, aggregator := none, args := [] })
  | _ => none

/-- C163, exactly: making a column panics if and only if one of the options gives a nil executor, wherever it stands;
otherwise each part of the column is that of the last option for it. -/
theorem C163_options (os : List ColOption) :
    (newColumnWithOptions os = .panic ↔ .executor none ∈ os) ∧
    (.executor none ∉ os → ∃ c, newColumnWithOptions os = .ok c ∧ c.name = lastGiven colNameOf [] os ∧
      c.def_ = lastGiven colDataOf none os ∧ c.lit = lastGiven colLiteralOf none os ∧ c.function = lastGiven colFunctionOf none os ∧
      c.args = lastGiven colArgsOf [] os) := by
  constructor
  · constructor
    · intro h
      apply Decidable.byContradiction
      intro hn
      rw [newColumnWithOptions, applyAll_ok os hn] at h
      cases h
    · exact fun h => applyAll_panic os h _
  · intro h
    refine ⟨_, applyAll_ok os h _, ?_, ?_, ?_, ?_, ?_⟩
    · refine fold_field step (·.name) colNameOf (fun s o => ?_) os _
      cases o with
      | executor e => cases e <;> rfl
      | _ => rfl
    · refine fold_field step (·.def_) colDataOf (fun s o => ?_) os _
      cases o with
      | executor e => cases e <;> rfl
      | _ => rfl
    · refine fold_field step (·.lit) colLiteralOf (fun s o => ?_) os _
      cases o with
      | executor e => cases e <;> rfl
      | _ => rfl
    · refine fold_field step (·.fn) colFunctionOf (fun s o => ?_) os _
      cases o with
      | executor e => cases e <;> rfl
      | _ => rfl
    · refine fold_field step (·.args) colArgsOf (fun s o => ?_) os _
      cases o with
      | executor e => cases e <;> rfl
      | _ => rfl

/-- C163: asking a column for its data type, size or constraints panics exactly if it has no definition; asking for its
value or value type exactly if it has no literal, which is what `HasValue` tells. -/
theorem C163_asked (c : Column) :
    (c.dataType = .panic ↔ c.def_ = none) ∧ (c.dataTypeSize = .panic ↔ c.def_ = none) ∧ (c.constraint = .panic ↔ c.def_ = none) ∧
    (c.value = .panic ↔ c.hasValue = false) ∧ (c.valueType = .panic ↔ c.hasValue = false) ∧
    (∀ d, c.def_ = some d → c.dataType = .ok d.typ ∧ c.dataTypeSize = .ok d.length ∧ c.constraint = .ok d.consts) ∧
    (∀ l, c.lit = some l → c.value = .ok l.v ∧ c.valueType = .ok l.t ∧ c.hasValue = true) := by
  refine ⟨?_, ?_, ?_, ?_, ?_, ?_, ?_⟩
  · unfold Column.dataType; cases c.def_ <;> simp
  · unfold Column.dataTypeSize; cases c.def_ <;> simp
  · unfold Column.constraint; cases c.def_ <;> simp
  · unfold Column.value Column.hasValue; cases c.lit <;> simp
  · unfold Column.valueType Column.hasValue; cases c.lit <;> simp
  · intro d h; simp [Column.dataType, Column.dataTypeSize, Column.constraint, h]
  · intro l h; simp [Column.value, Column.valueType, Column.hasValue, h]

/-- C163 as far as it holds: when every option gives a thing that is not nil and there are a definition and a literal, the
column can be made and answers everything it is asked. Missing: columns made with a nil executor, without a definition or
without a literal. -/
theorem C163_answers_partial (os : List ColOption) (h : .executor none ∉ os) (d : ColumnDef) (hd : lastGiven colDataOf none os = some d)
    (l : Literal) (hl : lastGiven colLiteralOf none os = some l) :
    ∃ c, newColumnWithOptions os = .ok c ∧ c.dataType = .ok d.typ ∧ c.dataTypeSize = .ok d.length ∧ c.constraint = .ok d.consts ∧
      c.value = .ok l.v ∧ c.valueType = .ok l.t := by
  obtain ⟨c, hc, _, h1, h2, _⟩ := (C163_options os).2 h
  have hx := C163_asked c
  exact ⟨c, hc, (hx.2.2.2.2.2.1 d (h1.trans hd)).1, (hx.2.2.2.2.2.1 d (h1.trans hd)).2.1, (hx.2.2.2.2.2.1 d (h1.trans hd)).2.2,
    (hx.2.2.2.2.2.2 l (h2.trans hl)).1, (hx.2.2.2.2.2.2 l (h2.trans hl)).2.1⟩

/-- C163 fails: a column made from its name alone, as every column of a selection list, panics when asked for its data type
or value; and the arguments given together with an executor are not those of the function the column reports. -/
theorem C163_fails :
    (∃ c, newColumnWithOptions [.name s%"a"] = .ok c ∧ c.dataType = .panic ∧ c.value = .panic) ∧
    (∃ c f, newColumnWithOptions [.executor (some { name := s%"+", typ := .arith }), .args [s%"a", s%"1"]] = .ok c ∧
      c.args = [s%"a", s%"1"] ∧ c.function = some f ∧ f.args = []) :=
  ⟨⟨_, rfl, rfl, rfl⟩, _, _, rfl, rfl, rfl, rfl⟩

example : ∃ c, newColumnWithOptions [.name s%"a", .data (some { typ := .int, length := 4 }), .name s%"b", .literal (some { v := .i32 7, t := .unknown })]
    = .ok c ∧ c.name = s%"b" ∧ c.dataType = .ok .int ∧ c.value = .ok (.i32 7) := ⟨_, rfl, rfl, rfl, rfl⟩
example : ColOption.executor none ∉ [ColOption.name s%"a", .data (some { typ := .int, length := 4 }), .literal (some { v := .i32 7, t := .unknown })] := by decide

/-! ### C164 -/

/-- What an option of ALTER TABLE gives for the schema name. -/
def alterSchemaOf : AlterOption → Option Str | .schema s => some s | _ => none
/-- What an option of ALTER TABLE gives for the new table name. -/
def alterRenameOf : AlterOption → Option (Option Table) | .renameTo t => some t | _ => none
/-- What an option of ALTER TABLE gives for the renaming of a column: only a pair is a renaming. -/
def alterColumnsOf : AlterOption → Option (Option (Column × Column))
  | .renameColumn (some f) (some t) => some (some (f, t))
  | .renameColumn _ _ => some none
  | _ => none
/-- What an option of ALTER TABLE gives for the column to add. -/
def alterAddOf : AlterOption → Option (Option Column) | .addColumn c => some c | _ => none
/-- What an option of ALTER TABLE gives for the index to add. -/
def alterAddIndexOf : AlterOption → Option (Option Index) | .addIndex i => some i | _ => none
/-- What an option of ALTER TABLE gives for the column to drop. -/
def alterDropOf : AlterOption → Option (Option Column) | .dropColumn c => some c | _ => none
/-- What an option of ALTER TABLE gives for the index to drop. -/
def alterDropIndexOf : AlterOption → Option (Option Index) | .dropIndex i => some i | _ => none

/-- C164: an ALTER TABLE made with options reports the table it is made with in the schema of the last option, and for
each of the six clauses what the last option for it gives; a nil takes a clause back, and a renaming of a column with one
side missing is none. -/
theorem C164_reported (n : Str) (os : List AlterOption) :
    (newAlterTableWith n os).table = { schema := lastGiven alterSchemaOf [] os, name := n } ∧
    (newAlterTableWith n os).renamed = lastGiven alterRenameOf none os ∧
    (newAlterTableWith n os).renameColumns = lastGiven alterColumnsOf none os ∧
    (newAlterTableWith n os).addColumn = lastGiven alterAddOf none os ∧
    (newAlterTableWith n os).addIndex = lastGiven alterAddIndexOf none os ∧
    (newAlterTableWith n os).dropColumn = lastGiven alterDropOf none os ∧
    (newAlterTableWith n os).dropIndex = lastGiven alterDropIndexOf none os := by
  refine ⟨?_, ?_, ?_, ?_, ?_, ?_, ?_⟩
  · have h := fold_field AlterOption.apply (·.1) alterSchemaOf (fun s o => by cases o <;> rfl) os ([], { table := { name := n } })
    dsimp only at h
    unfold newAlterTableWith
    dsimp only
    rw [h]
    cases lastGiven alterSchemaOf [] os with
    | nil => rfl
    | cons a l => rfl
  · exact fold_field AlterOption.apply (·.2.renameTo) alterRenameOf (fun s o => by cases o <;> rfl) os _
  · refine fold_field AlterOption.apply (·.2.renameColumns) alterColumnsOf (fun s o => ?_) os _
    cases o with
    | renameColumn f t => cases f <;> cases t <;> rfl
    | _ => rfl
  · exact fold_field AlterOption.apply (·.2.addColumn) alterAddOf (fun s o => by cases o <;> rfl) os _
  · exact fold_field AlterOption.apply (·.2.addIndex) alterAddIndexOf (fun s o => by cases o <;> rfl) os _
  · exact fold_field AlterOption.apply (·.2.dropColumn) alterDropOf (fun s o => by cases o <;> rfl) os _
  · exact fold_field AlterOption.apply (·.2.dropIndex) alterDropIndexOf (fun s o => by cases o <;> rfl) os _

/-- C164: asking an ALTER TABLE made with options for its text panics exactly if the column to add has no definition. -/
theorem C164_text_panic_iff (n : Str) (os : List AlterOption) :
    (newAlterTableWith n os).toStr = .panic ↔ ∃ c, lastGiven alterAddOf none os = some c ∧ c.def_ = none := by
  rw [← (C164_reported n os).2.2.2.1]
  generalize newAlterTableWith n os = a
  unfold AlterTable.toStr addColumnClause
  cases a.addColumn with
  | none => simp
  | some c => cases h : c.def_ <;> simp [h]

/-- These words, with spaces between, stand in the text. -/
def Shows (words : List Str) (s : Str) : Prop := ∃ before after, s = before ++ Str.join s%" " words ++ after

/-- C164 without the part that fails: the text, when there is one, begins with `ALTER TABLE` and the full name of the table,
and shows each reported clause: the new table name, both names of a renamed column, the definition of a column or index
to add, and the name of a column to drop. Missing: the index to drop, which the text never shows. -/
theorem C164_text_partial (a : AlterTable) (s : Str) (h : a.toStr = .ok s) :
    (∃ after, s = Str.join s%" " [s%"ALTER", s%"TABLE", a.table.fullTableName] ++ after) ∧
    (∀ t, a.renamed = some t → Shows [s%"RENAME", s%"TO", t.fullTableName] s) ∧
    (∀ f t, a.renameColumns = some (f, t) → Shows [s%"RENAME", s%"COLUMN", f.name, s%"TO", t.name] s) ∧
    (∀ c, a.addColumn = some c → Shows [s%"ADD"] s ∧ Shows [c.definitionString] s) ∧
    (∀ i, a.addIndex = some i → Shows [s%"ADD", i.definitionString] s) ∧
    (∀ c, a.dropColumn = some c → Shows [s%"DROP", c.name] s) ∧
    (∀ i, ({ a with dropIndex := i } : AlterTable).toStr = .ok s) := by
  obtain ⟨ws, hs, hw⟩ := toStr_words h
  subst hs
  have key : ∀ words, words ≠ [] → words <:+: ws → Shows words (Str.join s%" " ws) := by
    intro words hn ⟨x, z, e⟩
    obtain ⟨u, v, e'⟩ := join_infix s%" " x words z hn
    rw [e] at e'
    exact ⟨u, v, e'.symm⟩
  refine ⟨?_, fun t ht => key _ (by simp) (hw.2.1 t ht), fun f t ht => key _ (by simp) (hw.2.2.1 f t ht), fun c hc => ?_,
    fun i hi => key _ (by simp) (hw.2.2.2.2.1 i hi), fun c hc => key _ (by simp) (hw.2.2.2.2.2 c hc), fun i => h⟩
  · obtain ⟨l, hl⟩ := hw.1
    rw [← hl]
    exact join_prefix _ _ _ (by simp)
  · exact ⟨key _ (by simp) (hw.2.2.2.1 c hc).1, key _ (by simp) (hw.2.2.2.1 c hc).2⟩

/-- C164 fails: two ALTER TABLEs that drop different things have the same text, which moreover says nothing is to be done. -/
theorem C164_fails : ∃ i : Index, (newAlterTableWith s%"t" [.dropIndex (some i)]).dropIndex = some i ∧
    (newAlterTableWith s%"t" [.dropIndex (some i)]).toStr = .ok s%"ALTER TABLE t" ∧
    (newAlterTableWith s%"t" []).toStr = .ok s%"ALTER TABLE t" :=
  ⟨{ name := s%"i", typ := .secondary, columns := [] }, by decide, by decide, by decide⟩

example : (newAlterTableWith s%"t" [.schema s%"s", .addColumn (some { name := s%"c", def_ := some { typ := .int, length := 0 } }),
    .renameColumn (some { name := s%"a" }) none]).toStr = .ok s%"ALTER TABLE s.t ADD c INT" := by decide

/-! ### C165 -/

/-- The format a word names, in any letter case. -/
def namedFormat (s : Str) : Option CopyFormat :=
  if Str.upper s = s%"TEXT" then some .text else if Str.upper s = s%"CSV" then some .csv
  else if Str.upper s = s%"BINARY" then some .binary else none

/-- What an option of COPY gives for the format. -/
def copyFormatOf : CopyOption → Option CopyFormat | .format s => namedFormat s | _ => none
/-- What an option of COPY gives for the columns. -/
def copyColumnsOf : CopyOption → Option (List Column) | .columns cs => some cs | _ => none

/-- C165, exactly: a COPY has the table and source it is made with, the columns of the last option for them, and the format
of the last option that names one; options that name no format are passed over, and the default is TEXT. -/
theorem C165_options (n src : Str) (os : List CopyOption) :
    (newCopyWith n src os).table = { schema := [], name := n } ∧ (newCopyWith n src os).source = src ∧
    (newCopyWith n src os).columns = lastGiven copyColumnsOf [] os ∧
    (newCopyWith n src os).format = lastGiven copyFormatOf .text os := by
  refine ⟨?_, ?_, ?_, ?_⟩
  · exact fold_const CopyOption.apply (·.table) (fun s o => by cases o <;> rfl) os _
  · exact fold_const CopyOption.apply (·.source) (fun s o => by cases o <;> rfl) os _
  · exact fold_field CopyOption.apply (·.columns) copyColumnsOf (fun s o => by cases o <;> rfl) os _
  · refine fold_field CopyOption.apply (·.format) copyFormatOf (fun c o => ?_) os _
    cases o with
    | columns cs => rfl
    | format s =>
      show CopyFormat.parse c.format s = (namedFormat s).getD c.format
      unfold CopyFormat.parse namedFormat
      repeat' split
      all_goals rfl

/-- C165 as far as it holds: if the last format option names a format, the COPY has that format. Missing: words that name
none. -/
theorem C165_format_partial (n src s : Str) (pre post : List CopyOption) (f : CopyFormat) (hf : namedFormat s = some f)
    (hl : ∀ w, CopyOption.format w ∉ post) : (newCopyWith n src (pre ++ .format s :: post)).format = f := by
  rw [(C165_options n src _).2.2.2]
  have hp : post.filterMap copyFormatOf = [] := List.filterMap_eq_nil_iff.mpr (fun o hm => by
    cases o with
    | columns cs => rfl
    | format w => exact absurd hm (hl w))
  unfold lastGiven
  rw [List.filterMap_append, List.filterMap_cons]
  simp only [copyFormatOf, hf, hp]
  simp

/-- C165 fails: a misspelt format is not refused but read as TEXT. -/
theorem C165_fails : namedFormat s%"CVS" = none ∧ (newCopyWith s%"t" s%"'f'" [.format s%"CVS"]).toStr = s%"COPY t FROM 'f' TEXT" := by
  decide

example : namedFormat s%"csv" = some .csv ∧ (newCopyWith s%"t" s%"STDIN" [.format s%"binary", .format s%"csv", .columns []]).format = .csv := by
  decide

/-! ### C166 -/

/-- C166: the selectors of columns are those columns, so asking them for their columns gives the list back, in order; and
their names are the names of the columns. -/
theorem C166_back (cs : List Column) : selectorsColumns (columnsSelectors cs) = cs ∧ selectorsNames (columnsSelectors cs) = cs.map (·.name) ∧
    (columnsSelectors cs).length = cs.length := by
  refine ⟨?_, ?_, by simp [columnsSelectors]⟩
  · induction cs with
    | nil => rfl
    | cons c cs ih => exact congrArg (c :: ·) ih
  · simp [selectorsNames, columnsSelectors, Selector.text, Function.comp_def]

/-- C166: the columns of any selectors are exactly those selectors that are columns, in the same order. -/
theorem C166_columns (ss : List Selector) : (∀ c, c ∈ selectorsColumns ss ↔ .col c ∈ ss) ∧
    List.Sublist ((selectorsColumns ss).map Selector.col) ss ∧
    (selectorsColumns ss).length + (ss.filter (fun s => match s with | .fn _ => true | _ => false)).length = ss.length := by
  induction ss with
  | nil => exact ⟨by simp [selectorsColumns], by simp [selectorsColumns], rfl⟩
  | cons s ss ih =>
    obtain ⟨h1, h2, h3⟩ := ih
    cases s with
    | col c =>
      refine ⟨fun d => ?_, ?_, ?_⟩
      · simp [selectorsColumns, h1]
      · exact h2.cons_cons _
      · rw [selectorsColumns, List.filter_cons_of_neg (by simp), List.length_cons, List.length_cons]; omega
    | fn f =>
      refine ⟨fun d => ?_, ?_, ?_⟩
      · simp [selectorsColumns, h1]
      · exact h2.cons _
      · rw [selectorsColumns, List.filter_cons_of_pos (by simp), List.length_cons, List.length_cons]; omega

/-- C166: the names of arguments are the arguments, in order; a column of the query package is a function exactly if it has
one. -/
theorem C166_names (as : List Str) (c : Column) : argNames as = as ∧ (c.isFunction = true ↔ ∃ f, c.function = some f) := by
  refine ⟨by simp [argNames], ?_⟩
  simp [Column.isFunction, Column.function, Option.isSome_iff_exists]

/-- C166: an argument list is an asterisk exactly if it is empty or its only argument is `*`. -/
theorem C166_asterisk (as : List Str) : argsAreAsterisk as = true ↔ as = [] ∨ as = [s%"*"] := by
  cases as with
  | nil => simp [argsAreAsterisk]
  | cons a l => cases l with
    | nil => simp [argsAreAsterisk]
    | cons b l => simp [argsAreAsterisk]

example : selectorsColumns [.fn (Function.named s%"MAX" [s%"a"]), .col { name := s%"b" }, .col { name := s%"c" }] =
    [{ name := s%"b" }, { name := s%"c" }] := by decide

end Verif.Props
