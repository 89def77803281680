import Verif.Lemmas.VisitStmt
/-! What the visitor reports for the statements of Spec/Syntax.lean other than SELECT, INSERT, UPDATE and DELETE. -/
namespace Verif.Gram
open Verif Verif.Lex Verif.Spec Verif.Query Verif.Visit Verif.Util

variable {sp : Spelling}

/-! ### Objects -/

/-- The words of the type of a column. -/
def ColS.words (c : ColS) : List Str := c.typ :: (match c.len with
  | none => []
  | some n => [s%"(", n, s%")"])

/-- The column object of a column definition; names that are keywords are left out. -/
def colV (c : ColS) : Option Column :=
  if columnKeywords.any (Str.eqFold (unEscapeNameString c.name)) then none
  else some { name := unEscapeNameString c.name, def_ := some ((newDataDefFromStrings (ColS.words c)).getD unknownDataDef) }

/-- The primary keys a column definition adds. -/
def colKeysV (c : ColS) : List Index :=
  match colV c with
  | none => []
  | some x => (c.cons.filter (· = .primaryKey)).map (fun _ => newPrimaryIndexWith [x])

/-- The index object of a secondary index in a table with columns `cs`: left out if there is no such column. -/
def idxV (cs : List Column) (i : IdxS) : Option Index :=
  (lookupColumn cs (unEscapeNameString (s%"(" ++ i.col ++ s%")"))).map (fun c => newSecondaryIndexWith (unEscapeNameString i.name) [c])

/-- The index object of a primary key. -/
def keyV (k : KeyS) : Index :=
  newPrimaryIndexWith ((k.col :: k.cols).map (fun c => { name := unEscapeNameString c, def_ := some unknownDataDef }))

/-- The schema object of a table. -/
def tableV (t : TableS) : Schema :=
  newSchemaWith (unEscapeNameString t.name) ((t.col :: t.cols).filterMap colV)
    ((t.col :: t.cols).flatMap colKeysV ++ (t.idxs.filterMap (idxV ((t.col :: t.cols).filterMap colV)) ++ t.keys.map keyV))

/-- The name with its quotes taken off, as a column. -/
def nameV (c : Str) : Column := columnNamed (unEscapeNameString c)

/-- The object of ALTER TABLE. -/
def alterV (t : TabS) (a : AlterS) : AlterTable :=
  let x : AlterTable := { table := { schema := (t.schema.map unEscapeNameString).getD [], name := t.name } }
  match a with
  | .renameTo m => { x with renameTo := some { name := unEscapeNameString m } }
  | .renameColumn a b => { x with renameColumnFrom := some (columnNamed a), renameColumnTo := some (columnNamed b) }
  | .addIndex n c cs => { x with addIndex := some { name := unEscapeNameString n, typ := .secondary, columns := (c :: cs).map nameV } }
  | .addKey c cs => { x with addIndex := some { name := [], typ := .primary, columns := (c :: cs).map nameV } }
  | .addColumn c => { x with addColumn := colV c }
  | .dropColumn w c => { x with dropColumn := some (columnNamed (w ++ c)) }

/-- The format object. -/
def formatV : FormatS → CopyFormat
  | .text => .text | .csv => .csv | .binary => .binary

/-- The object of a statement. -/
def ddlV : DdlS → Statement
  | .createDatabase b n => .createDatabase n b
  | .createTable b t => .createTable (tableV t) b
  | .createIndex b n t c cs => .createIndex (newSchemaWith (unEscapeNameString t) [] [newSecondaryIndexWith (unEscapeNameString n) ((c :: cs).map nameV)]) b
  | .dropDatabase b n => .dropDatabase n b
  | .dropTable b t ts => .dropTable ((t :: ts).map (fun n => { name := unEscapeNameString n })) b
  | .dropIndex b i => .dropIndex ((i.schema.map unEscapeNameString).getD []) (unEscapeNameString i.name) b
  | .alterDatabase n m => .alterDatabase n m
  | .alterTable t a => .alterTable (alterV t a)
  | .use n => .use n
  | .copy t cs s f => .copy { table := { name := unEscapeString t }, columns := cs.map (fun c => columnNamed (unEscapeString c)), source := unEscapeString s, format := formatV f }
  | .truncate t ts => .truncate ((t :: ts).map (fun n => { name := n }))
  | .vacuum t => .vacuum (t.map (fun n => { name := n }))
  | .begin => .begin
  | .commit => .commit
  | .rollback => .rollback

/-- No column is named by one of the words that start an index (the lexer reports those as keywords). -/
def DdlS.Plain : DdlS → Prop
  | .createTable _ t => ∀ c ∈ t.col :: t.cols, c.name ≠ s%"PRIMARY" ∧ c.name ≠ s%"KEY" ∧ c.name ≠ s%"INDEX"
  | _ => True

/-! ### Columns and indexes -/

theorem isNode_part (x : PartS) : (partT sp x).IsNode .column_def := by cases x <;> exact ⟨_, rfl⟩
theorem isNode_key (x : KeyS) : (keyT sp x).IsNode .table_constraint := ⟨_, rfl⟩
theorem isNode_ixCol (x : Str) : (ixColT x).IsNode .indexed_column := ⟨_, rfl⟩

theorem text_word (t : TypeKind) (s : Str) : (wordT t s).text = s := by
  cases t <;> simp [wordT, Tree.text, textAll]

theorem typeWords_type (c : ColS) : typeWords (.node .type_name (wordT c.kind c.typ :: lenT sp c.len)) = ColS.words c := by
  obtain ⟨n, k, t, l⟩ := c
  have hw := text_word k t
  cases l with
  | none =>
    have h1 : (Tree.node .type_name (wordT k t :: lenT sp none)).all .«name» = [wordT k t] := rfl
    have h2 : (Tree.node .type_name (wordT k t :: lenT sp none)).token .OPEN_PAR = none := rfl
    simp [typeWords, h1, h2, hw, ColS.words]
  | some l =>
    have h1 : (Tree.node .type_name (wordT k t :: lenT sp (some l))).all .«name» = [wordT k t] := rfl
    have h2 : (Tree.node .type_name (wordT k t :: lenT sp (some l))).token .OPEN_PAR = some (.leaf (kw sp .OPEN_PAR)) := rfl
    have h3 : (Tree.node .type_name (wordT k t :: lenT sp (some l))).token .CLOSE_PAR = some (.leaf (kw sp .CLOSE_PAR)) := rfl
    have h4 : (Tree.node .type_name (wordT k t :: lenT sp (some l))).all .signed_number = [.node .signed_number [.leaf (number l)]] := rfl
    simp [typeWords, h1, h2, h3, h4, hw, ColS.words, Tree.text, textAll, number, joinWithComma, Str.join]

theorem columnWith_col (c : ColS) : columnWith (colT sp c) = .ok (colV c) := by
  have h1 : (colT sp c).child .column_name = some (nameT .column_name c.name) := rfl
  have h2 : (colT sp c).child .type_name = some (.node .type_name (wordT c.kind c.typ :: lenT sp c.len)) := rfl
  have h3 : (ColS.words c).length ≠ 0 := by simp [ColS.words]
  rw [columnWith, Visit.textOf, h1]
  simp only [Res.must, Res.bind, text_name, h2, typeWords_type, h3, if_false, colV]
  split <;> rfl

theorem col_constraints (c : ColS) : (colT sp c).all .column_constraint = c.cons.map (consT sp) := by
  have h : ∀ cs : List ConsS, (unlab (cs.map (consT sp))) = cs.map (consT sp) ∧
      (cs.map (consT sp)).filter (Tree.isRule .column_constraint) = cs.map (consT sp) := by
    intro cs
    induction cs with
    | nil => exact ⟨rfl, rfl⟩
    | cons c cs ih =>
      cases c <;> simp [consT, unlab, ih, Tree.isRule]
  simp [colT, Tree.all, Tree.kids, unlab, h, nameT, Tree.isRule]

theorem cons_keys (cs : List ConsS) : ((cs.map (consT sp)).filter (fun k => (k.child .primary_key_constraint).isSome)).length =
    (cs.filter (· = .primaryKey)).length := by
  induction cs with
  | nil => rfl
  | cons c cs ih =>
    cases c with
    | primaryKey =>
      have : ((consT sp .primaryKey).child .primary_key_constraint).isSome = true := rfl
      rw [List.map_cons, List.filter_cons, if_pos this, List.filter_cons, if_pos (by rfl), List.length_cons, List.length_cons, ih]
    | notNull =>
      have : ((consT sp .notNull).child .primary_key_constraint).isSome = false := rfl
      rw [List.map_cons, List.filter_cons, if_neg (by rw [this]; simp), List.filter_cons, if_neg (by simp), ih]
    | unique =>
      have : ((consT sp .unique).child .primary_key_constraint).isSome = false := rfl
      rw [List.map_cons, List.filter_cons, if_neg (by rw [this]; simp), List.filter_cons, if_neg (by simp), ih]

theorem map_const_length {α β γ : Type} (x : γ) {a : List α} {b : List β} (h : a.length = b.length) : a.map (fun _ => x) = b.map (fun _ => x) := by
  simp [List.map_const', h]

/-- What a column definition adds. -/
theorem columnStep_col (c : ColS) (acc : List Column × List Index) :
    columnStep (colT sp c) acc = .ok (acc.1 ++ (colV c).toList, acc.2 ++ colKeysV c) := by
  rw [columnStep, columnWith_col, colKeysV]
  cases colV c with
  | none => simp [Res.bind]
  | some x =>
    have := map_const_length (newPrimaryIndexWith [x]) (cons_keys (sp := sp) c.cons)
    simp only [Res.bind, col_constraints, Option.toList_some]
    rw [this]

theorem indexStep_col {c : ColS} (h : c.name ≠ s%"PRIMARY" ∧ c.name ≠ s%"KEY" ∧ c.name ≠ s%"INDEX") (acc : List Column × List Index) :
    indexStep (colT sp c) acc = .ok acc := by
  have h1 : (colT sp c).child .column_name = some (nameT .column_name c.name) := rfl
  rw [indexStep, Visit.textOf, h1]
  simp only [Res.must, Res.bind, text_name]
  rw [if_neg h.1, if_neg (fun e => e.elim h.2.1 h.2.2)]

theorem columnStep_idx (i : IdxS) (acc : List Column × List Index) : columnStep (idxT sp i) acc = .ok acc := by
  have h1 : (idxT sp i).child .column_name = some (.node .column_name [.node .any_name [.node .keyword [.leaf ⟨.INDEX_, s%"INDEX"⟩]]]) := rfl
  have h2 : columnKeywords.any (Str.eqFold (unEscapeNameString s%"INDEX")) = true := by decide +kernel
  have h3 : (Tree.node .column_name [.node .any_name [.node .keyword [.leaf ⟨.INDEX_, s%"INDEX"⟩]]]).text = s%"INDEX" := rfl
  rw [columnStep, columnWith, Visit.textOf, h1]
  simp only [Res.must, Res.bind, h3, h2, if_true]

theorem indexScan_idx (cs : List Column) (n c : Str) :
    indexScan cs [s%"INDEX", n, c] = keyScan cs [n, c] := by
  have h1 : (s%"INDEX" : Str) ≠ s%"PRIMARY" := by decide
  rw [indexScan, if_neg h1, if_pos (.inr rfl)]
  cases h : keyScan cs [n, c] with
  | some x => rfl
  | none =>
    simp [indexScan, primaryScan, keyScan]

theorem indexStep_idx (hg : sp.Good) (i : IdxS) (acc : List Column × List Index) :
    indexStep (idxT sp i) acc = .ok (acc.1, acc.2 ++ (idxV acc.1 i).toList) := by
  obtain ⟨n, c⟩ := i
  have h1 : (idxT sp ⟨n, c⟩).child .column_name = some (.node .column_name [.node .any_name [.node .keyword [.leaf ⟨.INDEX_, s%"INDEX"⟩]]]) := rfl
  have h2 : (Tree.node .column_name [.node .any_name [.node .keyword [.leaf ⟨.INDEX_, s%"INDEX"⟩]]]).text = s%"INDEX" := rfl
  have h3 : (s%"INDEX" : Str) ≠ s%"PRIMARY" := by decide
  have h4 : (idxT sp ⟨n, c⟩).child .type_name = some (.node .type_name [nameT .«name» n,
      .node .«name» [.node .any_name [.leaf (kw sp .OPEN_PAR), anyT c, .leaf (kw sp .CLOSE_PAR)]]]) := rfl
  have h5 : (Tree.node .type_name [nameT .«name» n,
      .node .«name» [.node .any_name [.leaf (kw sp .OPEN_PAR), anyT c, .leaf (kw sp .CLOSE_PAR)]]]).all .«name» = [nameT .«name» n,
      .node .«name» [.node .any_name [.leaf (kw sp .OPEN_PAR), anyT c, .leaf (kw sp .CLOSE_PAR)]]] := rfl
  have h6 : (Tree.node .«name» [.node .any_name [.leaf (kw sp .OPEN_PAR), anyT c, .leaf (kw sp .CLOSE_PAR)]]).text =
      s%"(" ++ c ++ s%")" := by simp [Tree.text, textAll, anyT, kw, ident, hg.opn, hg.cls]
  have h7 : unEscapeNameString s%"INDEX" = s%"INDEX" := by decide +kernel
  have hd : indexDefs (idxT sp ⟨n, c⟩) = .ok [s%"INDEX", n, s%"(" ++ c ++ s%")"] := by
    rw [indexDefs, Visit.textOf, h1]
    simp only [Res.must, Res.bind, h2, h4, h5, List.map_cons, List.map_nil, h6, text_name, h7]
  rw [indexStep, Visit.textOf, h1]
  simp only [Res.must, Res.bind, h2]
  rw [if_neg h3, if_pos (by simp), hd]
  simp only [indexScan_idx, keyScan, idxV]
  cases lookupColumn acc.1 (unEscapeNameString (s%"(" ++ c ++ s%")")) with
  | none => simp
  | some x => simp

theorem columnDefs_idxs (hg : sp.Good) (cs : List Column) (is : List IdxS) (acc : List Index) :
    columnDefs (cs, acc) (is.map (idxT sp)) = .ok (cs, acc ++ is.filterMap (idxV cs)) := by
  induction is generalizing acc with
  | nil => simp [columnDefs]
  | cons i is ih =>
    rw [List.map_cons, columnDefs, columnStep_idx]
    simp only [Res.bind, indexStep_idx hg, ih]
    cases h : idxV cs i <;> simp [h]

theorem columnDefs_cols {ds : List ColS} (h : ∀ c ∈ ds, c.name ≠ s%"PRIMARY" ∧ c.name ≠ s%"KEY" ∧ c.name ≠ s%"INDEX")
    (acc : List Column × List Index) (r : List Tree) :
    columnDefs acc (ds.map (colT sp) ++ r) = columnDefs (acc.1 ++ ds.filterMap colV, acc.2 ++ ds.flatMap colKeysV) r := by
  induction ds generalizing acc with
  | nil => simp
  | cons d ds ih =>
    rw [List.map_cons, List.cons_append, columnDefs, columnStep_col]
    simp only [Res.bind, indexStep_col (h d (by simp)), ih (fun c hc => h c (by simp [hc]))]
    cases hd : colV d <;> simp [hd, List.append_assoc]

theorem indexedColumnWith_ix (c : Str) : indexedColumnWith (ixColT c) = .ok { name := unEscapeNameString c, def_ := some unknownDataDef } := by
  have h1 : (ixColT c).child .column_name = some (nameT .column_name c) := rfl
  have h2 : (newDataDefFrom [] (-1)).getD unknownDataDef = unknownDataDef := by decide +kernel
  rw [indexedColumnWith, Visit.textOf, h1]
  simp only [Res.must, Res.bind, text_name, h2]

theorem ixNames_all (r : Rule) (p : List Tree) (hp : (unlab p).filter (Tree.isRule .indexed_column) = []) (c : Str) (cs : List Str) :
    (Tree.node r (p ++ ixNamesT sp c cs)).all .indexed_column = (c :: cs).map ixColT := by
  simp [Tree.all, Tree.kids, ixNamesT, unlab_append, List.filter_append, hp, unlab, ixColT, unlab_tail (isNode_ixCol),
    rules_tail isNode_ixCol, Tree.isRule]

theorem tableKeys_keys (ks : List KeyS) {t : Tree} (h : t.all .table_constraint = ks.map (keyT sp)) :
    tableKeys t = .ok (ks.map keyV) := by
  have h1 : (ks.map (keyT sp)).filterMap (·.child .primary_key_def) = ks.map (fun k => Tree.node .primary_key_def
      ([.leaf (kw sp .PRIMARY_), .leaf (kw sp .KEY_)] ++ ixNamesT sp k.col k.cols)) := by
    clear h
    induction ks with
    | nil => rfl
    | cons k ks ih => rw [List.map_cons, List.map_cons, ← ih]; rfl
  rw [tableKeys, h, h1]
  refine resAll_map (fun k => ?_) ks
  simp only [ixNames_all .primary_key_def [.leaf (kw sp .PRIMARY_), .leaf (kw sp .KEY_)] rfl, resAll_map indexedColumnWith_ix, Res.bind]
  rfl

/-! ### Statements -/

theorem unlab_ine (b : Bool) : unlab (ineT sp b) = ineT sp b := by cases b <;> rfl
theorem unlab_ie (b : Bool) : unlab (ieT sp b) = ieT sp b := by cases b <;> rfl
theorem ine_rules (r : Rule) (h : r ≠ .if_not_exists) (b : Bool) : (ineT sp b).filter (Tree.isRule r) = [] := by
  cases b <;> simp [ineT, Tree.isRule, Ne.symm h]
theorem ie_rules (r : Rule) (h : r ≠ .if_exists) (b : Bool) : (ieT sp b).filter (Tree.isRule r) = [] := by
  cases b <;> simp [ieT, Tree.isRule, Ne.symm h]

theorem createTable_kids (b : Bool) (t : TableS) : (createTableT sp b t).kids = .leaf (kw sp .CREATE_) :: .leaf (kw sp .TABLE_) ::
    (ineT sp b ++ nameT .table_name t.name :: .leaf (kw sp .OPEN_PAR) :: colT sp t.col ::
      (tailT sp (partT sp) (partsOf t) ++ (tailT sp (keyT sp) t.keys ++ [.leaf (kw sp .CLOSE_PAR)]))) := by
  simp [createTableT, Tree.kids, unlab, unlab_append, unlab_ine, nameT, colT, unlab_tail (isNode_part (sp := sp)),
    unlab_tail (isNode_key (sp := sp))]

theorem createTable_columns (b : Bool) (t : TableS) : (createTableT sp b t).all .column_def =
    (t.col :: t.cols).map (colT sp) ++ t.idxs.map (idxT sp) := by
  rw [Tree.all, createTable_kids]
  simp [List.filter_append, ine_rules, Tree.isRule, nameT, colT, rules_tail (isNode_part (sp := sp)),
    rules_tail_off (isNode_key (sp := sp)) (q := .column_def), partsOf, Function.comp_def, partT]

theorem createTable_keys (b : Bool) (t : TableS) : (createTableT sp b t).all .table_constraint = t.keys.map (keyT sp) := by
  rw [Tree.all, createTable_kids]
  simp [List.filter_append, ine_rules, Tree.isRule, nameT, colT, rules_tail (isNode_key (sp := sp)),
    rules_tail_off (isNode_part (sp := sp)) (q := .table_constraint)]

theorem createTable_visit (hg : sp.Good) (b : Bool) (t : TableS) (h : DdlS.Plain (.createTable b t)) :
    Visit.createTable (createTableT sp b t) = .ok (.createTable (tableV t) b) := by
  have h1 : (createTableT sp b t).child .table_name = some (nameT .table_name t.name) := by cases b <;> rfl
  have h2 : ((createTableT sp b t).child .if_not_exists).isSome = b := by
    cases b with
    | true => rfl
    | false =>
      rw [child_eq, Tree.all, createTable_kids]
      simp [List.filter_append, Tree.isRule, nameT, colT, ineT, rules_tail_off (isNode_part (sp := sp)) (q := .if_not_exists),
        rules_tail_off (isNode_key (sp := sp)) (q := .if_not_exists)]
  have h3 : tableSchema (createTableT sp b t) = .ok (tableV t) := by
    rw [tableSchema, Visit.textOf, h1]
    simp only [Res.must, Res.bind, text_name, createTable_columns, columnDefs_cols h, columnDefs_idxs hg,
      tableKeys_keys t.keys (createTable_keys b t)]
    simp [tableV]
  rw [Visit.createTable, h3]
  simp only [Res.bind, h2]

theorem createIndex_visit (b : Bool) (n t c : Str) (cs : List Str) :
    Visit.createIndex (createIndexT sp b n t c cs) = .ok (ddlV (.createIndex b n t c cs)) := by
  have h0 : createIndexT sp b n t c cs = .node .create_index_stmt ((.leaf (kw sp .CREATE_) :: .leaf (kw sp .INDEX_) :: (ineT sp b ++ [nameT .index_name n,
    .leaf (kw sp .ON_), nameT .table_name t])) ++ ixNamesT sp c cs) := by simp [createIndexT]
  have h1 : (createIndexT sp b n t c cs).child .index_name = some (nameT .index_name n) := by cases b <;> rfl
  have h2 : (createIndexT sp b n t c cs).child .table_name = some (nameT .table_name t) := by cases b <;> rfl
  have h3 : (createIndexT sp b n t c cs).all .indexed_column = (c :: cs).map ixColT := by
    rw [h0]; exact ixNames_all _ _ (by cases b <;> rfl) c cs
  have h4 : ((createIndexT sp b n t c cs).child .if_not_exists).isSome = b := by
    cases b with
    | true => rfl
    | false =>
      rw [child_eq, Tree.all]
      simp [createIndexT, ixNamesT, Tree.kids, unlab, unlab_append, nameT, ineT, ixColT, List.filter_append, Tree.isRule,
        unlab_tail isNode_ixCol, rules_tail_off isNode_ixCol (q := .if_not_exists)]
  have h5 (c : Str) : ((Visit.textOf .column_name (ixColT c)).bind (fun m => .ok (columnNamed (unEscapeNameString m))) : Res Column) =
      .ok (nameV c) := by
    have : (ixColT c).child .column_name = some (nameT .column_name c) := rfl
    rw [Visit.textOf, this]; simp only [Res.must, Res.bind, text_name, nameV]
  have h6 : indexSchema (createIndexT sp b n t c cs) = .ok (newSchemaWith (unEscapeNameString t) [] [newSecondaryIndexWith (unEscapeNameString n) ((c :: cs).map nameV)]) := by
    rw [indexSchema, Visit.textOf, Visit.textOf, h1, h2, h3, resAll_map (g := ixColT) (h := nameV) (f := fun c => (Visit.textOf .column_name c).bind (fun m => .ok (columnNamed (unEscapeNameString m)))) h5]
    simp only [Res.must, Res.bind, text_name]
  rw [Visit.createIndex, h6]
  simp only [Res.bind, h4, ddlV]

theorem tables_all (r : Rule) (p : List Tree) (hp : (unlab p).filter (Tree.isRule .table_name) = []) (t : Str) (ts : List Str) :
    (Tree.node r (p ++ tablesT sp t ts)).all .table_name = (t :: ts).map (nameT .table_name) := by
  simp [Tree.all, Tree.kids, tablesT, unlab_append, List.filter_append, hp, unlab, nameT, Tree.isRule]
  have := rules_tail (sp := sp) (T := nameT .table_name) isNode_name ts
  have hu := unlab_tail (sp := sp) (T := nameT .table_name) isNode_name ts
  rw [← hu] at this
  exact this

theorem dropTable_visit (b : Bool) (t : Str) (ts : List Str) :
    Visit.dropTable (dropTableT sp b t ts) = .ok (ddlV (.dropTable b t ts)) := by
  have h0 : dropTableT sp b t ts = .node .drop_table_stmt ((.leaf (kw sp .DROP_) :: .leaf (kw sp .TABLE_) :: ieT sp b) ++ tablesT sp t ts) := by
    simp [dropTableT]
  have h1 : (dropTableT sp b t ts).all .table_name = (t :: ts).map (nameT .table_name) := by
    rw [h0]; exact tables_all _ _ (by cases b <;> rfl) t ts
  have h2 : ((dropTableT sp b t ts).child .if_exists).isSome = b := by
    cases b with
    | true => rfl
    | false =>
      rw [child_eq, Tree.all]
      have hu := unlab_tail (sp := sp) (T := nameT .table_name) isNode_name ts
      have hr := rules_tail_off (sp := sp) (T := nameT .table_name) isNode_name (q := .if_exists) (by decide) ts
      simp only [dropTableT, tablesT, Tree.kids, unlab, ieT, Bool.false_eq_true, if_false, List.nil_append]
      have : unlab (nameT .table_name t :: tailT sp (nameT .table_name) ts) = nameT .table_name t :: tailT sp (nameT .table_name) ts := by
        show nameT .table_name t :: unlab _ = _; rw [hu]
      rw [this]
      simp only [List.filter_cons, hr]
      rfl
  rw [Visit.dropTable, h1, h2]
  simp only [ddlV, List.map_map, Function.comp_def, text_name]

theorem truncate_visit (t : Str) (ts : List Str) : Visit.truncate (truncateT sp t ts) = .ok (ddlV (.truncate t ts)) := by
  have h1 : (truncateT sp t ts).all .table_name = (t :: ts).map (nameT .table_name) :=
    tables_all .truncate_stmt [.leaf (kw sp .TRUNCATE_), .leaf (kw sp .TABLE_)] rfl t ts
  rw [Visit.truncate, h1]
  simp only [ddlV, List.map_map, Function.comp_def, text_name]

theorem names_all (r q : Rule) (p : List Tree) (hp : (unlab p).filter (Tree.isRule q) = []) (c : Str) (cs : List Str) :
    (Tree.node r (p ++ (namesT sp q (c :: cs) ++ [.leaf (kw sp .CLOSE_PAR)]))).all q = (c :: cs).map (nameT q) := by
  have h1 := rules_tail (sp := sp) (T := nameT q) isNode_name cs
  have h2 := unlab_tail (sp := sp) (T := nameT q) isNode_name cs
  have h3 : unlab (nameT q c :: (tailT sp (nameT q) cs ++ [.leaf (kw sp .CLOSE_PAR)])) =
      nameT q c :: (tailT sp (nameT q) cs ++ [.leaf (kw sp .CLOSE_PAR)]) := by
    show nameT q c :: unlab _ = _
    rw [unlab_append, h2]; rfl
  have h4 : Tree.isRule q (nameT q c) = true := by simp [nameT, Tree.isRule]
  have h5 : (namesT sp q (c :: cs) ++ [.leaf (kw sp .CLOSE_PAR)]) = nameT q c :: (tailT sp (nameT q) cs ++ [.leaf (kw sp .CLOSE_PAR)]) := rfl
  rw [Tree.all, Tree.kids, h5, unlab_append, h3, List.filter_append, hp, List.nil_append, List.filter_cons, h4, if_pos rfl,
    List.filter_append, h1]
  simp [Tree.isRule]

theorem copyFormat (hg : sp.Good) (f : FormatS) : CopyFormat.parse .text (sp f.tok) = formatV f := by
  cases f with
  | text => rw [FormatS.tok, CopyFormat.parse, hg.text]; rfl
  | csv => rw [FormatS.tok, CopyFormat.parse, hg.csv]; rfl
  | binary => rw [FormatS.tok, CopyFormat.parse, hg.binary]; rfl

theorem copy_visit (hg : sp.Good) (t : Str) (cs : List Str) (s : Str) (f : FormatS) :
    Visit.copy (copyT sp t cs s f) = .ok (ddlV (.copy t cs s f)) := by
  have h1 : (copyT sp t cs s f).child .copy_format = some (.node .copy_format [.lab .format_type [.leaf (kw sp f.tok)]]) := by
    cases cs <;> rfl
  have h2 : labelText .format_type (.node .copy_format [.lab .format_type [.leaf (kw sp f.tok)]]) = .ok (sp f.tok) := rfl
  have h3 : (copyT sp t cs s f).label .table = some (qualifiedT t) := by cases cs <;> rfl
  have h4 : (qualifiedT t).text = t := by simp [qualifiedT, Tree.text, textAll, text_name]
  have h5 : (copyT sp t cs s f).child .source_name = some (nameT .source_name s) := by cases cs <;> rfl
  have h6 : ((copyT sp t cs s f).child .copy_column_list).map (fun l => (l.all .column_name).map (fun c => columnNamed (unEscapeString c.text))) =
      match cs with
      | [] => none
      | c :: cs => some ((c :: cs).map (fun c => columnNamed (unEscapeString c))) := by
    cases cs with
    | nil => rfl
    | cons c cs =>
      have : (copyT sp t (c :: cs) s f).child .copy_column_list = some (.node .copy_column_list ([.leaf (kw sp .OPEN_PAR)] ++
        (namesT sp .column_name (c :: cs) ++ [.leaf (kw sp .CLOSE_PAR)]))) := rfl
      rw [this, Option.map_some, names_all .copy_column_list .column_name [.leaf (kw sp .OPEN_PAR)] rfl]
      simp only [List.map_map, Function.comp_def, text_name]
  have h7 := copyFormat hg f
  rw [Visit.copy, whenChild, h1, h6, labelText, h3, Visit.textOf, h5]
  simp only [h2, Res.must, Res.bind, h4, text_name, Option.map_some, Option.getD_some, h7, ddlV]
  cases cs <;> rfl

/-- The change, apart from the table. -/
theorem alterTable_visit (t : TabS) (a : AlterS) : Visit.alterTable (alterTableT sp t a) = .ok (ddlV (.alterTable t a)) := by
  have hs : ((alterTableT sp t a).child .schema_name).map (fun s => unEscapeNameString s.text) = t.schema.map unEscapeNameString := by
    obtain ⟨s, n⟩ := t
    cases s with
    | none => cases a <;> rfl
    | some s =>
      have : (alterTableT sp ⟨some s, n⟩ a).child .schema_name = some (nameT .schema_name s) := rfl
      rw [this]; simp only [Option.map_some, text_name]
  have hn : labelText .target_table_name (alterTableT sp t a) = .ok t.name := by
    obtain ⟨s, n⟩ := t
    have : (alterTableT sp ⟨s, n⟩ a).label .target_table_name = some (nameT .table_name n) := by cases s <;> rfl
    rw [labelText, this]; simp only [Res.must, Res.bind, text_name]
  have hc (r : Rule) (h1 : r ≠ .schema_name) (h2 : r ≠ .table_name) : (alterTableT sp t a).child r =
      if (alterT sp a).isRule r then some (alterT sp a) else none := by
    obtain ⟨s, n⟩ := t
    cases s <;> cases a <;>
      simp [alterTableT, tabT, Tree.child, Tree.kids, unlab, nameT, List.find?_cons, Tree.isRule, alterT, Ne.symm h1, Ne.symm h2]
    all_goals split <;> simp_all
  have hrt := hc .rename_table_to (by decide) (by decide)
  have hrc := hc .rename_table_colum (by decide) (by decide)
  have hac := hc .add_table_column (by decide) (by decide)
  have hai := hc .add_table_index (by decide) (by decide)
  have hdc := hc .drop_table_column (by decide) (by decide)
  rw [Visit.alterTable, hs, hn, whenChild, whenChild, whenChild, whenChild, hrt, hrc, hac, hai, hdc]
  clear hrt hrc hac hai hdc hc hs hn
  cases a with
  | renameTo m =>
    have h : Visit.textOf .table_name (alterT sp (.renameTo m)) = .ok m := by
      have : (alterT sp (.renameTo m)).child .table_name = some (nameT .table_name m) := rfl
      rw [Visit.textOf, this]; simp only [Res.must, Res.bind, text_name]
    simp [alterT, Tree.isRule, Res.bind] at h ⊢
    rw [h]; rfl
  | renameColumn c d =>
    have h : renameColumns (alterT sp (.renameColumn c d)) = .ok (columnNamed c, columnNamed d) := by
      have h1 : (alterT sp (.renameColumn c d)).label .old_column_name = some (nameT .column_name c) := rfl
      have h2 : (alterT sp (.renameColumn c d)).label .new_column_name = some (nameT .column_name d) := rfl
      rw [renameColumns, labelText, labelText, h1, h2]; simp only [Res.must, Res.bind, text_name]
    simp [alterT, Tree.isRule, Res.bind] at h ⊢
    rw [h]; rfl
  | addIndex n c cs =>
    have h : addIndex (alterT sp (.addIndex n c cs)) = .ok { name := unEscapeNameString n, typ := .secondary, columns := (c :: cs).map nameV } := by
      have h1 : addIndexKind (alterT sp (.addIndex n c cs)) = .ok (.secondary, unEscapeNameString n) := by
        have h1 : (alterT sp (.addIndex n c cs)).child .column_constraint = some (.node .column_constraint [.node .index_constraint [.leaf (kw sp .INDEX_), nameT .index_name n]]) := rfl
        have h2 : (Tree.node .column_constraint [.node .index_constraint [.leaf (kw sp .INDEX_), nameT .index_name n]]).child .index_constraint = some (.node .index_constraint [.leaf (kw sp .INDEX_), nameT .index_name n]) := rfl
        have h3 : (Tree.node .index_constraint [.leaf (kw sp .INDEX_), nameT .index_name n]).child .index_name = some (nameT .index_name n) := rfl
        rw [addIndexKind, h1]
        simp only [h2, Visit.textOf, h3, Res.must, Res.bind, text_name]
      have h2 : (alterT sp (.addIndex n c cs)).all .column_name = (c :: cs).map (nameT .column_name) :=
        names_all .add_table_index .column_name [.leaf (kw sp .ADD_), .node .column_constraint [.node .index_constraint [.leaf (kw sp .INDEX_), nameT .index_name n]], .leaf (kw sp .OPEN_PAR)] rfl c cs
      rw [addIndex, h1, h2]
      simp only [Res.bind, List.map_map, Function.comp_def, text_name]
      rfl
    simp [alterT, Tree.isRule, Res.bind] at h ⊢
    rw [h]; rfl
  | addKey c cs =>
    have h : addIndex (alterT sp (.addKey c cs)) = .ok { name := [], typ := .primary, columns := (c :: cs).map nameV } := by
      have h1 : addIndexKind (alterT sp (.addKey c cs)) = .ok (.primary, []) := rfl
      have h2 : (alterT sp (.addKey c cs)).all .column_name = (c :: cs).map (nameT .column_name) :=
        names_all .add_table_index .column_name [.leaf (kw sp .ADD_), .node .column_constraint [.node .primary_key_constraint [.leaf (kw sp .PRIMARY_), .leaf (kw sp .KEY_)]], .leaf (kw sp .OPEN_PAR)] rfl c cs
      rw [addIndex, h1, h2]
      simp only [Res.bind, List.map_map, Function.comp_def, text_name]
      rfl
    simp [alterT, Tree.isRule, Res.bind] at h ⊢
    rw [h]; rfl
  | addColumn c =>
    have h : addColumnOf (alterT sp (.addColumn c)) = .ok (colV c) := columnWith_col c
    simp [alterT, Tree.isRule, Res.bind] at h ⊢
    rw [h]; rfl
  | dropColumn w c =>
    have h : (alterT sp (.dropColumn w c)).text = w ++ c := by simp [alterT, Tree.text, textAll, text_name]
    simp [alterT, Tree.isRule, Res.bind] at h ⊢
    rw [h]; rfl

/-- What the visitor reports for these statements. -/
theorem ddl_visit (toUint : Str → Option Nat) (hg : sp.Good) (d : DdlS) (h : DdlS.Plain d) :
    statement toUint (.node .sql_stmt [ddlT sp d]) = .ok (some (ddlV d)) := by
  cases d with
  | createDatabase b n =>
    have h1 : (ddlT sp (.createDatabase b n)).child .database_name = some (nameT .database_name n) := by cases b <;> rfl
    have h2 : ((ddlT sp (.createDatabase b n)).child .if_not_exists).isSome = b := by cases b <;> rfl
    have : statement toUint (.node .sql_stmt [ddlT sp (.createDatabase b n)]) = (createDatabase (ddlT sp (.createDatabase b n))).bind (fun s => .ok (some s)) := rfl
    rw [this, createDatabase, Visit.textOf, h1, h2]
    simp only [Res.must, Res.bind, text_name, ddlV]
  | createTable b t =>
    have : statement toUint (.node .sql_stmt [ddlT sp (.createTable b t)]) = (Visit.createTable (createTableT sp b t)).bind (fun s => .ok (some s)) := rfl
    rw [this, createTable_visit hg b t h]; rfl
  | createIndex b n t c cs =>
    have : statement toUint (.node .sql_stmt [ddlT sp (.createIndex b n t c cs)]) = (Visit.createIndex (createIndexT sp b n t c cs)).bind (fun s => .ok (some s)) := rfl
    rw [this, createIndex_visit]; rfl
  | dropDatabase b n =>
    have h1 : (ddlT sp (.dropDatabase b n)).child .database_name = some (nameT .database_name n) := by cases b <;> rfl
    have h2 : ((ddlT sp (.dropDatabase b n)).child .if_exists).isSome = b := by cases b <;> rfl
    have : statement toUint (.node .sql_stmt [ddlT sp (.dropDatabase b n)]) = (dropDatabase (ddlT sp (.dropDatabase b n))).bind (fun s => .ok (some s)) := rfl
    rw [this, dropDatabase, Visit.textOf, h1, h2]
    simp only [Res.must, Res.bind, text_name, ddlV]
  | dropTable b t ts =>
    have : statement toUint (.node .sql_stmt [ddlT sp (.dropTable b t ts)]) = (Visit.dropTable (dropTableT sp b t ts)).bind (fun s => .ok (some s)) := rfl
    rw [this, dropTable_visit]; rfl
  | dropIndex b i =>
    obtain ⟨s, n⟩ := i
    have h1 : (ddlT sp (.dropIndex b ⟨s, n⟩)).child .index_name = some (nameT .index_name n) := by cases b <;> cases s <;> rfl
    have h2 : ((ddlT sp (.dropIndex b ⟨s, n⟩)).child .if_exists).isSome = b := by cases b <;> cases s <;> rfl
    have h3 : (ddlT sp (.dropIndex b ⟨s, n⟩)).child .schema_name = s.map (nameT .schema_name) := by cases b <;> cases s <;> rfl
    have : statement toUint (.node .sql_stmt [ddlT sp (.dropIndex b ⟨s, n⟩)]) = (Visit.dropIndex (ddlT sp (.dropIndex b ⟨s, n⟩))).bind (fun s => .ok (some s)) := rfl
    rw [this, Visit.dropIndex, Visit.textOf, h1, h2, h3]
    simp only [Res.must, Res.bind, text_name, ddlV, Option.map_map, Function.comp_def]
  | alterDatabase n m =>
    have h1 : (ddlT sp (.alterDatabase n m)).child .database_name = some (nameT .database_name n) := rfl
    have h2 : (ddlT sp (.alterDatabase n m)).child .rename_database_to = some (.node .rename_database_to [.leaf (kw sp .RENAME_), .leaf (kw sp .TO_), .lab .new_database_name [nameT .database_name m]]) := rfl
    have h3 : (Tree.node .rename_database_to [.leaf (kw sp .RENAME_), .leaf (kw sp .TO_), .lab .new_database_name [nameT .database_name m]]).label .new_database_name = some (nameT .database_name m) := rfl
    have : statement toUint (.node .sql_stmt [ddlT sp (.alterDatabase n m)]) = (alterDatabase (ddlT sp (.alterDatabase n m))).bind (fun s => .ok (some s)) := rfl
    rw [this, alterDatabase, Visit.textOf, h1, h2]
    simp only [Res.must, Res.bind, text_name, ddlV, labelText, h3]
  | alterTable t a =>
    have : statement toUint (.node .sql_stmt [ddlT sp (.alterTable t a)]) = (Visit.alterTable (alterTableT sp t a)).bind (fun s => .ok (some s)) := rfl
    rw [this, alterTable_visit]; rfl
  | use n =>
    have h1 : (ddlT sp (.use n)).child .database_name = some (nameT .database_name n) := rfl
    have : statement toUint (.node .sql_stmt [ddlT sp (.use n)]) = (Visit.use (ddlT sp (.use n))).bind (fun s => .ok (some s)) := rfl
    rw [this, Visit.use, Visit.textOf, h1]
    simp only [Res.must, Res.bind, text_name, ddlV]
  | copy t cs s f =>
    have : statement toUint (.node .sql_stmt [ddlT sp (.copy t cs s f)]) = (Visit.copy (copyT sp t cs s f)).bind (fun s => .ok (some s)) := rfl
    rw [this, copy_visit hg]; rfl
  | truncate t ts =>
    have : statement toUint (.node .sql_stmt [ddlT sp (.truncate t ts)]) = (Visit.truncate (truncateT sp t ts)).bind (fun s => .ok (some s)) := rfl
    rw [this, truncate_visit]; rfl
  | vacuum t =>
    have h1 : (ddlT sp (.vacuum t)).child .schema_name = t.map (nameT .schema_name) := by cases t <;> rfl
    have : statement toUint (.node .sql_stmt [ddlT sp (.vacuum t)]) = (Visit.vacuum (ddlT sp (.vacuum t))).bind (fun s => .ok (some s)) := by cases t <;> rfl
    rw [this, Visit.vacuum, h1]
    simp only [Res.bind, text_name, ddlV, Option.map_map, Function.comp_def]
  | begin => rfl
  | commit => rfl
  | rollback => rfl

end Verif.Gram
