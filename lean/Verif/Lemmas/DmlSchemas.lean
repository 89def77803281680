import Verif.Lemmas.DdlSchemas
import Verif.Lemmas.LostCond
import Verif.Spec.DmlSchemas
/-! Tables with schemas in SELECT, INSERT, UPDATE and DELETE. -/
namespace Verif.Gram
open Verif Verif.Lex Verif.Spec Verif.Visit Verif.Query Verif.Parse

variable {β : Type} {k : List Token → Option β} {v : β} {sp : Spelling} {rest : List Token}

/-- The tree of a table with a schema. -/
def qualifiedDT (sp : Spelling) (s a : Str) : Tree := .node .qualified_table_name [nameT .schema_name s, .leaf (kw sp .DOT), nameT .table_name a]

theorem qualified_dot (s a : Str) {S : List Tok} {us : List Token} (h : Heads S us)
    (h2 : S.all (fun t => !startsWith ((.tok .AS_) ⬝ (.nt .«alias»)) t) = true)
    (h3 : S.all (fun t => !startsWith (((.tok .INDEXED_) ⬝ (.tok .BY_) ⬝ (.nt .index_name)) ∣ ((.tok .NOT_) ⬝ (.tok .INDEXED_))) t) = true)
    (hk : k us = some v) :
    First (.nt .qualified_table_name) k (ident s :: kw sp .DOT :: ident a :: us) [qualifiedDT sp s a] v := by
  refine First.nt (First.seq (l := [nameT .schema_name s, .leaf (kw sp .DOT)]) (First.optSome (First.seq (l := [nameT .schema_name s])
    (First.exact (us := kw sp .DOT :: ident a :: us) (by krfl) (First.tok rfl ?_)))))
  refine First.seq (m := []) (First.exact (table_runs a) ?_)
  exact First.seq (l := []) (First.optOff h (First.optOff h hk h3) h2)

/-! ### DELETE -/

/-- The tree of a DELETE from a table with a schema. -/
def deleteDT (sp : Spelling) (s : Str) (d : DeleteS) : Tree :=
  .node .delete_stmt (.leaf (kw sp .DELETE_) :: .leaf (kw sp .FROM_) :: .lab .table [qualifiedDT sp s d.table] :: whereT sp d.cond)

theorem delete_dot (s : Str) (d : DeleteS) (hq : Quiet k) (h : Heads stmtFollow rest) (hk : k rest = some v) :
    First (.nt .delete_stmt) k (kw sp .DELETE_ :: kw sp .FROM_ :: ident s :: kw sp .DOT :: ident d.table :: (whereToks sp d.cond ++ rest)) [deleteDT sp s d] v := by
  obtain ⟨table, cond⟩ := d
  have h1 : Heads [.WHERE_, .SCOL] (whereToks sp cond ++ rest) := by
    cases cond with
    | none => exact h.mono (by decide)
    | some c => exact Heads.kw
  refine First.nt (First.seq (l := []) (First.optOff (S := [.DELETE_]) Heads.kw ?_))
  refine First.seq (First.tok rfl ?_)
  refine First.seq (First.tok rfl ?_)
  refine First.seq (First.lab (qualified_dot s table h1 (by krfl) (by krfl) ?_))
  have hw := First.seq (where_first (sp := sp) cond (h.mono (by decide)) (condInner_quiet hq (e := .opt (.nt .returning_clause)))
    (First.optOff h hk))
  rw [List.append_nil] at hw
  exact hw

theorem delete_dot_visit (hg : sp.Good) (s : Str) (d : DeleteS) :
    Visit.delete (deleteDT sp s d) = .ok (.delete (deleteV sp { d with table := s ++ '.' :: d.table })) := by
  obtain ⟨table, cond⟩ := d
  have h1 : labelText .table (deleteDT sp s ⟨table, cond⟩) = .ok (s ++ '.' :: table) := by
    have : (deleteDT sp s ⟨table, cond⟩).label .table = some (qualifiedDT sp s table) := rfl
    rw [labelText, this]
    simp [Res.must, Res.bind, qualifiedDT, Tree.text, textAll, text_name, kw, hg.dot]
  have h3 : whereOf (deleteDT sp s ⟨table, cond⟩) = .ok (cond.map (condV sp)) := by
    apply whereOf_where
    cases cond <;> rfl
  rw [Visit.delete, h1]
  simp only [Res.bind, h3]
  rfl

theorem parse_delete_dot (toUint : Str → Option Nat) (hg : sp.Good) {q : Str} {ts : List Token} (hl : lex q = some ts) (s : Str) (d : DeleteS)
    (ss : List StmtS) (n : Nat) (hv : visible ts = kw sp .DELETE_ :: kw sp .FROM_ :: ident s :: kw sp .DOT :: ident d.table :: (whereToks sp d.cond ++ moreToks sp ss n)) :
    parseQuery toUint q = .ok ((StmtS.delete { d with table := s ++ '.' :: d.table } :: ss).map (stmtV toUint sp)) := by
  refine parse_first toUint hg (toks := kw sp .DELETE_ :: kw sp .FROM_ :: ident s :: kw sp .DOT :: ident d.table :: whereToks sp d.cond) .DELETE_ rfl (by decide) _ ss n ?_ hl hv
  intro γ k v rest hq h hk
  refine ⟨.node .sql_stmt [deleteDT sp s d], ?_, ⟨_, rfl⟩, ?_⟩
  · refine First.nt (First.seq (l := []) (First.optOff (S := [.DELETE_]) Heads.kw ?_))
    iterate 12 refine First.altR (No.at (t := .DELETE_) rfl) ?_
    exact First.altL (delete_dot s d hq h hk)
  · have : statement toUint (.node .sql_stmt [deleteDT sp s d]) = (Visit.delete (deleteDT sp s d)).bind (fun s => .ok (some s)) := rfl
    rw [this, delete_dot_visit hg]; rfl

/-! ### UPDATE -/

/-- The tree of an UPDATE of a table with a schema. -/
def updateDT (sp : Spelling) (s : Str) (u : UpdateS) : Tree :=
  .node .update_stmt (.leaf (kw sp .UPDATE_) :: .lab .table [qualifiedDT sp s u.table] :: .leaf (kw sp .SET_) :: setT sp u.asg ::
    (tailT sp (setT sp) u.asgs ++ whereT sp u.cond))

/-- The tokens of an UPDATE after its table. -/
def setToks (sp : Spelling) (u : UpdateS) : List Token := kw sp .SET_ :: (commas sp ((u.asg :: u.asgs).map (SetS.toks sp)) ++ whereToks sp u.cond)

theorem update_dot (s : Str) (u : UpdateS) (hq : Quiet k) (h : Heads stmtFollow rest) (hk : k rest = some v) :
    First (.nt .update_stmt) k (kw sp .UPDATE_ :: ident s :: kw sp .DOT :: ident u.table :: (setToks sp u ++ rest)) [updateDT sp s u] v := by
  obtain ⟨table, asg, asgs, cond⟩ := u
  have e : setToks sp ⟨table, asg, asgs, cond⟩ ++ rest = kw sp .SET_ :: (asg.toks sp ++ (tailToks sp (SetS.toks sp) asgs ++ (whereToks sp cond ++ rest))) := by
    rw [setToks, commas_map]; simp
  rw [e]
  have h1 : Heads [.WHERE_, .SCOL] (whereToks sp cond ++ rest) := by
    cases cond with
    | none => exact h.mono (by decide)
    | some c => exact Heads.kw
  have h2 : Heads exprFollow (whereToks sp cond ++ rest) := h1.mono (by decide)
  refine First.nt (First.seq (l := []) (First.optOff (S := [.UPDATE_]) Heads.kw ?_))
  refine First.seq (First.tok rfl ?_)
  refine First.seq (l := []) (First.optOff (S := [.IDENTIFIER]) Heads.ident ?_)
  refine First.seq (First.lab (qualified_dot s table (S := [.SET_]) Heads.kw (by krfl) (by krfl) ?_))
  refine First.seq (First.tok rfl ?_)
  refine First.seq (l := [setT sp asg]) (set_first asg (heads_tail asgs (by decide) h2) ?_)
  refine First.seq (list_first (R := []) (Fol := Heads exprFollow) (by simp) (fun r => Heads.kw)
    (fun q w x us _ h hq => set_first x h hq) asgs (by simp) h2 h1.noComma ?_)
  refine First.seq (l := []) (First.optOff h1 ?_)
  have hw := First.seq (where_first (sp := sp) cond (h.mono (by decide)) (condInner_quiet hq (e := .opt (.nt .returning_clause)))
    (First.optOff h hk))
  rw [List.append_nil] at hw
  exact hw

theorem update_dot_visit (hg : sp.Good) (s : Str) (u : UpdateS) :
    Visit.update (updateDT sp s u) = .ok (.update (updateV sp { u with table := s ++ '.' :: u.table })) := by
  obtain ⟨table, asg, asgs, cond⟩ := u
  have h1 : labelText .table (updateDT sp s ⟨table, asg, asgs, cond⟩) = .ok (s ++ '.' :: table) := by
    have : (updateDT sp s ⟨table, asg, asgs, cond⟩).label .table = some (qualifiedDT sp s table) := rfl
    rw [labelText, this]
    simp [Res.must, Res.bind, qualifiedDT, Tree.text, textAll, text_name, kw, hg.dot]
  have hk : (updateDT sp s ⟨table, asg, asgs, cond⟩).kids = .leaf (kw sp .UPDATE_) :: qualifiedDT sp s table :: .leaf (kw sp .SET_) ::
      setT sp asg :: (tailT sp (setT sp) asgs ++ unlab (whereT sp cond)) := by
    have : (updateDT sp s ⟨table, asg, asgs, cond⟩).kids = .leaf (kw sp .UPDATE_) :: qualifiedDT sp s table :: .leaf (kw sp .SET_) ::
      setT sp asg :: unlab (tailT sp (setT sp) asgs ++ whereT sp cond) := rfl
    rw [this, unlab_append, unlab_tail (isNode_set (sp := sp))]
  have h2 : (updateDT sp s ⟨table, asg, asgs, cond⟩).all .update_column_set = (asg :: asgs).map (setT sp) := by
    rw [Tree.all, hk]
    have h0 : Tree.isRule .update_column_set (setT sp asg) = true := rfl
    have h1 : Tree.isRule .update_column_set (qualifiedDT sp s table) = false := rfl
    have h3 : (unlab (whereT sp cond)).filter (Tree.isRule .update_column_set) = [] := by cases cond <;> rfl
    simp only [List.filter_cons, h0, h1, List.filter_append, rules_tail (isNode_set (sp := sp)), h3]
    simp [Tree.isRule]
  have h3 : whereOf (updateDT sp s ⟨table, asg, asgs, cond⟩) = .ok (cond.map (condV sp)) := by
    apply whereOf_where
    have h0 : (updateDT sp s ⟨table, asg, asgs, cond⟩).labels .whereExpr =
        labelled .whereExpr (tailT sp (setT sp) asgs ++ whereT sp cond) := rfl
    rw [h0, labelled_append, labelled_tail (isNode_set (sp := sp))]
    cases cond <;> rfl
  rw [Visit.update, h1, h2]
  simp only [Res.bind, resAll_map (assignment_set hg), h3]
  rfl

theorem parse_update_dot (toUint : Str → Option Nat) (hg : sp.Good) {q : Str} {ts : List Token} (hl : lex q = some ts) (s : Str) (u : UpdateS)
    (ss : List StmtS) (n : Nat) (hv : visible ts = kw sp .UPDATE_ :: ident s :: kw sp .DOT :: ident u.table :: (setToks sp u ++ moreToks sp ss n)) :
    parseQuery toUint q = .ok ((StmtS.update { u with table := s ++ '.' :: u.table } :: ss).map (stmtV toUint sp)) := by
  refine parse_first toUint hg (toks := kw sp .UPDATE_ :: ident s :: kw sp .DOT :: ident u.table :: setToks sp u) .UPDATE_ rfl (by decide) _ ss n ?_ hl hv
  intro γ k v rest hq h hk
  refine ⟨.node .sql_stmt [updateDT sp s u], ?_, ⟨_, rfl⟩, ?_⟩
  · refine First.nt (First.seq (l := []) (First.optOff (S := [.UPDATE_]) Heads.kw ?_))
    iterate 27 refine First.altR (No.at (t := .UPDATE_) rfl) ?_
    exact First.altL (update_dot s u hq h hk)
  · have : statement toUint (.node .sql_stmt [updateDT sp s u]) = (Visit.update (updateDT sp s u)).bind (fun s => .ok (some s)) := rfl
    rw [this, update_dot_visit hg]; rfl

/-! ### INSERT -/

/-- The tree of an INSERT into a table with a schema. -/
def insertDT (sp : Spelling) (s : Str) (i : InsertS) : Tree :=
  .node .insert_stmt (.leaf (kw sp .INSERT_) :: .leaf (kw sp .INTO_) :: nameT .schema_name s :: .leaf (kw sp .DOT) :: nameT .table_name i.table ::
    .leaf (kw sp .OPEN_PAR) :: (namesT sp .column_name i.names ++ (.leaf (kw sp .CLOSE_PAR) ::
      [.node .values_clause (.leaf (kw sp .VALUES_) :: rowT sp i.row :: tailT sp (rowT sp) i.rows)])))

/-- The tokens of an INSERT after its table. -/
def valuesToks (sp : Spelling) (i : InsertS) : List Token :=
  parens sp (commas sp (i.names.map (fun c => [ident c]))) ++ kw sp .VALUES_ :: commas sp ((i.row :: i.rows).map (RowS.toks sp))

theorem insert_dot (s : Str) (i : InsertS) (h : Heads stmtFollow rest) (hk : k rest = some v) :
    First (.nt .insert_stmt) k (kw sp .INSERT_ :: kw sp .INTO_ :: ident s :: kw sp .DOT :: ident i.table :: (valuesToks sp i ++ rest)) [insertDT sp s i] v := by
  obtain ⟨table, col, cols, row, rows⟩ := i
  have e : valuesToks sp ⟨table, col, cols, row, rows⟩ ++ rest =
        (parens sp (commas sp ((col :: cols).map (fun c => [ident c]))) ++ (kw sp .VALUES_ ::
          (row.toks sp ++ (tailToks sp (RowS.toks sp) rows ++ rest)))) := by
    rw [valuesToks, commas_map (f := RowS.toks sp)]
    simp [InsertS.names]
  rw [e]
  have ho : ∀ us : List Token, Heads [.OPEN_PAR] (parens sp (commas sp ((col :: cols).map (fun c => [ident c]))) ++ us) :=
    fun us => Heads.kw
  refine First.nt (First.seq (l := []) (First.optOff (S := [.INSERT_]) Heads.kw ?_))
  refine First.seq (First.altL (First.tok rfl ?_))
  refine First.seq (First.tok rfl ?_)
  refine First.seq (l := [nameT .schema_name s, .leaf (kw sp .DOT)]) (dot_first (sp := sp) (some s) table (ho _) (by krfl) ?_)
  refine First.seq (First.exact (table_runs table) ?_)
  refine First.seq (l := []) (First.optOff (ho _) ?_)
  have hlist := First.seq (b := ((((.nt .values_clause) ∣ (.nt .select_stmt)) ⬝
      (.opt (.nt .upsert_clause))) ∣ ((.tok .DEFAULT_) ⬝ (.tok .VALUES_))) ⬝ (.opt (.nt .returning_clause)))
    (k := k) (v := v)
    (m := [.node .values_clause (.leaf (kw sp .VALUES_) :: rowT sp row :: tailT sp (rowT sp) rows)])
    (First.optSome (names_first (sp := sp) col cols (us := kw sp .VALUES_ :: (row.toks sp ++ (tailToks sp (RowS.toks sp) rows ++ rest))) ?_))
  · rw [List.cons_append, List.append_assoc] at hlist
    exact hlist
  · refine First.seq (l := [.node .values_clause (.leaf (kw sp .VALUES_) :: rowT sp row :: tailT sp (rowT sp) rows)]) (m := [])
      (First.altL (First.seq (l := [.node .values_clause (.leaf (kw sp .VALUES_) :: rowT sp row :: tailT sp (rowT sp) rows)])
        (m := []) (First.altL ?_)))
    refine First.nt (First.seq (First.tok rfl (First.seq (l := [rowT sp row]) (row_first row ?_))))
    exact list_first (R := []) (Fol := fun _ => True) (by simp) (fun _ => trivial)
      (fun q w x us _ _ hq => row_first x hq) rows (by simp) trivial h.noComma (First.optOff h (First.optOff h hk))

theorem insert_dot_visit (s : Str) (i : InsertS) : Visit.insert (insertDT sp s i) = Visit.insert (insertT sp i) := by
  obtain ⟨table, col, cols, row, rows⟩ := i
  have ha : ∀ r, r ≠ .schema_name → (insertDT sp s ⟨table, col, cols, row, rows⟩).all r = (insertT sp ⟨table, col, cols, row, rows⟩).all r := by
    intro r hr
    obtain ⟨R, h1, h2⟩ : ∃ R, (insertDT sp s ⟨table, col, cols, row, rows⟩).kids = .leaf (kw sp .INSERT_) :: .leaf (kw sp .INTO_) ::
        nameT .schema_name s :: .leaf (kw sp .DOT) :: R ∧
        (insertT sp ⟨table, col, cols, row, rows⟩).kids = .leaf (kw sp .INSERT_) :: .leaf (kw sp .INTO_) :: R := ⟨_, rfl, rfl⟩
    rw [Tree.all, h1, Tree.all, h2]
    have h3 : Tree.isRule r (nameT .schema_name s) = false := by
      cases r <;> first | exact absurd rfl hr | rfl
    rw [List.filter_cons_of_neg (by simp [Tree.isRule]), List.filter_cons_of_neg (by simp [Tree.isRule]), List.filter_cons_of_neg (by simp [h3]),
      List.filter_cons_of_neg (by simp [Tree.isRule]), List.filter_cons_of_neg (by simp [Tree.isRule]), List.filter_cons_of_neg (by simp [Tree.isRule])]
  rw [Visit.insert, Visit.insert, Visit.textOf, Visit.textOf, child_eq, child_eq, child_eq, child_eq, ha _ (by decide), ha _ (by decide), ha _ (by decide)]

theorem parse_insert_dot (toUint : Str → Option Nat) (hg : sp.Good) {q : Str} {ts : List Token} (hl : lex q = some ts) (s : Str) (i : InsertS)
    (ss : List StmtS) (n : Nat) (hv : visible ts = kw sp .INSERT_ :: kw sp .INTO_ :: ident s :: kw sp .DOT :: ident i.table :: (valuesToks sp i ++ moreToks sp ss n)) :
    parseQuery toUint q = .ok ((StmtS.insert i :: ss).map (stmtV toUint sp)) := by
  refine parse_first toUint hg (toks := kw sp .INSERT_ :: kw sp .INTO_ :: ident s :: kw sp .DOT :: ident i.table :: valuesToks sp i) .INSERT_ rfl (by decide) _ ss n ?_ hl hv
  intro γ k v rest hq h hk
  refine ⟨.node .sql_stmt [insertDT sp s i], ?_, ⟨_, rfl⟩, ?_⟩
  · refine First.nt (First.seq (l := []) (First.optOff (S := [.INSERT_]) Heads.kw ?_))
    iterate 20 refine First.altR (No.at (t := .INSERT_) rfl) ?_
    exact First.altL (insert_dot s i h hk)
  · have : statement toUint (.node .sql_stmt [insertDT sp s i]) = (Visit.insert (insertDT sp s i)).bind (fun s => .ok (some s)) := rfl
    rw [this, insert_dot_visit, insert_visit]; rfl

/-! ### Texts -/

theorem full_dotted {t : Table} (h : PlainTable t) : t.fullTableName = dotted t := by
  obtain ⟨s, n⟩ := t
  obtain ⟨hn, hs⟩ := h
  have h2 : 0 < n.length := List.length_pos_iff.mpr (Writing.name_ne hn)
  by_cases he : s = []
  · subst he
    simp [Table.fullTableName, dotted, h2, Writing.name_no_dot hn, Str.join]
  · have h3 : 0 < s.length := List.length_pos_iff.mpr he
    simp [Table.fullTableName, dotted, he, h2, h3, Writing.name_no_dot hn, Str.join]

theorem full_repeated {t : Table} (h : PlainTable t) : (repeated t).fullTableName = t.fullTableName := by
  rw [full_dotted h]
  by_cases he : t.schema = []
  · have : repeated t = t := by
      obtain ⟨s, n⟩ := t
      subst he; rfl
    rw [this, full_dotted h]
  · have h1 : Str.hasSub (dotted t) s%"." = true := by
      rw [Str.hasSub_single]; simp [dotted, he]
    have h2 : 0 < (dotted t).length := List.length_pos_iff.mpr (by simp [dotted, he])
    have h3 : Str.hasSub (repeated t).name s%"." = true := h1
    have h4 : 0 < (repeated t).name.length := h2
    rw [Table.fullTableName, if_pos h4, h3]
    simp [repeated, Str.join]

theorem dotted_writing {t : Table} (h : PlainTable t) (hs : t.schema ≠ []) : Writing t.fullTableName [ident t.schema, kw .std .DOT, ident t.name] := by
  have := tabOf_writing h
  simpa [tabOf, TabS.toks, hs] using this

theorem delete_writing {d : Delete} {n : Str} (h : PrintableCond d.cond) {ts : List Token} (hw : Writing d.table.fullTableName ts) :
    ∃ D : DeleteS, D.table = n ∧ Writing d.toStr (kw .std .DELETE_ :: kw .std .FROM_ :: (ts ++ whereToks .std D.cond)) ∧ D.cond.map (condV .std) = d.cond.map exprAsText := by
  obtain ⟨c, hcp, hcv⟩ := Writing.cond h
  refine ⟨⟨n, c⟩, rfl, ?_, hcv⟩
  have := Writing.spaces (Writing.Parts.append (.cons (Writing.keyword .DELETE_ (by decide +kernel)) (.cons (Writing.keyword .FROM_ (by decide +kernel)) (.one hw))) hcp)
  rw [Delete.toStr]
  simpa [Spelling.std, Writing.whereParts] using this

theorem update_writing {u : Update} {n : Str} (h : PrintableCond u.cond) (ha : u.columns ≠ []) (hc : ∀ c ∈ u.columns, PrintableSet c)
    {ts : List Token} (hw : Writing u.table.fullTableName ts) :
    ∃ U : UpdateS, U.table = n ∧ Writing u.toStr (kw .std .UPDATE_ :: (ts ++ setToks .std U)) ∧ U.cond.map (condV .std) = u.cond.map exprAsText ∧
      (U.asg :: U.asgs).map (setV .std) = u.columns.map columnAsText := by
  obtain ⟨c, hcp, hcv⟩ := Writing.cond h
  obtain ⟨f, hf⟩ := Writing.choice (fun x hx => Writing.set (hc x hx))
  cases hs : u.columns with
  | nil => exact absurd hs ha
  | cons x xs =>
    rw [hs] at hf
    refine ⟨⟨n, f x, xs.map f, c⟩, rfl, ?_, hcv, ?_⟩
    · have h1 := Writing.commas (x :: xs) Column.setString (fun x => (f x).toks .std) (fun y hy => (hf y hy).1)
      have := Writing.spaces (Writing.Parts.append (.cons (Writing.keyword .UPDATE_ (by decide +kernel)) (.cons hw (.cons (Writing.keyword .SET_ (by decide +kernel)) (.one h1)))) hcp)
      rw [Update.toStr, hs]
      simpa [setToks, Function.comp_def, Spelling.std, Writing.whereParts, Function.comp_def] using this
    · show (f x :: xs.map f).map (setV .std) = _
      rw [← List.map_cons, List.map_map]
      exact List.map_congr_left (fun y hy => (hf y hy).2)

open Writing in
theorem insert_writing {i : Insert} (n : Str) (hrow : ∃ r rs, i.values = r :: rs ∧ r ≠ [] ∧ ∀ r' ∈ rs, r'.map (·.name) = r.map (·.name))
    (hvals : ∀ r ∈ i.values, ∀ c ∈ r, PrintableValue c) {ts : List Token} (hw : Writing i.table.fullTableName ts) :
    ∃ I : InsertS, I.table = n ∧ Writing i.toStr (kw .std .INSERT_ :: kw .std .INTO_ :: (ts ++ valuesToks .std I)) ∧
      (I.row :: I.rows).map (rowV .std I.names) = i.values.map (·.map columnAsText) := by
  obtain ⟨r, rs, hv, hr, hnames⟩ := hrow
  have hval : ∀ c ∈ i.values.flatten, ∃ s : Lit, Writing (Literal.valueString c.lit) (s.toks .std) ∧
      ({ name := c.name, lit := some (litV .std s) } : Column) = columnAsText c := by
    intro c hc
    obtain ⟨r', hr', hc⟩ := List.mem_flatten.mp hc
    have hp := hvals r' hr' c hc
    obtain ⟨l, hl, hpl⟩ := hp.value
    obtain ⟨s, hw, hs⟩ := lit hpl
    refine ⟨s, by rw [hl]; exact hw, ?_⟩
    rw [hs]
    conv => rhs; rw [hp.plain, hl]
    rfl
  obtain ⟨g, hg⟩ := choice hval
  have hne : ∀ r' ∈ i.values, r' ≠ [] ∧ r'.map (·.name) = r.map (·.name) := by
    intro r' hr'
    rw [hv] at hr'
    rcases List.mem_cons.mp hr' with rfl | hm
    · exact ⟨hr, rfl⟩
    · have := hnames r' hm
      refine ⟨?_, this⟩
      intro he
      rw [he] at this
      exact hr (List.map_eq_nil_iff.mp this.symm)
  cases r with
  | nil => exact absurd rfl hr
  | cons c cs =>
    refine ⟨⟨n, c.name, cs.map (·.name), rowOf g (c :: cs), rs.map (rowOf g)⟩, rfl, ?_, ?_⟩
    · have h1 := Writing.parens (Writing.commas (c :: cs) (·.name) (fun c => [ident c.name])
        (fun x hx => anyName (hvals (c :: cs) (by simp [hv]) x hx).name))
      have h2 := Writing.commas i.values (fun r => '(' :: (columnsValueString r ++ [')'])) (fun r => (rowOf g r).toks .std) (fun r' hr' => by
        have := Writing.parens (Writing.commas r' (fun c => Literal.valueString c.lit) (fun c => (g c).toks .std)
          (fun x hx => (hg x (List.mem_flatten.mpr ⟨r', hr', hx⟩)).1))
        rw [RowS.toks, rowOf_all g (hne r' hr').1, List.map_map]
        exact this)
      have := spaces (.cons (keyword .INSERT_ (by decide +kernel)) (.cons (keyword .INTO_ (by decide +kernel)) (.cons hw
        (.cons h1 (.cons (keyword .VALUES_ (by decide +kernel)) (.one h2))))))
      rw [Insert.toStr]
      simp only [hv, List.map_cons] at this
      simpa [valuesToks, InsertS.names, Function.comp_def, Spelling.std, Insert.columns, hv, columnsNameString] using this
    · have h1 : ∀ r' ∈ i.values, rowV .std (c.name :: cs.map (·.name)) (rowOf g r') = r'.map columnAsText := by
        intro r' hr'
        obtain ⟨hr1, hr2⟩ := hne r' hr'
        rw [rowV, rowOf_all g hr1, ← List.map_cons, ← hr2, List.zipWith_map, List.zipWith_self]
        exact List.map_congr_left (fun x hx => (hg x (List.mem_flatten.mpr ⟨r', hr', hx⟩)).2)
      rw [hv, ← List.map_cons (f := rowOf g), List.map_map]
      exact List.map_congr_left (fun r' hr' => h1 r' (by rw [hv]; exact hr'))

end Verif.Gram
