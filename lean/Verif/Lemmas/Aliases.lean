import Verif.Lemmas.DmlSchemas
import Verif.Spec.Aliases
/-! Statements whose tables have aliases. -/
namespace Verif.Gram
open Verif Verif.Lex Verif.Spec Verif.Visit Verif.Query Verif.Parse

variable {β : Type} {k : List Token → Option β} {v : β} {sp : Spelling} {rest : List Token}

/-! ### UPDATE and DELETE -/

/-- The tree of a table with an alias. -/
def qualifiedAT (sp : Spelling) (a x : Str) : Tree := .node .qualified_table_name [nameT .table_name a, .leaf (kw sp .AS_), nameT .«alias» x]

theorem qualified_as (a x : Str) {S : List Tok} {us : List Token} (h : Heads S us)
    (h3 : S.all (fun t => !startsWith (((.tok .INDEXED_) ⬝ (.tok .BY_) ⬝ (.nt .index_name)) ∣ ((.tok .NOT_) ⬝ (.tok .INDEXED_))) t) = true)
    (hk : k us = some v) :
    First (.nt .qualified_table_name) k (ident a :: kw sp .AS_ :: ident x :: us) [qualifiedAT sp a x] v := by
  refine First.nt (First.seq (l := []) (First.optNone ?_ ?_))
  · exact No.seq (No.exact (l := [nameT .schema_name a]) (us := kw sp .AS_ :: ident x :: us) (by krfl) (No.at rfl))
  refine First.seq (m := [.leaf (kw sp .AS_), nameT .«alias» x]) (First.exact (table_runs a) ?_)
  exact First.seq (l := [.leaf (kw sp .AS_), nameT .«alias» x]) (m := []) (First.optSome (First.seq (l := [.leaf (kw sp .AS_)]) (First.tok rfl
    (First.exact (l := [nameT .«alias» x]) (us := us) (by krfl) (First.optOff h hk h3)))))

/-- The tree of a DELETE from a table with an alias. -/
def deleteAT (sp : Spelling) (x : Str) (d : DeleteS) : Tree :=
  .node .delete_stmt (.leaf (kw sp .DELETE_) :: .leaf (kw sp .FROM_) :: .lab .table [qualifiedAT sp d.table x] :: whereT sp d.cond)

theorem delete_as (x : Str) (d : DeleteS) (hq : Quiet k) (h : Heads stmtFollow rest) (hk : k rest = some v) :
    First (.nt .delete_stmt) k (d.toksAs sp x ++ rest) [deleteAT sp x d] v := by
  obtain ⟨table, cond⟩ := d
  have h1 : Heads [.WHERE_, .SCOL] (whereToks sp cond ++ rest) := by
    cases cond with
    | none => exact h.mono (by decide)
    | some c => exact Heads.kw
  refine First.nt (First.seq (l := []) (First.optOff (S := [.DELETE_]) Heads.kw ?_))
  refine First.seq (First.tok rfl ?_)
  refine First.seq (First.tok rfl ?_)
  refine First.seq (First.lab (qualified_as table x h1 (by krfl) ?_))
  have hw := First.seq (where_first (sp := sp) cond (h.mono (by decide)) (condInner_quiet hq (e := .opt (.nt .returning_clause)))
    (First.optOff h hk))
  rw [List.append_nil] at hw
  exact hw

theorem delete_as_visit (x : Str) (d : DeleteS) :
    Visit.delete (deleteAT sp x d) = .ok (.delete (deleteV sp { d with table := d.table ++ sp .AS_ ++ x })) := by
  obtain ⟨table, cond⟩ := d
  have h1 : labelText .table (deleteAT sp x ⟨table, cond⟩) = .ok (table ++ sp .AS_ ++ x) := by
    have : (deleteAT sp x ⟨table, cond⟩).label .table = some (qualifiedAT sp table x) := rfl
    rw [labelText, this]
    simp [Res.must, Res.bind, qualifiedAT, Tree.text, textAll, text_name, kw]
  have h3 : whereOf (deleteAT sp x ⟨table, cond⟩) = .ok (cond.map (condV sp)) := by
    apply whereOf_where
    cases cond <;> rfl
  rw [Visit.delete, h1]
  simp only [Res.bind, h3]
  rfl

theorem parse_delete_as (toUint : Str → Option Nat) (hg : sp.Good) {q : Str} {ts : List Token} (hl : lex q = some ts) (x : Str) (d : DeleteS)
    (ss : List StmtS) (n : Nat) (hv : visible ts = d.toksAs sp x ++ moreToks sp ss n) :
    parseQuery toUint q = .ok ((StmtS.delete { d with table := d.table ++ sp .AS_ ++ x } :: ss).map (stmtV toUint sp)) := by
  refine parse_first toUint hg (toks := d.toksAs sp x) .DELETE_ rfl (by decide) _ ss n ?_ hl hv
  intro γ k v rest hq h hk
  refine ⟨.node .sql_stmt [deleteAT sp x d], ?_, ⟨_, rfl⟩, ?_⟩
  · refine First.nt (First.seq (l := []) (First.optOff (S := [.DELETE_]) Heads.kw ?_))
    iterate 12 refine First.altR (No.at (t := .DELETE_) rfl) ?_
    exact First.altL (delete_as x d hq h hk)
  · have : statement toUint (.node .sql_stmt [deleteAT sp x d]) = (Visit.delete (deleteAT sp x d)).bind (fun s => .ok (some s)) := rfl
    rw [this, delete_as_visit]; rfl

/-- The tree of an UPDATE of a table with an alias. -/
def updateAT (sp : Spelling) (x : Str) (u : UpdateS) : Tree :=
  .node .update_stmt (.leaf (kw sp .UPDATE_) :: .lab .table [qualifiedAT sp u.table x] :: .leaf (kw sp .SET_) :: setT sp u.asg ::
    (tailT sp (setT sp) u.asgs ++ whereT sp u.cond))

theorem update_as (x : Str) (u : UpdateS) (hq : Quiet k) (h : Heads stmtFollow rest) (hk : k rest = some v) :
    First (.nt .update_stmt) k (u.toksAs sp x ++ rest) [updateAT sp x u] v := by
  obtain ⟨table, asg, asgs, cond⟩ := u
  have e : UpdateS.toksAs sp ⟨table, asg, asgs, cond⟩ x ++ rest = kw sp .UPDATE_ :: ident table :: kw sp .AS_ :: ident x :: kw sp .SET_ ::
      (asg.toks sp ++ (tailToks sp (SetS.toks sp) asgs ++ (whereToks sp cond ++ rest))) := by
    rw [UpdateS.toksAs, commas_map]; simp
  rw [e]
  have h1 : Heads [.WHERE_, .SCOL] (whereToks sp cond ++ rest) := by
    cases cond with
    | none => exact h.mono (by decide)
    | some c => exact Heads.kw
  have h2 : Heads exprFollow (whereToks sp cond ++ rest) := h1.mono (by decide)
  refine First.nt (First.seq (l := []) (First.optOff (S := [.UPDATE_]) Heads.kw ?_))
  refine First.seq (First.tok rfl ?_)
  refine First.seq (l := []) (First.optOff (S := [.IDENTIFIER]) Heads.ident ?_)
  refine First.seq (First.lab (qualified_as table x (S := [.SET_]) Heads.kw (by krfl) ?_))
  refine First.seq (First.tok rfl ?_)
  refine First.seq (l := [setT sp asg]) (set_first asg (heads_tail asgs (by decide) h2) ?_)
  refine First.seq (list_first (R := []) (Fol := Heads exprFollow) (by simp) (fun r => Heads.kw)
    (fun q w x us _ h hq => set_first x h hq) asgs (by simp) h2 h1.noComma ?_)
  refine First.seq (l := []) (First.optOff h1 ?_)
  have hw := First.seq (where_first (sp := sp) cond (h.mono (by decide)) (condInner_quiet hq (e := .opt (.nt .returning_clause)))
    (First.optOff h hk))
  rw [List.append_nil] at hw
  exact hw

theorem update_as_visit (hg : sp.Good) (x : Str) (u : UpdateS) :
    Visit.update (updateAT sp x u) = .ok (.update (updateV sp { u with table := u.table ++ sp .AS_ ++ x })) := by
  obtain ⟨table, asg, asgs, cond⟩ := u
  have h1 : labelText .table (updateAT sp x ⟨table, asg, asgs, cond⟩) = .ok (table ++ sp .AS_ ++ x) := by
    have : (updateAT sp x ⟨table, asg, asgs, cond⟩).label .table = some (qualifiedAT sp table x) := rfl
    rw [labelText, this]
    simp [Res.must, Res.bind, qualifiedAT, Tree.text, textAll, text_name, kw]
  have hk : (updateAT sp x ⟨table, asg, asgs, cond⟩).kids = .leaf (kw sp .UPDATE_) :: qualifiedAT sp table x :: .leaf (kw sp .SET_) ::
      setT sp asg :: (tailT sp (setT sp) asgs ++ unlab (whereT sp cond)) := by
    have : (updateAT sp x ⟨table, asg, asgs, cond⟩).kids = .leaf (kw sp .UPDATE_) :: qualifiedAT sp table x :: .leaf (kw sp .SET_) ::
      setT sp asg :: unlab (tailT sp (setT sp) asgs ++ whereT sp cond) := rfl
    rw [this, unlab_append, unlab_tail (isNode_set (sp := sp))]
  have h2 : (updateAT sp x ⟨table, asg, asgs, cond⟩).all .update_column_set = (asg :: asgs).map (setT sp) := by
    rw [Tree.all, hk]
    have h0 : Tree.isRule .update_column_set (setT sp asg) = true := rfl
    have h1 : Tree.isRule .update_column_set (qualifiedAT sp table x) = false := rfl
    have h3 : (unlab (whereT sp cond)).filter (Tree.isRule .update_column_set) = [] := by cases cond <;> rfl
    simp only [List.filter_cons, h0, h1, List.filter_append, rules_tail (isNode_set (sp := sp)), h3]
    simp [Tree.isRule]
  have h3 : whereOf (updateAT sp x ⟨table, asg, asgs, cond⟩) = .ok (cond.map (condV sp)) := by
    apply whereOf_where
    have h0 : (updateAT sp x ⟨table, asg, asgs, cond⟩).labels .whereExpr =
        labelled .whereExpr (tailT sp (setT sp) asgs ++ whereT sp cond) := rfl
    rw [h0, labelled_append, labelled_tail (isNode_set (sp := sp))]
    cases cond <;> rfl
  rw [Visit.update, h1, h2]
  simp only [Res.bind, resAll_map (assignment_set hg), h3]
  rfl

theorem parse_update_as (toUint : Str → Option Nat) (hg : sp.Good) {q : Str} {ts : List Token} (hl : lex q = some ts) (x : Str) (u : UpdateS)
    (ss : List StmtS) (n : Nat) (hv : visible ts = u.toksAs sp x ++ moreToks sp ss n) :
    parseQuery toUint q = .ok ((StmtS.update { u with table := u.table ++ sp .AS_ ++ x } :: ss).map (stmtV toUint sp)) := by
  refine parse_first toUint hg (toks := u.toksAs sp x) .UPDATE_ rfl (by decide) _ ss n ?_ hl hv
  intro γ k v rest hq h hk
  refine ⟨.node .sql_stmt [updateAT sp x u], ?_, ⟨_, rfl⟩, ?_⟩
  · refine First.nt (First.seq (l := []) (First.optOff (S := [.UPDATE_]) Heads.kw ?_))
    iterate 27 refine First.altR (No.at (t := .UPDATE_) rfl) ?_
    exact First.altL (update_as x u hq h hk)
  · have : statement toUint (.node .sql_stmt [updateAT sp x u]) = (Visit.update (updateAT sp x u)).bind (fun s => .ok (some s)) := rfl
    rw [this, update_as_visit hg]; rfl

/-! ### INSERT -/

/-- The tree of an INSERT into a table with an alias. -/
def insertAT (sp : Spelling) (x : Str) (i : InsertS) : Tree :=
  .node .insert_stmt (.leaf (kw sp .INSERT_) :: .leaf (kw sp .INTO_) :: nameT .table_name i.table :: .leaf (kw sp .AS_) :: nameT .table_alias x ::
    .leaf (kw sp .OPEN_PAR) :: (namesT sp .column_name i.names ++ (.leaf (kw sp .CLOSE_PAR) ::
      [.node .values_clause (.leaf (kw sp .VALUES_) :: rowT sp i.row :: tailT sp (rowT sp) i.rows)])))

theorem table_alias_runs (a : Str) : runs 60 (.nt .table_alias) (ident a :: rest) = some [([nameT .table_alias a], rest)] := by
  krfl

theorem insert_as (x : Str) (i : InsertS) (h : Heads stmtFollow rest) (hk : k rest = some v) :
    First (.nt .insert_stmt) k (i.toksAs sp x ++ rest) [insertAT sp x i] v := by
  obtain ⟨table, col, cols, row, rows⟩ := i
  have e : InsertS.toksAs sp ⟨table, col, cols, row, rows⟩ x ++ rest = kw sp .INSERT_ :: kw sp .INTO_ :: ident table :: kw sp .AS_ :: ident x ::
        (parens sp (commas sp ((col :: cols).map (fun c => [ident c]))) ++ (kw sp .VALUES_ ::
          (row.toks sp ++ (tailToks sp (RowS.toks sp) rows ++ rest)))) := by
    rw [InsertS.toksAs, commas_map (f := RowS.toks sp)]
    simp [InsertS.names]
  rw [e]
  refine First.nt (First.seq (l := []) (First.optOff (S := [.INSERT_]) Heads.kw ?_))
  refine First.seq (First.altL (First.tok rfl ?_))
  refine First.seq (First.tok rfl ?_)
  refine First.seq (l := []) (First.optNone (schema_no table (S := [.AS_]) Heads.kw (by krfl)) ?_)
  refine First.seq (First.exact (table_runs table) ?_)
  refine First.seq (l := [.leaf (kw sp .AS_), nameT .table_alias x]) (First.optSome (First.seq (First.tok rfl (First.exact (table_alias_runs x) ?_))))
  have hlist := First.seq (b := ((((.nt .values_clause) ∣ (.nt .select_stmt)) ⬝
      (.opt (.nt .upsert_clause))) ∣ ((.tok .DEFAULT_) ⬝ (.tok .VALUES_))) ⬝ (.opt (.nt .returning_clause)))
    (k := k) (v := v)
    (m := [.node .values_clause (.leaf (kw sp .VALUES_) :: rowT sp row :: tailT sp (rowT sp) rows)])
    (First.optSome (names_first (sp := sp) col cols (us := kw sp .VALUES_ :: (row.toks sp ++ (tailToks sp (RowS.toks sp) rows ++ rest))) ?_))
  · rw [List.cons_append, List.append_assoc] at hlist
    exact hlist
  · refine First.seq (l := [.node .values_clause (.leaf (kw sp .VALUES_) :: rowT sp row :: tailT sp (rowT sp) rows)]) (m := [])
      (First.altL (First.seq (l := [.node .values_clause (.leaf (kw sp .VALUES_) :: rowT sp row :: tailT sp (rowT sp) rows)])
        (m := []) (First.altL ?_)))
    refine First.nt (First.seq (First.tok rfl (First.seq (l := [rowT sp row]) (row_first row ?_))))
    exact list_first (R := []) (Fol := fun _ => True) (by simp) (fun _ => trivial)
      (fun q w x us _ _ hq => row_first x hq) rows (by simp) trivial h.noComma (First.optOff h (First.optOff h hk))

theorem insert_as_visit (x : Str) (i : InsertS) : Visit.insert (insertAT sp x i) = Visit.insert (insertT sp i) := by
  obtain ⟨table, col, cols, row, rows⟩ := i
  have ha : ∀ r, r ≠ .table_alias → (insertAT sp x ⟨table, col, cols, row, rows⟩).all r = (insertT sp ⟨table, col, cols, row, rows⟩).all r := by
    intro r hr
    obtain ⟨R, h1, h2⟩ : ∃ R, (insertAT sp x ⟨table, col, cols, row, rows⟩).kids = .leaf (kw sp .INSERT_) :: .leaf (kw sp .INTO_) ::
        nameT .table_name table :: .leaf (kw sp .AS_) :: nameT .table_alias x :: R ∧
        (insertT sp ⟨table, col, cols, row, rows⟩).kids = .leaf (kw sp .INSERT_) :: .leaf (kw sp .INTO_) :: nameT .table_name table :: R :=
      ⟨_, rfl, rfl⟩
    rw [Tree.all, h1, Tree.all, h2]
    have h3 : Tree.isRule r (nameT .table_alias x) = false := by
      cases r <;> first | exact absurd rfl hr | rfl
    have h4 : Tree.isRule r (.leaf (kw sp .AS_)) = false := rfl
    simp only [List.filter_cons, h3, h4]
    rfl
  rw [Visit.insert, Visit.insert, Visit.textOf, Visit.textOf, child_eq, child_eq, child_eq, child_eq, ha _ (by decide), ha _ (by decide), ha _ (by decide)]

theorem parse_insert_as (toUint : Str → Option Nat) (hg : sp.Good) {q : Str} {ts : List Token} (hl : lex q = some ts) (x : Str) (i : InsertS)
    (ss : List StmtS) (n : Nat) (hv : visible ts = i.toksAs sp x ++ moreToks sp ss n) :
    parseQuery toUint q = .ok ((StmtS.insert i :: ss).map (stmtV toUint sp)) := by
  refine parse_first toUint hg (toks := i.toksAs sp x) .INSERT_ rfl (by decide) _ ss n ?_ hl hv
  intro γ k v rest hq h hk
  refine ⟨.node .sql_stmt [insertAT sp x i], ?_, ⟨_, rfl⟩, ?_⟩
  · refine First.nt (First.seq (l := []) (First.optOff (S := [.INSERT_]) Heads.kw ?_))
    iterate 20 refine First.altR (No.at (t := .INSERT_) rfl) ?_
    exact First.altL (insert_as x i h hk)
  · have : statement toUint (.node .sql_stmt [insertAT sp x i]) = (Visit.insert (insertAT sp x i)).bind (fun s => .ok (some s)) := rfl
    rw [this, insert_as_visit, insert_visit]; rfl

/-! ### SELECT -/

/-- The trees of an alias. -/
def aliasT (sp : Spelling) : Option AliasS → List Tree
  | none => []
  | some ⟨true, x⟩ => [.leaf (kw sp .AS_), nameT .table_alias x]
  | some ⟨false, x⟩ => [nameT .table_alias x]

/-- The trees of a table without its alias. -/
def bareT (sp : Spelling) (t : TabS) : List Tree := match t.schema with
  | none => [nameT .table_name t.name]
  | some s => [nameT .schema_name s, .leaf (kw sp .DOT), nameT .table_name t.name]

/-- The tree of a table with its alias. -/
def namedT (sp : Spelling) (t : NamedS) : Tree := .node .«from» [.node .from_table (bareT sp t.table ++ aliasT sp t.also)]

theorem isNode_named (t : NamedS) : (namedT sp t).IsNode .«from» := ⟨_, rfl⟩

/-- The optional alias and index of a table. -/
abbrev aliasG : Elem := (.opt ((.opt (.tok .AS_)) ⬝ (.nt .table_alias))) ⬝ (.opt (((.tok .INDEXED_) ⬝ (.tok .BY_) ⬝ (.nt .index_name)) ∣
  ((.tok .NOT_) ⬝ (.tok .INDEXED_))))

theorem alias_some (a : AliasS) (hheads : Heads [.COMMA, .SCOL, .WHERE_, .GROUP_, .ORDER_, .LIMIT_] rest)
    (hk : k rest = some v) : First aliasG k (a.toks sp ++ rest) (aliasT sp (some a)) v := by
  obtain ⟨b, x⟩ := a
  have hx : ∀ {γ : Type} {q : List Token → Option γ} {w : γ}, q rest = some w → First (.nt .table_alias) q (ident x :: rest) [nameT .table_alias x] w :=
    fun hq => First.exact (by krfl) hq
  cases b with
  | true =>
    exact First.seq (l := [.leaf (kw sp .AS_), nameT .table_alias x]) (m := []) (First.optSome (First.seq (l := [.leaf (kw sp .AS_)])
      (First.optSome (First.tok rfl (hx (First.optOff hheads hk))))))
  | false =>
    exact First.seq (l := [nameT .table_alias x]) (m := []) (First.optSome (First.seq (l := [])
      (First.optOff (S := [.IDENTIFIER]) Heads.ident (hx (First.optOff hheads hk)))))

theorem follow_heads (hS : TableFollow rest) : Heads [.COMMA, .SCOL, .WHERE_, .GROUP_, .ORDER_, .LIMIT_] rest := by
  rcases hS with h | ⟨x, y, r, rfl, hx, -⟩
  · exact h.mono (by decide)
  · refine Heads.cons ?_
    simp only [List.mem_cons, List.not_mem_nil, or_false] at hx ⊢
    rcases hx with h | h | h | h <;> simp [h]

theorem alias_head (a : AliasS) : Heads [.AS_, .IDENTIFIER] (a.toks sp ++ rest) := by
  obtain ⟨b, x⟩ := a
  cases b with
  | true => exact Heads.kw
  | false => exact Heads.ident

theorem named_first (t : NamedS) (hr : ∀ t ∈ [Tok.IDENTIFIER, .BY_, .NUMERIC_LITERAL, .OPEN_PAR, .NOT_], Rejects k t) (hS : TableFollow rest)
    (hk : k rest = some v) : First (.nt .«from») k (t.toks sp ++ rest) [namedT sp t] v := by
  obtain ⟨t, al⟩ := t
  cases al with
  | none =>
    have := table_first (sp := sp) t hr hS hk
    rw [show NamedS.toks sp ⟨t, none⟩ = t.toks sp by simp [NamedS.toks]]
    have e : namedT sp ⟨t, none⟩ = tableT sp t := by
      obtain ⟨s, a⟩ := t
      cases s <;> rfl
    rw [e]; exact this
  | some al =>
    have h0 := alias_some (sp := sp) al (follow_heads hS) hk
    obtain ⟨s, a⟩ := t
    rw [show NamedS.toks sp ⟨⟨s, a⟩, some al⟩ ++ rest = TabS.toks sp ⟨s, a⟩ ++ (al.toks sp ++ rest) by simp [NamedS.toks]]
    cases s with
    | none =>
      refine First.nt (First.altL (First.nt (First.seq (l := []) (First.optNone ?_
        (First.seq (l := [nameT .table_name a]) (First.exact (table_runs a) h0))))))
      exact No.seq (No.exact (l := [nameT .schema_name a]) (us := al.toks sp ++ rest) (by krfl) (No.off (alias_head al)))
    | some s =>
      refine First.nt (First.altL (First.nt (First.seq (l := [nameT .schema_name s, .leaf (kw sp .DOT)])
        (First.optSome (First.exact (us := ident a :: (al.toks sp ++ rest)) ?_
          (First.seq (l := [nameT .table_name a]) (First.exact (table_runs a) h0)))))))
      krfl

/-- The trees of a FROM clause whose tables may have aliases. -/
def fromAT (sp : Spelling) (t : NamedS) (ts : List NamedS) : List Tree := .leaf (kw sp .FROM_) :: namedT sp t :: tailT sp (namedT sp) ts

theorem fromA_first (t : NamedS) (ts : List NamedS) (hr : ∀ t ∈ [Tok.IDENTIFIER, .BY_, .NUMERIC_LITERAL, .OPEN_PAR, .NOT_], Rejects k t)
    (hS : TableFollow rest) (hh : Heads (.WHERE_ :: whereFollow) rest) (hk : k rest = some v) :
    First (.opt ((.tok .FROM_) ⬝ ((.opt ((.nt .«from») ⬝ (.star ((.tok .COMMA) ⬝ (.nt .«from»))))) ∣ (.nt .join_clause)))) k
      (kw sp .FROM_ :: (commas sp ((t :: ts).map (NamedS.toks sp)) ++ rest)) (fromAT sp t ts) v := by
  rw [commas_map, List.append_assoc]
  have hfol : TableFollow (tailToks sp (NamedS.toks sp) ts ++ rest) := by
    cases ts with
    | nil => exact hS
    | cons y ys => exact .inl Heads.kw
  refine First.optSome (First.seq (First.tok rfl (First.altL (First.optSome (First.seq (named_first t ?_ hfol ?_))))))
  · intro x hx
    refine Rejects.best (hr x hx) (comma_starts ?_)
    rintro rfl
    simp at hx
  · exact list_first (R := [Tok.IDENTIFIER, .BY_, .NUMERIC_LITERAL, .OPEN_PAR, .NOT_]) (Fol := TableFollow) (by decide)
      (fun r => .inl Heads.kw) (fun q w x us hq h hw => named_first x hq h hw) ts hr hS hh.noComma hk

/-! ### Selected items -/

/-- The tokens an alias starts with. -/
def aliasHeads : List Tok := [.AS_, .IDENTIFIER]

theorem expr_then {t : Tree} {ts : List Token} {r : Rule} {cs : List Tree} (ht : t = .node r cs)
    (h : ∀ {γ : Type} (q : List Token → Option γ) (w : γ), q rest = some w →
      (∀ x, Rejects k x → startsWith (.star (suffix 0)) x = false → Rejects q x) → First primary q ts [t] w)
    (hS : Heads aliasHeads rest) (hk : k rest = some v) : First (.expr 0) k ts [exprT t] v := by
  subst ht
  exact First.expr (p := 0) (First.seq (a := primary) (b := .star (suffix 0)) (m := []) (v := v)
    (h (best (.star (suffix 0)) k) ([], v) (First.starOff hS hk) (fun x hx hs => Rejects.best hx hs)))

theorem atom_then (a : Atom) (hS : Heads aliasHeads rest) (hk : k rest = some v) :
    First (.expr 0) k (a.toks sp ++ rest) [atomT sp a] v := by
  cases a with
  | lit l =>
    refine expr_then (rest := rest) (r := .literal_value) (cs := (litT sp l).kids) ?_ ?_ hS hk
    · cases l <;> rfl
    · intro γ q w hq _
      exact First.altL (First.exact (lit_runs l) hq)
  | col a =>
    refine expr_then (rest := rest) (t := nameT .column_name a) rfl ?_ hS hk
    intro γ q w hq _
    refine First.altR (No.at rfl) (First.altR ?_ (First.altR (No.at rfl) (First.altR (No.at rfl)
      (First.altR (No.at rfl) (First.altL ?_)))))
    · exact No.nt (No.seq (No.exact (column_runs a) (No.seq (No.off hS))))
    · refine First.seq (l := []) (m := [nameT .column_name a]) ?_
      refine First.optNone ?_ (First.exact (column_runs a) hq)
      refine No.seq ?_
      refine No.alt (a := .nt .schema_name ⬝ .tok .DOT) (b := .eps) ?_ ?_
      · exact No.seq (No.exact (l := [nameT .schema_name a]) (us := rest) (by krfl) (No.off hS))
      · have h : best ((.nt .table_name) ⬝ (.tok .DOT)) (best (.nt .column_name) q) (ident a :: rest) = none :=
          No.seq (No.exact (table_runs a) (No.off hS))
        rw [No, best_eps]; exact congrArg _ h

theorem fn_then (f : Str) (args : ArgsS) (hS : Heads aliasHeads rest) (hr : Rejects k .OPEN_PAR)
    (hk : k rest = some v) :
    First (.expr 0) k ((ItemS.fn f args).toks sp ++ rest) [exprT (fnT sp f args)] v := by
  have e : (ItemS.fn f args).toks sp ++ rest = ident f :: kw sp .OPEN_PAR :: (args.toks sp ++ kw sp .CLOSE_PAR :: rest) := by
    simp [ItemS.toks]
  rw [e]
  refine expr_then (rest := rest) rfl ?_ hS hk
  intro γ q w hq hrej
  have ho : Rejects q .OPEN_PAR := hrej _ hr (by krfl)
  refine First.altR (No.at rfl) (First.altR No.empty (First.altR (No.at rfl) (First.altR (No.at rfl)
    (First.altR (No.at rfl) (First.altR ?_ (First.altR (No.at rfl) (First.altR No.empty (First.altR No.empty
      (First.altR No.empty (First.altL ?_))))))))))
  · exact No.exact (l := [nameT .column_name f]) (us := kw sp .OPEN_PAR :: (args.toks sp ++ kw sp .CLOSE_PAR :: rest))
      (by krfl) (ho _ _ rfl)
  · refine First.nt (First.seq (l := [nameT .function_name f]) (First.exact (us := kw sp .OPEN_PAR :: (args.toks sp ++ kw sp .CLOSE_PAR :: rest)) (by krfl) ?_))
    refine First.seq (First.tok rfl ?_)
    refine First.seq (args_first args ?_)
    refine First.seq (First.tok rfl ?_)
    refine First.seq (l := []) (First.optOff hS ?_)
    exact First.optOff hS hq

/-- The trees of an alias of a selected item. -/
def alsoT (sp : Spelling) (x : AliasS) : List Tree :=
  (if x.as_ then [.leaf (kw sp .AS_)] else []) ++ [.node .column_alias [.leaf (ident x.name)]]

/-- The tree of a selected item with its alias. -/
def pickT (sp : Spelling) : PickS → Tree
  | .plain i => itemT sp i
  | .atom a x => .node .result_column (atomT sp a :: alsoT sp x)
  | .fn f args x => .node .result_column (exprT (fnT sp f args) :: alsoT sp x)

theorem isNode_pick (p : PickS) : (pickT sp p).IsNode .result_column := by
  cases p with
  | plain i => exact isNode_item i
  | atom a x => exact ⟨_, rfl⟩
  | fn f args x => exact ⟨_, rfl⟩

theorem also_first (x : AliasS) (hk : k rest = some v) : First (.opt ((.opt (.tok .AS_)) ⬝ (.nt .column_alias))) k (x.toks sp ++ rest) (alsoT sp x) v := by
  obtain ⟨b, x⟩ := x
  have hx : ∀ {γ : Type} {q : List Token → Option γ} {w : γ}, q rest = some w →
      First (.nt .column_alias) q (ident x :: rest) [.node .column_alias [.leaf (ident x)]] w := fun hq => First.exact (by krfl) hq
  cases b with
  | true => exact First.optSome (First.seq (l := [.leaf (kw sp .AS_)]) (First.optSome (First.tok rfl (hx hk))))
  | false => exact First.optSome (First.seq (l := []) (First.optOff (S := [.IDENTIFIER]) Heads.ident (hx hk)))

theorem also_head (a : AliasS) : Heads aliasHeads (a.toks sp ++ rest) := by
  obtain ⟨b, x⟩ := a
  cases b with
  | true => exact Heads.kw
  | false => exact Heads.ident

theorem also_rejects {k : List Token → Option β} (hk : Rejects k .OPEN_PAR) :
    Rejects (best (.opt ((.opt (.tok .AS_)) ⬝ (.nt .column_alias))) k) .OPEN_PAR := Rejects.best hk (by krfl)

theorem pick_first (p : PickS) (hr : ∀ t ∈ [Tok.OPEN_PAR], Rejects k t) (hS : Heads exprFollow rest) (hk : k rest = some v) :
    First (.nt .result_column) k (p.toks sp ++ rest) [pickT sp p] v := by
  cases p with
  | plain i => rw [show (PickS.plain i).toks sp = i.toks sp by simp [PickS.toks, PickS.item, PickS.also]]; exact item_first i hr hS hk
  | atom a x =>
    have hh : Heads aliasHeads (x.toks sp ++ rest) := also_head x
    have ha : First (.opt ((.opt (.tok .AS_)) ⬝ (.nt .column_alias))) k (x.toks sp ++ rest) (alsoT sp x) v := also_first x hk
    rw [show (PickS.atom a x).toks sp ++ rest = a.toks sp ++ (x.toks sp ++ rest) by simp [PickS.toks, PickS.item, PickS.also, ItemS.toks]]
    generalize x.toks sp ++ rest = us at hh ha
    refine First.nt (First.altR (No.off (atom_heads a _)) (First.altR ?_ ?_))
    · cases a with
      | col a => exact No.seq (No.exact (table_runs a) (No.seq (No.off hh)))
      | lit l =>
        cases l with
        | word w s =>
          have hrun : runs 60 (.nt .table_name) (⟨w.tok, s⟩ :: us) =
              some [([.node .table_name [.node .any_name [.node .keyword [.leaf ⟨w.tok, s⟩]]]], us)] := by
            cases w <;> krfl
          exact No.seq (No.exact hrun (No.seq (No.off hh)))
        | str s => exact No.seq (No.exact (l := [.node .table_name [.node .any_name [.leaf ⟨.STRING_LITERAL, s⟩]]]) (us := us)
              (by krfl) (No.seq (No.off hh)))
        | num s => exact No.at rfl
        | plus s => exact No.at rfl
        | minus s => exact No.at rfl
        | blob s => exact No.at rfl
        | bind s => exact No.at rfl
    · exact First.seq (l := [atomT sp a]) (atom_then a hh ha)
  | fn f args x =>
    have hh : Heads aliasHeads (x.toks sp ++ rest) := also_head x
    have ha : First (.opt ((.opt (.tok .AS_)) ⬝ (.nt .column_alias))) k (x.toks sp ++ rest) (alsoT sp x) v := also_first x hk
    rw [show (PickS.fn f args x).toks sp ++ rest = (ItemS.fn f args).toks sp ++ (x.toks sp ++ rest) by simp [PickS.toks, PickS.item, PickS.also]]
    generalize x.toks sp ++ rest = us at hh ha
    have e : (ItemS.fn f args).toks sp ++ us = ident f :: kw sp .OPEN_PAR :: (args.toks sp ++ kw sp .CLOSE_PAR :: us) := by
      simp [ItemS.toks]
    refine First.nt (First.altR ?_ (First.altR ?_ ?_))
    · rw [e]; exact No.at rfl
    · rw [e]; exact No.seq (No.exact (table_runs f) (No.seq (No.at rfl)))
    · exact First.seq (l := [exprT (fnT sp f args)]) (fn_then f args hh (also_rejects (hr .OPEN_PAR (by simp))) ha)

/-- The selector of an item with an alias: the alias belongs to the name of a column and is not reported for a function. -/
def pickV (sp : Spelling) : PickS → Selector
  | .plain i => itemV sp i
  | .atom a x => .col { name := Spec.textOf (a.toks sp ++ x.toks sp) }
  | .fn f args _ => .fn (Function.named f (argsV sp args))

theorem text_also (x : AliasS) : textAll (alsoT sp x) = Spec.textOf (x.toks sp) := by
  obtain ⟨b, x⟩ := x
  cases b <;> simp [alsoT, textAll, Tree.text, Spec.textOf, AliasS.toks, kw, ident]

theorem selector_pick (p : PickS) : selector (pickT sp p) = .ok (pickV sp p) := by
  cases p with
  | plain i => exact selector_item i
  | atom a x =>
    have h1 : (pickT sp (.atom a x)).child .expr = some (atomT sp a) := by cases a <;> rfl
    have h2 : (atomT sp a).child .«function» = none := by
      cases a with
      | col a => rfl
      | lit l => cases l <;> rfl
    have h3 : (pickT sp (.atom a x)).text = Spec.textOf (a.toks sp ++ x.toks sp) := by
      simp only [pickT, Tree.text, textAll, text_atom, text_also]
      simp [Spec.textOf]
    rw [selector, h1, Option.bind_some, h2, h3]; rfl
  | fn f args x =>
    have h0 := selector_item (sp := sp) (.fn f args)
    have h1 : (pickT sp (.fn f args x)).child .expr = (itemT sp (.fn f args)).child .expr := rfl
    have h2 : ((itemT sp (.fn f args)).child .expr).bind (·.child .«function») = some (fnT sp f args) := rfl
    rw [selector, h2] at h0
    rw [selector, h1, h2]
    exact h0

/-- The SELECT core with aliases. -/
def coreAT (sp : Spelling) (s : SelectS) (p : PickS) (ps : List PickS) (t : NamedS) (ts : List NamedS) : Tree := .node .select_core (.leaf (kw sp .SELECT_) :: pickT sp p ::
    (tailT sp (pickT sp) ps ++ (fromAT sp t ts ++ (whereT sp s.cond ++ groupT sp s.group))))

/-- The tree of a SELECT with aliases. -/
def selectAT (sp : Spelling) (s : SelectS) (p : PickS) (ps : List PickS) (t : NamedS) (ts : List NamedS) : Tree :=
  .node .select_stmt (.lab .parentQuery [coreAT sp s p ps t ts] :: (ordersT sp s.orders ++ limitT sp s.limit))

theorem selectA_first (s : SelectS) (p : PickS) (ps : List PickS) (t : NamedS) (ts : List NamedS) (hq : Quiet k) (h : Heads stmtFollow rest) (hk : k rest = some v) :
    First (.nt .select_stmt) k (s.toksFrom sp p ps t ts ++ rest) [selectAT sp s p ps t ts] v := by
  obtain ⟨item, items, tables, cond, group, orders, limit⟩ := s
  have e : SelectS.toksFrom sp ⟨item, items, tables, cond, group, orders, limit⟩ p ps t ts ++ rest =
      kw sp .SELECT_ :: (p.toks sp ++ (tailToks sp (PickS.toks sp) ps ++ (kw sp .FROM_ :: (commas sp ((t :: ts).map (NamedS.toks sp)) ++
        (whereToks sp cond ++ (groupToks sp group ++ (ordersToks sp orders ++ (limit.toks sp ++ rest)))))))) := by
    rw [SelectS.toksFrom, commas_map (f := PickS.toks sp)]
    simp only [List.cons_append, List.append_assoc]
  rw [e]
  have h4 := limit_heads (sp := sp) limit h
  have h3 := orders_heads (sp := sp) orders h4
  have h2 := group_heads (sp := sp) group h3
  have h1 := where_heads (sp := sp) cond h2
  have h0 : Heads exprFollow (kw sp .FROM_ :: (commas sp ((t :: ts).map (NamedS.toks sp)) ++
        (whereToks sp cond ++ (groupToks sp group ++ (ordersToks sp orders ++ (limit.toks sp ++ rest)))))) := Heads.kw
  have hi := heads_tail (sp := sp) (f := PickS.toks sp) ps (by decide) h0
  refine First.nt (First.seq (l := []) (First.optOff (S := [.SELECT_]) Heads.kw ?_))
  refine First.seq (l := [_]) (m := ordersT sp orders ++ limitT sp limit) (First.lab (First.nt (First.altL ?_)))
  refine First.seq (First.tok rfl ?_)
  have hin : ∀ us, Heads (Tok.STAR :: atomStart) (p.toks sp ++ us) := by
    intro us
    rw [PickS.toks, List.append_assoc]
    cases p.item with
    | star => exact Heads.kw
    | atom a => exact (atom_heads a _).mono (by decide)
    | fn f args => exact Heads.ident
  refine First.seq (l := []) (First.optOff (hin _) ?_)
  have hopen : ∀ {γ : Type} {q : List Token → Option γ}, Rejects q .OPEN_PAR → ∀ t ∈ [Tok.OPEN_PAR], Rejects q t := by
    intro γ q hq t ht
    rw [List.mem_singleton] at ht
    rw [ht]; exact hq
  refine First.seq (pick_first p (hopen (by quiet hq)) hi ?_)
  refine First.seq (list_first (R := [.OPEN_PAR]) (Fol := Heads exprFollow) (by decide) (fun r => Heads.kw)
      (fun q w x us hr h hq => pick_first x hr h hq) ps (hopen (by quiet hq)) h0 (Heads.noComma (S := [.FROM_]) Heads.kw) ?_)
  refine First.seq (fromA_first t ts ?_ (tables_follow cond group orders limit h) h1 ?_)
  · intro x hx
    simp only [List.mem_cons, List.not_mem_nil, or_false] at hx
    rcases hx with rfl | rfl | rfl | rfl | rfl <;> quiet hq
  refine First.seq (where_first cond h2 ?_ ?_)
  · intro x hx
    simp only [condInner, List.mem_cons, List.not_mem_nil, or_false] at hx
    rcases hx with rfl | rfl | rfl | rfl | rfl | rfl | rfl | rfl | rfl <;> quiet hq
  have hrest := First.seq (l := []) (First.starOff (a := (.nt .compound_operator) ⬝ (.nt .select_core)) h3
    (First.seq (orders_first orders h4 (limit_first limit h hk))))
  have hgroup := First.seq (group_first (sp := sp) group h3 (First.optOff (a := (.tok .WINDOW_) ⬝ (.nt .window_name) ⬝ (.tok .AS_) ⬝
      (.nt .window_defn) ⬝ (.star ((.tok .COMMA) ⬝ (.nt .window_name) ⬝ (.tok .AS_) ⬝ (.nt .window_defn)))) h3 hrest))
  rw [List.append_nil] at hgroup
  exact hgroup

/-- The object of a table with an alias: the name is the text with the schema and the alias. -/
def namedV (sp : Spelling) (t : NamedS) : Table := { name := Spec.textOf (t.toks sp), schema := t.table.schema.getD [] }

theorem fromTable_named (t : NamedS) : fromTable (namedT sp t) = some (namedV sp t) := by
  obtain ⟨⟨s, a⟩, al⟩ := t
  have h1 : (namedT sp ⟨⟨s, a⟩, al⟩).child .from_table = some (.node .from_table (bareT sp ⟨s, a⟩ ++ aliasT sp al)) := rfl
  have ha : textAll (aliasT sp al) = Spec.textOf ((al.map (AliasS.toks sp)).getD []) := by
    rcases al with _ | ⟨_ | _, x⟩ <;> simp [aliasT, textAll, Tree.text, text_name, Spec.textOf, AliasS.toks, kw, ident]
  have h2 : (Tree.node .from_table (bareT sp ⟨s, a⟩ ++ aliasT sp al)).text = Spec.textOf (NamedS.toks sp ⟨⟨s, a⟩, al⟩) := by
    cases s <;> simp [Tree.text, bareT, textAll, text_name, ha, NamedS.toks, TabS.toks, Spec.textOf, kw, ident]
  have h3 : (Tree.node .from_table (bareT sp ⟨s, a⟩ ++ aliasT sp al)).child .schema_name = s.map (nameT .schema_name) := by
    cases s with
    | some s => rfl
    | none => rcases al with _ | ⟨_ | _, x⟩ <;> rfl
  rw [fromTable, h1]
  simp only [Option.map_some, h2, h3]
  cases s <;> simp [namedV, text_name]

theorem coreA_kids (s : SelectS) (p : PickS) (ps : List PickS) (t : NamedS) (ts : List NamedS) : (coreAT sp s p ps t ts).kids = .leaf (kw sp .SELECT_) :: pickT sp p ::
    (tailT sp (pickT sp) ps ++ (fromAT sp t ts ++ (unlab (whereT sp s.cond) ++ unlab (groupT sp s.group)))) := by
  obtain ⟨cs, hc⟩ := isNode_pick (sp := sp) p
  have : unlab (fromAT sp t ts) = fromAT sp t ts := by
    simp [fromAT, unlab, namedT, unlab_tail (r := .«from») (isNode_named (sp := sp))]
  simp [coreAT, Tree.kids, unlab, hc, unlab_append, unlab_tail (isNode_pick (sp := sp)), this]

theorem coreA_items (s : SelectS) (p : PickS) (ps : List PickS) (t : NamedS) (ts : List NamedS) : (coreAT sp s p ps t ts).all .result_column = (p :: ps).map (pickT sp) := by
  obtain ⟨cs, hc⟩ := isNode_pick (sp := sp) p
  have hw : (unlab (whereT sp s.cond)).filter (Tree.isRule .result_column) = [] := by cases s.cond <;> rfl
  have hg : (unlab (groupT sp s.group)).filter (Tree.isRule .result_column) = [] := by cases s.group <;> rfl
  have hf : (fromAT sp t ts).filter (Tree.isRule .result_column) = [] := by
    simp [fromAT, Tree.isRule, namedT, rules_tail_off (q := .result_column) (isNode_named (sp := sp))]
  rw [Tree.all, coreA_kids]
  simp [Tree.isRule, hc, List.filter_append, rules_tail (isNode_pick (sp := sp)), hw, hg, hf]

theorem coreA_tables (s : SelectS) (p : PickS) (ps : List PickS) (t : NamedS) (ts : List NamedS) : (coreAT sp s p ps t ts).all .«from» = (t :: ts).map (namedT sp) := by
  obtain ⟨cs, hc⟩ := isNode_pick (sp := sp) p
  have hw : (unlab (whereT sp s.cond)).filter (Tree.isRule .«from») = [] := by cases s.cond <;> rfl
  have hg : (unlab (groupT sp s.group)).filter (Tree.isRule .«from») = [] := by cases s.group <;> rfl
  have hf : (fromAT sp t ts).filter (Tree.isRule .«from») = (t :: ts).map (namedT sp) := by
    simp [fromAT, Tree.isRule, namedT, rules_tail (r := .«from») (isNode_named (sp := sp))]
  rw [Tree.all, coreA_kids]
  simp [Tree.isRule, hc, List.filter_append, rules_tail_off (isNode_pick (sp := sp)) (q := .«from»), hw, hg, hf]

theorem coreA_labels (l : Lab) (s : SelectS) (p : PickS) (ps : List PickS) (t : NamedS) (ts : List NamedS) : (coreAT sp s p ps t ts).labels l =
    labelled l (whereT sp s.cond) ++ labelled l (groupT sp s.group) := by
  obtain ⟨cs, hc⟩ := isNode_pick (sp := sp) p
  have hf : labelled l (fromAT sp t ts) = [] := by
    simp [fromAT, labelled, namedT, labelled_tail (r := .«from») (isNode_named (sp := sp))]
  simp [coreAT, Tree.labels, labelled, hc, labelled_append, labelled_tail (isNode_pick (sp := sp)), hf]

theorem selectA_child (r : Rule) (hr : r ≠ .select_core) (s : SelectS) (p : PickS) (ps : List PickS) (t : NamedS) (ts : List NamedS) :
    (selectAT sp s p ps t ts).child r = (selectT sp s).child r := by
  have ho : unlab (ordersT sp s.orders) = ordersT sp s.orders := by cases s.orders <;> rfl
  have hl : unlab (limitT sp s.limit) = limitT sp s.limit := by cases s.limit <;> rfl
  have h1 : (selectAT sp s p ps t ts).kids = coreAT sp s p ps t ts :: (ordersT sp s.orders ++ limitT sp s.limit) := by
    rw [selectAT, Tree.kids, unlab, unlab_append, ho, hl]; rfl
  have h2 : decide (Rule.select_core = r) = false := by simpa using fun h => hr h.symm
  rw [Tree.child, Tree.child, h1, select_kids, coreT, coreAT, List.find?_cons, List.find?_cons]
  simp only [Tree.isRule, h2]

theorem selectA_visit (toUint : Str → Option Nat) (hg : sp.Good) (s : SelectS) (p : PickS) (ps : List PickS) (t : NamedS) (ts : List NamedS) :
    Visit.select toUint (selectAT sp s p ps t ts) = .ok (.select { selectV toUint sp s with selectors := (p :: ps).map (pickV sp), tables := (t :: ts).map (namedV sp) }) := by
  have h1 : (selectAT sp s p ps t ts).label .parentQuery = some (coreAT sp s p ps t ts) := rfl
  have h2 : whereOf (coreAT sp s p ps t ts) = .ok (s.cond.map (condV sp)) := by
    apply whereOf_where
    rw [coreA_labels]
    have : labelled .whereExpr (groupT sp s.group) = [] := by cases s.group <;> rfl
    rw [this]
    cases s.cond <;> rfl
  have h3 : groupOf (coreAT sp s p ps t ts) = s.group.getD [] := by
    rw [groupOf, coreA_labels]
    have : labelled .groupByExpr (whereT sp s.cond) = [] := by cases s.cond <;> rfl
    rw [this]
    cases s.group with
    | none => rfl
    | some g =>
      show (exprT (nameT .column_name g)).text = g
      simp [exprT, Tree.text, textAll, text_name]
  have h4 : ∀ l : List NamedS, (l.map (namedT sp)).filterMap fromTable = l.map (namedV sp) := by
    intro l
    rw [List.filterMap_map]
    induction l with
    | nil => rfl
    | cons t ts ih => simp [Function.comp_def, fromTable_named]
  have h5 : ordersOf (selectAT sp s p ps t ts) = ordersOf (selectT sp s) := by
    rw [ordersOf, ordersOf, selectA_child _ (by decide)]
  have h6 : limitOf toUint (selectAT sp s p ps t ts) = limitOf toUint (selectT sp s) := by
    rw [limitOf, limitOf, selectA_child _ (by decide)]
  rw [Visit.select, h1]
  simp only [coreA_items, resAll_map (selector_pick (sp := sp)), Res.bind, h2, h5, h6, ordersOf_select hg, coreA_tables, h4, h3,
    limitOf_select]
  rfl

theorem parse_select_named (toUint : Str → Option Nat) (hg : sp.Good) {q : Str} {ts : List Token} (hl : lex q = some ts) (s : SelectS) (p : PickS) (ps : List PickS) (x : NamedS)
    (xs : List NamedS) (ss : List StmtS) (n : Nat) (hv : visible ts = s.toksFrom sp p ps x xs ++ moreToks sp ss n) :
    parseQuery toUint q = .ok (.select { selectV toUint sp s with selectors := (p :: ps).map (pickV sp), tables := (x :: xs).map (namedV sp) } :: ss.map (stmtV toUint sp)) := by
  refine parse_first toUint hg (toks := s.toksFrom sp p ps x xs) .SELECT_ rfl (by decide) _ ss n ?_ hl hv
  intro γ k v rest hq h hk
  refine ⟨.node .sql_stmt [selectAT sp s p ps x xs], ?_, ⟨_, rfl⟩, ?_⟩
  · refine First.nt (First.seq (l := []) (First.optOff (S := [.SELECT_]) Heads.kw ?_))
    iterate 26 refine First.altR (No.at (t := .SELECT_) rfl) ?_
    exact First.altL (selectA_first s p ps x xs hq h hk)
  · have : statement toUint (.node .sql_stmt [selectAT sp s p ps x xs]) = (Visit.select toUint (selectAT sp s p ps x xs)).bind (fun s => .ok (some s)) := rfl
    rw [this, selectA_visit toUint hg]; rfl

end Verif.Gram
