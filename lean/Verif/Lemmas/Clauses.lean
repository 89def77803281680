import Verif.Lemmas.Aliases
import Verif.Spec.Clauses
/-! Statements with RETURNING, ON CONFLICT DO NOTHING, more GROUP BY columns and HAVING. -/
namespace Verif.Gram
open Verif Verif.Lex Verif.Spec Verif.Visit Verif.Query Verif.Parse

variable {β : Type} {k : List Token → Option β} {v : β} {sp : Spelling} {rest : List Token}

/-! ### RETURNING -/

/-- The tree of a RETURNING clause. -/
def returnT (sp : Spelling) (r : ReturnS) : Tree :=
  .node .returning_clause (.leaf (kw sp .RETURNING_) :: pickT sp r.item :: tailT sp (pickT sp) r.items)

theorem return_first (r : ReturnS) (hq : Quiet k) (h : Heads stmtFollow rest) (hk : k rest = some v) :
    First (.opt (.nt .returning_clause)) k (r.toks sp ++ rest) [returnT sp r] v := by
  obtain ⟨p, ps⟩ := r
  have e : ReturnS.toks sp ⟨p, ps⟩ ++ rest = kw sp .RETURNING_ :: (p.toks sp ++ (tailToks sp (PickS.toks sp) ps ++ rest)) := by
    rw [ReturnS.toks, commas_map]; simp
  rw [e]
  have hopen : ∀ {γ : Type} {q : List Token → Option γ}, Rejects q .OPEN_PAR → ∀ t ∈ [Tok.OPEN_PAR], Rejects q t := by
    intro γ q hq t ht
    rw [List.mem_singleton] at ht
    rw [ht]; exact hq
  have h0 : Heads exprFollow rest := h.mono (by decide)
  refine First.optSome (First.nt (First.seq (First.tok rfl (First.seq (l := [pickT sp p]) (pick_first p (hopen (by quiet hq))
    (heads_tail ps (by decide) h0) ?_)))))
  exact list_first (R := [.OPEN_PAR]) (Fol := Heads exprFollow) (by decide) (fun r => Heads.kw)
      (fun q w x us hr h hq => pick_first x hr h hq) ps (hopen (by quiet hq)) h0 h.noComma hk

theorem where_end (c : Option CondS) (hS : Heads [.RETURNING_] rest) (hr : ∀ x ∈ condInner, Rejects k x)
    (hk : k rest = some v) : First (.opt ((.tok .WHERE_) ⬝ (.lab .whereExpr (.expr 0)))) k (whereToks sp c ++ rest)
      (whereT sp c) v := by
  cases c with
  | none => exact First.optOff hS hk
  | some c =>
    exact First.optSome (First.seq (First.tok rfl (First.lab (cond_expr c (hS.mono (by decide)) hr hk))))

theorem where_end_heads (c : Option CondS) (r : ReturnS) : Heads [.WHERE_, .RETURNING_] (whereToks sp c ++ (r.toks sp ++ rest)) := by
  cases c with
  | none => exact Heads.kw
  | some c => exact Heads.kw

/-- The tree of a DELETE with RETURNING. -/
def deleteRT (sp : Spelling) (d : DeleteS) (r : ReturnS) : Tree :=
  .node .delete_stmt (.leaf (kw sp .DELETE_) :: .leaf (kw sp .FROM_) :: .lab .table [qualifiedT d.table] :: (whereT sp d.cond ++ [returnT sp r]))

theorem delete_return (d : DeleteS) (r : ReturnS) (hq : Quiet k) (h : Heads stmtFollow rest) (hk : k rest = some v) :
    First (.nt .delete_stmt) k (d.toks sp ++ (r.toks sp ++ rest)) [deleteRT sp d r] v := by
  obtain ⟨table, cond⟩ := d
  have h1 := where_end_heads (sp := sp) (rest := rest) cond r
  refine First.nt (First.seq (l := []) (First.optOff (S := [.DELETE_]) Heads.kw ?_))
  rw [DeleteS.toks]
  simp only [List.cons_append]
  refine First.seq (First.tok rfl ?_)
  refine First.seq (First.tok rfl ?_)
  refine First.seq (First.lab (qualified_first table h1 (by krfl) (by krfl) (by krfl) ?_))
  exact First.seq (where_end (sp := sp) cond Heads.kw (condInner_quiet hq (e := .opt (.nt .returning_clause))) (return_first r hq h hk))

theorem delete_return_visit (d : DeleteS) (r : ReturnS) : Visit.delete (deleteRT sp d r) = Visit.delete (deleteT sp d) := by
  obtain ⟨table, cond⟩ := d
  have h1 : labelText .table (deleteRT sp ⟨table, cond⟩ r) = labelText .table (deleteT sp ⟨table, cond⟩) := rfl
  have h3 : whereOf (deleteRT sp ⟨table, cond⟩ r) = .ok (cond.map (condV sp)) := by
    apply whereOf_where
    cases cond <;> rfl
  have h4 : whereOf (deleteT sp ⟨table, cond⟩) = .ok (cond.map (condV sp)) := by
    apply whereOf_where
    cases cond <;> rfl
  rw [Visit.delete, Visit.delete, h1, h3, h4]

/-- The tree of an UPDATE with RETURNING. -/
def updateRT (sp : Spelling) (u : UpdateS) (r : ReturnS) : Tree :=
  .node .update_stmt (.leaf (kw sp .UPDATE_) :: .lab .table [qualifiedT u.table] :: .leaf (kw sp .SET_) :: setT sp u.asg ::
    (tailT sp (setT sp) u.asgs ++ (whereT sp u.cond ++ [returnT sp r])))

theorem update_return (u : UpdateS) (r : ReturnS) (hq : Quiet k) (h : Heads stmtFollow rest) (hk : k rest = some v) :
    First (.nt .update_stmt) k (u.toks sp ++ (r.toks sp ++ rest)) [updateRT sp u r] v := by
  obtain ⟨table, asg, asgs, cond⟩ := u
  have e : UpdateS.toks sp ⟨table, asg, asgs, cond⟩ ++ (r.toks sp ++ rest) =
      kw sp .UPDATE_ :: ident table :: kw sp .SET_ :: (asg.toks sp ++ (tailToks sp (SetS.toks sp) asgs ++
        (whereToks sp cond ++ (r.toks sp ++ rest)))) := by
    rw [UpdateS.toks, commas_map]; simp
  rw [e]
  have h1 := where_end_heads (sp := sp) (rest := rest) cond r
  have h2 : Heads exprFollow (whereToks sp cond ++ (r.toks sp ++ rest)) := h1.mono (by decide)
  refine First.nt (First.seq (l := []) (First.optOff (S := [.UPDATE_]) Heads.kw ?_))
  refine First.seq (First.tok rfl ?_)
  refine First.seq (l := []) (First.optOff (S := [.IDENTIFIER]) Heads.ident ?_)
  refine First.seq (First.lab (qualified_first table (S := [.SET_]) Heads.kw (by krfl) (by krfl) (by krfl) ?_))
  refine First.seq (First.tok rfl ?_)
  refine First.seq (l := [setT sp asg]) (set_first asg (heads_tail asgs (by decide) h2) ?_)
  refine First.seq (list_first (R := []) (Fol := Heads exprFollow) (by simp) (fun r => Heads.kw)
    (fun q w x us _ h hq => set_first x h hq) asgs (by simp) h2 h1.noComma ?_)
  refine First.seq (l := []) (First.optOff h1 ?_)
  exact First.seq (where_end (sp := sp) cond Heads.kw (condInner_quiet hq (e := .opt (.nt .returning_clause))) (return_first r hq h hk))

theorem update_return_visit (hg : sp.Good) (u : UpdateS) (r : ReturnS) : Visit.update (updateRT sp u r) = Visit.update (updateT sp u) := by
  rw [update_visit hg]
  obtain ⟨table, asg, asgs, cond⟩ := u
  have h1 : labelText .table (updateRT sp ⟨table, asg, asgs, cond⟩ r) = .ok table := by
    have : (updateRT sp ⟨table, asg, asgs, cond⟩ r).label .table = some (qualifiedT table) := rfl
    rw [labelText, this]
    simp [Res.must, Res.bind, qualifiedT, Tree.text, textAll, text_name]
  have hk : (updateRT sp ⟨table, asg, asgs, cond⟩ r).kids = .leaf (kw sp .UPDATE_) :: qualifiedT table :: .leaf (kw sp .SET_) ::
      setT sp asg :: (tailT sp (setT sp) asgs ++ (unlab (whereT sp cond) ++ [returnT sp r])) := by
    have : (updateRT sp ⟨table, asg, asgs, cond⟩ r).kids = .leaf (kw sp .UPDATE_) :: qualifiedT table :: .leaf (kw sp .SET_) ::
      setT sp asg :: unlab (tailT sp (setT sp) asgs ++ (whereT sp cond ++ [returnT sp r])) := rfl
    rw [this, unlab_append, unlab_tail (isNode_set (sp := sp)), unlab_append]
    rfl
  have h2 : (updateRT sp ⟨table, asg, asgs, cond⟩ r).all .update_column_set = (asg :: asgs).map (setT sp) := by
    rw [Tree.all, hk]
    have h0 : Tree.isRule .update_column_set (setT sp asg) = true := rfl
    have h1 : Tree.isRule .update_column_set (qualifiedT table) = false := rfl
    have h3 : (unlab (whereT sp cond)).filter (Tree.isRule .update_column_set) = [] := by cases cond <;> rfl
    have h4 : Tree.isRule .update_column_set (returnT sp r) = false := rfl
    simp only [List.filter_cons, h0, h1, List.filter_append, rules_tail (isNode_set (sp := sp)), h3, h4]
    simp [Tree.isRule]
  have h3 : whereOf (updateRT sp ⟨table, asg, asgs, cond⟩ r) = .ok (cond.map (condV sp)) := by
    apply whereOf_where
    have h0 : (updateRT sp ⟨table, asg, asgs, cond⟩ r).labels .whereExpr =
        labelled .whereExpr (tailT sp (setT sp) asgs ++ (whereT sp cond ++ [returnT sp r])) := rfl
    rw [h0, labelled_append, labelled_tail (isNode_set (sp := sp))]
    cases cond <;> rfl
  rw [Visit.update, h1, h2]
  simp only [Res.bind, resAll_map (assignment_set hg), h3]
  rfl

/-! ### INSERT -/

/-- The trees of ON CONFLICT DO NOTHING. -/
def conflictT (sp : Spelling) (c : Bool) : List Tree :=
  if c then [.node .upsert_clause [.leaf (kw sp .ON_), .leaf (kw sp .CONFLICT_), .leaf (kw sp .DO_), .leaf (kw sp .NOTHING_)]] else []

/-- The trees of an optional RETURNING clause. -/
def returnsT (sp : Spelling) (r : Option ReturnS) : List Tree := (r.map (fun r => [returnT sp r])).getD []

/-- The tree of an INSERT with such clauses. -/
def insertET (sp : Spelling) (i : InsertS) (c : Bool) (r : Option ReturnS) : Tree :=
  .node .insert_stmt (.leaf (kw sp .INSERT_) :: .leaf (kw sp .INTO_) :: nameT .table_name i.table ::
    .leaf (kw sp .OPEN_PAR) :: (namesT sp .column_name i.names ++ (.leaf (kw sp .CLOSE_PAR) ::
      (.node .values_clause (.leaf (kw sp .VALUES_) :: rowT sp i.row :: tailT sp (rowT sp) i.rows) :: (conflictT sp c ++ returnsT sp r)))))

theorem returns_first (r : Option ReturnS) (hq : Quiet k) (h : Heads stmtFollow rest) (hk : k rest = some v) :
    First (.opt (.nt .returning_clause)) k ((r.map (ReturnS.toks sp)).getD [] ++ rest) (returnsT sp r) v := by
  cases r with
  | none => exact First.optOff h hk
  | some r => exact return_first r hq h hk

theorem returns_heads (r : Option ReturnS) (h : Heads stmtFollow rest) : Heads [.RETURNING_, .SCOL] ((r.map (ReturnS.toks sp)).getD [] ++ rest) := by
  cases r with
  | none => exact h.mono (by decide)
  | some r => exact Heads.kw

theorem conflict_first (c : Bool) (h : Heads [.RETURNING_, .SCOL] rest) (hk : k rest = some v) :
    First (.opt (.nt .upsert_clause)) k (conflictToks sp c ++ rest) (conflictT sp c) v := by
  cases c with
  | false => exact First.optOff h hk
  | true => exact First.optSome (First.exact (by krfl) hk)

theorem insert_ended (i : InsertS) (c : Bool) (r : Option ReturnS) (hq : Quiet k) (h : Heads stmtFollow rest) (hk : k rest = some v) :
    First (.nt .insert_stmt) k (i.toks sp ++ (conflictToks sp c ++ ((r.map (ReturnS.toks sp)).getD [] ++ rest))) [insertET sp i c r] v := by
  obtain ⟨table, col, cols, row, rows⟩ := i
  have hr := returns_first (sp := sp) r hq h hk
  have hrh := returns_heads (sp := sp) r h
  generalize (r.map (ReturnS.toks sp)).getD [] ++ rest = us at hr hrh
  have hc := fun {γ : Type} {q : List Token → Option γ} {w : γ} => conflict_first (k := q) (v := w) (sp := sp) c hrh
  have hch : Heads [.ON_, .RETURNING_, .SCOL] (conflictToks sp c ++ us) := by
    cases c with
    | false => exact hrh.mono (by decide)
    | true => exact Heads.kw
  have e : InsertS.toks sp ⟨table, col, cols, row, rows⟩ ++ (conflictToks sp c ++ us) =
      kw sp .INSERT_ :: kw sp .INTO_ :: ident table ::
        (parens sp (commas sp ((col :: cols).map (fun c => [ident c]))) ++ (kw sp .VALUES_ ::
          (row.toks sp ++ (tailToks sp (RowS.toks sp) rows ++ (conflictToks sp c ++ us))))) := by
    rw [InsertS.toks, commas_map (f := RowS.toks sp)]
    simp [InsertS.names]
  rw [e]
  have ho : ∀ us : List Token, Heads [.OPEN_PAR] (parens sp (commas sp ((col :: cols).map (fun c => [ident c]))) ++ us) :=
    fun us => Heads.kw
  refine First.nt (First.seq (l := []) (First.optOff (S := [.INSERT_]) Heads.kw ?_))
  refine First.seq (First.altL (First.tok rfl ?_))
  refine First.seq (First.tok rfl ?_)
  refine First.seq (l := []) (First.optNone ?_ ?_)
  · exact schema_no table (ho _) (by krfl)
  refine First.seq (First.exact (table_runs table) ?_)
  refine First.seq (l := []) (First.optOff (ho _) ?_)
  have hlist := First.seq (b := ((((.nt .values_clause) ∣ (.nt .select_stmt)) ⬝
      (.opt (.nt .upsert_clause))) ∣ ((.tok .DEFAULT_) ⬝ (.tok .VALUES_))) ⬝ (.opt (.nt .returning_clause)))
    (k := k) (v := v)
    (m := .node .values_clause (.leaf (kw sp .VALUES_) :: rowT sp row :: tailT sp (rowT sp) rows) :: (conflictT sp c ++ returnsT sp r))
    (First.optSome (names_first (sp := sp) col cols
      (us := kw sp .VALUES_ :: (row.toks sp ++ (tailToks sp (RowS.toks sp) rows ++ (conflictToks sp c ++ us)))) ?_))
  · rw [List.cons_append, List.append_assoc] at hlist
    exact hlist
  · refine First.seq (l := .node .values_clause (.leaf (kw sp .VALUES_) :: rowT sp row :: tailT sp (rowT sp) rows) :: conflictT sp c)
      (First.altL (First.seq (l := [.node .values_clause (.leaf (kw sp .VALUES_) :: rowT sp row :: tailT sp (rowT sp) rows)])
        (First.altL ?_)))
    refine First.nt (First.seq (First.tok rfl (First.seq (l := [rowT sp row]) (row_first row ?_))))
    exact list_first (R := []) (Fol := fun _ => True) (by simp) (fun _ => trivial)
      (fun q w x us _ _ hq => row_first x hq) rows (by simp) trivial hch.noComma (hc hr)

theorem insert_ended_visit (i : InsertS) (c : Bool) (r : Option ReturnS) : Visit.insert (insertET sp i c r) = Visit.insert (insertT sp i) := by
  obtain ⟨table, col, cols, row, rows⟩ := i
  have ha : ∀ q, q ≠ .upsert_clause → q ≠ .returning_clause →
      (insertET sp ⟨table, col, cols, row, rows⟩ c r).all q = (insertT sp ⟨table, col, cols, row, rows⟩).all q := by
    intro q h1 h2
    have hk : (insertET sp ⟨table, col, cols, row, rows⟩ c r).kids = (insertT sp ⟨table, col, cols, row, rows⟩).kids ++ (conflictT sp c ++ returnsT sp r) := by
      have hu : unlab (conflictT sp c ++ returnsT sp r) = conflictT sp c ++ returnsT sp r := by
        cases c <;> cases r <;> rfl
      have e1 : (insertET sp ⟨table, col, cols, row, rows⟩ c r) = .node .insert_stmt ((.leaf (kw sp .INSERT_) :: .leaf (kw sp .INTO_) :: nameT .table_name table ::
        .leaf (kw sp .OPEN_PAR) :: (namesT sp .column_name (col :: cols) ++ (.leaf (kw sp .CLOSE_PAR) ::
          [.node .values_clause (.leaf (kw sp .VALUES_) :: rowT sp row :: tailT sp (rowT sp) rows)]))) ++ (conflictT sp c ++ returnsT sp r)) := by
        simp [insertET, InsertS.names]
      rw [e1, Tree.kids, unlab_append, hu]
      rfl
    have hf : (conflictT sp c ++ returnsT sp r).filter (Tree.isRule q) = [] := by
      have h3 : decide (Rule.upsert_clause = q) = false := by simpa using fun h => h1 h.symm
      have h4 : decide (Rule.returning_clause = q) = false := by simpa using fun h => h2 h.symm
      cases c <;> cases r <;> simp [conflictT, returnsT, returnT, Tree.isRule] <;> simp_all
    rw [Tree.all, hk, List.filter_append, hf, List.append_nil]; rfl
  rw [Visit.insert, Visit.insert, Visit.textOf, Visit.textOf, child_eq, child_eq, child_eq, child_eq, ha _ (by decide) (by decide),
    ha _ (by decide) (by decide), ha _ (by decide) (by decide)]

theorem parse_ended (toUint : Str → Option Nat) (hg : sp.Good) {q : Str} {ts : List Token} (hl : lex q = some ts) (s : EndedS)
    (ss : List StmtS) (n : Nat) (hv : visible ts = s.toks sp ++ moreToks sp ss n) :
    parseQuery toUint q = .ok ((s.bare :: ss).map (stmtV toUint sp)) := by
  cases s with
  | delete d r =>
    refine parse_first toUint hg (toks := d.toks sp ++ r.toks sp) .DELETE_ rfl (by decide) _ ss n ?_ hl hv
    intro γ k v rest hq h hk
    refine ⟨.node .sql_stmt [deleteRT sp d r], ?_, ⟨_, rfl⟩, ?_⟩
    · rw [List.append_assoc]
      refine First.nt (First.seq (l := []) (First.optOff (S := [.DELETE_]) Heads.kw ?_))
      iterate 12 refine First.altR (No.at (t := .DELETE_) rfl) ?_
      exact First.altL (delete_return d r hq h hk)
    · have : statement toUint (.node .sql_stmt [deleteRT sp d r]) = (Visit.delete (deleteRT sp d r)).bind (fun s => .ok (some s)) := rfl
      rw [this, delete_return_visit, delete_visit]; rfl
  | update u r =>
    refine parse_first toUint hg (toks := u.toks sp ++ r.toks sp) .UPDATE_ rfl (by decide) _ ss n ?_ hl hv
    intro γ k v rest hq h hk
    refine ⟨.node .sql_stmt [updateRT sp u r], ?_, ⟨_, rfl⟩, ?_⟩
    · rw [List.append_assoc]
      refine First.nt (First.seq (l := []) (First.optOff (S := [.UPDATE_]) Heads.kw ?_))
      iterate 27 refine First.altR (No.at (t := .UPDATE_) rfl) ?_
      exact First.altL (update_return u r hq h hk)
    · have : statement toUint (.node .sql_stmt [updateRT sp u r]) = (Visit.update (updateRT sp u r)).bind (fun s => .ok (some s)) := rfl
      rw [this, update_return_visit hg, update_visit hg]; rfl
  | insert i c r =>
    refine parse_first toUint hg (toks := i.toks sp ++ (conflictToks sp c ++ (r.map (ReturnS.toks sp)).getD [])) .INSERT_ rfl (by decide) _ ss n ?_ hl hv
    intro γ k v rest hq h hk
    refine ⟨.node .sql_stmt [insertET sp i c r], ?_, ⟨_, rfl⟩, ?_⟩
    · rw [List.append_assoc, List.append_assoc]
      refine First.nt (First.seq (l := []) (First.optOff (S := [.INSERT_]) Heads.kw ?_))
      iterate 20 refine First.altR (No.at (t := .INSERT_) rfl) ?_
      exact First.altL (insert_ended i c r hq h hk)
    · have : statement toUint (.node .sql_stmt [insertET sp i c r]) = (Visit.insert (insertET sp i c r)).bind (fun s => .ok (some s)) := rfl
      rw [this, insert_ended_visit, insert_visit]; rfl

/-! ### GROUP BY and HAVING -/

/-- The tree of a column that is grouped by. -/
def groupedT (g : Str) : Tree := .lab .groupByExpr [exprT (nameT .column_name g)]

/-- The trees of a HAVING clause. -/
def havingT (sp : Spelling) : Option CondS → List Tree
  | none => []
  | some c => [.leaf (kw sp .HAVING_), .lab .havingExpr [exprT (condT sp c)]]

/-- The trees of a GROUP BY clause with more columns and a HAVING clause. -/
def groupsT (sp : Spelling) (g : Str) (gs : List Str) (h : Option CondS) : List Tree :=
  .leaf (kw sp .GROUP_) :: .leaf (kw sp .BY_) :: groupedT g :: (tailT sp groupedT gs ++ havingT sp h)

theorem grouped_first (g : Str) (h : Heads exprFollow rest) (hk : k rest = some v) :
    First (.lab .groupByExpr (.expr 0)) k ([ident g] ++ rest) [groupedT g] v := First.lab (col_expr g h hk)

theorem having_heads (c : Option CondS) (h : Heads groupFollow rest) : Heads (.HAVING_ :: groupFollow) (havingToks sp c ++ rest) := by
  cases c with
  | none => exact h.mono (by decide)
  | some c => exact Heads.kw

theorem having_first (c : Option CondS) (hS : Heads groupFollow rest) (hr : ∀ x ∈ condInner, Rejects k x)
    (hk : k rest = some v) : First (.opt ((.tok .HAVING_) ⬝ (.lab .havingExpr (.expr 0)))) k (havingToks sp c ++ rest)
      (havingT sp c) v := by
  cases c with
  | none => exact First.optOff hS hk
  | some c => exact First.optSome (First.seq (First.tok rfl (First.lab (cond_expr c (hS.mono (by decide)) hr hk))))

theorem groups_first (g : Str) (gs : List Str) (c : Option CondS) (hS : Heads groupFollow rest) (hr : ∀ x ∈ condInner, Rejects k x)
    (hk : k rest = some v) :
    First (.opt ((.tok .GROUP_) ⬝ (.tok .BY_) ⬝ (.lab .groupByExpr (.expr 0)) ⬝
      (.star ((.tok .COMMA) ⬝ (.lab .groupByExpr (.expr 0)))) ⬝ (.opt ((.tok .HAVING_) ⬝
      (.lab .havingExpr (.expr 0)))))) k
      (kw sp .GROUP_ :: kw sp .BY_ :: ([ident g] ++ (tailToks sp (fun g => [ident g]) gs ++ (havingToks sp c ++ rest)))) (groupsT sp g gs c) v := by
  have h1 := having_heads (sp := sp) c hS
  have h2 : Heads exprFollow (havingToks sp c ++ rest) := h1.mono (by decide)
  refine First.optSome (First.seq (First.tok rfl (First.seq (First.tok rfl (First.seq (l := [groupedT g]) (grouped_first g
    (heads_tail gs (by decide) h2) (First.seq ?_)))))))
  exact list_first (R := []) (Fol := Heads exprFollow) (by simp) (fun r => Heads.kw)
    (fun q w x us _ h hq => grouped_first x h hq) gs (by simp) h2 h1.noComma (having_first c hS hr hk)

/-- The core of a SELECT grouped by more columns. -/
def coreGT (sp : Spelling) (s : SelectS) (g : Str) (gs : List Str) (h : Option CondS) : Tree :=
  .node .select_core (.leaf (kw sp .SELECT_) :: itemT sp s.item ::
    (tailT sp (itemT sp) s.items ++ (fromT sp s.tables ++ (whereT sp s.cond ++ groupsT sp g gs h))))

/-- The tree of a SELECT grouped by more columns. -/
def selectGT (sp : Spelling) (s : SelectS) (g : Str) (gs : List Str) (h : Option CondS) : Tree :=
  .node .select_stmt (.lab .parentQuery [coreGT sp s g gs h] :: (ordersT sp s.orders ++ limitT sp s.limit))

theorem selectG_first (s : SelectS) (g : Str) (gs : List Str) (c : Option CondS) (hq : Quiet k) (h : Heads stmtFollow rest) (hk : k rest = some v) :
    First (.nt .select_stmt) k (s.toksGroup sp g gs c ++ rest) [selectGT sp s g gs c] v := by
  obtain ⟨item, items, tables, cond, group, orders, limit⟩ := s
  have e : SelectS.toksGroup sp ⟨item, items, tables, cond, group, orders, limit⟩ g gs c ++ rest =
      kw sp .SELECT_ :: (item.toks sp ++ (tailToks sp (ItemS.toks sp) items ++ (fromToks sp tables ++ (whereToks sp cond ++
        (kw sp .GROUP_ :: kw sp .BY_ :: ([ident g] ++ (tailToks sp (fun g => [ident g]) gs ++ (havingToks sp c ++ (ordersToks sp orders ++ (limit.toks sp ++ rest)))))))))) := by
    rw [SelectS.toksGroup, commas_map (f := ItemS.toks sp), commas_map (f := fun g => [ident g])]
    simp only [List.cons_append, List.append_assoc]
  rw [e]
  have h4 := limit_heads (sp := sp) limit h
  have h3 := orders_heads (sp := sp) orders h4
  have hgroup : First ((.opt ((.tok .GROUP_) ⬝ (.tok .BY_) ⬝ (.lab .groupByExpr (.expr 0)) ⬝
      (.star ((.tok .COMMA) ⬝ (.lab .groupByExpr (.expr 0)))) ⬝ (.opt ((.tok .HAVING_) ⬝
      (.lab .havingExpr (.expr 0)))))) ⬝ _) _ _ _ _ := First.seq (groups_first (sp := sp) g gs c h3 ?_ (First.optOff (a := (.tok .WINDOW_) ⬝ (.nt .window_name) ⬝ (.tok .AS_) ⬝
      (.nt .window_defn) ⬝ (.star ((.tok .COMMA) ⬝ (.nt .window_name) ⬝ (.tok .AS_) ⬝ (.nt .window_defn)))) h3
        (First.seq (l := []) (First.starOff (a := (.nt .compound_operator) ⬝ (.nt .select_core)) h3
    (First.seq (orders_first orders h4 (limit_first limit h hk)))))))
  rotate_left
  · intro x hx
    simp only [condInner, List.mem_cons, List.not_mem_nil, or_false] at hx
    rcases hx with rfl | rfl | rfl | rfl | rfl | rfl | rfl | rfl | rfl <;> quiet hq
  rw [List.append_nil] at hgroup
  have hG : ∀ us : List Token, Heads whereFollow (kw sp .GROUP_ :: us) := fun us => Heads.kw
  have hT : ∀ us : List Token, TableFollow (whereToks sp cond ++ (kw sp .GROUP_ :: kw sp .BY_ :: us)) := by
    intro us
    cases cond with
    | some c =>
      obtain ⟨a, r, hc⟩ := cond_head (sp := sp) c
      exact .inr ⟨kw sp .WHERE_, ident a, _, by rw [whereToks, hc]; rfl, by simp [kw], .inl (by simp [ident])⟩
    | none => exact .inr ⟨kw sp .GROUP_, kw sp .BY_, _, rfl, by simp [kw], .inl (by simp [kw])⟩
  generalize [ident g] ++ (tailToks sp (fun g => [ident g]) gs ++ (havingToks sp c ++ (ordersToks sp orders ++ (limit.toks sp ++ rest)))) = us at hgroup
  have h2 : Heads whereFollow (kw sp .GROUP_ :: kw sp .BY_ :: us) := hG _
  have h1 := where_heads (sp := sp) cond h2
  have h0 := from_heads (sp := sp) tables h1
  have hi := heads_tail (sp := sp) (f := ItemS.toks sp) items (by decide) h0
  refine First.nt (First.seq (l := []) (First.optOff (S := [.SELECT_]) Heads.kw ?_))
  refine First.seq (l := [_]) (m := ordersT sp orders ++ limitT sp limit) (First.lab (First.nt (First.altL ?_)))
  refine First.seq (First.tok rfl ?_)
  have hin : Heads (Tok.STAR :: atomStart) (item.toks sp ++ (tailToks sp (ItemS.toks sp) items ++ (fromToks sp tables ++ (whereToks sp cond ++
        (kw sp .GROUP_ :: kw sp .BY_ :: us))))) := by
    cases item with
    | star => exact Heads.kw
    | atom a => exact (atom_heads a _).mono (by decide)
    | fn f args => exact Heads.ident
  refine First.seq (l := []) (First.optOff hin ?_)
  have hopen : ∀ {γ : Type} {q : List Token → Option γ}, Rejects q .OPEN_PAR → ∀ t ∈ [Tok.OPEN_PAR], Rejects q t := by
    intro γ q hq t ht
    rw [List.mem_singleton] at ht
    rw [ht]; exact hq
  refine First.seq (item_first item (hopen (by quiet hq)) hi ?_)
  refine First.seq (list_first (R := [.OPEN_PAR]) (Fol := Heads exprFollow) (by decide) (fun r => Heads.kw)
      (fun q w x us hr h hq => item_first x hr h hq) items (hopen (by quiet hq)) h0 ?_ ?_)
  · cases tables with
    | nil => exact h1.noComma
    | cons => exact Heads.noComma (S := [.FROM_]) Heads.kw
  refine First.seq (from_first tables ?_ (hT us) h1 ?_)
  · intro x hx
    simp only [List.mem_cons, List.not_mem_nil, or_false] at hx
    rcases hx with rfl | rfl | rfl | rfl | rfl <;> quiet hq
  refine First.seq (where_first cond h2 ?_ ?_)
  · intro x hx
    simp only [condInner, List.mem_cons, List.not_mem_nil, or_false] at hx
    rcases hx with rfl | rfl | rfl | rfl | rfl | rfl | rfl | rfl | rfl <;> quiet hq
  exact hgroup

theorem unlab_groups (gs : List Str) : unlab (tailT sp groupedT gs) = tailT sp (fun g => exprT (nameT .column_name g)) gs := by
  induction gs with
  | nil => rfl
  | cons g gs ih =>
    have e : ∀ {α : Type} (T : α → Tree) (x : α) xs, tailT sp T (x :: xs) = .leaf (kw sp .COMMA) :: T x :: tailT sp T xs := fun _ _ _ => rfl
    rw [e, e, ← ih]; rfl

theorem groups_off {r : Rule} (hr : r ≠ .expr) (g : Str) (gs : List Str) (h : Option CondS) : (unlab (groupsT sp g gs h)).filter (Tree.isRule r) = [] := by
  have hd : decide (Rule.expr = r) = false := by simpa using fun h => hr h.symm
  have e : unlab (groupsT sp g gs h) = .leaf (kw sp .GROUP_) :: .leaf (kw sp .BY_) :: exprT (nameT .column_name g) ::
      (tailT sp (fun g => exprT (nameT .column_name g)) gs ++ unlab (havingT sp h)) := by
    have : unlab (groupsT sp g gs h) = .leaf (kw sp .GROUP_) :: .leaf (kw sp .BY_) :: exprT (nameT .column_name g) ::
      unlab (tailT sp groupedT gs ++ havingT sp h) := rfl
    rw [this, unlab_append, unlab_groups]
  rw [e]
  have h1 : (unlab (havingT sp h)).filter (Tree.isRule r) = [] := by
    cases h with
    | none => rfl
    | some c => simp [havingT, unlab, exprT, Tree.isRule, hd]
  have h2 : (tailT sp (fun g => exprT (nameT .column_name g)) gs).filter (Tree.isRule r) = [] := by
    rw [List.filter_eq_nil_iff]
    intro x hx
    obtain ⟨g, -, hm⟩ := List.mem_flatMap.mp hx
    simp only [List.mem_cons, List.not_mem_nil, or_false] at hm
    rcases hm with rfl | rfl
    · simp [Tree.isRule]
    · simp [exprT, Tree.isRule, hd]
  have h3 : Tree.isRule r (exprT (nameT .column_name g)) = false := by simp [exprT, Tree.isRule, hd]
  have h4 : ∀ t, Tree.isRule r (.leaf t) = false := fun t => rfl
  simp only [List.filter_cons, List.filter_append, h1, h2, h3, h4]
  rfl

theorem groups_where (g : Str) (gs : List Str) (h : Option CondS) : labelled .whereExpr (groupsT sp g gs h) = [] := by
  have e : labelled .whereExpr (groupsT sp g gs h) = labelled .whereExpr (tailT sp groupedT gs ++ havingT sp h) := rfl
  rw [e, labelled_append]
  have h1 : labelled .whereExpr (havingT sp h) = [] := by cases h <;> rfl
  rw [h1, List.append_nil]
  clear e h1
  induction gs with
  | nil => rfl
  | cons g gs ih => exact ih

theorem coreG_kids (s : SelectS) (g : Str) (gs : List Str) (h : Option CondS) : (coreGT sp s g gs h).kids = .leaf (kw sp .SELECT_) :: itemT sp s.item ::
    (tailT sp (itemT sp) s.items ++ (fromT sp s.tables ++ (unlab (whereT sp s.cond) ++ unlab (groupsT sp g gs h)))) := by
  obtain ⟨cs, hc⟩ := isNode_item (sp := sp) s.item
  simp [coreGT, Tree.kids, unlab, hc, unlab_append, unlab_tail (isNode_item (sp := sp)), unlab_from]

theorem coreG_items (s : SelectS) (g : Str) (gs : List Str) (h : Option CondS) : (coreGT sp s g gs h).all .result_column = (s.item :: s.items).map (itemT sp) := by
  obtain ⟨cs, hc⟩ := isNode_item (sp := sp) s.item
  have hw : (unlab (whereT sp s.cond)).filter (Tree.isRule .result_column) = [] := by cases s.cond <;> rfl
  rw [Tree.all, coreG_kids]
  simp [Tree.isRule, hc, List.filter_append, rules_tail (isNode_item (sp := sp)), hw, groups_off (sp := sp) (r := .result_column) (by decide), from_rules_off]

theorem coreG_tables (s : SelectS) (g : Str) (gs : List Str) (h : Option CondS) : (coreGT sp s g gs h).all .«from» = s.tables.map (tableT sp) := by
  obtain ⟨cs, hc⟩ := isNode_item (sp := sp) s.item
  have hw : (unlab (whereT sp s.cond)).filter (Tree.isRule .«from») = [] := by cases s.cond <;> rfl
  rw [Tree.all, coreG_kids]
  simp [Tree.isRule, hc, List.filter_append, rules_tail_off (isNode_item (sp := sp)) (q := .«from»), hw, groups_off (sp := sp) (r := .«from») (by decide),
    from_rules]

theorem coreG_labels (l : Lab) (s : SelectS) (g : Str) (gs : List Str) (h : Option CondS) : (coreGT sp s g gs h).labels l =
    labelled l (whereT sp s.cond) ++ labelled l (groupsT sp g gs h) := by
  obtain ⟨cs, hc⟩ := isNode_item (sp := sp) s.item
  simp [coreGT, Tree.labels, labelled, hc, labelled_append, labelled_tail (isNode_item (sp := sp)), labelled_from]

theorem selectG_child (r : Rule) (hr : r ≠ .select_core) (s : SelectS) (g : Str) (gs : List Str) (h : Option CondS) :
    (selectGT sp s g gs h).child r = (selectT sp s).child r := by
  have ho : unlab (ordersT sp s.orders) = ordersT sp s.orders := by cases s.orders <;> rfl
  have hl : unlab (limitT sp s.limit) = limitT sp s.limit := by cases s.limit <;> rfl
  have h1 : (selectGT sp s g gs h).kids = coreGT sp s g gs h :: (ordersT sp s.orders ++ limitT sp s.limit) := by
    rw [selectGT, Tree.kids, unlab, unlab_append, ho, hl]; rfl
  have h2 : decide (Rule.select_core = r) = false := by simpa using fun h => hr h.symm
  rw [Tree.child, Tree.child, h1, select_kids, coreT, coreGT, List.find?_cons, List.find?_cons]
  simp only [Tree.isRule, h2]

theorem selectG_visit (toUint : Str → Option Nat) (hg : sp.Good) (s : SelectS) (g : Str) (gs : List Str) (h : Option CondS) :
    Visit.select toUint (selectGT sp s g gs h) = .ok (.select (selectV toUint sp { s with group := some g })) := by
  have h1 : (selectGT sp s g gs h).label .parentQuery = some (coreGT sp s g gs h) := rfl
  have h2 : whereOf (coreGT sp s g gs h) = .ok (s.cond.map (condV sp)) := by
    apply whereOf_where
    rw [coreG_labels, groups_where]
    cases s.cond <;> rfl
  have h3 : groupOf (coreGT sp s g gs h) = g := by
    rw [groupOf, coreG_labels]
    have : labelled .groupByExpr (whereT sp s.cond) = [] := by cases s.cond <;> rfl
    rw [this]
    show (exprT (nameT .column_name g)).text = g
    simp [exprT, Tree.text, textAll, text_name]
  have h4 : (s.tables.map (tableT sp)).filterMap fromTable = s.tables.map (tabV sp) := by
    rw [List.filterMap_map]
    induction s.tables with
    | nil => rfl
    | cons t ts ih => simp [Function.comp_def, fromTable_table]
  have h5 : ordersOf (selectGT sp s g gs h) = ordersOf (selectT sp s) := by
    rw [ordersOf, ordersOf, selectG_child _ (by decide)]
  have h6 : limitOf toUint (selectGT sp s g gs h) = limitOf toUint (selectT sp s) := by
    rw [limitOf, limitOf, selectG_child _ (by decide)]
  rw [Visit.select, h1]
  simp only [coreG_items, resAll_map (selector_item (sp := sp)), Res.bind, h2, h5, h6, ordersOf_select hg, coreG_tables, h4, h3,
    limitOf_select]
  rfl

theorem parse_grouped (toUint : Str → Option Nat) (hg : sp.Good) {q : Str} {ts : List Token} (hl : lex q = some ts) (s : SelectS)
    (g : Str) (gs : List Str) (c : Option CondS) (ss : List StmtS) (n : Nat) (hv : visible ts = s.toksGroup sp g gs c ++ moreToks sp ss n) :
    parseQuery toUint q = .ok ((.select { s with group := some g } :: ss).map (stmtV toUint sp)) := by
  refine parse_first toUint hg (toks := s.toksGroup sp g gs c) .SELECT_ rfl (by decide) _ ss n ?_ hl hv
  intro γ k v rest hq h hk
  refine ⟨.node .sql_stmt [selectGT sp s g gs c], ?_, ⟨_, rfl⟩, ?_⟩
  · refine First.nt (First.seq (l := []) (First.optOff (S := [.SELECT_]) Heads.kw ?_))
    iterate 26 refine First.altR (No.at (t := .SELECT_) rfl) ?_
    exact First.altL (selectG_first s g gs c hq h hk)
  · have : statement toUint (.node .sql_stmt [selectGT sp s g gs c]) = (Visit.select toUint (selectGT sp s g gs c)).bind (fun s => .ok (some s)) := rfl
    rw [this, selectG_visit toUint hg]; rfl

end Verif.Gram
