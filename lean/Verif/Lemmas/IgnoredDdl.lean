import Verif.Lemmas.Ignored
import Verif.Spec.IgnoredDdl
/-! Statements other than SELECT, INSERT, UPDATE and DELETE with parts that the visitor does not look at. -/
namespace Verif.Gram
open Verif Verif.Lex Verif.Spec Verif.Visit Verif.Query

variable {β : Type} {k : List Token → Option β} {v : β} {sp : Spelling} {rest : List Token}

/-- The trees of a keyword that may be missing. -/
def flagT (sp : Spelling) (t : Tok) (b : Bool) : List Tree := if b then [.leaf (kw sp t)] else []

/-- The trees of a schema name. -/
def dotT (sp : Spelling) : Option Str → List Tree
  | none => []
  | some s => [nameT .schema_name s, .leaf (kw sp .DOT)]

/-- The trees of the word for a temporary table. -/
def tempT (sp : Spelling) : Option Bool → List Tree
  | none => []
  | some b => [.leaf (kw sp (if b then .TEMP_ else .TEMPORARY_))]

/-- The trees of a WHERE clause without a label. -/
def plainWhereT (sp : Spelling) : Option CondS → List Tree
  | none => []
  | some c => [.leaf (kw sp .WHERE_), exprT (condT sp c)]

theorem flag_first {t : Tok} (b : Bool) {S : List Tok} {us : List Token} (h : Heads S us) (hs : S.all (fun x => !startsWith (.tok t) x) = true := by krfl)
    (hk : k us = some v) : First (.opt (.tok t)) k (flagToks sp t b ++ us) (flagT sp t b) v := by
  cases b with
  | false => exact First.optOff h hk hs
  | true => exact First.optSome (First.tok rfl hk)

theorem dot_first (s : Option Str) (n : Str) {S : List Tok} {us : List Token} (h : Heads S us)
    (hs : S.all (fun t => !startsWith (.tok .DOT) t) = true) (hk : k (ident n :: us) = some v) :
    First (.opt ((.nt .schema_name) ⬝ (.tok .DOT))) k (dotToks sp s ++ ident n :: us) (dotT sp s) v := by
  cases s with
  | none => exact First.optNone (schema_no n h hs) hk
  | some s =>
    exact First.optSome (First.seq (l := [nameT .schema_name s]) (First.exact (us := kw sp .DOT :: ident n :: us) (by krfl) (First.tok rfl hk)))

theorem dot_heads (s : Option Str) (n : Str) (us : List Token) : Heads [.IDENTIFIER] (dotToks sp s ++ ident n :: us) := by
  cases s <;> exact Heads.ident

theorem plainWhere_first (c : Option CondS) (hq : Quiet k) (h : Heads stmtFollow rest) (hk : k rest = some v) :
    First (.opt ((.tok .WHERE_) ⬝ (.expr 0))) k (whereToks sp c ++ rest) (plainWhereT sp c) v := by
  cases c with
  | none => exact First.optOff h hk
  | some c =>
    refine First.optSome (First.seq (First.tok rfl (cond_expr c (h.mono (by decide)) ?_ hk)))
    intro x hx
    refine hq x ?_
    have : condInner.all (fun t => !stmtStart t) = true := by krfl
    simpa using List.all_eq_true.mp this x hx

/-! ### CREATE INDEX -/

/-- The tree of CREATE INDEX with all its parts. -/
def looseIndexT (sp : Spelling) (u b : Bool) (s : Option Str) (n t c : Str) (cs : List Str) (w : Option CondS) : Tree :=
  .node .create_index_stmt (.leaf (kw sp .CREATE_) :: (flagT sp .UNIQUE_ u ++ .leaf (kw sp .INDEX_) :: (ineT sp b ++ (dotT sp s ++
    nameT .index_name n :: .leaf (kw sp .ON_) :: nameT .table_name t :: (ixNamesT sp c cs ++ plainWhereT sp w)))))

theorem loose_index_first (u b : Bool) (s : Option Str) (n t c : Str) (cs : List Str) (w : Option CondS) (hq : Quiet k)
    (h : Heads stmtFollow rest) (hk : k rest = some v) :
    First (.nt .create_index_stmt) k ((LooseS.createIndex u b s n t c cs w).toks sp ++ rest) [looseIndexT sp u b s n t c cs w] v := by
  have e : (LooseS.createIndex u b s n t c cs w).toks sp ++ rest = kw sp .CREATE_ :: (flagToks sp .UNIQUE_ u ++ kw sp .INDEX_ :: (ineToks sp b ++
      (dotToks sp s ++ ident n :: kw sp .ON_ :: ident t :: kw sp .OPEN_PAR :: ([ident c] ++ (tailToks sp (fun c => [ident c]) cs ++ kw sp .CLOSE_PAR ::
        (whereToks sp w ++ rest)))))) := by
    simp only [LooseS.toks, List.cons_append, List.append_assoc, names_toks]; rfl
  have e2 : (ixNamesT sp c cs ++ plainWhereT sp w) = .leaf (kw sp .OPEN_PAR) :: ([ixColT c] ++ (tailT sp ixColT cs ++ (.leaf (kw sp .CLOSE_PAR) :: plainWhereT sp w))) := by
    simp [ixNamesT]
  rw [e, looseIndexT, e2]
  refine First.nt (First.seq (First.tok rfl (First.seq (flag_first u (S := [.INDEX_]) Heads.kw (hk := ?_)))))
  refine First.seq (First.tok rfl (First.seq (ine_first b (dot_heads s n _) ?_)))
  refine First.seq (dot_first s n (S := [.ON_]) Heads.kw (by krfl) ?_)
  refine First.seq (l := [nameT .index_name n]) (First.exact (us := kw sp .ON_ :: ident t :: kw sp .OPEN_PAR :: ([ident c] ++ (tailToks sp (fun c => [ident c]) cs ++ kw sp .CLOSE_PAR :: (whereToks sp w ++ rest)))) (by krfl) ?_)
  refine First.seq (First.tok rfl (First.seq (l := [nameT .table_name t]) (First.exact (table_runs t) ?_)))
  refine First.seq (First.tok rfl (First.seq (ixCol_first c (heads_names cs) ?_)))
  refine First.seq (ixCols_first cs ?_)
  exact First.seq (l := [.leaf (kw sp .CLOSE_PAR)]) (First.tok rfl (plainWhere_first w hq h hk))

/-- The parts that are not looked at. -/
theorem flag_rules (r : Rule) (t : Tok) (b : Bool) : (unlab (flagT sp t b)).filter (Tree.isRule r) = [] := by cases b <;> rfl
theorem temp_rules (r : Rule) (b : Option Bool) : (unlab (tempT sp b)).filter (Tree.isRule r) = [] := by cases b <;> rfl
theorem dot_rules (r : Rule) (h : r ≠ .schema_name) (s : Option Str) : (unlab (dotT sp s)).filter (Tree.isRule r) = [] := by
  cases s <;> simp [dotT, unlab, nameT, Tree.isRule, Ne.symm h]
theorem plainWhere_rules (r : Rule) (h : r ≠ .expr) (c : Option CondS) : (unlab (plainWhereT sp c)).filter (Tree.isRule r) = [] := by
  cases c <;> simp [plainWhereT, unlab, exprT, Tree.isRule, Ne.symm h]

theorem loose_index_visit (u b : Bool) (s : Option Str) (n t c : Str) (cs : List Str) (w : Option CondS) :
    Visit.createIndex (looseIndexT sp u b s n t c cs w) = Visit.createIndex (createIndexT sp b n t c cs) := by
  have ha (r : Rule) (h1 : r ≠ .schema_name) (h2 : r ≠ .expr) : (looseIndexT sp u b s n t c cs w).all r = (createIndexT sp b n t c cs).all r := by
    simp [Tree.all, looseIndexT, createIndexT, Tree.kids, unlab, unlab_append, nameT, List.filter_append, flag_rules, dot_rules r h1, plainWhere_rules r h2,
      List.filter_cons, Tree.isRule]
  have hc (r : Rule) (h1 : r ≠ .schema_name) (h2 : r ≠ .expr) : (looseIndexT sp u b s n t c cs w).child r = (createIndexT sp b n t c cs).child r := by
    rw [child_eq, child_eq, ha r h1 h2]
  rw [Visit.createIndex, Visit.createIndex, indexSchema, indexSchema, Visit.textOf, Visit.textOf, Visit.textOf, Visit.textOf,
    hc _ (by decide) (by decide), hc _ (by decide) (by decide), hc _ (by decide) (by decide), ha _ (by decide) (by decide)]

/-! ### CREATE TABLE -/

/-- The tree of CREATE TABLE with all its parts. -/
def looseTableT (sp : Spelling) (w : Option Bool) (b : Bool) (s : Option Str) (t : TableS) : Tree :=
  .node .create_table_stmt (.leaf (kw sp .CREATE_) :: (tempT sp w ++ .leaf (kw sp .TABLE_) :: (ineT sp b ++ (dotT sp s ++ nameT .table_name t.name ::
    .leaf (kw sp .OPEN_PAR) :: colT sp t.col :: (tailT sp (partT sp) (partsOf t) ++ (tailT sp (keyT sp) t.keys ++ [.leaf (kw sp .CLOSE_PAR)]))))))

theorem temp_first (w : Option Bool) {S : List Tok} {us : List Token} (h : Heads S us)
    (hs : S.all (fun x => !startsWith ((.tok .TEMP_) ∣ (.tok .TEMPORARY_)) x) = true := by krfl)
    (hk : k us = some v) : First (.opt ((.tok .TEMP_) ∣ (.tok .TEMPORARY_))) k (tempToks sp w ++ us) (tempT sp w) v := by
  cases w with
  | none => exact First.optOff h hk hs
  | some b =>
    cases b with
    | true => exact First.optSome (First.altL (First.tok rfl hk))
    | false => exact First.optSome (First.altR (No.at (t := .TEMPORARY_) rfl) (First.tok rfl hk))

theorem loose_table_first (w : Option Bool) (b : Bool) (s : Option Str) (t : TableS) (h : Heads stmtFollow rest) (hk : k rest = some v) :
    First (.nt .create_table_stmt) k ((LooseS.createTable w b s t).toks sp ++ rest) [looseTableT sp w b s t] v := by
  have e : (LooseS.createTable w b s t).toks sp ++ rest = kw sp .CREATE_ :: (tempToks sp w ++ kw sp .TABLE_ :: (ineToks sp b ++ (dotToks sp s ++
      ident t.name :: kw sp .OPEN_PAR :: (t.col.toks sp ++ (tailToks sp (PartS.toks sp) (partsOf t) ++
        (tailToks sp (KeyS.toks sp) t.keys ++ kw sp .CLOSE_PAR :: rest)))))) := by
    simp only [LooseS.toks, List.cons_append, List.append_assoc, table_toks]
  rw [e]
  have hc : Heads colFollow (tailToks sp (KeyS.toks sp) t.keys ++ kw sp .CLOSE_PAR :: rest) := heads_tail _ (by decide) Heads.kw
  refine First.nt (First.seq (First.tok rfl (First.seq (temp_first w (S := [.TABLE_]) Heads.kw (hk := ?_)))))
  refine First.seq (First.tok rfl (First.seq (ine_first b (dot_heads s _ _) ?_)))
  refine First.seq (dot_first s t.name (S := [.OPEN_PAR]) Heads.kw (by krfl) ?_)
  refine First.seq (l := [nameT .table_name t.name]) (First.exact (table_runs t.name) (First.altL ?_))
  refine First.seq (First.tok rfl ?_)
  refine First.seq (l := [colT sp t.col]) (col_first t.col (heads_tail _ (by decide) hc) ?_)
  refine First.seq (nlist_first (R := [.OPEN_PAR]) (Fol := Heads colFollow) (by decide) (fun _ => Heads.kw)
    (fun _ _ x _ hr h hq => part_first x hr h hq) (partsOf t) ?_ hc ?_ ?_ ?_)
  · intro x hx
    rw [List.mem_singleton] at hx
    subst hx
    exact fun y r hy => No.at hy
  · intro x r
    refine No.seq (No.star (No.seq (No.tok rfl ?_)) (No.at (t := .COMMA) rfl))
    cases x with
    | col c => exact No.at (t := .IDENTIFIER) rfl
    | idx i => exact No.at (t := .INDEX_) rfl
  · refine First.seq (list_first (R := []) (Fol := Heads [.COMMA, .CLOSE_PAR]) (by simp) (fun _ => Heads.kw)
      (fun _ _ x _ _ h hq => key_first x h hq) t.keys (by simp) Heads.kw (Heads.noComma (S := [.CLOSE_PAR]) Heads.kw) ?_)
    exact First.seq (l := [.leaf (kw sp .CLOSE_PAR)]) (m := []) (First.tok rfl (First.optOff h hk))
  · intro t ht
    have : ∀ t : Tok, (decide (t = .COMMA) || !startsWith (.nstar (.tok .COMMA ⬝ .nt .column_def)) t) = true := by
      intro t; cases t <;> krfl
    have := this t
    simpa [ht] using this

theorem loose_table_visit (w : Option Bool) (b : Bool) (s : Option Str) (t : TableS) :
    Visit.createTable (looseTableT sp w b s t) = Visit.createTable (createTableT sp b t) := by
  have ha (r : Rule) (h1 : r ≠ .schema_name) : (looseTableT sp w b s t).all r = (createTableT sp b t).all r := by
    simp [Tree.all, looseTableT, createTableT, Tree.kids, unlab, unlab_append, nameT, List.filter_append, temp_rules, dot_rules r h1,
      List.filter_cons, Tree.isRule]
  have hc (r : Rule) (h1 : r ≠ .schema_name) : (looseTableT sp w b s t).child r = (createTableT sp b t).child r := by
    rw [child_eq, child_eq, ha r h1]
  rw [Visit.createTable, Visit.createTable, tableSchema, tableSchema, tableKeys, tableKeys, Visit.textOf, Visit.textOf,
    hc _ (by decide), hc _ (by decide), ha _ (by decide), ha _ (by decide)]

/-! ### DROP TABLE -/

/-- The tree of DROP TABLE with all its parts. -/
def looseDropT (sp : Spelling) (b : Bool) (s : Option Str) (t : Str) (ts : List Str) (w : Bool) : Tree :=
  .node .drop_table_stmt (.leaf (kw sp .DROP_) :: .leaf (kw sp .TABLE_) :: (ieT sp b ++ (dotT sp s ++ (tablesT sp t ts ++ flagT sp .CASCADE_ w))))

theorem loose_drop_first (b : Bool) (s : Option Str) (t : Str) (ts : List Str) (w : Bool) (h : Heads stmtFollow rest) (hk : k rest = some v) :
    First (.nt .drop_table_stmt) k ((LooseS.dropTable b s t ts w).toks sp ++ rest) [looseDropT sp b s t ts w] v := by
  have e : (LooseS.dropTable b s t ts w).toks sp ++ rest = kw sp .DROP_ :: kw sp .TABLE_ :: (ieToks sp b ++ (dotToks sp s ++ ident t ::
      (tailToks sp (fun c => [ident c]) ts ++ (flagToks sp .CASCADE_ w ++ rest)))) := by
    rw [LooseS.toks, commas_map]; simp
  rw [e]
  have hw : Heads [.CASCADE_, .SCOL] (flagToks sp .CASCADE_ w ++ rest) := by
    cases w
    · exact h.mono (by decide)
    · exact Heads.kw
  have hh : Heads [.COMMA, .CASCADE_, .SCOL] (tailToks sp (fun c => [ident c]) ts ++ (flagToks sp .CASCADE_ w ++ rest)) :=
    heads_tail ts (by decide) (hw.mono (by decide))
  refine First.nt (First.seq (First.tok rfl (First.seq (First.tok rfl (First.seq (ie_first b (dot_heads s t _) ?_))))))
  refine First.seq (dot_first s t hh (by krfl) ?_)
  exact First.seq (l := tablesT sp t ts) (First.seq (l := [nameT .table_name t]) (First.exact (table_runs t)
    (tables_first (sp := sp) ts (hw.noComma) (flag_first w h (hk := hk)))))

theorem loose_drop_visit (b : Bool) (s : Option Str) (t : Str) (ts : List Str) (w : Bool) :
    Visit.dropTable (looseDropT sp b s t ts w) = Visit.dropTable (dropTableT sp b t ts) := by
  have ha (r : Rule) (h1 : r ≠ .schema_name) : (looseDropT sp b s t ts w).all r = (dropTableT sp b t ts).all r := by
    simp [Tree.all, looseDropT, dropTableT, Tree.kids, unlab, unlab_append, List.filter_append, flag_rules, dot_rules r h1,
      List.filter_cons, Tree.isRule]
  rw [Visit.dropTable, Visit.dropTable, child_eq, child_eq, ha _ (by decide), ha _ (by decide)]

/-! ### Queries -/

/-- The trees of a name that may be missing. -/
def optNameT (r : Rule) : Option Str → List Tree
  | none => []
  | some n => [nameT r n]

/-- The trees of these statements. -/
def looseT (sp : Spelling) : LooseS → Tree
  | .createIndex u b s n t c cs w => looseIndexT sp u b s n t c cs w
  | .createTable w b s t => looseTableT sp w b s t
  | .dropTable b s t ts w => looseDropT sp b s t ts w
  | .alterDatabase s n m => .node .alter_database_stmt [.leaf (kw sp .ALTER_), .leaf (kw sp .DATABASE_), nameT .schema_name s, .leaf (kw sp .DOT),
      nameT .database_name n, .node .rename_database_to [.leaf (kw sp .RENAME_), .leaf (kw sp .TO_), .lab .new_database_name [nameT .database_name m]]]
  | .begin w none => .node .begin_stmt (.leaf (kw sp .BEGIN_) :: (w.map (fun w => Tree.leaf (kw sp w.tok))).toList)
  | .begin w (some n) => .node .begin_stmt (.leaf (kw sp .BEGIN_) :: ((w.map (fun w => Tree.leaf (kw sp w.tok))).toList ++
      .leaf (kw sp .TRANSACTION_) :: optNameT .transaction_name n))
  | .commit e b => .node .commit_stmt (.leaf (kw sp (if e then .END_ else .COMMIT_)) :: flagT sp .TRANSACTION_ b)
  | .rollback b none => .node .rollback_stmt (.leaf (kw sp .ROLLBACK_) :: flagT sp .TRANSACTION_ b)
  | .rollback b (some (w, n)) => .node .rollback_stmt (.leaf (kw sp .ROLLBACK_) :: (flagT sp .TRANSACTION_ b ++ .leaf (kw sp .TO_) ::
      (flagT sp .SAVEPOINT_ w ++ [nameT .savepoint_name n])))
  | .vacuum b t none => .node .vacuum_stmt (.leaf (kw sp .VACUUM_) :: (flagT sp .ANALYZE_ b ++ optNameT .schema_name t))
  | .vacuum b t (some f) => .node .vacuum_stmt (.leaf (kw sp .VACUUM_) :: (flagT sp .ANALYZE_ b ++ (optNameT .schema_name t ++
      [.leaf (kw sp .INTO_), nameT .filename f])))

theorem loose_first (d : LooseS) (hq : Quiet k) (h : Heads stmtFollow rest) (hk : k rest = some v) :
    First (.nt .sql_stmt) k (d.toks sp ++ rest) [.node .sql_stmt [looseT sp d]] v := by
  cases d with
  | createIndex u b s n t c cs w =>
    refine First.nt (First.seq (l := []) (First.optOff (S := [.CREATE_]) Heads.kw ?_))
    iterate 6 refine First.altR (No.at (t := .CREATE_) rfl) ?_
    refine First.altR (by cases u <;> exact No.empty) ?_
    exact First.altL (loose_index_first u b s n t c cs w hq h hk)
  | createTable w b s t =>
    refine First.nt (First.seq (l := []) (First.optOff (S := [.CREATE_]) Heads.kw ?_))
    iterate 6 refine First.altR (No.at (t := .CREATE_) rfl) ?_
    refine First.altR (by rcases w with _ | _ | _ <;> exact No.empty) ?_
    refine First.altR (by rcases w with _ | _ | _ <;> exact No.empty) ?_
    exact First.altL (loose_table_first w b s t h hk)
  | dropTable b s t ts w =>
    refine First.nt (First.seq (l := []) (First.optOff (S := [.DROP_]) Heads.kw ?_))
    iterate 15 refine First.altR (No.at (t := .DROP_) rfl) ?_
    iterate 2 refine First.altR No.empty ?_
    exact First.altL (loose_drop_first b s t ts w h hk)
  | alterDatabase s n m => exact First.fixed h hk
  | begin w tx => rcases w with _ | _ | _ | _ <;> rcases tx with _ | _ | _ <;> exact First.fixed h hk
  | commit e b => cases e <;> cases b <;> exact First.fixed h hk
  | rollback b w => rcases b with _ | _ <;> rcases w with _ | ⟨_ | _, _⟩ <;> exact First.fixed h hk
  | vacuum b t f =>
    cases f with
    | none => cases b <;> cases t <;> exact First.fixed h hk
    | some f =>
      cases t with
      | some t => cases b <;> exact First.fixed h hk
      | none =>
        have e : (LooseS.vacuum b none (some f)).toks sp ++ rest = kw sp .VACUUM_ :: (flagToks sp .ANALYZE_ b ++ kw sp .INTO_ :: ident f :: rest) := by
          cases b <;> rfl
        rw [e]
        refine First.nt (First.seq (l := []) (First.optOff (S := [.VACUUM_]) Heads.kw ?_))
        iterate 30 refine First.altR (No.at (t := .VACUUM_) rfl) ?_
        refine First.altL (First.nt (First.seq (First.tok rfl (First.seq (flag_first b (S := [.INTO_]) Heads.kw (hk := ?_))))))
        refine First.seq (l := []) (First.optNone ?_ (First.optSome (First.seq (First.tok rfl (First.exact (us := rest) (by krfl) hk)))))
        exact No.exact (l := [.node .schema_name [.node .any_name [.node .keyword [.leaf (kw sp .INTO_)]]]]) (us := ident f :: rest) (by krfl)
          ((Rejects.best (hq .IDENTIFIER (by krfl))) _ _ rfl)

theorem loose_visit (toUint : Str → Option Nat) (d : LooseS) :
    statement toUint (.node .sql_stmt [looseT sp d]) = statement toUint (.node .sql_stmt [ddlT sp d.bare]) := by
  cases d with
  | createIndex u b s n t c cs w =>
    show (Visit.createIndex (looseIndexT sp u b s n t c cs w)).bind _ = (Visit.createIndex (createIndexT sp b n t c cs)).bind _
    rw [loose_index_visit]
  | createTable w b s t =>
    show (Visit.createTable (looseTableT sp w b s t)).bind _ = (Visit.createTable (createTableT sp b t)).bind _
    rw [loose_table_visit]
  | dropTable b s t ts w =>
    have h1 : statement toUint (.node .sql_stmt [looseDropT sp b s t ts w]) = (Visit.dropTable (looseDropT sp b s t ts w)).bind (fun s => .ok (some s)) := rfl
    have h2 : statement toUint (.node .sql_stmt [dropTableT sp b t ts]) = (Visit.dropTable (dropTableT sp b t ts)).bind (fun s => .ok (some s)) := rfl
    rw [looseT, LooseS.bare, ddlT, h1, h2, loose_drop_visit]
  | alterDatabase s n m => rfl
  | begin w tx => cases tx <;> rfl
  | commit e b => rfl
  | rollback b w => rcases w with _ | ⟨_, _⟩ <;> rfl
  | vacuum b t f => cases b <;> cases t <;> cases f <;> rfl

theorem loose_head (d : LooseS) : ∃ t r, d.toks sp = kw sp t :: r ∧ t ∈ Tok.EXPLAIN_ :: .REPLACE_ :: .END_ :: startToks := by
  cases d with
  | begin w tx => cases tx <;> exact ⟨_, _, rfl, by decide⟩
  | commit e b => cases e <;> exact ⟨_, _, rfl, by decide⟩
  | rollback b w => rcases w with _ | ⟨_, _⟩ <;> exact ⟨_, _, rfl, by decide⟩
  | vacuum b t f => cases f <;> exact ⟨_, _, rfl, by decide⟩
  | _ => exact ⟨_, _, rfl, by decide⟩

theorem parse_loose (toUint : Str → Option Nat) (hg : sp.Good) {q : Str} {ts : List Token} (hl : lex q = some ts) (d : LooseS)
    (ss : List StmtS) (n : Nat) (hv : visible ts = d.toks sp ++ moreToks sp ss n) :
    Parse.parseQuery toUint q = .ok (ddlV d.bare :: ss.map (stmtV toUint sp)) := by
  obtain ⟨t, r, ht, hb⟩ := loose_head (sp := sp) d
  refine parse_first toUint hg t ht hb _ ss n ?_ hl hv
  intro γ k v rest hq h hk
  refine ⟨_, loose_first d hq h hk, ⟨_, rfl⟩, ?_⟩
  rw [loose_visit]
  refine ddl_visit toUint hg _ ?_
  cases d with
  | createTable w b s tb =>
    refine plain_of_lex (sp := sp) hl (.ddl (.createTable b tb)) (fun x hx => ?_)
    have hm : x ∈ visible ts := by
      rw [hv]
      refine List.mem_append_left _ ?_
      simp only [StmtS.toks, DdlS.toks, LooseS.toks, List.mem_cons, List.mem_append] at hx ⊢
      grind
    exact (List.mem_filter.mp hm).1
  | _ => trivial

end Verif.Gram
