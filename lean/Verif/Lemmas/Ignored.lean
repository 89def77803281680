import Verif.Lemmas.LostCond
import Verif.Spec.Ignored
/-! Statements with words that the visitor does not look at. -/
namespace Verif.Gram
open Verif Verif.Lex Verif.Spec Verif.Visit Verif.Query

variable {β : Type} {k : List Token → Option β} {v : β} {sp : Spelling} {rest : List Token}

/-! ### The parts of a preferred parse -/

theorem First.nt_inv {r : Rule} {ts : List Token} {l : List Tree} (h : First (.nt r) k ts l v) : ∃ m, l = [.node r m] ∧ First (body r) k ts m v := by
  rw [First, best_nt] at h
  cases hb : best (body r) k ts with
  | none => rw [hb] at h; cases h
  | some x =>
    rw [hb] at h
    simp only [Option.map_some, Option.some.injEq, Prod.mk.injEq] at h
    exact ⟨x.1, h.1.symm, by rw [First, hb, ← h.2]⟩

theorem First.seq_inv {a b : Elem} {ts : List Token} {l : List Tree} (h : First (a ⬝ b) k ts l v) (hp : Proper (a ⬝ b) := by proper) :
    ∃ l1 l2, First a (best b k) ts l1 (l2, v) ∧ l = l1 ++ l2 := by
  rw [First, best_seq hp] at h
  cases hb : best a (best b k) ts with
  | none => rw [hb] at h; cases h
  | some x =>
    rw [hb] at h
    simp only [Option.map_some, Option.some.injEq, Prod.mk.injEq] at h
    exact ⟨x.1, x.2.1, by rw [First, hb, ← h.2], h.1.symm⟩

theorem First.lab_inv {q : Lab} {a : Elem} {ts : List Token} {l : List Tree} (h : First (.lab q a) k ts l v) (hp : Proper (.lab q a) := by proper) :
    ∃ m, l = [.lab q m] ∧ First a k ts m v := by
  rw [First, best_lab hp] at h
  cases hb : best a k ts with
  | none => rw [hb] at h; cases h
  | some x =>
    rw [hb] at h
    simp only [Option.map_some, Option.some.injEq, Prod.mk.injEq] at h
    exact ⟨x.1, h.1.symm, by rw [First, hb, ← h.2]⟩

theorem First.tok_inv {t : Tok} {x : Token} {r : List Token} {l : List Tree} (h : First (.tok t) k (x :: r) l v) (hx : x.kind = t) :
    l = [.leaf x] ∧ k r = some v := by
  rw [First, best_eq (parses_tok t _)] at h
  simp only [one, hx, decide_true, if_true, List.findSome?_cons, List.findSome?_nil] at h
  cases hk : k r with
  | none => rw [hk] at h; cases h
  | some w =>
    rw [hk] at h
    simp only [Option.map_some, Option.some.injEq, Prod.mk.injEq] at h
    exact ⟨h.1.symm, by rw [h.2]⟩

theorem First.altL_inv {a b : Elem} {ts : List Token} {l : List Tree} (h : First (a ∣ b) k ts l v) (n : No b k ts) (hp : Proper (a ∣ b) := by proper) :
    First a k ts l v := by
  rw [First, best_alt hp, n, Option.or_none] at h
  exact h

theorem First.optOff_inv {a : Elem} {ts : List Token} {l : List Tree} {S : List Tok} (h : First (.opt a) k ts l v) (hS : Heads S ts)
    (hs : S.all (fun t => !startsWith a t) = true := by krfl) (hn : nullable a = false := by krfl) (hp : Proper (.opt a) := by proper) :
    l = [] ∧ k ts = some v := by
  have hno : No a k ts := No.off hS hs hn (proper_alt hp).1
  have h' : best (a ∣ .eps) k ts = some (l, v) := h
  rw [best_alt hp, hno, Option.none_or, best_eps] at h'
  cases hk : k ts with
  | none => rw [hk] at h'; cases h'
  | some w =>
    rw [hk] at h'
    simp only [Option.map_some, Option.some.injEq, Prod.mk.injEq] at h'
    exact ⟨h'.1.symm, by rw [h'.2]⟩

/-! ### EXPLAIN -/

theorem handle_child {t t' : Tree} (h : ∀ r, t.child r = t'.child r) (hs : List (Rule × (Tree → Res Statement))) : handle t hs = handle t' hs := by
  induction hs with
  | nil => rfl
  | cons x hs ih => obtain ⟨r, f⟩ := x; rw [handle, handle, h r, ih]

theorem explain_first (p : Bool) (s : StmtS) (hq : Quiet k) (h : Heads stmtFollow rest) (hk : k rest = some v) :
    ∃ T, First (.nt .sql_stmt) k ((WordyS.explain p s).toks sp ++ rest) [T] v ∧ T.IsNode .sql_stmt ∧
      ∀ toUint, statement toUint T = statement toUint (stmtT sp s) := by
  have hf := stmt_first (sp := sp) s hq h hk
  obtain ⟨cs, hc, hf⟩ := First.nt_inv hf
  replace hc := (List.cons.inj hc).1
  obtain ⟨l1, l2, h1, h2⟩ := First.seq_inv hf
  have hh := stmt_heads (sp := sp) s rest
  obtain ⟨rfl, h3⟩ := First.optOff_inv h1 hh
  rw [List.nil_append] at h2
  subst h2
  cases p with
  | false =>
    refine ⟨.node .sql_stmt (.leaf (kw sp .EXPLAIN_) :: cs), ?_, ⟨_, rfl⟩, ?_⟩
    · exact First.nt (First.seq (l := [.leaf (kw sp .EXPLAIN_)]) (First.optSome (First.seq (m := []) (First.tok rfl (First.optOff hh h3)))))
    · intro toUint
      rw [hc]
      exact handle_child (fun _ => rfl) _
  | true =>
    refine ⟨.node .sql_stmt (.leaf (kw sp .EXPLAIN_) :: .leaf (kw sp .QUERY_) :: .leaf (kw sp .PLAN_) :: cs), ?_, ⟨_, rfl⟩, ?_⟩
    · exact First.nt (First.seq (l := [.leaf (kw sp .EXPLAIN_), .leaf (kw sp .QUERY_), .leaf (kw sp .PLAN_)]) (First.optSome
        (First.seq (First.tok rfl (First.optSome (First.seq (First.tok rfl (First.tok rfl h3))))))))
    · intro toUint
      rw [hc]
      exact handle_child (fun _ => rfl) _

/-! ### DISTINCT -/

theorem item_heads (i : ItemS) (r : List Token) : Heads (Tok.STAR :: atomStart) (i.toks sp ++ r) := by
  cases i with
  | star => exact Heads.kw
  | atom a => exact (atom_heads a _).mono (by decide)
  | fn f args => exact Heads.ident

/-- The tree of a SELECT DISTINCT. -/
def distinctT (sp : Spelling) (t : Tok) (s : SelectS) : Tree :=
  .node .select_stmt (.lab .parentQuery [.node .select_core (.leaf (kw sp .SELECT_) :: .leaf (kw sp t) :: itemT sp s.item ::
    (tailT sp (itemT sp) s.items ++ (fromT sp s.tables ++ (whereT sp s.cond ++ groupT sp s.group))))] ::
    (ordersT sp s.orders ++ limitT sp s.limit))

theorem distinct_first (a : Bool) (s : SelectS) (hq : Quiet k) (h : Heads stmtFollow rest) (hk : k rest = some v) :
    First (.nt .select_stmt) k ((WordyS.distinct a s).toks sp ++ rest) [distinctT sp (if a then .ALL_ else .DISTINCT_) s] v := by
  obtain ⟨m0, e0, h0⟩ := First.nt_inv (select_first (sp := sp) s hq h hk)
  obtain ⟨l1, m1, h1, rfl⟩ := First.seq_inv h0
  obtain ⟨rfl, h1'⟩ := First.optOff_inv h1 (S := [.SELECT_]) Heads.kw
  obtain ⟨l2, m2, h2, rfl⟩ := First.seq_inv h1'
  obtain ⟨l3, rfl, h3⟩ := First.lab_inv h2
  obtain ⟨l4, rfl, h4⟩ := First.nt_inv h3
  have h5 := First.altL_inv h4 (No.at (t := .SELECT_) rfl)
  obtain ⟨l6, m6, h6, rfl⟩ := First.seq_inv h5
  obtain ⟨rfl, h7⟩ := First.tok_inv h6 rfl
  obtain ⟨l8, m8, h8, rfl⟩ := First.seq_inv h7
  have hi : Heads (Tok.STAR :: atomStart) ((s.toks sp).tail ++ rest) := by
    rw [SelectS.toks, commas_map, List.tail_cons]
    simp only [List.append_assoc]
    exact item_heads _ _
  obtain ⟨rfl, h9⟩ := First.optOff_inv h8 hi
  have e1 : distinctT sp (if a then .ALL_ else .DISTINCT_) s =
      .node .select_stmt (.lab .parentQuery [.node .select_core (.leaf (kw sp .SELECT_) :: .leaf (kw sp (if a then .ALL_ else .DISTINCT_)) :: m8)] :: m2) := by
    rw [selectT] at e0
    simp only [List.cons.injEq, Tree.node.injEq, Tree.lab.injEq, List.nil_append, List.cons_append, true_and, and_true] at e0
    rw [distinctT, e0.1, e0.2]
  rw [e1]
  refine First.nt (First.seq (l := []) (First.optOff (S := [.SELECT_]) Heads.kw ?_))
  refine First.seq (l := [_]) (m := m2) (First.lab (First.nt (First.altL ?_)))
  refine First.seq (First.tok rfl ?_)
  refine First.seq (l := [.leaf (kw sp (if a then .ALL_ else .DISTINCT_))]) (First.optSome ?_)
  cases a with
  | false => exact First.altL (First.tok rfl h9)
  | true => exact First.altR (No.at (t := .ALL_) rfl) (First.tok rfl h9)

theorem distinct_visit (toUint : Str → Option Nat) (t : Tok) (s : SelectS) :
    Visit.select toUint (distinctT sp t s) = Visit.select toUint (selectT sp s) := rfl

/-! ### INSERT OR -/

/-- The tree of an INSERT with other words in front. -/
def insertOrT (sp : Spelling) (ws : List Token) (i : InsertS) : Tree :=
  .node .insert_stmt (ws.map .leaf ++ (.leaf (kw sp .INTO_) :: nameT .table_name i.table ::
    .leaf (kw sp .OPEN_PAR) :: (namesT sp .column_name i.names ++ (.leaf (kw sp .CLOSE_PAR) ::
      [.node .values_clause (.leaf (kw sp .VALUES_) :: rowT sp i.row :: tailT sp (rowT sp) i.rows)]))))

/-- An INSERT with a conflict clause, and a REPLACE. -/
theorem insert_or_first (c : Option Conflict) (i : InsertS) (h : Heads stmtFollow rest) (hk : k rest = some v) :
    First (.nt .insert_stmt) k ((match c with
        | some c => [kw sp .INSERT_, kw sp .OR_, kw sp c.tok]
        | none => [kw sp .REPLACE_]) ++ ((i.toks sp).tail ++ rest))
      [insertOrT sp (match c with
        | some c => [kw sp .INSERT_, kw sp .OR_, kw sp c.tok]
        | none => [kw sp .REPLACE_]) i] v := by
  obtain ⟨m0, e0, h0⟩ := First.nt_inv (insert_first (sp := sp) i h hk)
  obtain ⟨l1, m1, h1, rfl⟩ := First.seq_inv h0
  obtain ⟨rfl, h1'⟩ := First.optOff_inv h1 (S := [.INSERT_]) Heads.kw
  obtain ⟨l2, m2, h2, rfl⟩ := First.seq_inv h1'
  have h3 := First.altL_inv h2 (No.alt (No.at (t := .INSERT_) rfl) (No.seq (No.tok rfl (No.seq (No.at (t := .INTO_) rfl)))))
  obtain ⟨rfl, h4⟩ := First.tok_inv h3 rfl
  have e1 : ∀ ws, insertOrT sp ws i = .node .insert_stmt (ws.map .leaf ++ m2) := by
    intro ws
    rw [insertT] at e0
    simp only [List.cons.injEq, Tree.node.injEq, List.nil_append, List.cons_append, true_and, and_true] at e0
    rw [insertOrT, ← e0]
  rw [e1]
  cases c with
  | none =>
    refine First.nt (First.seq (l := []) (First.optOff (S := [.REPLACE_]) Heads.kw ?_))
    exact First.seq (First.altR (No.at (t := .REPLACE_) rfl) (First.altL (First.tok rfl h4)))
  | some c =>
    refine First.nt (First.seq (l := []) (First.optOff (S := [.INSERT_]) Heads.kw ?_))
    refine First.seq (l := [.leaf (kw sp .INSERT_), .leaf (kw sp .OR_), .leaf (kw sp c.tok)])
      (First.altR (No.tok rfl (No.seq (No.at (t := .OR_) rfl))) (First.altR (No.at (t := .INSERT_) rfl) ?_))
    refine First.seq (First.tok rfl (First.seq (First.tok rfl ?_)))
    cases c with
    | replace => exact First.altL (First.tok rfl h4)
    | rollback => exact First.altR (No.at (t := .ROLLBACK_) rfl) (First.altL (First.tok rfl h4))
    | abort => exact First.altR (No.at (t := .ABORT_) rfl) (First.altR (No.at (t := .ABORT_) rfl) (First.altL (First.tok rfl h4)))
    | fail =>
      iterate 3 refine First.altR (No.at (t := .FAIL_) rfl) ?_
      exact First.altL (First.tok rfl h4)
    | ignore =>
      iterate 4 refine First.altR (No.at (t := .IGNORE_) rfl) ?_
      exact First.tok rfl h4

theorem insert_or_visit (ws : List Token) (i : InsertS) : Visit.insert (insertOrT sp ws i) = Visit.insert (insertT sp i) := by
  have hk : ∀ r, (insertOrT sp ws i).all r = (insertT sp i).all r := by
    intro r
    have e : ∀ (l : List Tree), (unlab (ws.map Tree.leaf ++ l)).filter (Tree.isRule r) = (unlab l).filter (Tree.isRule r) := by
      intro l
      induction ws with
      | nil => rfl
      | cons w ws ih => simp only [List.map_cons, List.cons_append, unlab, List.filter_cons, Tree.isRule]; exact ih
    rw [Tree.all, Tree.all, insertOrT, insertT, Tree.kids, Tree.kids, e]
    rfl
  have hc : ∀ r, (insertOrT sp ws i).child r = (insertT sp i).child r := fun r => by rw [child_eq, child_eq, hk]
  rw [Visit.insert, Visit.insert, Visit.textOf, Visit.textOf, hc, hc, hk]

/-! ### UPDATE OR -/

/-- The tree of an UPDATE with a conflict clause. -/
def updateOrT (sp : Spelling) (c : Conflict) (u : UpdateS) : Tree :=
  .node .update_stmt (.leaf (kw sp .UPDATE_) :: .leaf (kw sp .OR_) :: .leaf (kw sp c.tok) :: .lab .table [qualifiedT u.table] ::
    .leaf (kw sp .SET_) :: setT sp u.asg :: (tailT sp (setT sp) u.asgs ++ whereT sp u.cond))

theorem update_or_first (c : Conflict) (u : UpdateS) (hq : Quiet k) (h : Heads stmtFollow rest) (hk : k rest = some v) :
    First (.nt .update_stmt) k ((WordyS.updateOr c u).toks sp ++ rest) [updateOrT sp c u] v := by
  obtain ⟨m0, e0, h0⟩ := First.nt_inv (update_first (sp := sp) u hq h hk)
  obtain ⟨l1, m1, h1, rfl⟩ := First.seq_inv h0
  obtain ⟨rfl, h1'⟩ := First.optOff_inv h1 (S := [.UPDATE_]) Heads.kw
  obtain ⟨l2, m2, h2, rfl⟩ := First.seq_inv h1'
  obtain ⟨rfl, h3⟩ := First.tok_inv h2 rfl
  obtain ⟨l4, m4, h4, rfl⟩ := First.seq_inv h3
  obtain ⟨rfl, h5⟩ := First.optOff_inv h4 (S := [.IDENTIFIER]) Heads.ident
  have e1 : updateOrT sp c u = .node .update_stmt (.leaf (kw sp .UPDATE_) :: .leaf (kw sp .OR_) :: .leaf (kw sp c.tok) :: m4) := by
    rw [updateT] at e0
    simp only [List.cons.injEq, Tree.node.injEq, List.nil_append, List.cons_append, true_and, and_true] at e0
    rw [updateOrT, ← e0]
  rw [e1]
  refine First.nt (First.seq (l := []) (First.optOff (S := [.UPDATE_]) Heads.kw ?_))
  refine First.seq (First.tok rfl ?_)
  refine First.seq (l := [.leaf (kw sp .OR_), .leaf (kw sp c.tok)]) (First.optSome (First.seq (First.tok rfl ?_)))
  cases c with
  | rollback => exact First.altL (First.tok rfl h5)
  | abort => exact First.altR (No.at (t := .ABORT_) rfl) (First.altL (First.tok rfl h5))
  | replace => exact First.altR (No.at (t := .REPLACE_) rfl) (First.altR (No.at (t := .REPLACE_) rfl) (First.altL (First.tok rfl h5)))
  | fail =>
    iterate 3 refine First.altR (No.at (t := .FAIL_) rfl) ?_
    exact First.altL (First.tok rfl h5)
  | ignore =>
    iterate 4 refine First.altR (No.at (t := .IGNORE_) rfl) ?_
    exact First.tok rfl h5

theorem update_or_visit (c : Conflict) (u : UpdateS) : Visit.update (updateOrT sp c u) = Visit.update (updateT sp u) := rfl

/-! ### Queries -/

theorem parse_wordy (toUint : Str → Option Nat) (hg : sp.Good) {q : Str} {ts : List Token} (hl : lex q = some ts) (w : WordyS)
    (ss : List StmtS) (n : Nat) (hv : visible ts = w.toks sp ++ moreToks sp ss n) :
    Parse.parseQuery toUint q = .ok (stmtV toUint sp w.bare :: ss.map (stmtV toUint sp)) := by
  cases w with
  | explain p s =>
    have hp : s.Plain := plain_of_lex (sp := sp) hl s (fun t ht => by
      have hm : t ∈ visible ts := by
        rw [hv]
        refine List.mem_append_left _ ?_
        cases p
        · exact List.mem_cons_of_mem _ ht
        · exact List.mem_cons_of_mem _ (List.mem_cons_of_mem _ (List.mem_cons_of_mem _ ht))
      exact (List.mem_filter.mp hm).1)
    refine parse_first toUint hg (toks := (WordyS.explain p s).toks sp) (r := ((WordyS.explain p s).toks sp).tail) .EXPLAIN_
      (by cases p <;> rfl) (by decide) _ ss n ?_ hl hv
    intro γ k v rest hq h hk
    obtain ⟨T, h1, h2, h3⟩ := explain_first (sp := sp) p s hq h hk
    exact ⟨T, h1, h2, by rw [h3, statement_stmt toUint hg s hp]; rfl⟩
  | distinct a s =>
    refine parse_first toUint hg (toks := (WordyS.distinct a s).toks sp) .SELECT_ rfl (by decide) _ ss n ?_ hl hv
    intro γ k v rest hq h hk
    refine ⟨.node .sql_stmt [distinctT sp (if a then .ALL_ else .DISTINCT_) s], ?_, ⟨_, rfl⟩, ?_⟩
    · refine First.nt (First.seq (l := []) (First.optOff (S := [.SELECT_]) Heads.kw ?_))
      iterate 26 refine First.altR (No.at (t := .SELECT_) rfl) ?_
      exact First.altL (distinct_first a s hq h hk)
    · have : statement toUint (.node .sql_stmt [distinctT sp (if a then .ALL_ else .DISTINCT_) s]) =
          (Visit.select toUint (distinctT sp (if a then .ALL_ else .DISTINCT_) s)).bind (fun s => .ok (some s)) := rfl
      rw [this, distinct_visit, select_visit toUint hg]; rfl
  | insertOr c i =>
    refine parse_first toUint hg (toks := (WordyS.insertOr c i).toks sp) .INSERT_ rfl (by decide) _ ss n ?_ hl hv
    intro γ k v rest hq h hk
    refine ⟨.node .sql_stmt [insertOrT sp [kw sp .INSERT_, kw sp .OR_, kw sp c.tok] i], ?_, ⟨_, rfl⟩, ?_⟩
    · refine First.nt (First.seq (l := []) (First.optOff (S := [.INSERT_]) Heads.kw ?_))
      iterate 20 refine First.altR (No.at (t := .INSERT_) rfl) ?_
      exact First.altL (insert_or_first (some c) i h hk)
    · have : statement toUint (.node .sql_stmt [insertOrT sp [kw sp .INSERT_, kw sp .OR_, kw sp c.tok] i]) =
          (Visit.insert (insertOrT sp [kw sp .INSERT_, kw sp .OR_, kw sp c.tok] i)).bind (fun s => .ok (some s)) := rfl
      rw [this, insert_or_visit, insert_visit]; rfl
  | replace i =>
    refine parse_first toUint hg (toks := (WordyS.replace i).toks sp) .REPLACE_ rfl (by decide) _ ss n ?_ hl hv
    intro γ k v rest hq h hk
    refine ⟨.node .sql_stmt [insertOrT sp [kw sp .REPLACE_] i], ?_, ⟨_, rfl⟩, ?_⟩
    · refine First.nt (First.seq (l := []) (First.optOff (S := [.REPLACE_]) Heads.kw ?_))
      iterate 20 refine First.altR (No.at (t := .REPLACE_) rfl) ?_
      exact First.altL (insert_or_first none i h hk)
    · have : statement toUint (.node .sql_stmt [insertOrT sp [kw sp .REPLACE_] i]) =
          (Visit.insert (insertOrT sp [kw sp .REPLACE_] i)).bind (fun s => .ok (some s)) := rfl
      rw [this, insert_or_visit, insert_visit]; rfl
  | updateOr c u =>
    refine parse_first toUint hg (toks := (WordyS.updateOr c u).toks sp) .UPDATE_ rfl (by decide) _ ss n ?_ hl hv
    intro γ k v rest hq h hk
    refine ⟨.node .sql_stmt [updateOrT sp c u], ?_, ⟨_, rfl⟩, ?_⟩
    · refine First.nt (First.seq (l := []) (First.optOff (S := [.UPDATE_]) Heads.kw ?_))
      iterate 27 refine First.altR (No.at (t := .UPDATE_) rfl) ?_
      exact First.altL (update_or_first c u hq h hk)
    · have : statement toUint (.node .sql_stmt [updateOrT sp c u]) =
          (Visit.update (updateOrT sp c u)).bind (fun s => .ok (some s)) := rfl
      rw [this, update_or_visit, update_visit hg]; rfl

end Verif.Gram
