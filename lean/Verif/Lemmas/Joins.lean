import Verif.Lemmas.Clauses
import Verif.Lemmas.LongCond
import Verif.Spec.Joins
/-! SELECT from joined tables. -/
namespace Verif.Gram
open Verif Verif.Lex Verif.Spec Verif.Visit Verif.Query Verif.Parse

variable {β : Type} {k : List Token → Option β} {v : β} {sp : Spelling} {rest : List Token}

/-- The optional alias of a table. -/
abbrev nickG : Elem := (.opt (.tok .AS_)) ⬝ (.nt .table_alias)
/-- The optional index of a table. -/
abbrev indexG : Elem := .opt (((.tok .INDEXED_) ⬝ (.tok .BY_) ⬝ (.nt .index_name)) ∣ ((.tok .NOT_) ⬝ (.tok .INDEXED_)))
/-- One join. -/
abbrev joinG : Elem := (.nt .join_operator) ⬝ (.nt .table_or_subquery) ⬝ (.opt (.nt .join_constraint))

/-- The tokens that end the reading of a table. -/
def tableEnds : List Tok := [.IDENTIFIER, .BY_, .NUMERIC_LITERAL, .OPEN_PAR, .NOT_]

theorem nick_none (hr : ∀ t ∈ tableEnds, Rejects k t) (hS : TableFollow rest) : No nickG (best indexG k) rest := by
  rcases hS with h | ⟨x, y, r, rfl, hx, hy⟩
  · exact No.off h
  · obtain ⟨xk, xt⟩ := x
    have hrej : best indexG k (y :: r) = none := by
      simp only [List.mem_cons, List.not_mem_nil, or_false] at hy
      rcases hy with (h | h | h | h) | ⟨h, hn⟩
      · exact (Rejects.best (hr .IDENTIFIER (by simp [tableEnds]))) _ _ h
      · exact (Rejects.best (hr .BY_ (by simp [tableEnds]))) _ _ h
      · exact (Rejects.best (hr .NUMERIC_LITERAL (by simp [tableEnds]))) _ _ h
      · exact (Rejects.best (hr .OPEN_PAR (by simp [tableEnds]))) _ _ h
      · refine No.alt ?_ ?_
        · refine No.alt (No.at h) (No.seq ?_)
          exact No.tok h (No.off hn)
        · rw [No, best_eps, hr .NOT_ (by simp [tableEnds]) _ _ h]; rfl
    have hrun : runs 60 nickG (⟨xk, xt⟩ :: y :: r) =
        some [([.node .table_alias [.node .any_name [.node .keyword [.leaf ⟨xk, xt⟩]]]], y :: r)] := by
      simp only [List.mem_cons, List.not_mem_nil, or_false] at hx
      rcases hx with h | h | h | h <;> (cases h; krfl)
    exact No.exact hrun hrej

/-- The words JOIN and ON before a name are no alias. -/
theorem nick_word {x : Tok} (hx : x = .JOIN_ ∨ x = .ON_) (a : Str) (hr : Rejects k .IDENTIFIER) (us : List Token) :
    No nickG (best indexG k) (kw sp x :: ident a :: us) := by
  have hrun : runs 60 nickG (kw sp x :: ident a :: us) =
      some [([.node .table_alias [.node .any_name [.node .keyword [.leaf (kw sp x)]]]], ident a :: us)] := by
    rcases hx with rfl | rfl <;> krfl
  exact No.exact hrun ((Rejects.best hr) _ _ rfl)

theorem joinWord_runs (w : JoinKind) (us : List Token) : runs 60 nickG (kw sp w.tok :: kw sp .JOIN_ :: us) =
    some [([.node .table_alias [.node .any_name [.node .keyword [.leaf (kw sp w.tok)]]]], kw sp .JOIN_ :: us)] := by
  cases w <;> krfl

theorem tos_first (a : Str) {S : List Tok} (hS : Heads S rest) (hd : S.all (fun t => !startsWith (.tok .DOT) t) = true)
    {l : List Tree} (h : First (.opt nickG ⬝ indexG) k rest l v) :
    First (.nt .table_or_subquery) k (ident a :: rest) [.node .table_or_subquery (nameT .table_name a :: l)] v :=
  First.nt (First.altL (First.seq (l := []) (First.optNone (schema_no a hS hd) (First.seq (l := [nameT .table_name a]) (First.exact (table_runs a) h)))))

/-- The joined tables without the word before the first JOIN. -/
def bareHead : List JoinS → List JoinS
  | [] => []
  | j :: js => { j with word := none } :: js

theorem tos_any (a : Str) (js : List JoinS) (hr : ∀ t ∈ tableEnds, Rejects k t) (hend : js = [] → TableFollow rest)
    (hk : k (joinsToks sp (bareHead js) ++ rest) = some v) :
    ∃ l, First (.nt .table_or_subquery) k (ident a :: (joinsToks sp js ++ rest)) l v := by
  cases js with
  | nil =>
    have h1 := follow_heads (hend rfl)
    exact ⟨_, tos_first a h1 (by krfl) (First.seq (l := []) (First.optNone (nick_none hr (hend rfl)) (First.optOff h1 hk)))⟩
  | cons j js =>
    obtain ⟨w, t, on⟩ := j
    cases w with
    | none =>
      exact ⟨_, tos_first a (S := [.JOIN_]) Heads.kw (by krfl) (First.seq (l := []) (First.optNone
        (nick_word (x := .JOIN_) (.inl rfl) t (hr .IDENTIFIER (by simp [tableEnds])) _) (First.optOff (S := [.JOIN_]) Heads.kw hk)))⟩
    | some w =>
      have hh : Heads [.LEFT_, .INNER_, .CROSS_] (joinsToks sp (⟨some w, t, on⟩ :: js) ++ rest) := by cases w <;> exact Heads.kw
      refine ⟨_, tos_first a hh (by krfl) (First.seq (First.optSome (First.exact (joinWord_runs w _) (First.optOff (S := [.JOIN_]) Heads.kw hk))))⟩

theorem joins_heads (js : List JoinS) (h : Heads (.WHERE_ :: whereFollow) rest) :
    Heads ([.LEFT_, .INNER_, .CROSS_, .JOIN_] ++ .WHERE_ :: whereFollow) (joinsToks sp js ++ rest) := by
  cases js with
  | nil => exact h.mono (by decide)
  | cons j js =>
    obtain ⟨w, t, on⟩ := j
    cases w with
    | none => exact Heads.kw
    | some w => cases w <;> exact Heads.kw

theorem operator_runs (w : Option JoinKind) (us : List Token) : ∃ l, runs 60 (.nt .join_operator) (wordToks sp w ++ (kw sp .JOIN_ :: us)) = some [(l, us)] := by
  cases w with
  | none => exact ⟨[.node .join_operator [.leaf (kw sp .JOIN_)]], by krfl⟩
  | some w => exact ⟨[.node .join_operator [.leaf (kw sp w.tok), .leaf (kw sp .JOIN_)]], by cases w <;> krfl⟩

theorem joins_star (n : Nat) (js : List JoinS) (hn : js.length = n) (hr : ∀ t ∈ tableEnds, Rejects k t) (hi : ∀ t ∈ condInner, Rejects k t)
    (hend : TableFollow rest) (hh : Heads (.WHERE_ :: whereFollow) rest) (hk : k rest = some v) :
    ∃ l, First (.star joinG) k (joinsToks sp js ++ rest) l v := by
  induction n generalizing js with
  | zero =>
    rw [List.length_eq_zero_iff] at hn
    subst hn
    exact ⟨[], First.starOff hh hk⟩
  | succ n ih =>
    cases js with
    | nil => cases hn
    | cons j js =>
      obtain ⟨w, t, on⟩ := j
      have hn' : js.length = n := by simpa using hn
      have hb : (bareHead js).length = n := by cases js <;> simpa [bareHead] using hn'
      have hrS : ∀ t ∈ tableEnds, Rejects (best (.star joinG) k) t := by
        intro t ht
        have := hr t ht
        simp only [tableEnds, List.mem_cons, List.not_mem_nil, or_false] at ht
        rcases ht with rfl | rfl | rfl | rfl | rfl <;> exact Rejects.best this
      have hrO : ∀ t ∈ tableEnds, Rejects (best (.opt (.nt .join_constraint)) (best (.star joinG) k)) t := by
        intro t ht
        have := hrS t ht
        simp only [tableEnds, List.mem_cons, List.not_mem_nil, or_false] at ht
        rcases ht with rfl | rfl | rfl | rfl | rfl <;> exact Rejects.best this
      have hiS : ∀ t ∈ condInner, Rejects (best (.star joinG) k) t := by
        intro t ht
        have := hi t ht
        simp only [condInner, List.mem_cons, List.not_mem_nil, or_false] at ht
        rcases ht with rfl | rfl | rfl | rfl | rfl | rfl | rfl | rfl | rfl <;> exact Rejects.best this
      have e : joinsToks sp (⟨w, t, on⟩ :: js) ++ rest = wordToks sp w ++ (kw sp .JOIN_ :: ident t :: (onToks sp on ++ (joinsToks sp js ++ rest))) := by
        simp [joinsToks, JoinS.toks]
      rw [e]
      have step : ∃ l m, First (.nt .table_or_subquery ⬝ .opt (.nt .join_constraint)) (best (.star joinG) k)
          (ident t :: (onToks sp on ++ (joinsToks sp js ++ rest))) l (m, v) := by
        cases on with
        | none =>
          obtain ⟨m, hm⟩ := ih (bareHead js) hb
          have hO : best (.opt (.nt .join_constraint)) (best (.star joinG) k) (joinsToks sp (bareHead js) ++ rest) = some ([], (m, v)) :=
            First.optOff (joins_heads (bareHead js) hh) hm
          obtain ⟨l, hl⟩ := tos_any (sp := sp) t js hrO (fun _ => hend) hO
          exact ⟨_, m, First.seq hl⟩
        | some c =>
          obtain ⟨m, hm⟩ := ih js hn'
          have h1 : Heads exprFollow (joinsToks sp js ++ rest) := (joins_heads js hh).mono (by decide)
          have hc := First.optSome (First.nt (r := .join_constraint) (First.altL (b := ((.tok .USING_) ⬝ (.tok .OPEN_PAR) ⬝ (.nt .column_name) ⬝
            (.star ((.tok .COMMA) ⬝ (.nt .column_name))) ⬝ (.tok .CLOSE_PAR))) (First.seq (First.tok (t := .ON_) (x := kw sp .ON_) rfl (cond_expr (sp := sp) c h1 hiS hm)))))
          obtain ⟨a, r, ha⟩ := cond_head (sp := sp) c
          have ha' : kw sp .ON_ :: (c.toks sp ++ (joinsToks sp js ++ rest)) = kw sp .ON_ :: ident a :: (r ++ (joinsToks sp js ++ rest)) := by rw [ha]; rfl
          refine ⟨_, m, First.seq (tos_first t (S := [.ON_]) Heads.kw (by krfl) (First.seq (l := []) (First.optNone ?_ (First.optOff (S := [.ON_]) Heads.kw hc))))⟩
          show No nickG _ (kw sp .ON_ :: (c.toks sp ++ (joinsToks sp js ++ rest)))
          rw [ha']
          exact nick_word (x := .ON_) (.inr rfl) a (hrO .IDENTIFIER (by simp [tableEnds])) _
      obtain ⟨l, m, hs⟩ := step
      obtain ⟨o, ho⟩ := operator_runs (sp := sp) w (ident t :: (onToks sp on ++ (joinsToks sp js ++ rest)))
      exact ⟨_, First.starCons (First.seq (First.exact ho hs))⟩

theorem join_clause_first (t : Str) (js : List JoinS) (hr : ∀ t ∈ tableEnds, Rejects k t) (hi : ∀ t ∈ condInner, Rejects k t)
    (hend : TableFollow rest) (hh : Heads (.WHERE_ :: whereFollow) rest) (hk : k rest = some v) :
    ∃ cs, First (.nt .join_clause) k (ident t :: (joinsToks sp js ++ rest)) [.node .join_clause cs] v := by
  obtain ⟨m, hm⟩ := joins_star (sp := sp) _ (bareHead js) rfl hr hi hend hh hk
  have hrS : ∀ t ∈ tableEnds, Rejects (best (.star joinG) k) t := by
    intro t ht
    have := hr t ht
    simp only [tableEnds, List.mem_cons, List.not_mem_nil, or_false] at ht
    rcases ht with rfl | rfl | rfl | rfl | rfl <;> exact Rejects.best this
  obtain ⟨l, hl⟩ := tos_any (sp := sp) t js hrS (fun _ => hend) hm
  exact ⟨_, First.nt (First.seq hl)⟩

/-- The tokens after which a list of tables cannot go on to a join. -/
def joinHeads : List Tok := [.IDENTIFIER, .JOIN_, .LEFT_, .INNER_, .CROSS_]

theorem plain_no (t : Str) (j : JoinS) (js : List JoinS) (hr : ∀ t ∈ joinHeads, Rejects k t) :
    No (.opt ((.nt .«from») ⬝ (.star ((.tok .COMMA) ⬝ (.nt .«from»))))) k (ident t :: (joinsToks sp (j :: js) ++ rest)) := by
  have hrS : ∀ t ∈ joinHeads, Rejects (best (.star ((.tok .COMMA) ⬝ (.nt .«from»))) k) t := by
    intro t ht
    have := hr t ht
    simp only [joinHeads, List.mem_cons, List.not_mem_nil, or_false] at ht
    rcases ht with rfl | rfl | rfl | rfl | rfl <;> exact Rejects.best this
  have hh : Heads [.LEFT_, .INNER_, .CROSS_, .JOIN_] (joinsToks sp (j :: js) ++ rest) := by
    obtain ⟨w, t, on⟩ := j
    cases w with
    | none => exact Heads.kw
    | some w => cases w <;> exact Heads.kw
  have hal : No (.opt nickG ⬝ indexG) (best (.star ((.tok .COMMA) ⬝ (.nt .«from»))) k) (joinsToks sp (j :: js) ++ rest) := by
    have hskip : best indexG (best (.star ((.tok .COMMA) ⬝ (.nt .«from»))) k) (joinsToks sp (j :: js) ++ rest) = none := by
      refine No.optOff hh (Heads.rejected hh ?_ ?_)
      · obtain ⟨w, t, on⟩ := j
        cases w <;> simp [joinsToks, JoinS.toks, wordToks]
      · intro t ht
        exact hrS t (by simp only [joinHeads, List.mem_cons, List.not_mem_nil, or_false] at ht ⊢; rcases ht with rfl | rfl | rfl | rfl <;> simp)
    refine No.seq (No.opt ?_ hskip)
    obtain ⟨w, u, on⟩ := j
    cases w with
    | none => exact nick_word (x := .JOIN_) (.inl rfl) u (hrS .IDENTIFIER (by simp [joinHeads])) _
    | some w => exact No.exact (joinWord_runs w _) ((Rejects.best (hrS .JOIN_ (by simp [joinHeads]))) _ _ rfl)
  refine No.opt (No.seq (No.nt (No.alt (No.nt (No.seq (No.opt (schema_no t hh (by krfl)) (No.seq (No.exact (table_runs t) hal)))))
    (No.alt (No.nt (No.seq (No.opt (schema_no t hh (by krfl)) (No.seq (No.exact (l := [nameT .table_function_name t]) (us := joinsToks sp (j :: js) ++ rest) (by krfl) (No.seq (No.off hh)))))))
      (No.alt (No.at rfl) (No.at rfl)))))) (hr .IDENTIFIER (by simp [joinHeads]) _ _ rfl)

theorem fromJ_first (t : Str) (j : JoinS) (js : List JoinS) (hr : ∀ t ∈ tableEnds, Rejects k t) (hi : ∀ t ∈ condInner, Rejects k t)
    (hj : ∀ t ∈ joinHeads, Rejects k t) (hend : TableFollow rest) (hh : Heads (.WHERE_ :: whereFollow) rest) (hk : k rest = some v) :
    ∃ cs, First (.opt ((.tok .FROM_) ⬝ ((.opt ((.nt .«from») ⬝ (.star ((.tok .COMMA) ⬝ (.nt .«from»))))) ∣ (.nt .join_clause)))) k
      (kw sp .FROM_ :: ident t :: (joinsToks sp (j :: js) ++ rest)) [.leaf (kw sp .FROM_), .node .join_clause cs] v := by
  obtain ⟨cs, h⟩ := join_clause_first (sp := sp) t (j :: js) hr hi hend hh hk
  exact ⟨cs, First.optSome (First.seq (First.tok rfl (First.altR (plain_no t j js hj) h)))⟩

/-- The core of a SELECT from joined tables. -/
def coreJT (sp : Spelling) (s : SelectS) (cs : List Tree) : Tree :=
  .node .select_core (.leaf (kw sp .SELECT_) :: itemT sp s.item ::
    (tailT sp (itemT sp) s.items ++ ([.leaf (kw sp .FROM_), .node .join_clause cs] ++ (whereT sp s.cond ++ groupT sp s.group))))

/-- The tree of a SELECT from joined tables. -/
def selectJT (sp : Spelling) (s : SelectS) (cs : List Tree) : Tree :=
  .node .select_stmt (.lab .parentQuery [coreJT sp s cs] :: (ordersT sp s.orders ++ limitT sp s.limit))

theorem selectJ_first (s : SelectS) (t : Str) (j : JoinS) (js : List JoinS) (hq : Quiet k) (h : Heads stmtFollow rest) (hk : k rest = some v) :
    ∃ cs, First (.nt .select_stmt) k (s.toksJoin sp t (j :: js) ++ rest) [selectJT sp s cs] v := by
  obtain ⟨item, items, tables, cond, group, orders, limit⟩ := s
  have e : SelectS.toksJoin sp ⟨item, items, tables, cond, group, orders, limit⟩ t (j :: js) ++ rest =
      kw sp .SELECT_ :: (item.toks sp ++ (tailToks sp (ItemS.toks sp) items ++ (kw sp .FROM_ :: ident t :: (joinsToks sp (j :: js) ++ (whereToks sp cond ++
        (groupToks sp group ++ (ordersToks sp orders ++ (limit.toks sp ++ rest)))))))) := by
    rw [SelectS.toksJoin, commas_map]
    simp only [List.cons_append, List.append_assoc]
  rw [e]
  have h4 := limit_heads (sp := sp) limit h
  have h3 := orders_heads (sp := sp) orders h4
  have h2 := group_heads (sp := sp) group h3
  have h1 := where_heads (sp := sp) cond h2
  have hrest := First.seq (l := []) (First.starOff (a := (.nt .compound_operator) ⬝ (.nt .select_core)) h3
    (First.seq (orders_first orders h4 (limit_first limit h hk))))
  have hgroup := First.seq (group_first (sp := sp) group h3 (First.optOff (a := (.tok .WINDOW_) ⬝ (.nt .window_name) ⬝ (.tok .AS_) ⬝
      (.nt .window_defn) ⬝ (.star ((.tok .COMMA) ⬝ (.nt .window_name) ⬝ (.tok .AS_) ⬝ (.nt .window_defn)))) h3 hrest))
  rw [List.append_nil] at hgroup
  have hwhere := First.seq (where_first (sp := sp) cond h2 ?_ hgroup)
  rotate_left
  · intro x hx
    simp only [condInner, List.mem_cons, List.not_mem_nil, or_false] at hx
    rcases hx with rfl | rfl | rfl | rfl | rfl | rfl | rfl | rfl | rfl <;> quiet hq
  have hex := fromJ_first (sp := sp) t j js ?_ ?_ ?_ (tables_follow cond group orders limit h) h1 hwhere
  rotate_left
  · intro x hx
    simp only [tableEnds, List.mem_cons, List.not_mem_nil, or_false] at hx
    rcases hx with rfl | rfl | rfl | rfl | rfl <;> quiet hq
  · intro x hx
    simp only [condInner, List.mem_cons, List.not_mem_nil, or_false] at hx
    rcases hx with rfl | rfl | rfl | rfl | rfl | rfl | rfl | rfl | rfl <;> quiet hq
  · intro x hx
    simp only [joinHeads, List.mem_cons, List.not_mem_nil, or_false] at hx
    rcases hx with rfl | rfl | rfl | rfl | rfl <;> quiet hq
  obtain ⟨cs, hfrom⟩ := hex
  refine ⟨cs, ?_⟩
  have hF : ∀ us : List Token, Heads exprFollow (kw sp .FROM_ :: us) := fun us => Heads.kw
  have hopen : ∀ {γ : Type} {q : List Token → Option γ}, Rejects q .OPEN_PAR → ∀ t ∈ [Tok.OPEN_PAR], Rejects q t := by
    intro γ q hq t ht
    rw [List.mem_singleton] at ht
    rw [ht]; exact hq
  generalize ident t :: (joinsToks sp (j :: js) ++ (whereToks sp cond ++
        (groupToks sp group ++ (ordersToks sp orders ++ (limit.toks sp ++ rest))))) = us at hfrom
  have h0 : Heads exprFollow (kw sp .FROM_ :: us) := hF us
  have hi := heads_tail (sp := sp) (f := ItemS.toks sp) items (by decide) h0
  refine First.nt (First.seq (l := []) (First.optOff (S := [.SELECT_]) Heads.kw ?_))
  refine First.seq (l := [_]) (m := ordersT sp orders ++ limitT sp limit) (First.lab (First.nt (First.altL ?_)))
  refine First.seq (First.tok rfl ?_)
  have hin : Heads (Tok.STAR :: atomStart) (item.toks sp ++ (tailToks sp (ItemS.toks sp) items ++ (kw sp .FROM_ :: us))) := by
    cases item with
    | star => exact Heads.kw
    | atom a => exact (atom_heads a _).mono (by decide)
    | fn f args => exact Heads.ident
  refine First.seq (l := []) (First.optOff hin ?_)
  refine First.seq (item_first item (hopen (by quiet hq)) hi ?_)
  refine First.seq (list_first (R := [.OPEN_PAR]) (Fol := Heads exprFollow) (by decide) (fun r => Heads.kw)
      (fun q w x us hr h hq => item_first x hr h hq) items (hopen (by quiet hq)) h0 (Heads.noComma (S := [.FROM_]) Heads.kw) ?_)
  exact First.seq hfrom

theorem coreJ_kids (s : SelectS) (cs : List Tree) : (coreJT sp s cs).kids = .leaf (kw sp .SELECT_) :: itemT sp s.item ::
    (tailT sp (itemT sp) s.items ++ ([.leaf (kw sp .FROM_), .node .join_clause cs] ++ (unlab (whereT sp s.cond) ++ unlab (groupT sp s.group)))) := by
  obtain ⟨ds, hc⟩ := isNode_item (sp := sp) s.item
  simp [coreJT, Tree.kids, unlab, hc, unlab_append, unlab_tail (isNode_item (sp := sp))]

theorem coreJ_items (s : SelectS) (cs : List Tree) : (coreJT sp s cs).all .result_column = (s.item :: s.items).map (itemT sp) := by
  obtain ⟨ds, hc⟩ := isNode_item (sp := sp) s.item
  have hw : (unlab (whereT sp s.cond)).filter (Tree.isRule .result_column) = [] := by cases s.cond <;> rfl
  have hg : (unlab (groupT sp s.group)).filter (Tree.isRule .result_column) = [] := by cases s.group <;> rfl
  rw [Tree.all, coreJ_kids]
  simp [Tree.isRule, hc, List.filter_append, rules_tail (isNode_item (sp := sp)), hw, hg]

theorem coreJ_tables (s : SelectS) (cs : List Tree) : (coreJT sp s cs).all .«from» = [] := by
  obtain ⟨ds, hc⟩ := isNode_item (sp := sp) s.item
  have hw : (unlab (whereT sp s.cond)).filter (Tree.isRule .«from») = [] := by cases s.cond <;> rfl
  have hg : (unlab (groupT sp s.group)).filter (Tree.isRule .«from») = [] := by cases s.group <;> rfl
  rw [Tree.all, coreJ_kids]
  simp only [List.filter_cons, List.filter_append, hw, hg, rules_tail_off (isNode_item (sp := sp)) (q := .«from») (by decide), hc]
  rfl

theorem coreJ_labels (l : Lab) (s : SelectS) (cs : List Tree) : (coreJT sp s cs).labels l =
    labelled l (whereT sp s.cond) ++ labelled l (groupT sp s.group) := by
  obtain ⟨ds, hc⟩ := isNode_item (sp := sp) s.item
  simp [coreJT, Tree.labels, labelled, hc, labelled_append, labelled_tail (isNode_item (sp := sp))]

theorem selectJ_child (r : Rule) (hr : r ≠ .select_core) (s : SelectS) (cs : List Tree) :
    (selectJT sp s cs).child r = (selectT sp { s with tables := [] }).child r := by
  have ho : unlab (ordersT sp s.orders) = ordersT sp s.orders := by cases s.orders <;> rfl
  have hl : unlab (limitT sp s.limit) = limitT sp s.limit := by cases s.limit <;> rfl
  have h1 : (selectJT sp s cs).kids = coreJT sp s cs :: (ordersT sp s.orders ++ limitT sp s.limit) := by
    rw [selectJT, Tree.kids, unlab, unlab_append, ho, hl]; rfl
  have h2 : decide (Rule.select_core = r) = false := by simpa using fun h => hr h.symm
  rw [Tree.child, Tree.child, h1, select_kids, coreT, coreJT, List.find?_cons, List.find?_cons]
  simp only [Tree.isRule, h2]

theorem selectJ_visit (toUint : Str → Option Nat) (hg : sp.Good) (s : SelectS) (cs : List Tree) :
    Visit.select toUint (selectJT sp s cs) = .ok (.select (selectV toUint sp { s with tables := [] })) := by
  have h1 : (selectJT sp s cs).label .parentQuery = some (coreJT sp s cs) := rfl
  have h2 : whereOf (coreJT sp s cs) = .ok (s.cond.map (condV sp)) := by
    apply whereOf_where
    rw [coreJ_labels]
    have : labelled .whereExpr (groupT sp s.group) = [] := by cases s.group <;> rfl
    rw [this]
    cases s.cond <;> rfl
  have h3 : groupOf (coreJT sp s cs) = groupOf (coreT sp { s with tables := [] }) := by
    rw [groupOf, groupOf, coreJ_labels, core_labels]
  have h5 : ordersOf (selectJT sp s cs) = ordersOf (selectT sp { s with tables := [] }) := by
    rw [ordersOf, ordersOf, selectJ_child _ (by decide)]
  have h6 : limitOf toUint (selectJT sp s cs) = limitOf toUint (selectT sp { s with tables := [] }) := by
    rw [limitOf, limitOf, selectJ_child _ (by decide)]
  have hs := select_visit toUint hg { s with tables := [] }
  rw [← hs, Visit.select, Visit.select, h1]
  have h1' : (selectT sp { s with tables := [] }).label .parentQuery = some (coreT sp { s with tables := [] }) := rfl
  have h2' : whereOf (coreT sp { s with tables := [] }) = .ok (s.cond.map (condV sp)) := by
    apply whereOf_where
    rw [core_labels]
    have : labelled .whereExpr (groupT sp s.group) = [] := by cases s.group <;> rfl
    rw [this]
    cases s.cond <;> rfl
  rw [h1']
  simp only [coreJ_items, core_items, h2, h2', h3, h5, h6, coreJ_tables, core_tables, List.map_nil]

theorem parse_joined (toUint : Str → Option Nat) (hg : sp.Good) {q : Str} {ts : List Token} (hl : lex q = some ts) (s : SelectS)
    (t : Str) (j : JoinS) (js : List JoinS) (ss : List StmtS) (n : Nat) (hv : visible ts = s.toksJoin sp t (j :: js) ++ moreToks sp ss n) :
    parseQuery toUint q = .ok ((.select { s with tables := [] } :: ss).map (stmtV toUint sp)) := by
  refine parse_first toUint hg (toks := s.toksJoin sp t (j :: js)) .SELECT_ rfl (by decide) _ ss n ?_ hl hv
  intro γ k v rest hq h hk
  obtain ⟨cs, hs⟩ := selectJ_first (sp := sp) s t j js hq h hk
  refine ⟨.node .sql_stmt [selectJT sp s cs], ?_, ⟨_, rfl⟩, ?_⟩
  · refine First.nt (First.seq (l := []) (First.optOff (S := [.SELECT_]) Heads.kw ?_))
    iterate 26 refine First.altR (No.at (t := .SELECT_) rfl) ?_
    exact First.altL hs
  · have : statement toUint (.node .sql_stmt [selectJT sp s cs]) = (Visit.select toUint (selectJT sp s cs)).bind (fun s => .ok (some s)) := rfl
    rw [this, selectJ_visit toUint hg]; rfl

end Verif.Gram
