import Verif.Lemmas.Clauses
import Verif.Spec.Compound
/-! Compound SELECTs. -/
namespace Verif.Gram
open Verif Verif.Lex Verif.Spec Verif.Visit Verif.Query Verif.Parse

variable {β : Type} {k : List Token → Option β} {v : β} {sp : Spelling} {rest : List Token}

/-- What follows a part of a compound SELECT. -/
def partFollow : List Tok := [.UNION_, .INTERSECT_, .EXCEPT_, .ORDER_, .LIMIT_, .SCOL]

/-- The tokens that cannot go on after a part. -/
def partEnds : List Tok := [.IDENTIFIER, .BY_, .NUMERIC_LITERAL, .OPEN_PAR, .NOT_] ++ condInner

theorem part_group (g : Option Str) (hS : Heads partFollow rest) (hk : k rest = some v) :
    First (.opt ((.tok .GROUP_) ⬝ (.tok .BY_) ⬝ (.lab .groupByExpr (.expr 0)) ⬝
      (.star ((.tok .COMMA) ⬝ (.lab .groupByExpr (.expr 0)))) ⬝ (.opt ((.tok .HAVING_) ⬝
      (.lab .havingExpr (.expr 0)))))) k (groupToks sp g ++ rest) (groupT sp g) v := by
  cases g with
  | none => exact First.optOff hS hk
  | some g =>
    exact First.optSome (First.seq (First.tok rfl (First.seq (First.tok rfl (First.seq (First.lab
      (col_expr g (hS.mono (by decide)) (First.seq (l := []) (First.starOff hS (First.optOff hS hk))))))))))

theorem part_where (c : Option CondS) (hS : Heads (.GROUP_ :: partFollow) rest) (hr : ∀ x ∈ condInner, Rejects k x)
    (hk : k rest = some v) : First (.opt ((.tok .WHERE_) ⬝ (.lab .whereExpr (.expr 0)))) k (whereToks sp c ++ rest)
      (whereT sp c) v := by
  cases c with
  | none => exact First.optOff hS hk
  | some c => exact First.optSome (First.seq (First.tok rfl (First.lab (cond_expr c (hS.mono (by decide)) hr hk))))

theorem part_from (ts : List TabS) (hr : ∀ t ∈ [Tok.IDENTIFIER, .BY_, .NUMERIC_LITERAL, .OPEN_PAR, .NOT_], Rejects k t)
    (hS : ts ≠ [] → TableFollow rest) (hh : Heads (.WHERE_ :: .GROUP_ :: partFollow) rest) (hk : k rest = some v) :
    First (.opt ((.tok .FROM_) ⬝ ((.opt ((.nt .«from») ⬝ (.star ((.tok .COMMA) ⬝ (.nt .«from»))))) ∣ (.nt .join_clause)))) k
      (fromToks sp ts ++ rest) (fromT sp ts) v := by
  cases ts with
  | nil => exact First.optOff hh hk
  | cons t ts =>
    rw [fromToks, commas_map, List.cons_append, List.append_assoc]
    have hS' := hS (by simp)
    have hfol : TableFollow (tailToks sp (TabS.toks sp) ts ++ rest) := by
      cases ts with
      | nil => exact hS'
      | cons y ys => exact .inl Heads.kw
    refine First.optSome (First.seq (First.tok rfl (First.altL (First.optSome (First.seq (table_first t ?_ hfol ?_))))))
    · intro x hx
      refine Rejects.best (hr x hx) (comma_starts ?_)
      rintro rfl
      simp at hx
    · exact list_first (R := [Tok.IDENTIFIER, .BY_, .NUMERIC_LITERAL, .OPEN_PAR, .NOT_]) (Fol := TableFollow) (by decide)
        (fun r => .inl Heads.kw) (fun q w x us hq h hw => table_first x hq h hw) ts hr hS' hh.noComma hk

/-- The tree of a part. -/
def unitT (sp : Spelling) (c : CoreS) : Tree := coreT sp (c.full [] .none)

theorem unit_first (c : CoreS) (hr : ∀ t ∈ partEnds, Rejects k t) (hS : c.tables ≠ [] → TableFollow (whereToks sp c.cond ++ (groupToks sp c.group ++ rest)))
    (h : Heads partFollow rest) (hk : k rest = some v) : First (.nt .select_core) k (c.toks sp ++ rest) [unitT sp c] v := by
  obtain ⟨item, items, tables, cond, group⟩ := c
  have e : CoreS.toks sp ⟨item, items, tables, cond, group⟩ ++ rest =
      kw sp .SELECT_ :: (item.toks sp ++ (tailToks sp (ItemS.toks sp) items ++ (fromToks sp tables ++ (whereToks sp cond ++
        (groupToks sp group ++ rest))))) := by
    rw [CoreS.toks, commas_map]
    simp only [List.cons_append, List.append_assoc]
  rw [e]
  have h2 : Heads (.GROUP_ :: partFollow) (groupToks sp group ++ rest) := by
    cases group with
    | none => exact h.mono (by decide)
    | some => exact Heads.kw
  have h1 : Heads (.WHERE_ :: .GROUP_ :: partFollow) (whereToks sp cond ++ (groupToks sp group ++ rest)) := by
    cases cond with
    | none => exact h2.mono (by decide)
    | some => exact Heads.kw
  have h0 : Heads exprFollow (fromToks sp tables ++ (whereToks sp cond ++ (groupToks sp group ++ rest))) := by
    cases tables with
    | nil => exact h1.mono (by decide)
    | cons => exact Heads.kw
  have hi := heads_tail (sp := sp) (f := ItemS.toks sp) items (by decide) h0
  have hq : ∀ t ∈ partEnds, Rejects k t := hr
  refine First.nt (First.altL ?_)
  refine First.seq (First.tok rfl ?_)
  have hin : Heads (Tok.STAR :: atomStart) (item.toks sp ++ (tailToks sp (ItemS.toks sp) items ++ (fromToks sp tables ++ (whereToks sp cond ++
        (groupToks sp group ++ rest))))) := by
    cases item with
    | star => exact Heads.kw
    | atom a => exact (atom_heads a _).mono (by decide)
    | fn f args => exact Heads.ident
  refine First.seq (l := []) (First.optOff hin ?_)
  have hopen : ∀ {γ : Type} {q : List Token → Option γ}, Rejects q .OPEN_PAR → ∀ t ∈ [Tok.OPEN_PAR], Rejects q t := by
    intro γ q hq t ht
    rw [List.mem_singleton] at ht
    rw [ht]; exact hq
  refine First.seq (item_first item (hopen (by (repeat (refine Rejects.best ?_)) <;> exact hq _ (by decide))) hi ?_)
  refine First.seq (list_first (R := [.OPEN_PAR]) (Fol := Heads exprFollow) (by decide) (fun r => Heads.kw)
      (fun q w x us hr h hq => item_first x hr h hq) items (hopen (by (repeat (refine Rejects.best ?_)) <;> exact hq _ (by decide))) h0 ?_ ?_)
  · cases tables with
    | nil => exact h1.noComma
    | cons => exact Heads.noComma (S := [.FROM_]) Heads.kw
  refine First.seq (part_from tables ?_ hS h1 ?_)
  · intro x hx
    simp only [List.mem_cons, List.not_mem_nil, or_false] at hx
    rcases hx with rfl | rfl | rfl | rfl | rfl <;> ((repeat (refine Rejects.best ?_)) <;> exact hq _ (by decide))
  refine First.seq (part_where cond h2 ?_ ?_)
  · intro x hx
    simp only [condInner, List.mem_cons, List.not_mem_nil, or_false] at hx
    rcases hx with rfl | rfl | rfl | rfl | rfl | rfl | rfl | rfl | rfl <;> ((repeat (refine Rejects.best ?_)) <;> exact hq _ (by decide))
  have hgroup := First.seq (part_group (sp := sp) group h (First.optOff (a := (.tok .WINDOW_) ⬝ (.nt .window_name) ⬝ (.tok .AS_) ⬝
      (.nt .window_defn) ⬝ (.star ((.tok .COMMA) ⬝ (.nt .window_name) ⬝ (.tok .AS_) ⬝ (.nt .window_defn)))) h hk))
  rw [List.append_nil] at hgroup
  exact hgroup

/-- The parts after the first, in the grammar. -/
abbrev partsG : Elem := .star ((.nt .compound_operator) ⬝ (.nt .select_core))

theorem op_first (o : CompoundOp) (c : CoreS) (hk : k (c.toks sp ++ rest) = some v) :
    ∃ cs, First (.nt .compound_operator) k (o.toks sp ++ (c.toks sp ++ rest)) [.node .compound_operator cs] v := by
  cases o with
  | union => exact ⟨_, First.nt (First.altL (First.seq (First.tok rfl (First.optOff (S := [.SELECT_]) Heads.kw hk))))⟩
  | unionAll => exact ⟨_, First.nt (First.altL (First.seq (First.tok rfl (First.optSome (First.tok rfl hk)))))⟩
  | intersect => exact ⟨_, First.nt (First.altR (No.at (t := .INTERSECT_) rfl) (First.altL (First.tok rfl hk)))⟩
  | except => exact ⟨_, First.nt (First.altR (No.at (t := .EXCEPT_) rfl) (First.altR (No.at (t := .EXCEPT_) rfl) (First.tok rfl hk)))⟩

theorem parts_heads (ps : List (CompoundOp × CoreS)) (h : Heads groupFollow rest) : Heads partFollow (partsToks sp ps ++ rest) := by
  cases ps with
  | nil => exact h.mono (by decide)
  | cons p ps => obtain ⟨o, c⟩ := p; cases o <;> exact Heads.kw

theorem closed_follow (c : CoreS) (hc : c.Closed) (ht : c.tables ≠ []) (us : List Token) : TableFollow (whereToks sp c.cond ++ (groupToks sp c.group ++ us)) := by
  obtain ⟨item, items, tables, cond, group⟩ := c
  rcases hc with hc | hc | hc
  · exact absurd hc ht
  · cases cond with
    | none => exact absurd rfl hc
    | some d =>
      obtain ⟨a, r, hd⟩ := cond_head (sp := sp) d
      exact .inr ⟨kw sp .WHERE_, ident a, _, by show whereToks sp (some d) ++ _ = _; rw [whereToks, hd]; rfl, by simp [kw], .inl (by simp [ident])⟩
  · cases cond with
    | some d =>
      obtain ⟨a, r, hd⟩ := cond_head (sp := sp) d
      exact .inr ⟨kw sp .WHERE_, ident a, _, by show whereToks sp (some d) ++ _ = _; rw [whereToks, hd]; rfl, by simp [kw], .inl (by simp [ident])⟩
    | none =>
      cases group with
      | none => exact absurd rfl hc
      | some g => exact .inr ⟨kw sp .GROUP_, kw sp .BY_, _, rfl, by simp [kw], .inl (by simp [kw])⟩

/-- A tree of an operator or a part. -/
def IsPart (t : Tree) : Prop := ∃ r cs, t = .node r cs ∧ (r = .compound_operator ∨ r = .select_core)

/-- What follows the tables of the last part. -/
def LastFollow (sp : Spelling) (rest : List Token) : Prop :=
  ∀ (c : Option CondS) (g : Option Str), TableFollow (whereToks sp c ++ (groupToks sp g ++ rest))

theorem parts_follow {c : CoreS} {ps : List (CompoundOp × CoreS)} (hc : ClosedParts c ps) (hL : LastFollow sp rest) (ht : c.tables ≠ []) :
    TableFollow (whereToks sp c.cond ++ (groupToks sp c.group ++ (partsToks sp ps ++ rest))) := by
  cases ps with
  | nil => exact hL _ _
  | cons p ps => exact closed_follow c hc.1 ht _

theorem parts_ends (hr : ∀ t ∈ partEnds, Rejects k t) : ∀ t ∈ partEnds, Rejects (best partsG k) t := by
  intro t ht
  have := hr t ht
  simp only [partEnds, condInner, List.cons_append, List.nil_append, List.mem_cons, List.not_mem_nil, or_false] at ht
  rcases ht with rfl | rfl | rfl | rfl | rfl | rfl | rfl | rfl | rfl | rfl | rfl | rfl | rfl | rfl <;> exact Rejects.best this

theorem parts_first (c : CoreS) (ps : List (CompoundOp × CoreS)) (hc : ClosedParts c ps) (hr : ∀ t ∈ partEnds, Rejects k t) (hL : LastFollow sp rest)
    (h : Heads groupFollow rest) (hk : k rest = some v) :
    ∃ cs, (∀ t ∈ cs, IsPart t) ∧ First partsG k (partsToks sp ps ++ rest) cs v := by
  induction ps generalizing c with
  | nil => exact ⟨[], by simp, First.starOff h hk⟩
  | cons p ps ih =>
    obtain ⟨o, d⟩ := p
    obtain ⟨cs, hcs, hp⟩ := ih d hc.2
    have hd := unit_first (sp := sp) d (parts_ends hr) (parts_follow hc.2 hL) (parts_heads ps h) hp
    obtain ⟨os, ho⟩ := op_first (sp := sp) o d hd
    refine ⟨.node .compound_operator os :: unitT sp d :: cs, ?_, ?_⟩
    rotate_left
    · have hh := First.starCons (First.seq ho)
      have e : partsToks sp ((o, d) :: ps) ++ rest = o.toks sp ++ (d.toks sp ++ (partsToks sp ps ++ rest)) := by simp [partsToks]
      rw [e]
      exact hh
    · intro t ht
      simp only [List.cons_append, List.nil_append, List.mem_cons] at ht
      rcases ht with rfl | rfl | ht
      · exact ⟨_, _, rfl, .inl rfl⟩
      · exact ⟨_, _, rfl, .inr rfl⟩
      · exact hcs t ht

/-- The tree of a compound SELECT. -/
def selectCT (sp : Spelling) (c : CoreS) (cs : List Tree) (os : List OrderS) (l : LimitS) : Tree :=
  .node .select_stmt (.lab .parentQuery [unitT sp c] :: (cs ++ (ordersT sp os ++ limitT sp l)))

theorem selectC_first (c : CoreS) (ps : List (CompoundOp × CoreS)) (os : List OrderS) (l : LimitS) (hc : ClosedParts c ps) (hq : Quiet k)
    (h : Heads stmtFollow rest) (hk : k rest = some v) :
    ∃ cs, (∀ t ∈ cs, IsPart t) ∧ First (.nt .select_stmt) k (compoundToks sp c ps os l ++ rest) [selectCT sp c cs os l] v := by
  have h4 := limit_heads (sp := sp) l h
  have h3 := orders_heads (sp := sp) os h4
  have hL : LastFollow sp (ordersToks sp os ++ (l.toks sp ++ rest)) := fun c g => tables_follow c g os l h
  have hends : ∀ t ∈ partEnds, Rejects (best ((.opt (.nt .order_by_stmt)) ⬝ (.opt (.nt .limit_stmt))) k) t := by
    intro t ht
    simp only [partEnds, condInner, List.cons_append, List.nil_append, List.mem_cons, List.not_mem_nil, or_false] at ht
    rcases ht with rfl | rfl | rfl | rfl | rfl | rfl | rfl | rfl | rfl | rfl | rfl | rfl | rfl | rfl <;> quiet hq
  have hol := First.seq (orders_first (sp := sp) os h4 (limit_first (sp := sp) l h hk))
  obtain ⟨cs, hcs, hp⟩ := parts_first (sp := sp) c ps hc hends hL h3 hol
  refine ⟨cs, hcs, ?_⟩
  have e : compoundToks sp c ps os l ++ rest = c.toks sp ++ (partsToks sp ps ++ (ordersToks sp os ++ (l.toks sp ++ rest))) := by simp [compoundToks]
  rw [e]
  refine First.nt (First.seq (l := []) (First.optOff (S := [.SELECT_]) Heads.kw ?_))
  refine First.seq (l := [_]) (m := cs ++ (ordersT sp os ++ limitT sp l)) (First.lab ?_)
  refine unit_first c ?_ (parts_follow hc hL) (parts_heads ps h3) (First.seq hp)
  intro t ht
  simp only [partEnds, condInner, List.cons_append, List.nil_append, List.mem_cons, List.not_mem_nil, or_false] at ht
  rcases ht with rfl | rfl | rfl | rfl | rfl | rfl | rfl | rfl | rfl | rfl | rfl | rfl | rfl | rfl <;> quiet hq

theorem unlab_parts {cs : List Tree} (h : ∀ t ∈ cs, IsPart t) : unlab cs = cs := by
  induction cs with
  | nil => rfl
  | cons c cs ih =>
    obtain ⟨r, x, rfl, -⟩ := h c (by simp)
    rw [unlab, ih (fun t ht => h t (by simp [ht]))]

theorem selectC_child (r : Rule) (h1 : r ≠ .select_core) (h2 : r ≠ .compound_operator) (c : CoreS) {cs : List Tree} (h : ∀ t ∈ cs, IsPart t)
    (os : List OrderS) (l : LimitS) : (selectCT sp c cs os l).child r = (selectT sp (c.full os l)).child r := by
  have ho : unlab (ordersT sp os) = ordersT sp os := by cases os <;> rfl
  have hl : unlab (limitT sp l) = limitT sp l := by cases l <;> rfl
  have hk : (selectCT sp c cs os l).kids = unitT sp c :: (cs ++ (ordersT sp os ++ limitT sp l)) := by
    rw [selectCT, Tree.kids, unlab, unlab_append, unlab_append, ho, hl, unlab_parts h]; rfl
  have hd : decide (Rule.select_core = r) = false := by simpa using fun h => h1 h.symm
  have hn : cs.find? (Tree.isRule r) = none := by
    rw [List.find?_eq_none]
    intro t ht
    obtain ⟨q, x, rfl, hq⟩ := h t ht
    rcases hq with rfl | rfl
    · simpa [Tree.isRule] using fun h => h2 h.symm
    · simpa [Tree.isRule] using fun h => h1 h.symm
  rw [Tree.child, Tree.child, hk, select_kids, unitT, coreT, coreT, List.find?_cons, List.find?_cons]
  simp only [Tree.isRule, hd, List.find?_append, hn, Option.none_or]
  rfl

theorem selectC_visit (toUint : Str → Option Nat) (hg : sp.Good) (c : CoreS) {cs : List Tree} (h : ∀ t ∈ cs, IsPart t)
    (os : List OrderS) (l : LimitS) : Visit.select toUint (selectCT sp c cs os l) = .ok (.select (selectV toUint sp (c.full os l))) := by
  have h1 : (selectCT sp c cs os l).label .parentQuery = some (coreT sp (c.full os l)) := rfl
  have h2 : (selectT sp (c.full os l)).label .parentQuery = some (coreT sp (c.full os l)) := rfl
  have h5 : ordersOf (selectCT sp c cs os l) = ordersOf (selectT sp (c.full os l)) := by
    rw [ordersOf, ordersOf, selectC_child _ (by decide) (by decide) c h]
  have h6 : limitOf toUint (selectCT sp c cs os l) = limitOf toUint (selectT sp (c.full os l)) := by
    rw [limitOf, limitOf, selectC_child _ (by decide) (by decide) c h]
  rw [← select_visit toUint hg, Visit.select, Visit.select, h1, h2, h5, h6]

theorem parse_compound (toUint : Str → Option Nat) (hg : sp.Good) {q : Str} {ts : List Token} (hl : lex q = some ts) (c : CoreS)
    (ps : List (CompoundOp × CoreS)) (hc : ClosedParts c ps) (os : List OrderS) (l : LimitS) (ss : List StmtS) (n : Nat)
    (hv : visible ts = compoundToks sp c ps os l ++ moreToks sp ss n) :
    parseQuery toUint q = .ok ((.select (c.full os l) :: ss).map (stmtV toUint sp)) := by
  refine parse_first toUint hg (toks := compoundToks sp c ps os l) .SELECT_ rfl (by decide) _ ss n ?_ hl hv
  intro γ k v rest hq h hk
  obtain ⟨cs, hcs, hs⟩ := selectC_first (sp := sp) c ps os l hc hq h hk
  refine ⟨.node .sql_stmt [selectCT sp c cs os l], ?_, ⟨_, rfl⟩, ?_⟩
  · refine First.nt (First.seq (l := []) (First.optOff (S := [.SELECT_]) Heads.kw ?_))
    iterate 26 refine First.altR (No.at (t := .SELECT_) rfl) ?_
    exact First.altL hs
  · have : statement toUint (.node .sql_stmt [selectCT sp c cs os l]) = (Visit.select toUint (selectCT sp c cs os l)).bind (fun s => .ok (some s)) := rfl
    rw [this, selectC_visit toUint hg c hcs]; rfl

end Verif.Gram
