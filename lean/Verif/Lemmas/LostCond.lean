import Verif.Lemmas.VisitQuery
import Verif.Spec.LostCond
/-! Statements with other conditions than comparisons of a column with a literal: they are accepted, and the condition
is not looked at. -/
namespace Verif.Gram
open Verif Verif.Lex Verif.Spec Verif.Visit Verif.Query

variable {β : Type} {k : List Token → Option β} {v : β} {sp : Spelling} {rest : List Token}

theorem best_seg {a : Elem} (h : Proper (.seg a)) (k : List Token → Option β) (ts : List Token) :
    best (.seg a) k ts = (best a k ts).map (fun x => ([.seg x.1], x.2)) := by
  rw [best_eq (parses_seg h ts), findSome_wrap (fun l => [.seg l])]; rfl
theorem First.seg {a : Elem} {ts : List Token} {l : List Tree} (h : First a k ts l v) (hp : Proper (.seg a) := by proper) :
    First (.seg a) k ts [.seg l] v := by
  rw [First, best_seg hp, h]; rfl

/-- The rules the visitor looks for in a value. -/
def valueRules : List Rule := [.literal_value, .bind_param, .comparison_expr, .arithmetic_expr]

/-- A tree in which the visitor finds no value. -/
def Blind (T : Tree) : Prop := ∀ r ∈ valueRules, T.child r = none

theorem Blind.of {T : Tree} (h : valueRules.all (fun r => (T.child r).isNone) = true := by rfl) : Blind T := by
  intro r hr
  simpa using List.all_eq_true.mp h r hr

/-- A tree in which the visitor finds no condition and no value. -/
structure Unseen (T : Tree) : Prop where
  cond : Visit.exprWith T = .ok none
  node : T.IsNode .expr
  blind : Blind T

/-- The tokens that start the suffixes. -/
def sufToks : List Tok := [.IS_, .LIKE_, .IN_, .NOT_, .BETWEEN_, .ISNULL_, .NOTNULL_]

theorem col_primary (a : Str) {us : List Token} (hS : Heads sufToks us) (hk : k us = some v) :
    First primary k (ident a :: us) [nameT .column_name a] v := by
  refine First.altR (No.at rfl) (First.altR ?_ (First.altR (No.at rfl) (First.altR (No.at rfl)
    (First.altR (No.at rfl) (First.altL ?_)))))
  · exact No.nt (No.seq (No.exact (column_runs a) (No.seq (No.off hS (by krfl)))))
  · refine First.seq (l := []) (m := [nameT .column_name a]) ?_
    refine First.optNone ?_ (First.exact (column_runs a) hk)
    refine No.seq ?_
    refine No.alt (a := .nt .schema_name ⬝ .tok .DOT) (b := .eps) ?_ ?_
    · exact No.seq (No.exact (l := [nameT .schema_name a]) (us := us) (by krfl) (No.off hS (by krfl)))
    · have h : best ((.nt .table_name) ⬝ (.tok .DOT)) (best (.nt .column_name) k) (ident a :: us) = none :=
        No.seq (No.exact (table_runs a) (No.off hS (by krfl)))
      rw [No, best_eps, h]; rfl

/-- A column with one suffix. -/
theorem suffixed (a : Str) {us : List Token} {l : List Tree} (hS : Heads sufToks us)
    (hl : Visit.exprWith (.node .expr (exprT (nameT .column_name a) :: l)) = .ok none)
    (hb : Blind (.node .expr (exprT (nameT .column_name a) :: l)))
    (h : First (suffix 0) (best (.star (suffix 0)) k) us [.seg l] ([], v)) :
    ∃ T, First (.expr 0) k (ident a :: us) [T] v ∧ Unseen T := by
  refine ⟨_, First.expr (p := 0) (First.seq (a := primary) (b := .star (suffix 0)) (l := [nameT .column_name a]) (m := [.seg l]) (v := v)
    (col_primary a hS ?_)), ?_⟩
  · have := First.starCons (m := []) h
    exact this
  · exact ⟨hl, ⟨_, rfl⟩, hb⟩

/-- A literal in any context. -/
theorem lit_exprP (p : Nat) (l : Lit) {T : List Tok} {us : List Token} (hS : Heads T us) (hk : k us = some v)
    (hT : T.all (fun t => !startsWith (suffix p) t) = true := by krfl) (hn : nullable (suffix p) = false := by krfl)
    (hp : Proper (.star (suffix p)) := by proper) (hp' : Proper (primary ⬝ .star (suffix p)) := by proper) :
    First (.expr p) k (l.toks sp ++ us) [exprT (litT sp l)] v := by
  have h := First.expr (p := p) (First.seq (a := primary) (b := .star (suffix p)) (l := [litT sp l]) (m := []) (v := v)
    (First.altL (First.exact (lit_runs l) (First.starOff hS hk hT hn hp))) hp')
  cases l <;> exact h

theorem is_first (a : Str) (l : Lit) (hS : Heads exprFollow rest) (hk : k rest = some v) :
    ∃ T, First (.expr 0) k (ident a :: kw sp .IS_ :: (l.toks sp ++ rest)) [T] v ∧ Unseen T := by
  refine suffixed a Heads.kw (l := [.leaf (kw sp .IS_), exprT (litT sp l)]) rfl .of ?_
  refine First.altR (No.at (t := .IS_) rfl) (First.altR (No.at (t := .IS_) rfl) (First.altL (First.seg ?_)))
  refine First.seq (l := [.leaf (kw sp .IS_)]) (First.altR (No.at (t := .IS_) rfl) (First.altL (First.tok rfl ?_)))
  exact lit_exprP 14 l hS (suffix_off hS hk)

theorem like_first (a : Str) (l : Lit) (hS : Heads exprFollow rest) (hk : k rest = some v) :
    ∃ T, First (.expr 0) k (ident a :: kw sp .LIKE_ :: (l.toks sp ++ rest)) [T] v ∧ Unseen T := by
  refine suffixed a Heads.kw (l := [.leaf (kw sp .LIKE_), exprT (litT sp l)]) rfl .of ?_
  refine First.altR (No.at (t := .LIKE_) rfl) (First.altR (No.at (t := .LIKE_) rfl) (First.altL (First.seg ?_)))
  refine First.seq (l := [.leaf (kw sp .LIKE_)]) ?_
  iterate 4 refine First.altR (No.at (t := .LIKE_) rfl) ?_
  exact First.altL (First.tok rfl (lit_exprP 14 l hS (suffix_off hS hk)))

theorem null_first {k : List Token → Option β} {v : β} (a : Str) (t : Tok) (ht : t ∈ [Tok.ISNULL_, .NOTNULL_]) (hS : Heads exprFollow rest) (hk : k rest = some v) :
    ∃ T, First (.expr 0) k (ident a :: kw sp t :: rest) [T] v ∧ Unseen T := by
  simp only [List.mem_cons, List.not_mem_nil, or_false] at ht
  rcases ht with rfl | rfl
  · refine suffixed a Heads.kw (l := [.leaf (kw sp .ISNULL_)]) rfl .of ?_
    iterate 7 refine First.altR (No.at (t := .ISNULL_) rfl) ?_
    exact First.altL (First.seg (First.altL (First.tok rfl (suffix_off hS hk))))
  · refine suffixed a Heads.kw (l := [.leaf (kw sp .NOTNULL_)]) rfl .of ?_
    iterate 7 refine First.altR (No.at (t := .NOTNULL_) rfl) ?_
    exact First.altL (First.seg (First.altR (No.at (t := .NOTNULL_) rfl) (First.altL (First.tok rfl (suffix_off hS hk)))))

/-- What nothing goes on with after the condition. -/
def lostInner : List Tok := [.IDENTIFIER, .NULL_] ++ condInner

theorem lostInner_suffix (hr : ∀ t ∈ lostInner, Rejects k t) : ∀ t ∈ lostInner, Rejects (best (.star (suffix 0)) k) t := by
  intro t ht
  have : lostInner.all (fun t => !startsWith (.star (suffix 0)) t) = true := by krfl
  exact Rejects.best (hr t ht) (by simpa using List.all_eq_true.mp this t ht)

theorem isNotNull_first (a : Str) (hS : Heads exprFollow rest) (hr : ∀ t ∈ lostInner, Rejects k t) (hk : k rest = some v) :
    ∃ T, First (.expr 0) k (ident a :: kw sp .IS_ :: kw sp .NOT_ :: kw sp .NULL_ :: rest) [T] v ∧ Unseen T := by
  have hn : Rejects (best (.star (suffix 0)) k) .NULL_ := lostInner_suffix hr _ (by decide)
  have hn' : Rejects (best (.star (suffix 14)) (best (.star (suffix 0)) k)) .NULL_ := Rejects.best hn (by krfl)
  refine suffixed a Heads.kw (l := [.leaf (kw sp .IS_), .node .expr [.node .unary_operator [.leaf (kw sp .NOT_)], exprT (litT sp (.word .null (sp .NULL_)))]]) rfl .of ?_
  refine First.altR (No.at (t := .IS_) rfl) (First.altR (No.at (t := .IS_) rfl) (First.altL (First.seg ?_)))
  refine First.seq (l := [.leaf (kw sp .IS_)]) (First.altR (No.at (t := .IS_) rfl) (First.altL (First.tok rfl ?_)))
  refine First.expr (p := 14) (First.seq (a := primary) (b := .star (suffix 14)) (l := [.node .unary_operator [.leaf (kw sp .NOT_)], exprT (litT sp (.word .null (sp .NULL_)))]) (m := []) ?_)
  have hrest : best (.star (suffix 14)) (best (.star (suffix 0)) k) rest = some ([], ([], v)) := First.starOff hS (suffix_off hS hk)
  refine First.altR (No.at (t := .NOT_) rfl) (First.altR No.empty (First.altR (No.at (t := .NOT_) rfl) (First.altR (No.at (t := .NOT_) rfl) (First.altR (No.at (t := .NOT_) rfl)
    (First.altR ?_ (First.altL ?_))))))
  · exact No.exact (l := [.node .column_name [.node .any_name [.node .keyword [.leaf (kw sp .NOT_)]]]]) (us := kw sp .NULL_ :: rest) (by krfl) (hn' _ _ rfl)
  · refine First.seq (l := [.node .unary_operator [.leaf (kw sp .NOT_)]]) (First.exact (us := kw sp .NULL_ :: rest) (by krfl) ?_)
    exact lit_exprP 19 (.word .null (sp .NULL_)) hS hrest

theorem cond_primary (c : CondS) (hr : ∀ x ∈ condInner, Rejects k x) (hk : k rest = some v) :
    First primary k (c.toks sp ++ rest) [condT sp c] v := by
  cases c with
  | one c => exact before_cmp c hr (First.altL (cmp_first c hk))
  | and a b =>
    have e : (CondS.and a b).toks sp ++ rest = a.toks sp ++ (kw sp .AND_ :: (b.toks sp ++ rest)) := by
      simp [CondS.toks]
    rw [e]
    refine before_cmp a hr (First.altR (cmp_no a (hr .AND_ (by decide) _ _ rfl)) (First.altL ?_))
    refine First.nt (First.seq (First.lab (cmp_first a ?_)))
    exact First.seq (First.tok rfl (First.lab (cmp_first b hk)))
  | or a b =>
    have e : (CondS.or a b).toks sp ++ rest = a.toks sp ++ (kw sp .OR_ :: (b.toks sp ++ rest)) := by
      simp [CondS.toks]
    rw [e]
    refine before_cmp a hr (First.altR (cmp_no a (hr .OR_ (by decide) _ _ rfl)) (First.altR ?_ (First.altL ?_)))
    · exact No.nt (No.seq (No.lab (cmp_no a (No.seq (No.at rfl)))))
    · refine First.nt (First.seq (First.lab (cmp_first a ?_)))
      exact First.seq (First.tok rfl (First.lab (cmp_first b hk)))

theorem neg_first (c : CondS) (hS : Heads exprFollow rest) (hr : ∀ t ∈ lostInner, Rejects k t) (hk : k rest = some v) :
    ∃ T, First (.expr 0) k (kw sp .NOT_ :: (c.toks sp ++ rest)) [T] v ∧ Unseen T := by
  have hi := lostInner_suffix hr
  have hi' : ∀ x ∈ condInner, Rejects (best (.star (suffix 19)) (best (.star (suffix 0)) k)) x := by
    intro t ht
    have : condInner.all (fun t => !startsWith (.star (suffix 19)) t) = true := by krfl
    exact Rejects.best (hi t (List.mem_append_right _ ht)) (by simpa using List.all_eq_true.mp this t ht)
  refine ⟨_, First.expr (p := 0) (First.seq (a := primary) (b := .star (suffix 0))
    (l := [.node .unary_operator [.leaf (kw sp .NOT_)], exprT (condT sp c)]) (m := []) (v := v) ?_), ?_⟩
  · obtain ⟨a, r, hc⟩ := cond_head (sp := sp) c
    have hno : k (c.toks sp ++ rest) = none ∧ best (.star (suffix 0)) k (c.toks sp ++ rest) = none := by
      rw [hc]
      exact ⟨hr .IDENTIFIER (by decide) _ _ rfl, hi .IDENTIFIER (by decide) _ _ rfl⟩
    refine First.altR (No.at (t := .NOT_) rfl) (First.altR ?_ (First.altR (No.at (t := .NOT_) rfl) (First.altR (No.at (t := .NOT_) rfl) (First.altR (No.at (t := .NOT_) rfl)
      (First.altR ?_ (First.altL ?_))))))
    · rw [hc]; exact No.empty
    · exact No.exact (l := [.node .column_name [.node .any_name [.node .keyword [.leaf (kw sp .NOT_)]]]]) (us := c.toks sp ++ rest) (by rw [hc]; krfl) hno.2
    · refine First.seq (l := [.node .unary_operator [.leaf (kw sp .NOT_)]]) (First.exact (us := c.toks sp ++ rest) (by rw [hc]; krfl) ?_)
      have := First.expr (p := 19) (First.seq (a := primary) (b := .star (suffix 19)) (l := [condT sp c]) (m := [])
        (cond_primary c hi' (First.starOff hS (suffix_off hS hk))))
      cases c <;> exact this
  · constructor
    · cases c <;> rfl
    · cases c <;> exact ⟨_, rfl⟩
    · cases c <;> exact .of

theorem paren_first (c : CondS) (hS : Heads exprFollow rest) (hk : k rest = some v) :
    ∃ T, First (.expr 0) k (kw sp .OPEN_PAR :: (c.toks sp ++ kw sp .CLOSE_PAR :: rest)) [T] v ∧ Unseen T := by
  refine ⟨_, First.expr (p := 0) (First.seq (a := primary) (b := .star (suffix 0))
    (l := [.leaf (kw sp .OPEN_PAR), exprT (condT sp c), .leaf (kw sp .CLOSE_PAR)]) (m := []) (v := v) ?_), ?_⟩
  · obtain ⟨a, o, r, hc⟩ : ∃ (a : Str) (o : CmpSym) (r : List Token), c.toks sp = ident a :: kw sp o.tok :: r := by
      cases c with
      | one c => exact ⟨_, _, _, rfl⟩
      | and c d => exact ⟨_, _, _, rfl⟩
      | or c d => exact ⟨_, _, _, rfl⟩
    have ho : ∀ e, (∀ o : CmpSym, runs 60 e (kw sp .OPEN_PAR :: ident a :: kw sp o.tok :: (r ++ kw sp .CLOSE_PAR :: rest)) = some []) → Proper e →
        No e (best (.star (suffix 0)) k) (kw sp .OPEN_PAR :: (c.toks sp ++ kw sp .CLOSE_PAR :: rest)) := by
      intro e he hp
      rw [hc]
      exact No.empty (he o) hp
    refine First.altR (No.at (t := .OPEN_PAR) rfl) (First.altR (ho _ (fun o => by cases o <;> krfl) (by proper)) (First.altR (No.at (t := .OPEN_PAR) rfl)
      (First.altR (No.at (t := .OPEN_PAR) rfl) (First.altR (No.at (t := .OPEN_PAR) rfl) (First.altR (ho _ (fun o => by cases o <;> krfl) (by proper)) (First.altR (No.at (t := .OPEN_PAR) rfl)
      (First.altR (ho _ (fun o => by cases o <;> krfl) (by proper)) (First.altR (ho _ (fun o => by cases o <;> krfl) (by proper)) (First.altR (ho _ (fun o => by cases o <;> krfl) (by proper))
      (First.altR (ho _ (fun o => by cases o <;> krfl) (by proper)) (First.altL ?_)))))))))))
    refine First.seq (First.tok rfl ?_)
    refine First.seq (l := [exprT (condT sp c)]) (cond_expr c (heads_close _) ?_ ?_)
    · intro x hx
      intro y r hy
      have : condInner.all (fun t => !startsWith ((.star ((.tok .COMMA) ⬝ (.expr 0))) ⬝ (.tok .CLOSE_PAR)) t) = true := by krfl
      exact No.at hy (by simpa using List.all_eq_true.mp this x hx)
    · exact First.seq (l := []) (First.starOff (S := [.CLOSE_PAR]) Heads.kw (First.tok rfl (suffix_off hS hk)))
  · constructor
    · cases c <;> rfl
    · cases c <;> exact ⟨_, rfl⟩
    · cases c <;> exact .of

theorem between_first (a : Str) (x y : Lit) (hS : Heads exprFollow rest) (hk : k rest = some v) :
    ∃ T, First (.expr 0) k (ident a :: kw sp .BETWEEN_ :: (x.toks sp ++ kw sp .AND_ :: (y.toks sp ++ rest))) [T] v ∧ Unseen T := by
  refine suffixed a Heads.kw (l := [.leaf (kw sp .BETWEEN_), exprT (litT sp x), .leaf (kw sp .AND_), exprT (litT sp y)]) rfl .of ?_
  iterate 4 refine First.altR (No.at (t := .BETWEEN_) rfl) ?_
  refine First.altL (First.seg (First.seq (l := []) (First.optOff (S := [.BETWEEN_]) Heads.kw ?_)))
  refine First.seq (First.tok rfl ?_)
  refine First.seq (l := [exprT (litT sp x)]) (lit_exprP 0 x (T := [.AND_]) Heads.kw ?_)
  exact First.seq (First.tok rfl (lit_exprP 6 y hS (suffix_off hS hk)))

theorem values_tail (xs : List Lit) {us : List Token} {e : Elem} {w : γ} {q : List Token → Option γ} (hq : q (kw sp .CLOSE_PAR :: us) = some w)
    (_ : e = .expr 0 := by rfl) :
    First (.star ((.tok .COMMA) ⬝ (.expr 0))) q (tailToks sp (Lit.toks sp) xs ++ kw sp .CLOSE_PAR :: us) (tailT sp (fun l => exprT (litT sp l)) xs) w :=
  list_first (R := []) (Fol := Heads exprFollow) (T := fun l => exprT (litT sp l)) (by simp) (fun r => Heads.kw)
    (fun q w x us _ h hq => lit_expr x h hq) xs (by simp) (heads_close _) (Heads.noComma (S := [.CLOSE_PAR]) Heads.kw) hq

/-- Nodes without a condition the visitor looks at. -/
theorem unseen_node (l : List Tree) (hu : unlab l = l)
    (h : ∀ t ∈ l, ∀ r, r ≠ .expr → r ≠ .column_name → t.isRule r = false) : Unseen (.node .expr l) := by
  have h1 : ∀ r : Rule, r ≠ .expr → r ≠ .column_name → (Tree.node .expr l).child r = none := by
    intro r hr hc
    show (unlab l).find? (Tree.isRule r) = none
    rw [hu, List.find?_eq_none]
    intro t ht
    simp [h t ht r hr hc]
  refine ⟨?_, ⟨_, rfl⟩, ?_⟩
  · unfold Visit.exprWith
    rw [h1 .and_expr (by decide) (by decide), h1 .or_expr (by decide) (by decide), h1 .comparison_expr (by decide) (by decide)]
  · intro r hr
    simp only [valueRules, List.mem_cons, List.not_mem_nil, or_false] at hr
    rcases hr with rfl | rfl | rfl | rfl <;> exact h1 _ (by decide) (by decide)

theorem isRule_ne {r q : Rule} {cs : List Tree} (h : r ≠ q) : Tree.isRule r (.node q cs) = false := by
  simp [Tree.isRule, Ne.symm h]

theorem tailT_plain (xs : List Lit) : ∀ t ∈ tailT sp (fun l => exprT (litT sp l)) xs, ∀ r, r ≠ .expr → t.isRule r = false := by
  intro t ht
  induction xs with
  | nil => simp [tailT] at ht
  | cons x xs ih =>
    have e : tailT sp (fun l => exprT (litT sp l)) (x :: xs) = .leaf (kw sp .COMMA) :: exprT (litT sp x) :: tailT sp (fun l => exprT (litT sp l)) xs := rfl
    rw [e] at ht
    rcases List.mem_cons.mp ht with rfl | ht
    · exact fun _ _ => rfl
    · rcases List.mem_cons.mp ht with rfl | ht
      · exact fun _ hr => isRule_ne hr
      · exact ih ht

theorem notIn_first (a : Str) (x : Lit) (xs : List Lit) (hS : Heads exprFollow rest) (hk : k rest = some v) :
    ∃ T, First (.expr 0) k (ident a :: kw sp .NOT_ :: kw sp .IN_ :: kw sp .OPEN_PAR ::
      (x.toks sp ++ (tailToks sp (Lit.toks sp) xs ++ kw sp .CLOSE_PAR :: rest))) [T] v ∧ Unseen T := by
  refine suffixed a Heads.kw (l := .leaf (kw sp .NOT_) :: .leaf (kw sp .IN_) :: .leaf (kw sp .OPEN_PAR) ::
    exprT (litT sp x) :: (tailT sp (fun l => exprT (litT sp l)) xs ++ [.leaf (kw sp .CLOSE_PAR)])) (Unseen.cond ?hu) (Unseen.blind ?hu) ?_
  case hu =>
    refine unseen_node _ ?_ ?_
    · have h := unlab_tail (sp := sp) (T := fun l => exprT (litT sp l)) (r := .expr) (fun x => ⟨_, rfl⟩) xs
      show exprT (nameT .column_name a) :: .leaf (kw sp .NOT_) :: .leaf (kw sp .IN_) :: .leaf (kw sp .OPEN_PAR) :: exprT (litT sp x) ::
        unlab (tailT sp (fun l => exprT (litT sp l)) xs ++ [.leaf (kw sp .CLOSE_PAR)]) = _
      rw [unlab_append, h]; rfl
    intro t ht r hr _
    simp only [List.mem_cons, List.mem_append, List.not_mem_nil, or_false] at ht
    rcases ht with rfl | rfl | rfl | rfl | rfl | ht | rfl
    all_goals first | rfl | exact isRule_ne hr | exact tailT_plain xs t ht r hr
  · refine First.altR (No.at (t := .NOT_) rfl) (First.altR (No.at (t := .NOT_) rfl) (First.altR (No.at (t := .NOT_) rfl) (First.altR (No.at (t := .NOT_) rfl)
      (First.altR (No.empty) (First.altR (No.at (t := .NOT_) rfl) (First.altR (No.empty) (First.altR (No.empty) (First.altL (First.seg ?_)))))))))
    refine First.seq (l := [.leaf (kw sp .NOT_)]) (First.optSome (First.tok rfl ?_))
    refine First.seq (l := [.leaf (kw sp .IN_)]) (First.tok rfl ?_)
    refine First.altL ?_
    refine First.seq (First.tok rfl (First.seq (l := exprT (litT sp x) :: tailT sp (fun l => exprT (litT sp l)) xs) (First.optSome (First.altR ?_ ?_))))
    · cases x with
      | word w s => cases w <;> exact No.at rfl
      | _ => exact No.at rfl
    · exact First.seq (l := [exprT (litT sp x)]) (lit_expr x (heads_tail _ (by decide) (heads_close _)) (values_tail xs (First.tok rfl (suffix_off hS hk))))

/-- The alternatives of an expression that start with a name. -/
def named : List Elem := [.nt .arithmetic_expr,
  ((.opt ((.opt ((.nt .schema_name) ⬝ (.tok .DOT))) ⬝ (.nt .table_name) ⬝ (.tok .DOT))) ⬝ (.nt .column_name)),
  .nt .comparison_expr, .nt .and_expr, .nt .or_expr, .nt .«function»]

theorem parens_primary (x : Lit) (xs : List Lit) {us : List Token} (hk : k us = some v)
    (hn : ∀ e ∈ named, runs 60 e (kw sp .OPEN_PAR :: (x.toks sp ++ (tailToks sp (Lit.toks sp) xs ++ kw sp .CLOSE_PAR :: us))) = some []) :
    First primary k (kw sp .OPEN_PAR :: (x.toks sp ++ (tailToks sp (Lit.toks sp) xs ++ kw sp .CLOSE_PAR :: us)))
      (.leaf (kw sp .OPEN_PAR) :: exprT (litT sp x) :: (tailT sp (fun l => exprT (litT sp l)) xs ++ [.leaf (kw sp .CLOSE_PAR)])) v := by
  refine First.altR (No.at (t := .OPEN_PAR) rfl) (First.altR (No.empty (hn _ (by simp [named]))) (First.altR (No.at (t := .OPEN_PAR) rfl)
      (First.altR (No.at (t := .OPEN_PAR) rfl) (First.altR (No.at (t := .OPEN_PAR) rfl) (First.altR (No.empty (hn _ (by simp [named]))) (First.altR (No.at (t := .OPEN_PAR) rfl)
      (First.altR (No.empty (hn _ (by simp [named]))) (First.altR (No.empty (hn _ (by simp [named]))) (First.altR (No.empty (hn _ (by simp [named])))
      (First.altR (No.empty (hn _ (by simp [named]))) (First.altL ?_)))))))))))
  refine First.seq (First.tok rfl (First.seq (l := [exprT (litT sp x)]) (lit_expr x (heads_tail _ (by decide) (heads_close _)) ?_)))
  exact First.seq (values_tail xs (First.tok rfl hk))

/-- A word or a string in parentheses is read as a name. -/
theorem name_primary (x : Lit) {us : List Token} {n : Tree} (hS : Heads exprFollow us) (hk : k us = some v)
    (hc : ∀ r ∈ [Rule.column_name, .schema_name, .table_name], runs 60 (.nt r) (kw sp .OPEN_PAR :: (x.toks sp ++ kw sp .CLOSE_PAR :: us)) = some [([.node r [n]], us)]) :
    First primary k (kw sp .OPEN_PAR :: (x.toks sp ++ kw sp .CLOSE_PAR :: us)) [.node .column_name [n]] v := by
  have h1 := hc .column_name (by decide)
  have h2 := hc .schema_name (by decide)
  have h3 := hc .table_name (by decide)
  refine First.altR (No.at (t := .OPEN_PAR) rfl) (First.altR ?_ (First.altR (No.at (t := .OPEN_PAR) rfl)
      (First.altR (No.at (t := .OPEN_PAR) rfl) (First.altR (No.at (t := .OPEN_PAR) rfl) (First.altL ?_)))))
  · exact No.nt (No.seq (No.exact h1 (No.seq (No.off hS (by krfl)))))
  · refine First.seq (l := []) (m := [.node .column_name [n]]) ?_
    refine First.optNone ?_ (First.exact h1 hk)
    refine No.seq ?_
    refine No.alt (a := .nt .schema_name ⬝ .tok .DOT) (b := .eps) ?_ ?_
    · exact No.seq (No.exact h2 (No.off hS (by krfl)))
    · have h : best ((.nt .table_name) ⬝ (.tok .DOT)) (best (.nt .column_name) k) (kw sp .OPEN_PAR :: (x.toks sp ++ kw sp .CLOSE_PAR :: us)) = none :=
        No.seq (No.exact h3 (No.off hS (by krfl)))
      rw [No, best_eps, h]; rfl

/-- Trees without labels and suffixes, none of them a value or condition. -/
structure Bare (l : List Tree) : Prop where
  unlab : Gram.unlab l = l
  plain : ∀ t ∈ l, ∀ r, r ≠ .expr → r ≠ .column_name → t.isRule r = false
  fold : foldExpr l = [.node .expr l]

theorem bare_name (n : Tree) : Bare [.node .column_name [n]] := by
  refine ⟨rfl, ?_, rfl⟩
  intro t ht r _ hr
  rw [List.mem_singleton] at ht
  subst ht
  exact isRule_ne hr

theorem bare_parens (x : Lit) (xs : List Lit) : Bare (.leaf (kw sp .OPEN_PAR) :: exprT (litT sp x) ::
    (tailT sp (fun l => exprT (litT sp l)) xs ++ [.leaf (kw sp .CLOSE_PAR)])) := by
  refine ⟨?_, ?_, ?_⟩
  · have h := unlab_tail (sp := sp) (T := fun l => exprT (litT sp l)) (r := .expr) (fun x => ⟨_, rfl⟩) xs
    show .leaf (kw sp .OPEN_PAR) :: exprT (litT sp x) :: Gram.unlab (tailT sp (fun l => exprT (litT sp l)) xs ++ [.leaf (kw sp .CLOSE_PAR)]) = _
    rw [unlab_append, h]; rfl
  · intro t ht r hr _
    simp only [List.mem_cons, List.mem_append, List.not_mem_nil, or_false] at ht
    rcases ht with rfl | rfl | ht | rfl
    all_goals first | rfl | exact isRule_ne hr | exact tailT_plain xs t ht r hr
  · have h : ∀ l : List Tree, (∀ t ∈ l, ∀ cs, t ≠ .seg cs) → foldExpr l = [.node .expr l] := by
      intro l hl
      have : beforeSegs l = l ∧ fromSegs l = [] := by
        induction l with
        | nil => exact ⟨rfl, rfl⟩
        | cons t l ih =>
          have ih := ih (fun t ht => hl t (List.mem_cons_of_mem _ ht))
          cases t with
          | seg cs => exact absurd rfl (hl _ (List.mem_cons_self ..) cs)
          | _ => exact ⟨congrArg _ ih.1, ih.2⟩
      rw [foldExpr, this.1, this.2]; rfl
    refine h _ ?_
    have ht : ∀ ys : List Lit, ∀ t ∈ tailT sp (fun l => exprT (litT sp l)) ys, ∀ cs, t ≠ .seg cs := by
      intro ys
      induction ys with
      | nil => intro t ht; simp [tailT] at ht
      | cons y ys ih =>
        have e : tailT sp (fun l => exprT (litT sp l)) (y :: ys) = .leaf (kw sp .COMMA) :: exprT (litT sp y) :: tailT sp (fun l => exprT (litT sp l)) ys := rfl
        rw [e]
        intro t ht cs hc
        rcases List.mem_cons.mp ht with rfl | ht
        · cases hc
        · rcases List.mem_cons.mp ht with rfl | ht
          · cases hc
          · exact ih t ht cs hc
    intro t hm cs hc
    simp only [List.mem_cons, List.mem_append, List.not_mem_nil, or_false] at hm
    rcases hm with rfl | rfl | hm | rfl
    · cases hc
    · cases hc
    · exact ht xs t hm cs hc
    · cases hc

theorem in_primary (x : Lit) (xs : List Lit) {us : List Token} (hS : Heads exprFollow us) (hk : k us = some v) :
    ∃ l, First primary k (kw sp .OPEN_PAR :: (x.toks sp ++ (tailToks sp (Lit.toks sp) xs ++ kw sp .CLOSE_PAR :: us))) l v ∧ Bare l := by
  cases xs with
  | cons y ys =>
    refine ⟨_, parens_primary x (y :: ys) hk ?_, bare_parens x _⟩
    have e : tailToks sp (Lit.toks sp) (y :: ys) ++ kw sp .CLOSE_PAR :: us = kw sp .COMMA :: (y.toks sp ++ (tailToks sp (Lit.toks sp) ys ++ kw sp .CLOSE_PAR :: us)) := by
      simp [tailToks]
    rw [e]
    generalize (y.toks sp ++ (tailToks sp (Lit.toks sp) ys ++ kw sp .CLOSE_PAR :: us)) = us
    intro e he
    simp only [named, List.mem_cons, List.not_mem_nil, or_false] at he
    rcases he with rfl | rfl | rfl | rfl | rfl | rfl <;> cases x with
    | word w s => cases w <;> krfl
    | _ => krfl
  | nil =>
    show ∃ l, First primary k (kw sp .OPEN_PAR :: (x.toks sp ++ kw sp .CLOSE_PAR :: us)) l v ∧ Bare l
    have hp : (∀ e ∈ named, runs 60 e (kw sp .OPEN_PAR :: (x.toks sp ++ (tailToks sp (Lit.toks sp) [] ++ kw sp .CLOSE_PAR :: us))) = some []) →
        ∃ l, First primary k (kw sp .OPEN_PAR :: (x.toks sp ++ kw sp .CLOSE_PAR :: us)) l v ∧ Bare l := fun h => ⟨_, parens_primary x [] hk h, bare_parens x []⟩
    have hnot : ∀ n, (∀ r ∈ [Rule.column_name, .schema_name, .table_name], runs 60 (.nt r) (kw sp .OPEN_PAR :: (x.toks sp ++ kw sp .CLOSE_PAR :: us)) = some [([.node r [n]], us)]) →
        ∃ l, First primary k (kw sp .OPEN_PAR :: (x.toks sp ++ kw sp .CLOSE_PAR :: us)) l v ∧ Bare l := fun n h => ⟨_, name_primary x hS hk h, bare_name n⟩
    cases x with
    | word w s =>
      refine hnot (.node .any_name [.leaf (kw sp .OPEN_PAR), .node .any_name [.node .keyword [.leaf ⟨w.tok, s⟩]], .leaf (kw sp .CLOSE_PAR)]) ?_
      intro r hr
      simp only [List.mem_cons, List.not_mem_nil, or_false] at hr
      rcases hr with rfl | rfl | rfl <;> cases w <;> krfl
    | str s =>
      refine hnot (.node .any_name [.leaf (kw sp .OPEN_PAR), .node .any_name [.leaf ⟨.STRING_LITERAL, s⟩], .leaf (kw sp .CLOSE_PAR)]) ?_
      intro r hr
      simp only [List.mem_cons, List.not_mem_nil, or_false] at hr
      rcases hr with rfl | rfl | rfl <;> krfl
    | _ =>
      refine hp ?_
      intro e he
      simp only [named, List.mem_cons, List.not_mem_nil, or_false] at he
      rcases he with rfl | rfl | rfl | rfl | rfl | rfl <;> krfl

theorem isIn_first (a : Str) (x : Lit) (xs : List Lit) (hS : Heads exprFollow rest) (hk : k rest = some v) :
    ∃ T, First (.expr 0) k (ident a :: kw sp .IN_ :: kw sp .OPEN_PAR ::
      (x.toks sp ++ (tailToks sp (Lit.toks sp) xs ++ kw sp .CLOSE_PAR :: rest))) [T] v ∧ Unseen T := by
  have h : ∃ cs, First (.expr 14) (best (.star (suffix 0)) k) (kw sp .OPEN_PAR ::
      (x.toks sp ++ (tailToks sp (Lit.toks sp) xs ++ kw sp .CLOSE_PAR :: rest))) [.node .expr cs] ([], v) := by
    obtain ⟨l, h, _⟩ := in_primary (k := best (.star (suffix 14)) (best (.star (suffix 0)) k)) (v := ([], ([], v))) (sp := sp) x xs hS (First.starOff hS (suffix_off hS hk))
    have hf := First.expr (p := 14) (First.seq (a := primary) (b := .star (suffix 14)) (m := []) h)
    obtain ⟨ds, hd⟩ := foldExpr_node (l ++ [])
    rw [hd] at hf
    exact ⟨ds, hf⟩
  obtain ⟨cs, h⟩ := h
  refine suffixed a Heads.kw (l := [.leaf (kw sp .IN_), .node .expr cs]) rfl .of ?_
  refine First.altR (No.at (t := .IN_) rfl) (First.altR (No.at (t := .IN_) rfl) (First.altL (First.seg ?_)))
  refine First.seq (l := [.leaf (kw sp .IN_)]) ?_
  iterate 3 refine First.altR (No.empty) ?_
  exact First.altL (First.tok rfl h)

/-- These conditions are accepted, as trees in which the visitor finds none. -/
theorem other_first (c : OtherCond) (hS : Heads exprFollow rest) (hr : ∀ t ∈ lostInner, Rejects k t) (hk : k rest = some v) :
    ∃ T, First (.expr 0) k (c.toks sp ++ rest) [T] v ∧ Unseen T := by
  cases c with
  | paren c => simpa [OtherCond.toks] using paren_first (sp := sp) c hS hk
  | neg c => exact neg_first c hS hr hk
  | is a l => exact is_first a l hS hk
  | isNotNull a => exact isNotNull_first a hS hr hk
  | like a l => exact like_first a l hS hk
  | isIn a x xs =>
    have e : (OtherCond.isIn a x xs).toks sp ++ rest = ident a :: kw sp .IN_ :: kw sp .OPEN_PAR ::
        (x.toks sp ++ (tailToks sp (Lit.toks sp) xs ++ kw sp .CLOSE_PAR :: rest)) := by
      rw [OtherCond.toks, commas_map]; simp
    rw [e]
    exact isIn_first a x xs hS hk
  | notIn a x xs =>
    have e : (OtherCond.notIn a x xs).toks sp ++ rest = ident a :: kw sp .NOT_ :: kw sp .IN_ :: kw sp .OPEN_PAR ::
        (x.toks sp ++ (tailToks sp (Lit.toks sp) xs ++ kw sp .CLOSE_PAR :: rest)) := by
      rw [OtherCond.toks, commas_map]; simp
    rw [e]
    exact notIn_first a x xs hS hk
  | between a x y => simpa [OtherCond.toks] using between_first (sp := sp) a x y hS hk
  | isnull a => exact null_first a _ (by simp) hS hk
  | notnull a => exact null_first a _ (by simp) hS hk

theorem lostInner_quiet {q : List Token → Option β} (hq : Quiet q) : ∀ t ∈ lostInner, Rejects (best (.opt (.nt .returning_clause)) q) t := by
  intro x hx
  have hs : lostInner.all (fun t => !startsWith (.opt (.nt .returning_clause)) t && !stmtStart t) = true := by krfl
  have h := List.all_eq_true.mp hs x hx
  rw [Bool.and_eq_true] at h
  exact Rejects.best (hq x (by simpa using h.2)) (by simpa using h.1)

/-! ### Statements with these conditions -/

/-- The tree of a DELETE whose condition has the tree. -/
def lostDeleteT (sp : Spelling) (t : Str) (T : Tree) : Tree :=
  .node .delete_stmt [.leaf (kw sp .DELETE_), .leaf (kw sp .FROM_), .lab .table [qualifiedT t], .leaf (kw sp .WHERE_), .lab .whereExpr [T]]

theorem lost_delete_first (t : Str) (c : OtherCond) (hq : Quiet k) (h : Heads stmtFollow rest) (hk : k rest = some v) :
    ∃ T, First (.nt .delete_stmt) k (kw sp .DELETE_ :: kw sp .FROM_ :: ident t :: kw sp .WHERE_ :: (c.toks sp ++ rest)) [lostDeleteT sp t T] v ∧ Unseen T := by
  obtain ⟨T, hT, hu⟩ := other_first (sp := sp) (k := best (.opt (.nt .returning_clause)) k) (rest := rest) (v := ([], v)) c (h.mono (by decide))
    (lostInner_quiet hq) (First.optOff h hk)
  refine ⟨T, ?_, hu⟩
  refine First.nt (First.seq (l := []) (First.optOff (S := [.DELETE_]) Heads.kw ?_))
  refine First.seq (First.tok rfl ?_)
  refine First.seq (First.tok rfl ?_)
  refine First.seq (First.lab (qualified_first t (S := [.WHERE_]) Heads.kw (by krfl) (by krfl) (by krfl) ?_))
  exact First.seq (l := [.leaf (kw sp .WHERE_), .lab .whereExpr [T]]) (m := []) (First.optSome (First.seq (First.tok rfl (First.lab hT))))

theorem lost_delete_visit (t : Str) {T : Tree} (hu : Unseen T) : Visit.delete (lostDeleteT sp t T) = Visit.delete (deleteT sp ⟨t, none⟩) := by
  have h1 : labelText .table (lostDeleteT sp t T) = .ok t := by
    have : (lostDeleteT sp t T).label .table = some (qualifiedT t) := rfl
    rw [labelText, this]
    simp [Res.must, Res.bind, qualifiedT, Tree.text, textAll, text_name]
  have h3 : whereOf (lostDeleteT sp t T) = .ok none := by
    have : (lostDeleteT sp t T).label .whereExpr = some T := rfl
    rw [whereOf, this]; exact hu.1
  rw [delete_visit, Visit.delete, h1]
  simp only [Res.bind, h3]
  rfl

/-- The tree of an UPDATE whose condition has the tree. -/
def lostUpdateT (sp : Spelling) (t : Str) (a : SetS) (as : List SetS) (T : Tree) : Tree :=
  .node .update_stmt (.leaf (kw sp .UPDATE_) :: .lab .table [qualifiedT t] :: .leaf (kw sp .SET_) :: setT sp a ::
    (tailT sp (setT sp) as ++ [.leaf (kw sp .WHERE_), .lab .whereExpr [T]]))

theorem lost_update_first (t : Str) (a : SetS) (as : List SetS) (c : OtherCond) (hq : Quiet k) (h : Heads stmtFollow rest) (hk : k rest = some v) :
    ∃ T, First (.nt .update_stmt) k (kw sp .UPDATE_ :: ident t :: kw sp .SET_ :: (a.toks sp ++ (tailToks sp (SetS.toks sp) as ++
      kw sp .WHERE_ :: (c.toks sp ++ rest)))) [lostUpdateT sp t a as T] v ∧ Unseen T := by
  obtain ⟨T, hT, hu⟩ := other_first (sp := sp) (k := best (.opt (.nt .returning_clause)) k) (rest := rest) (v := ([], v)) c (h.mono (by decide))
    (lostInner_quiet hq) (First.optOff h hk)
  refine ⟨T, ?_, hu⟩
  have h1 : Heads [.WHERE_] (kw sp .WHERE_ :: (c.toks sp ++ rest)) := Heads.kw
  have h2 : Heads exprFollow (kw sp .WHERE_ :: (c.toks sp ++ rest)) := h1.mono (by decide)
  refine First.nt (First.seq (l := []) (First.optOff (S := [.UPDATE_]) Heads.kw ?_))
  refine First.seq (First.tok rfl ?_)
  refine First.seq (l := []) (First.optOff (S := [.IDENTIFIER]) Heads.ident ?_)
  refine First.seq (First.lab (qualified_first t (S := [.SET_]) Heads.kw (by krfl) (by krfl) (by krfl) ?_))
  refine First.seq (First.tok rfl ?_)
  refine First.seq (l := [setT sp a]) (set_first a (heads_tail as (by decide) h2) ?_)
  refine First.seq (list_first (R := []) (Fol := Heads exprFollow) (by simp) (fun r => Heads.kw)
    (fun q w x us _ h hq => set_first x h hq) as (by simp) h2 h1.noComma ?_)
  refine First.seq (l := []) (First.optOff h1 ?_)
  exact First.seq (l := [.leaf (kw sp .WHERE_), .lab .whereExpr [T]]) (m := []) (First.optSome (First.seq (First.tok rfl (First.lab hT))))

theorem lost_update_visit (hg : sp.Good) (t : Str) (a : SetS) (as : List SetS) {T : Tree} (hu : Unseen T) :
    Visit.update (lostUpdateT sp t a as T) = Visit.update (updateT sp ⟨t, a, as, none⟩) := by
  have h1 : labelText .table (lostUpdateT sp t a as T) = .ok t := by
    have : (lostUpdateT sp t a as T).label .table = some (qualifiedT t) := rfl
    rw [labelText, this]
    simp [Res.must, Res.bind, qualifiedT, Tree.text, textAll, text_name]
  obtain ⟨cs, hT⟩ := hu.2
  have hk : (lostUpdateT sp t a as T).kids = .leaf (kw sp .UPDATE_) :: qualifiedT t :: .leaf (kw sp .SET_) ::
      setT sp a :: (tailT sp (setT sp) as ++ [.leaf (kw sp .WHERE_), T]) := by
    have : (lostUpdateT sp t a as T).kids = .leaf (kw sp .UPDATE_) :: qualifiedT t :: .leaf (kw sp .SET_) ::
      setT sp a :: unlab (tailT sp (setT sp) as ++ [.leaf (kw sp .WHERE_), .lab .whereExpr [T]]) := rfl
    rw [this, unlab_append, unlab_tail (isNode_set (sp := sp))]; rfl
  have h2 : (lostUpdateT sp t a as T).all .update_column_set = (a :: as).map (setT sp) := by
    rw [Tree.all, hk, hT]
    have h0 : Tree.isRule .update_column_set (setT sp a) = true := rfl
    have h1 : Tree.isRule .update_column_set (qualifiedT t) = false := rfl
    simp only [List.filter_cons, h0, h1, List.filter_append, rules_tail (isNode_set (sp := sp))]
    simp [Tree.isRule]
  have h3 : whereOf (lostUpdateT sp t a as T) = .ok none := by
    have h0 : (lostUpdateT sp t a as T).labels .whereExpr =
        labelled .whereExpr (tailT sp (setT sp) as ++ [.leaf (kw sp .WHERE_), .lab .whereExpr [T]]) := rfl
    have : (lostUpdateT sp t a as T).label .whereExpr = some T := by
      rw [Tree.label, h0, labelled_append, labelled_tail (isNode_set (sp := sp))]; rfl
    rw [whereOf, this]; exact hu.1
  rw [update_visit hg, Visit.update, h1, h2]
  simp only [Res.bind, resAll_map (assignment_set hg), h3]
  rfl

/-- The first part of a SELECT whose condition has the tree. -/
def lostCoreT (sp : Spelling) (s : SelectS) (T : Tree) : Tree :=
  .node .select_core (.leaf (kw sp .SELECT_) :: itemT sp s.item ::
    (tailT sp (itemT sp) s.items ++ (fromT sp s.tables ++ ([.leaf (kw sp .WHERE_), .lab .whereExpr [T]] ++ groupT sp s.group))))

/-- The tree of a SELECT whose condition has the tree. -/
def lostSelectT (sp : Spelling) (s : SelectS) (T : Tree) : Tree :=
  .node .select_stmt (.lab .parentQuery [lostCoreT sp s T] :: (ordersT sp s.orders ++ limitT sp s.limit))

theorem other_follow (c : OtherCond) (r : List Token) : TableFollow (kw sp .WHERE_ :: (c.toks sp ++ r)) := by
  cases c with
  | paren c => exact .inr ⟨_, _, _, rfl, by simp [kw], .inl (by simp [kw])⟩
  | neg c =>
    obtain ⟨a, r', hc⟩ := cond_head (sp := sp) c
    refine .inr ⟨_, _, _, rfl, by simp [kw], .inr ⟨rfl, ?_⟩⟩
    rw [hc]; exact Heads.ident
  | _ => exact .inr ⟨_, _, _, rfl, by simp [kw], .inl (by simp [ident])⟩

theorem lost_select_first (s : SelectS) (c : OtherCond) (hq : Quiet k) (h : Heads stmtFollow rest) (hk : k rest = some v) :
    ∃ T, First (.nt .select_stmt) k (kw sp .SELECT_ :: (s.item.toks sp ++ (tailToks sp (ItemS.toks sp) s.items ++ (fromToks sp s.tables ++
      (kw sp .WHERE_ :: (c.toks sp ++ (groupToks sp s.group ++ (ordersToks sp s.orders ++ (s.limit.toks sp ++ rest))))))))) [lostSelectT sp s T] v ∧ Unseen T := by
  obtain ⟨item, items, tables, cond, group, orders, limit⟩ := s
  have h4 := limit_heads (sp := sp) limit h
  have h3 := orders_heads (sp := sp) orders h4
  have h2 := group_heads (sp := sp) group h3
  have h1 : Heads (.WHERE_ :: whereFollow) (kw sp .WHERE_ :: (c.toks sp ++ (groupToks sp group ++ (ordersToks sp orders ++ (limit.toks sp ++ rest))))) := Heads.kw
  have h0 := from_heads (sp := sp) tables h1
  have hi := heads_tail (sp := sp) (f := ItemS.toks sp) items (by decide) h0
  have hrest := First.seq (l := []) (First.starOff (a := (.nt .compound_operator) ⬝ (.nt .select_core)) h3
    (First.seq (orders_first orders h4 (limit_first limit h hk))))
  have hgroup := First.seq (group_first (sp := sp) group h3 (First.optOff (a := (.tok .WINDOW_) ⬝ (.nt .window_name) ⬝ (.tok .AS_) ⬝
      (.nt .window_defn) ⬝ (.star ((.tok .COMMA) ⬝ (.nt .window_name) ⬝ (.tok .AS_) ⬝ (.nt .window_defn)))) h3 hrest))
  rw [List.append_nil] at hgroup
  obtain ⟨T, hT, hu⟩ := other_first (sp := sp) c (h2.mono (by decide)) (by
    intro x hx
    simp only [lostInner, condInner, List.cons_append, List.nil_append, List.mem_cons, List.not_mem_nil, or_false] at hx
    rcases hx with rfl | rfl | rfl | rfl | rfl | rfl | rfl | rfl | rfl | rfl | rfl <;> quiet hq) hgroup
  refine ⟨T, ?_, hu⟩
  refine First.nt (First.seq (l := []) (First.optOff (S := [.SELECT_]) Heads.kw ?_))
  refine First.seq (l := [_]) (m := ordersT sp orders ++ limitT sp limit) (First.lab (First.nt (First.altL ?_)))
  refine First.seq (First.tok rfl ?_)
  have hin : Heads (Tok.STAR :: atomStart) (item.toks sp ++ (tailToks sp (ItemS.toks sp) items ++ (fromToks sp tables ++
      (kw sp .WHERE_ :: (c.toks sp ++ (groupToks sp group ++ (ordersToks sp orders ++ (limit.toks sp ++ rest)))))))) := by
    cases item with
    | star => exact Heads.kw
    | atom a => exact (atom_heads a _).mono (by decide)
    | fn f args => exact Heads.ident
  refine First.seq (l := []) (First.optOff hin ?_)
  have hopen : ∀ {γ : Type} {q : List Token → Option γ}, Rejects q .OPEN_PAR → ∀ t ∈ [Tok.OPEN_PAR], Rejects q t := by
    intro γ q hq t ht
    rw [List.mem_singleton] at ht
    rw [ht]; exact hq
  refine First.seq (item_first item (hopen (by quiet hq)) hi ?_)
  refine First.seq (list_first (R := [.OPEN_PAR]) (Fol := Heads exprFollow) (by decide) (fun r => Heads.kw)
      (fun q w x us hr h hq => item_first x hr h hq) items (hopen (by quiet hq)) h0 ?_ ?_)
  · cases tables with
    | nil => exact h1.noComma
    | cons => exact Heads.noComma (S := [.FROM_]) Heads.kw
  refine First.seq (from_first tables ?_ (other_follow c _) h1 ?_)
  · intro x hx
    simp only [List.mem_cons, List.not_mem_nil, or_false] at hx
    rcases hx with rfl | rfl | rfl | rfl | rfl <;> quiet hq
  exact First.seq (l := [.leaf (kw sp .WHERE_), .lab .whereExpr [T]]) (First.optSome (First.seq (First.tok rfl (First.lab hT))))

theorem lost_core_all (s : SelectS) {T : Tree} (hu : Unseen T) (r : Rule) (hr : r ≠ .expr) :
    (lostCoreT sp s T).all r = (coreT sp { s with cond := none }).all r := by
  obtain ⟨cs, hT⟩ := hu.2
  have h1 : (unlab [Tree.leaf (kw sp .WHERE_), .lab .whereExpr [T]]).filter (Tree.isRule r) = [] := by
    show [Tree.leaf (kw sp .WHERE_), T].filter (Tree.isRule r) = []
    rw [hT]
    have : decide (Rule.expr = r) = false := by simpa using fun h => hr h.symm
    simp [Tree.isRule, this, Ne.symm hr]
  have e1 : (lostCoreT sp s T).kids = unlab (.leaf (kw sp .SELECT_) :: itemT sp s.item ::
    (tailT sp (itemT sp) s.items ++ (fromT sp s.tables ++ ([.leaf (kw sp .WHERE_), .lab .whereExpr [T]] ++ groupT sp s.group)))) := rfl
  have e2 : (coreT sp { s with cond := none }).kids = unlab (.leaf (kw sp .SELECT_) :: itemT sp s.item ::
    (tailT sp (itemT sp) s.items ++ (fromT sp s.tables ++ groupT sp s.group))) := rfl
  obtain ⟨ds, hd⟩ := isNode_item (sp := sp) s.item
  rw [Tree.all, Tree.all, e1, e2, hd]
  generalize [Tree.leaf (kw sp .WHERE_), .lab .whereExpr [T]] = W at h1
  simp only [unlab, unlab_append, List.filter_cons, List.filter_append, h1, List.nil_append]

theorem lost_core_labels (s : SelectS) (T : Tree) (l : Lab) :
    (lostCoreT sp s T).labels l = labelled l [.leaf (kw sp .WHERE_), .lab .whereExpr [T]] ++ labelled l (groupT sp s.group) := by
  obtain ⟨cs, hc⟩ := isNode_item (sp := sp) s.item
  simp only [lostCoreT, Tree.labels, labelled, hc, labelled_append, labelled_tail (isNode_item (sp := sp)), labelled_from, List.nil_append]

theorem lost_select_visit (toUint : Str → Option Nat) (s : SelectS) {T : Tree} (hu : Unseen T) :
    Visit.select toUint (lostSelectT sp s T) = Visit.select toUint (selectT sp { s with cond := none }) := by
  have h1 : (lostSelectT sp s T).label .parentQuery = some (lostCoreT sp s T) := rfl
  have h1' : (selectT sp { s with cond := none }).label .parentQuery = some (coreT sp { s with cond := none }) := rfl
  have h2 : whereOf (lostCoreT sp s T) = .ok none := by
    have : (lostCoreT sp s T).label .whereExpr = some T := by rw [Tree.label, lost_core_labels]; rfl
    rw [whereOf, this]; exact hu.1
  have h2' : whereOf (coreT sp { s with cond := none }) = .ok none := by
    have : (coreT sp { s with cond := none }).label .whereExpr = none := by
      rw [Tree.label, core_labels]
      show (labelled Lab.whereExpr (groupT sp s.group)).head? = none
      cases s.group <;> rfl
    rw [whereOf, this]
  have h3 : groupOf (lostCoreT sp s T) = groupOf (coreT sp { s with cond := none }) := by
    rw [groupOf, groupOf, core_labels, lost_core_labels]; rfl
  have h4 : ordersOf (lostSelectT sp s T) = ordersOf (selectT sp { s with cond := none }) := rfl
  have h5 : limitOf toUint (lostSelectT sp s T) = limitOf toUint (selectT sp { s with cond := none }) := rfl
  rw [Visit.select, Visit.select, h1, h1']
  simp only [h2, h2', h3, h4, h5, lost_core_all s hu _ (show Rule.result_column ≠ .expr by decide), lost_core_all s hu _ (show Rule.from ≠ .expr by decide)]

/-! ### Queries that start with such a statement -/

/-- A query is parsed to the objects of its statements if its first statement is, whatever the statement is. -/
theorem parse_first (toUint : Str → Option Nat) (hg : sp.Good) {q : Str} {toks : List Token} (t : Tok) {r : List Token} (ht : toks = kw sp t :: r)
    (hb : t ∈ .EXPLAIN_ :: .REPLACE_ :: .END_ :: startToks) (o : Statement) (ss : List StmtS) (n : Nat)
    (hf : ∀ {γ : Type} {k : List Token → Option γ} {v : γ} {rest : List Token}, Quiet k → Heads stmtFollow rest → k rest = some v →
      ∃ T, First (.nt .sql_stmt) k (toks ++ rest) [T] v ∧ T.IsNode .sql_stmt ∧ statement toUint T = .ok (some o))
    {ts : List Token} (hl : lex q = some ts)
    (hv : visible ts = toks ++ (ss.flatMap (fun s => kw sp .SCOL :: s.toks sp) ++ List.replicate n (kw sp .SCOL))) :
    Parse.parseQuery toUint q = .ok (o :: ss.map (stmtV toUint sp)) := by
  obtain ⟨T, hT, hn, ho⟩ := hf quiet_tail (more_heads (sp := sp) ss n) (First.seq (more_first ss n))
  have hq : Parse.treeOf q = some (.node .parse [.node .sql_stmt_list (T :: (moreT sp ss ++ List.replicate n (.leaf (kw sp .SCOL))))]) := by
    rw [Parse.treeOf, hl, Option.bind_some, hv]
    refine first_parseTree (us := []) (First.nt ?_)
    refine First.seq (l := [.node .sql_stmt_list (T :: (moreT sp ss ++ List.replicate n (.leaf (kw sp .SCOL))))]) (m := []) ?_
    refine First.starCons (l := [.node .sql_stmt_list (T :: (moreT sp ss ++ List.replicate n (.leaf (kw sp .SCOL))))]) (m := []) (First.nt ?_)
    refine First.seq (l := []) (First.starOff (S := .EXPLAIN_ :: .REPLACE_ :: .END_ :: startToks) ?_ ?_)
    · rw [ht]; exact Heads.cons hb
    · exact First.seq (l := [T]) hT
  have he : Parse.isEmptyQuery q = false := by
    cases h : Parse.isEmptyQuery q with
    | false => rfl
    | true =>
      exfalso
      rw [Parse.isEmptyQuery, Bool.or_eq_true] at h
      rw [ht, List.cons_append] at hv
      rcases h with h | h
      · have : q = [] := by simpa using h
        subst this
        have hl' : lex [] = some [] := by rfl
        rw [hl'] at hl
        cases hl
        exact absurd hv (by simp [visible])
      · have : q = s%";" := by simpa using h
        subst this
        have hl' : lex s%";" = some [⟨.SCOL, s%";"⟩] := by decide +kernel
        rw [hl'] at hl
        cases hl
        have : visible [⟨.SCOL, s%";"⟩] = [⟨.SCOL, s%";"⟩] := rfl
        rw [this] at hv
        have : Tok.SCOL = t := congrArg Token.kind (List.cons.inj hv).1
        subst this
        exact absurd hb (by decide)
  rw [Parse.parseQuery, Parse.Parser.parseString, he]
  simp only [Bool.false_eq_true, if_false, hq, Parse.newParser]
  have h1 : (Tree.node .parse [.node .sql_stmt_list (T :: (moreT sp ss ++ List.replicate n (.leaf (kw sp .SCOL))))]).all .sql_stmt_list =
      [.node .sql_stmt_list (T :: (moreT sp ss ++ List.replicate n (.leaf (kw sp .SCOL))))] := rfl
  have hu := unlab_more (sp := sp) ss
  have hr := unlab_scols (sp := sp) n
  have hf := rules_more (sp := sp) ss
  have h2 : (Tree.node .sql_stmt_list (T :: (moreT sp ss ++ List.replicate n (.leaf (kw sp .SCOL))))).all .sql_stmt = T :: ss.map (stmtT sp) := by
    obtain ⟨cs, hc⟩ := hn
    rw [Tree.all, Tree.kids, hc]
    simp only [unlab, unlab_append, hu, hr, List.filter_cons, List.filter_append, hf]
    simp [Tree.isRule]
  have hp : ∀ x, x ∈ ss → x.Plain := fun x hx => plain_of_lex (sp := sp) hl x (fun t htx => by
    have hm : t ∈ visible ts := by
      rw [hv]
      exact List.mem_append_right _ (List.mem_append_left _ (List.mem_flatMap.mpr ⟨x, hx, List.mem_cons_of_mem _ htx⟩))
    exact (List.mem_filter.mp hm).1)
  rw [statements, h1]
  simp only [List.flatMap_cons, List.flatMap_nil, List.append_nil, h2, Res.all, ho, Res.bind,
    resAll_mem _ (fun x hx => statement_stmt toUint hg x (hp x hx))]
  simp [List.filterMap_map, Function.comp_def]

/-- The tokens of the other statements of a query. -/
def moreToks (sp : Spelling) (ss : List StmtS) (n : Nat) : List Token :=
  ss.flatMap (fun s => kw sp .SCOL :: s.toks sp) ++ List.replicate n (kw sp .SCOL)

theorem parse_lost_delete (toUint : Str → Option Nat) (hg : sp.Good) {q : Str} {ts : List Token} (hl : lex q = some ts) (t : Str) (c : OtherCond)
    (ss : List StmtS) (n : Nat) (hv : visible ts = kw sp .DELETE_ :: kw sp .FROM_ :: ident t :: kw sp .WHERE_ :: (c.toks sp ++ moreToks sp ss n)) :
    Parse.parseQuery toUint q = .ok ((StmtS.delete ⟨t, none⟩ :: ss).map (stmtV toUint sp)) := by
  refine parse_first toUint hg (toks := kw sp .DELETE_ :: kw sp .FROM_ :: ident t :: kw sp .WHERE_ :: c.toks sp) .DELETE_ rfl (by decide) _ ss n ?_ hl hv
  intro γ k v rest hq h hk
  obtain ⟨T, hT, hu⟩ := lost_delete_first (sp := sp) t c hq h hk
  refine ⟨.node .sql_stmt [lostDeleteT sp t T], ?_, ⟨_, rfl⟩, ?_⟩
  · refine First.nt (First.seq (l := []) (First.optOff (S := [.DELETE_]) Heads.kw ?_))
    iterate 12 refine First.altR (No.at (t := .DELETE_) rfl) ?_
    exact First.altL hT
  · have : statement toUint (.node .sql_stmt [lostDeleteT sp t T]) = (Visit.delete (lostDeleteT sp t T)).bind (fun s => .ok (some s)) := rfl
    rw [this, lost_delete_visit t hu, delete_visit]; rfl

theorem parse_lost_update (toUint : Str → Option Nat) (hg : sp.Good) {q : Str} {ts : List Token} (hl : lex q = some ts) (t : Str) (a : SetS) (as : List SetS) (c : OtherCond)
    (ss : List StmtS) (n : Nat) (hv : visible ts = (StmtS.update ⟨t, a, as, none⟩).toks sp ++ (kw sp .WHERE_ :: (c.toks sp ++ moreToks sp ss n))) :
    Parse.parseQuery toUint q = .ok ((StmtS.update ⟨t, a, as, none⟩ :: ss).map (stmtV toUint sp)) := by
  have e : (StmtS.update ⟨t, a, as, none⟩).toks sp = kw sp .UPDATE_ :: ident t :: kw sp .SET_ :: (a.toks sp ++ tailToks sp (SetS.toks sp) as) := by
    show UpdateS.toks sp ⟨t, a, as, none⟩ = _
    rw [UpdateS.toks, commas_map]; simp [whereToks]
  rw [e] at hv
  refine parse_first toUint hg (toks := kw sp .UPDATE_ :: ident t :: kw sp .SET_ :: (a.toks sp ++ (tailToks sp (SetS.toks sp) as ++ (kw sp .WHERE_ :: c.toks sp))))
    .UPDATE_ rfl (by decide) _ ss n ?_ hl (by rw [hv]; simp [moreToks])
  intro γ k v rest hq h hk
  obtain ⟨T, hT, hu⟩ := lost_update_first (sp := sp) t a as c hq h hk
  refine ⟨.node .sql_stmt [lostUpdateT sp t a as T], ?_, ⟨_, rfl⟩, ?_⟩
  · refine First.nt (First.seq (l := []) (First.optOff (S := [.UPDATE_]) Heads.kw ?_))
    iterate 27 refine First.altR (No.at (t := .UPDATE_) rfl) ?_
    refine First.altL ?_
    simpa only [List.cons_append, List.append_assoc] using hT
  · have : statement toUint (.node .sql_stmt [lostUpdateT sp t a as T]) = (Visit.update (lostUpdateT sp t a as T)).bind (fun s => .ok (some s)) := rfl
    rw [this, lost_update_visit hg t a as hu, update_visit hg]; rfl

theorem parse_lost_select (toUint : Str → Option Nat) (hg : sp.Good) {q : Str} {ts : List Token} (hl : lex q = some ts) (s : SelectS) (c : OtherCond)
    (ss : List StmtS) (n : Nat) (hv : visible ts = kw sp .SELECT_ :: (commas sp ((s.item :: s.items).map (ItemS.toks sp)) ++ (fromToks sp s.tables ++
      (kw sp .WHERE_ :: (c.toks sp ++ (groupToks sp s.group ++ (ordersToks sp s.orders ++ (s.limit.toks sp ++ moreToks sp ss n)))))))) :
    Parse.parseQuery toUint q = .ok ((StmtS.select { s with cond := none } :: ss).map (stmtV toUint sp)) := by
  rw [commas_map] at hv
  refine parse_first toUint hg (toks := kw sp .SELECT_ :: (s.item.toks sp ++ (tailToks sp (ItemS.toks sp) s.items ++ (fromToks sp s.tables ++
      (kw sp .WHERE_ :: (c.toks sp ++ (groupToks sp s.group ++ (ordersToks sp s.orders ++ s.limit.toks sp))))))))
    .SELECT_ rfl (by decide) _ ss n ?_ hl (by rw [hv]; simp [moreToks])
  intro γ k v rest hq h hk
  obtain ⟨T, hT, hu⟩ := lost_select_first (sp := sp) s c hq h hk
  refine ⟨.node .sql_stmt [lostSelectT sp s T], ?_, ⟨_, rfl⟩, ?_⟩
  · refine First.nt (First.seq (l := []) (First.optOff (S := [.SELECT_]) Heads.kw ?_))
    iterate 26 refine First.altR (No.at (t := .SELECT_) rfl) ?_
    refine First.altL ?_
    simpa only [List.cons_append, List.append_assoc] using hT
  · have : statement toUint (.node .sql_stmt [lostSelectT sp s T]) = (Visit.select toUint (lostSelectT sp s T)).bind (fun s => .ok (some s)) := rfl
    rw [this, lost_select_visit toUint s hu, select_visit toUint hg]; rfl

end Verif.Gram
