import Verif.Lemmas.Shape
import Verif.Lemmas.Provenance
/-! Conditions are the WHERE clauses they are read from. -/
namespace Verif.Lemmas
open Verif Verif.Lex Verif.Gram Verif.Query Verif.Visit Verif.Util Verif.Spec

theorem trim_ends (cut s : Str) : ∃ a b, s = a ++ Str.trim cut s ++ b ∧ (∀ c, c ∈ a → cut.contains c = true) ∧
    ∀ c, c ∈ b → cut.contains c = true := by
  have e1 := List.takeWhile_append_dropWhile (p := fun c => cut.contains c) (l := s)
  have e2 := congrArg List.reverse (List.takeWhile_append_dropWhile (p := fun c => cut.contains c)
    (l := (s.dropWhile (fun c => cut.contains c)).reverse))
  rw [List.reverse_append, List.reverse_reverse] at e2
  refine ⟨s.takeWhile (fun c => cut.contains c),
    ((s.dropWhile (fun c => cut.contains c)).reverse.takeWhile (fun c => cut.contains c)).reverse, ?_, ?_, ?_⟩
  · rw [Str.trim_eq]
    conv => lhs; rw [← e1, ← e2]
    simp
  · intro c hc
    exact List.all_eq_true.mp List.all_takeWhile c hc
  · intro c hc
    rw [List.mem_reverse] at hc
    exact List.all_eq_true.mp List.all_takeWhile c hc

theorem unEscapeString_bare (s : Str) : BareEnds (unEscapeString s) := by
  constructor
  · intro c r h
    have := Str.trim_head _ _ _ _ h
    simpa using this
  · intro c r h
    have := Str.trim_last _ _ _ _ h
    simpa using this

theorem literal_other {e : Elem} {ts us : List Token} {vs : List Tree} (h : Derives e ts vs us)
    (hp : PlainValue (leavesAll vs)) (hs : absent .string_literal e = true) :
    LitTokens (leavesAll vs) (literalWith (.node .literal_value vs)) := by
  have hc : (Tree.node .literal_value vs).child .string_literal = none := by
    cases hc : (Tree.node .literal_value vs).child .string_literal with
    | none => rfl
    | some c =>
      obtain ⟨hm, cs, rfl⟩ := child_mem hc
      exact absurd hm (absent_sound h hs cs).1
  rw [literalWith, hc]
  show LitTokens _ { v := .str (Tree.text _) }
  rw [text_leaves, Tree.leaves]
  exact .other _ hp

theorem alt_inv {a b : Elem} {ts us : List Token} {l : List Tree} (h : Derives (a ∣ b) ts l us) : Derives a ts l us ∨ Derives b ts l us := by
  cases h with
  | altLeft h => exact Or.inl h
  | altRight h => exact Or.inr h

theorem plain_tok {k : Tok} {ts us : List Token} {l : List Tree} (h : Derives (.tok k) ts l us)
    (hk : k ∈ [Tok.NUMERIC_LITERAL, .BLOB_LITERAL, .NULL_, .TRUE_, .FALSE_, .CURRENT_TIME_, .CURRENT_DATE_,
      .CURRENT_TIMESTAMP_, .BIND_PARAMETER]) : PlainValue (leavesAll l) := by
  obtain ⟨x, rfl, hx⟩ := tok_inv h
  exact Or.inl ⟨x, by simp [leavesAll, Tree.leaves], by rw [hx]; exact hk⟩

theorem plain_number {ts us : List Token} {l : List Tree} (h : Derives (.nt .signed_number) ts l us) : PlainValue (leavesAll l) := by
  obtain ⟨cs, rfl, h1⟩ := nt_inv h
  obtain ⟨l1, l2, _, rfl, g1, g2⟩ := seq_inv (show Derives ((.opt ((.tok .PLUS) ∣ (.tok .MINUS))) ⬝ (.tok .NUMERIC_LITERAL)) _ _ _ from h1)
  obtain ⟨x, rfl, hx⟩ := tok_inv g2
  rcases opt_inv g1 with rfl | g1
  · exact Or.inl ⟨x, by simp [leavesAll, Tree.leaves], by rw [hx]; decide⟩
  · obtain ⟨s, rfl, hs⟩ := oneTok_sound (K := [.PLUS, .MINUS]) g1 (by decide)
    exact Or.inr ⟨s, x, by simp [leavesAll, Tree.leaves], hs, hx⟩

/-- A literal value is what its tokens say. -/
theorem literal_tokens {ts us : List Token} {vs : List Tree} (h : Derives (body .literal_value) ts vs us) :
    LitTokens (leavesAll vs) (literalWith (.node .literal_value vs)) := by
  rw [body] at h
  cases h with
  | altLeft h => exact literal_other h (plain_number h) (by decide)
  | altRight h =>
    cases h with
    | altRight h =>
      refine literal_other h ?_ (by decide)
      rcases alt_inv h with h | h
      · exact plain_tok h (by decide)
      rcases alt_inv h with h | h
      · exact plain_tok h (by decide)
      rcases alt_inv h with h | h
      · exact plain_tok h (by decide)
      rcases alt_inv h with h | h
      · exact plain_tok h (by decide)
      rcases alt_inv h with h | h
      · exact plain_tok h (by decide)
      rcases alt_inv h with h | h
      · exact plain_tok h (by decide)
      rcases alt_inv h with h | h
      · exact plain_tok h (by decide)
      obtain ⟨cs, rfl, h1⟩ := nt_inv h
      rw [leavesAll_one, Tree.leaves]
      exact plain_tok (show Derives (.tok .BIND_PARAMETER) _ _ _ from h1) (by decide)
    | altLeft h =>
      obtain ⟨cs, rfl, h1⟩ := nt_inv h
      obtain ⟨x, rfl, hx⟩ := tok_inv (show Derives (.tok .STRING_LITERAL) _ _ _ from h1)
      obtain ⟨a, b, h1, h2, h3⟩ := trim_ends s%"'\"" x.text
      have : literalWith (.node .literal_value [.node .string_literal [.leaf x]]) = { v := .str (unEscapeString x.text), t := .string } := by
        simp [literalWith, Tree.child, Tree.kids, unlab, Tree.isRule, Tree.text, textAll]
      rw [this, leavesAll_one, Tree.leaves, leavesAll_one, Tree.leaves]
      exact .str x a _ b hx h1 (fun c hc => by simpa using h2 c hc) (fun c hc => by simpa using h3 c hc) (unEscapeString_bare _)

/-- The tokens of comparison operators. -/
def opToks : List Tok := [.ASSIGN, .NOT_EQ1, .NOT_EQ2, .LT, .LT_EQ, .GT, .GT_EQ]

/-- The rules without a comparison operator. -/
def plainRules : List Rule := [.column_name, .any_name, .keyword, .literal_value, .signed_number, .string_literal, .bind_param]

theorem cmpOp_token {n v : Rule} {ns vs : List Tree} {o : Token} (ho : o.kind ∈ opToks) :
    ∃ op, cmpOp (.node .comparison_expr ([.node n ns] ++ ([.lab .ope [.leaf o]] ++ [.node v vs]))) = some op ∧ OpToken o.kind op := by
  have hk : ∀ k, ((Tree.node .comparison_expr ([.node n ns] ++ ([.lab .ope [.leaf o]] ++ [.node v vs]))).token k).isSome = decide (o.kind = k) := by
    intro k
    simp only [Tree.token, Tree.kids, List.cons_append, List.nil_append, unlab, List.find?, Tree.isTok]
    cases hd : decide (o.kind = k) <;> rfl
  simp only [cmpOp, hk]
  simp only [opToks, List.mem_cons, List.not_mem_nil, or_false] at ho
  rcases ho with ho | ho | ho | ho | ho | ho | ho <;> rw [ho]
  · exact ⟨_, rfl, .eq⟩
  · exact ⟨_, rfl, .ne1⟩
  · exact ⟨_, rfl, .ne2⟩
  · exact ⟨_, rfl, .lt⟩
  · exact ⟨_, rfl, .le⟩
  · exact ⟨_, rfl, .gt⟩
  · exact ⟨_, rfl, .ge⟩

/-- A comparison is what its tokens say. -/
theorem cmp_tokens {ts us : List Token} {c : Tree} (h : Derives (.nt .comparison_expr) ts [c] us) :
    ∃ x, cmpWith c = .ok (some (.cmp x)) ∧ CmpTokens c.leaves x := by
  obtain ⟨cs, hc, hb⟩ := nt_inv h
  cases hc
  obtain ⟨l1, m, _, rfl, h1, hm⟩ := seq_inv hb
  obtain ⟨l2, l3, _, rfl, h2, h3⟩ := seq_inv hm
  have hn := avoids_sound (K := opToks) (R := plainRules) (by decide) h1 (by decide)
  have hl := avoids_sound (K := opToks) (R := plainRules) (by decide) h3 (by decide)
  have he := eats_sound (R := [.column_name, .any_name, .keyword]) (by decide) h1 (by decide)
  obtain ⟨ns, rfl, -⟩ := nt_inv h1
  obtain ⟨os, rfl, hos⟩ := lab_inv h2
  obtain ⟨vs, rfl, hvs⟩ := nt_inv h3
  obtain ⟨o, rfl, ho⟩ := oneTok_sound (K := opToks) hos (by decide)
  obtain ⟨op, hop, hto⟩ := cmpOp_token (n := .column_name) (v := .literal_value) (ns := ns) (vs := vs) ho
  refine ⟨{ op := op, left := columnNamed (Tree.node .column_name ns).text, right := some (literalWith (.node .literal_value vs)) }, ?_, ?_⟩
  · rw [cmpWith, hop]
    simp [Visit.textOf, Tree.child, Tree.kids, unlab, Tree.isRule, Res.must, Res.bind]
  · refine ⟨leavesAll [.node .column_name ns], o, leavesAll [.node .literal_value vs], op, literalWith (.node .literal_value vs), ?_, he, ?_, ?_, hto, ?_, ?_⟩
    · rw [Tree.leaves, leavesAll_append, leavesAll_append, leavesAll_one (.lab _ _), Tree.leaves, leavesAll_one (.leaf o), Tree.leaves]
      rfl
    · exact hn
    · exact hl
    · rw [leavesAll_one, Tree.leaves]; exact literal_tokens hvs
    · rw [leavesAll_one, ← text_leaves]; rfl

theorem pair_tokens {mk : Expr → Expr → Expr} {r : Rule} {k : Tok}
    (hr : body r = (.lab .left (.nt .comparison_expr)) ⬝ (.tok k) ⬝ (.lab .right (.nt .comparison_expr))) {ts us : List Token} {a : Tree}
    (h : Derives (.nt r) ts [a] us) : ∃ x y w l m, pairWith mk a = .ok (some (mk (.cmp x) (.cmp y))) ∧ a.leaves = l ++ w :: m ∧
      w.kind = k ∧ CmpTokens l x ∧ CmpTokens m y := by
  obtain ⟨cs, hc, hb⟩ := nt_inv h
  cases hc
  rw [hr] at hb
  obtain ⟨l1, m, _, rfl, h1, hm⟩ := seq_inv hb
  obtain ⟨l2, l3, _, rfl, h2, h3⟩ := seq_inv hm
  obtain ⟨as, rfl, ha⟩ := lab_inv h1
  obtain ⟨w, rfl, hw⟩ := tok_inv h2
  obtain ⟨bs, rfl, hc⟩ := lab_inv h3
  obtain ⟨xs, rfl, -⟩ := nt_inv ha
  obtain ⟨ys, rfl, -⟩ := nt_inv hc
  obtain ⟨x, hx, hxt⟩ := cmp_tokens ha
  obtain ⟨y, hy, hyt⟩ := cmp_tokens hc
  refine ⟨x, y, w, _, _, ?_, ?_, hw, hxt, hyt⟩
  · simp [pairWith, Tree.label, Tree.labels, labelled, Res.must, Res.bind, hx, hy]
  · simp [Tree.leaves, leavesAll]

/-- The condition of an expression is what its tokens say. -/
theorem expr_tokens {ts us : List Token} {c : Tree} (h : Derives (.expr 0) ts [c] us) :
    (exprWith c).Post (fun o => ∀ e, o = some e → CondTokens c.leaves e) := by
  unfold exprWith
  have whole : ∀ {d : Tree}, c = .node .expr [d] → c.leaves = d.leaves := by
    rintro d rfl; rw [Tree.leaves, leavesAll_one]
  split
  · rename_i a ha
    obtain ⟨hc, ts', us', hd⟩ := expr_solo h (List.mem_singleton_self c) (by decide) ha
    obtain ⟨x, y, w, l, m, h1, h2, h3, h4, h5⟩ := pair_tokens (mk := .and) (by rfl) hd
    rw [h1, whole (by simpa using hc), h2]
    exact .ok fun e he => by cases he; exact .and l m w x y h3 h4 h5
  · split
    · rename_i a ha
      obtain ⟨hc, ts', us', hd⟩ := expr_solo h (List.mem_singleton_self c) (by decide) ha
      obtain ⟨x, y, w, l, m, h1, h2, h3, h4, h5⟩ := pair_tokens (mk := .or) (by rfl) hd
      rw [h1, whole (by simpa using hc), h2]
      exact .ok fun e he => by cases he; exact .or l m w x y h3 h4 h5
    · split
      · rename_i a ha
        obtain ⟨hc, ts', us', hd⟩ := expr_solo h (List.mem_singleton_self c) (by decide) ha
        obtain ⟨x, h1, h2⟩ := cmp_tokens hd
        rw [h1, whole (by simpa using hc)]
        exact .ok fun e he => by cases he; exact .one _ x h2
      · exact .ok fun e he => by cases he

/-! ### The clause in its statement -/

/-- The WHERE clause of a part: what stands before, the condition, what stands behind. -/
def Clause (l : List Tree) (o : Option Tree) : Prop :=
  ∀ c, o = some c → ∃ x w y ts us, l = x ++ (Tree.leaf w :: .lab .whereExpr [c] :: y) ∧ w.kind = .WHERE_ ∧ Balanced (leavesAll x) ∧
    Derives (.expr 0) ts [c] us ∧ ClauseEnd (leavesAll y)

/-- The rules that can follow a condition. -/
def tailRules : List Rule := [.returning_clause, .compound_operator, .order_by_stmt, .limit_stmt]
/-- The words that can follow a condition. -/
def tailToks : List Tok := [.RETURNING_, .GROUP_, .WINDOW_, .ORDER_, .LIMIT_, .UNION_, .INTERSECT_, .EXCEPT_]

theorem clause_end {e : Elem} {ts us : List Token} {l : List Tree} (h : Derives e ts l us) (hb : begins tailToks tailRules e = true) :
    ClauseEnd (leavesAll l) := begins_sound (K := tailToks) (R := tailRules) (by decide) (by decide) h hb

/-- A part with a WHERE clause in the middle. -/
theorem clause_mid {a b : Elem} {ts us : List Token} {x m y : List Tree} {vs ws : List Token} (ha : Derives a ts x us)
    (hm : Derives (.opt ((.tok .WHERE_) ⬝ (.lab .whereExpr (.expr 0)))) us m vs) (hb : Derives b vs y ws)
    (hl : level a 0 = some 0) (ha' : labFree .whereExpr a = true) (hb' : labFree .whereExpr b = true)
    (he : begins tailToks tailRules b = true) : Clause (x ++ (m ++ y)) (labelled .whereExpr (x ++ (m ++ y))).head? := by
  intro c hc
  rw [labelled_append, labelled_append, labFree_sound ha ha', labFree_sound hb hb', List.nil_append, List.append_nil] at hc
  rcases opt_inv hm with rfl | hm
  · cases hc
  · obtain ⟨m1, m2, _, rfl, h1, h2⟩ := seq_inv hm
    obtain ⟨w, rfl, hw⟩ := tok_inv h1
    obtain ⟨cs, rfl, h3⟩ := lab_inv h2
    obtain ⟨ds, rfl, -⟩ := expr_inv h3
    cases hc
    exact ⟨x, w, y, _, _, by simp, hw, walk_balanced (level_sound ha 0 0 hl), h3, clause_end hb he⟩

theorem delete_clause {ts us : List Token} {l : List Tree} (h : Derives (body .delete_stmt) ts l us) :
    Clause l (labelled .whereExpr l).head? := by
  obtain ⟨l1, m1, _, rfl, h1, k1⟩ := seq_inv h
  obtain ⟨l2, m2, _, rfl, h2, k2⟩ := seq_inv k1
  obtain ⟨l3, m3, _, rfl, h3, k3⟩ := seq_inv k2
  obtain ⟨l4, m4, _, rfl, h4, k4⟩ := seq_inv k3
  obtain ⟨l5, m5, _, rfl, h5, h6⟩ := seq_inv k4
  rw [show l1 ++ (l2 ++ (l3 ++ (l4 ++ (l5 ++ m5)))) = (l1 ++ (l2 ++ (l3 ++ l4))) ++ (l5 ++ m5) by simp]
  exact clause_mid (.seq h1 (.seq h2 (.seq h3 h4))) h5 h6 (by decide) (by decide) (by decide) (by decide)

theorem update_clause {ts us : List Token} {l : List Tree} (h : Derives (body .update_stmt) ts l us) :
    Clause l (labelled .whereExpr l).head? := by
  obtain ⟨l1, m1, _, rfl, h1, k1⟩ := seq_inv h
  obtain ⟨l2, m2, _, rfl, h2, k2⟩ := seq_inv k1
  obtain ⟨l3, m3, _, rfl, h3, k3⟩ := seq_inv k2
  obtain ⟨l4, m4, _, rfl, h4, k4⟩ := seq_inv k3
  obtain ⟨l5, m5, _, rfl, h5, k5⟩ := seq_inv k4
  obtain ⟨l6, m6, _, rfl, h6, k6⟩ := seq_inv k5
  obtain ⟨l7, m7, _, rfl, h7, k7⟩ := seq_inv k6
  obtain ⟨l8, m8, _, rfl, h8, k8⟩ := seq_inv k7
  obtain ⟨l9, m9, _, rfl, h9, h10⟩ := seq_inv k8
  rw [show l1 ++ (l2 ++ (l3 ++ (l4 ++ (l5 ++ (l6 ++ (l7 ++ (l8 ++ (l9 ++ m9)))))))) =
    (l1 ++ (l2 ++ (l3 ++ (l4 ++ (l5 ++ (l6 ++ (l7 ++ l8))))))) ++ (l9 ++ m9) by simp]
  exact clause_mid (.seq h1 (.seq h2 (.seq h3 (.seq h4 (.seq h5 (.seq h6 (.seq h7 h8))))))) h9 h10 (by decide) (by decide)
    (by decide) (by decide)

theorem select_clause {ts us : List Token} {l : List Tree} (h : Derives (body .select_core) ts l us) :
    Clause l (labelled .whereExpr l).head? := by
  rcases (show _ ∨ _ by cases h with
      | altLeft h => exact Or.inl h
      | altRight h => exact Or.inr h) with h | h
  · obtain ⟨l1, m1, _, rfl, h1, k1⟩ := seq_inv h
    obtain ⟨l2, m2, _, rfl, h2, k2⟩ := seq_inv k1
    obtain ⟨l3, m3, _, rfl, h3, k3⟩ := seq_inv k2
    obtain ⟨l4, m4, _, rfl, h4, k4⟩ := seq_inv k3
    obtain ⟨l5, m5, _, rfl, h5, k5⟩ := seq_inv k4
    obtain ⟨l6, m6, _, rfl, h6, h7⟩ := seq_inv k5
    rw [show l1 ++ (l2 ++ (l3 ++ (l4 ++ (l5 ++ (l6 ++ m6))))) = (l1 ++ (l2 ++ (l3 ++ (l4 ++ l5)))) ++ (l6 ++ m6) by simp]
    exact clause_mid (.seq h1 (.seq h2 (.seq h3 (.seq h4 h5)))) h6 h7 (by decide) (by decide) (by decide) (by decide)
  · rw [labFree_sound h (by decide)]
    intro c hc; cases hc

/-- The condition read from a part with a WHERE clause. -/
theorem whereOf_tokens {r : Rule} {cs : List Tree} (h : Clause cs (labelled .whereExpr cs).head?) :
    (whereOf (.node r cs)).Post (fun o => ∀ e, o = some e → ∃ before w c after, leavesAll cs = before ++ w :: c ++ after ∧
      w.kind = .WHERE_ ∧ Balanced before ∧ CondTokens c e ∧ ClauseEnd after) := by
  unfold whereOf
  split
  · rename_i c hc
    obtain ⟨x, w, y, ts, us, rfl, h2, h3, h4, h5⟩ := h c hc
    refine (expr_tokens h4).mono fun o ho e he => ⟨leavesAll x, w, c.leaves, leavesAll y, ?_, h2, h3, ho e he, h5⟩
    rw [leavesAll_append, leavesAll, Tree.leaves, leavesAll, Tree.leaves, leavesAll_one]
    simp
  · exact .ok fun e he => by cases he

theorem Balanced.append {a b : List Token} (ha : Balanced a) (hb : Balanced b) : Balanced (a ++ b) := by
  refine ⟨by rw [countKind_append, countKind_append, ha.1, hb.1], fun p s h => ?_⟩
  rcases List.append_eq_append_iff.mp h with ⟨u, h1, h2⟩ | ⟨u, h1, h2⟩
  · have := hb.2 u s h2
    rw [h1, countKind_append, countKind_append, ha.1]; omega
  · exact ha.2 p u h1

/-- The conditions of reported statements are written in the WHERE clauses of the statements. -/
theorem handler_where (toUint : Str → Option Nat) : Handles toUint WhereWritten := by
  intro r f hm cs hs
  have none' : ∀ {x : Res Statement}, x.Post (fun s => condOf s = none) → x.Post (WhereWritten (Tree.node r cs).leaves) :=
    fun h => h.mono fun s hs e he => by rw [hs] at he; cases he
  simp only [handlers, List.mem_cons, List.not_mem_nil, or_false, Prod.mk.injEq] at hm
  rcases hm with ⟨-, rfl⟩ | ⟨-, rfl⟩ | ⟨-, rfl⟩ | ⟨-, rfl⟩ | ⟨-, rfl⟩ | ⟨-, rfl⟩ | ⟨-, rfl⟩ | ⟨-, rfl⟩ | ⟨-, rfl⟩ | ⟨rfl, rfl⟩ |
    ⟨rfl, rfl⟩ | ⟨rfl, rfl⟩ | ⟨-, rfl⟩ | ⟨-, rfl⟩ | ⟨-, rfl⟩ | ⟨-, rfl⟩ | ⟨-, rfl⟩ | ⟨-, rfl⟩ | ⟨-, rfl⟩
  · exact none' (.next fun n => .ok rfl)
  · exact none' (.next fun n => .ok rfl)
  · exact none' (.next fun n => .ok rfl)
  · exact none' (.next fun n => .ok rfl)
  · exact none' (.ok rfl)
  · exact none' (.next fun n => .ok rfl)
  · refine none' (.next fun n => ?_)
    split
    · exact .ok rfl
    · exact .next fun m => .ok rfl
  · exact none' (.next fun _ => .next fun _ => .next fun _ => .next fun _ => .next fun _ => .ok rfl)
  · exact none' (.next fun _ => .next fun _ => .next fun _ => .ok rfl)
  · obtain ⟨ts, us, hd⟩ := hs.derives (by decide)
    refine .next fun n => .next fun l => (whereOf_tokens (update_clause hd)).bind fun w hw => .ok ?_
    rw [Tree.leaves]; exact hw
  · obtain ⟨ts, us, hd⟩ := hs.derives (by decide)
    show (Visit.select toUint (.node .select_stmt cs)).Post _
    unfold Visit.select
    split
    · exact none' (.next fun _ => .ok rfl)
    · rename_i q hq
      obtain ⟨l1, m1, _, rfl, h1, k1⟩ := seq_inv hd
      obtain ⟨l2, m2, _, rfl, h2, k2⟩ := seq_inv k1
      have hl : (Tree.node .select_stmt (l1 ++ (l2 ++ m2))).label .parentQuery = (labelled .parentQuery l2).head? := by
        simp only [Tree.label, Tree.labels, labelled_append, labFree_sound (q := .parentQuery) h1 (by decide), labFree_sound (q := .parentQuery) k2 (by decide), List.nil_append, List.append_nil]
      rw [hl] at hq
      obtain ⟨ds, rfl, h3⟩ := lab_inv h2
      obtain ⟨es, rfl, h4⟩ := nt_inv h3
      cases hq
      refine .next fun ss => (whereOf_tokens (select_clause h4)).bind fun w hw => .next fun os => .ok ?_
      intro e he
      obtain ⟨b, x, c, a, g1, g2, g3, g4, g5⟩ := hw e he
      refine ⟨leavesAll l1 ++ b, x, c, a ++ leavesAll m2, ?_, g2, ?_, g4, ?_⟩
      · rw [Tree.leaves, leavesAll_append, leavesAll_append, leavesAll_one, Tree.leaves, leavesAll_one, Tree.leaves, g1]
        simp
      · exact Balanced.append (walk_balanced (level_sound h1 0 0 (by decide))) g3
      · exact FirstIn.append (K := tailToks) g5 (fun _ => clause_end k2 (by decide))
  · obtain ⟨ts, us, hd⟩ := hs.derives (by decide)
    refine .next fun n => (whereOf_tokens (delete_clause hd)).bind fun w hw => .ok ?_
    rw [Tree.leaves]; exact hw
  · exact none' (.ok rfl)
  · exact none' (.ok rfl)
  · exact none' (.ok rfl)
  · exact none' (.next fun _ => .ok rfl)
  · exact none' (.next fun _ => .next fun _ => .next fun _ => .ok rfl)
  · exact none' (.ok rfl)
  · exact none' (.ok rfl)

end Verif.Lemmas
