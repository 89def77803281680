import Verif.Lemmas.Where
import Verif.Lemmas.Top
import Verif.Lemmas.NoBind
/-! UPDATE, INSERT and DELETE are what is written. -/
namespace Verif.Lemmas
open Verif Verif.Lex Verif.Gram Verif.Query Verif.Visit Verif.Util Verif.Spec

/-- The part derives single trees of rule `r`. -/
def Single (r : Rule) (X : Elem) : Prop := ∀ {ts us : List Token} {l : List Tree}, Derives X ts l us → ∃ cs, l = [.node r cs] ∧ Part (Tree.node r cs).leaves

/-- Rules with at least one token. -/
def partRules : List Rule := fedRules ++ [.value_row, .update_column_set, .column_name_list, .result_column, .«from», .from_table, .from_function,
  .from_select, .from_table_or_subquery, .ordering_term, .column_def, .table_constraint, .primary_key_def, .unique_key_def, .indexed_column]

theorem single_nt (r : Rule) (h1 : feeds partRules (.nt r) = true) (h2 : top [.COMMA] commaRules (.nt r) 0 = true) : Single r (.nt r) := fun h => by
  have hp := part_of (R := partRules) (by decide) (by decide) h h1 rfl h2
  obtain ⟨cs, rfl, -⟩ := nt_inv h
  rw [leavesAll_one] at hp
  exact ⟨cs, rfl, hp⟩

theorem single_expr (p : Nat) : Single .expr (.expr p) := fun h => by
  have hp := part_of (R := partRules) (by decide) (by decide) h rfl rfl rfl
  obtain ⟨cs, rfl, -⟩ := expr_inv h
  rw [leavesAll_one] at hp
  exact ⟨cs, rfl, hp⟩

/-- The tree is derived by the part and has the tokens. -/
def DerivedAs (X : Elem) (ts : List Token) (t : Tree) : Prop := ts = t.leaves ∧ ∃ us vs, Derives X us [t] vs

theorem filter_unlab_append (r : Rule) (a b : List Tree) :
    (unlab (a ++ b)).filter (Tree.isRule r) = (unlab a).filter (Tree.isRule r) ++ (unlab b).filter (Tree.isRule r) := by
  rw [unlab_append, List.filter_append]

theorem absent_filter {r : Rule} {e : Elem} {ts us : List Token} {l : List Tree} (h : Derives e ts l us) (ha : absent r e = true) :
    (unlab l).filter (Tree.isRule r) = [] := by
  rw [List.filter_eq_nil_iff]
  intro t ht hr
  cases t with
  | node q cs =>
    have : q = r := by simpa [Tree.isRule] using hr
    subst this
    exact (absent_sound h ha cs).1 ht
  | _ => cases hr

theorem sep_star {r : Rule} {X : Elem} (hX : Single r X) {ts us : List Token} {m : List Tree} (h : Derives (.star (.tok .COMMA ⬝ X)) ts m us) :
    ∀ cs, Part (Tree.node r cs).leaves → (∃ us vs, Derives X us [.node r cs] vs) → Sep (DerivedAs X) (leavesAll (.node r cs :: m)) (.node r cs :: (unlab m).filter (Tree.isRule r)) := by
  generalize he : Elem.star (.tok .COMMA ⬝ X) = e at h
  induction h with
  | starNil => intro cs hc hd; rw [leavesAll_one]; exact .one _ _ hc ⟨rfl, hd⟩
  | @starCons a ts us vs l m h1 _ _ ih2 =>
    cases he
    intro cs hc hd
    obtain ⟨l1, l2, _, rfl, h3, h4⟩ := seq_inv h1
    obtain ⟨w, rfl, hw⟩ := tok_inv h3
    obtain ⟨ds, rfl, hpt⟩ := hX h4
    have ih := ih2 rfl ds hpt ⟨_, _, h4⟩
    have e1 : leavesAll (.node r cs :: ([.leaf w] ++ [.node r ds] ++ m)) = (Tree.node r cs).leaves ++ w :: leavesAll (.node r ds :: m) := by
      simp [leavesAll, Tree.leaves]
    have e2 : (unlab ([.leaf w] ++ [.node r ds] ++ m)).filter (Tree.isRule r) = .node r ds :: (unlab m).filter (Tree.isRule r) := by
      simp [unlab, Tree.isRule]
    rw [e1, e2]
    exact .cons _ w _ _ _ hc ⟨rfl, hd⟩ hw ih
  | _ => cases he

theorem _root_.Verif.Spec.Sep.with_mem {α : Type} {P : List Token → α → Prop} {Q : α → Prop} {ts : List Token} {l : List α} (h : Sep P ts l)
    (hq : ∀ a, a ∈ l → Q a) : Sep (fun ts a => P ts a ∧ Q a) ts l := by
  induction h with
  | one ts a hc h => exact .one _ _ hc ⟨h, hq a (by simp)⟩
  | cons ts w rest a l hc h hw _ ih => exact .cons _ w _ _ _ hc ⟨h, hq a (by simp)⟩ hw (ih fun b hb => hq b (by simp [hb]))

/-- A list with commas has one tree for each of its elements. -/
theorem sep_inv {r : Rule} {X : Elem} (hX : Single r X) {ts us vs : List Token} {l m : List Tree} (h : Derives X ts l us)
    (k : Derives (.star (.tok .COMMA ⬝ X)) us m vs) : Sep (DerivedAs X) (leavesAll (l ++ m)) ((unlab (l ++ m)).filter (Tree.isRule r)) := by
  obtain ⟨cs, rfl, hpt⟩ := hX h
  have := sep_star hX k cs hpt ⟨_, _, h⟩
  have e : (unlab ([.node r cs] ++ m)).filter (Tree.isRule r) = .node r cs :: (unlab m).filter (Tree.isRule r) := by
    simp [unlab, Tree.isRule]
  rw [e]; exact this

theorem arith_text {ope : Str} {k : Fn.ExecId} (h : Fn.newArithOperatorFor ope = some k) :
    k.name = ope ∧ k.type = .arith ∧ ope ∈ [s%"+", s%"-", s%"*", s%"/", s%"%"] := by
  unfold Fn.newArithOperatorFor at h
  repeat' split at h
  all_goals first | (cases h; subst_vars; exact ⟨rfl, rfl, by decide⟩) | cases h

theorem notValue {p : Nat} {ts vs : List Token} {e : Tree} (h : Derives (.expr p) ts [e] vs) (hl : e.child .literal_value = none)
    (hb : e.child .bind_param = none) : NotValue e.leaves := by
  intro b he hk
  rcases expr_value h he hk with h | h
  · rw [hl] at h; cases h
  · rw [hb] at h; cases h

/-- An assignment is what its tokens say. -/
theorem assignment_tokens {ts us : List Token} {t : Tree} (h : Derives (.nt .update_column_set) ts [t] us)
    (hb : ∀ e, e ∈ t.all .expr → e.child .bind_param = none) : (assignment t).Post (SetTokens t.leaves) := by
  obtain ⟨cs, hc, hd⟩ := nt_inv h
  cases hc
  obtain ⟨l1, m, _, rfl, h1, hm⟩ := seq_inv hd
  obtain ⟨l2, l3, _, rfl, h2, h3⟩ := seq_inv hm
  obtain ⟨o, rfl, ho⟩ := tok_inv h2
  obtain ⟨es, rfl, -⟩ := single_expr 0 h3
  rcases (show _ ∨ _ by cases h1 with
      | altLeft h => exact Or.inl h
      | altRight h => exact Or.inr h) with h1 | h1
  · have hn := avoids_sound (K := opToks) (R := plainRules) (by decide) h1 (by decide)
    have he := eats_sound (R := [.column_name, .any_name, .keyword]) (by decide) h1 (by decide)
    obtain ⟨ns, rfl, -⟩ := nt_inv h1
    rw [leavesAll_one] at hn he
    have e1 : Visit.textOf .column_name (.node .update_column_set ([.node .column_name ns] ++ ([.leaf o] ++ [.node .expr es]))) =
        .ok (Spec.textOf (Tree.node .column_name ns).leaves) := by
      rw [← text_leaves]
      simp [Visit.textOf, Tree.child, Tree.kids, unlab, Tree.isRule, Res.must, Res.bind]
    have e2 : (Tree.node .update_column_set ([.node .column_name ns] ++ ([.leaf o] ++ [.node .expr es]))).child .expr = some (.node .expr es) := by
      simp [Tree.child, Tree.kids, unlab, Tree.isRule]
    have e3 : (Tree.node .update_column_set ([.node .column_name ns] ++ ([.leaf o] ++ [.node .expr es]))).leaves =
        (Tree.node .column_name ns).leaves ++ o :: (Tree.node .expr es).leaves := by
      simp [Tree.leaves, leavesAll]
    have hno : (Tree.node .expr es).child .bind_param = none := hb _ (by simp [Tree.all, Tree.kids, unlab, Tree.isRule])
    rw [assignment, e1, e2, e3]
    have whole : ∀ {d : Tree}, [Tree.node .expr es] = [Tree.node .expr [d]] → (Tree.node .expr es).leaves = d.leaves := by
      intro d hd; cases hd; rw [Tree.leaves, leavesAll_one]
    simp only [Res.must, Res.bind]
    split
    · rename_i v hv
      obtain ⟨hc, ts', us', hd⟩ := expr_solo h3 (List.mem_singleton_self _) (by decide) hv
      obtain ⟨vs, hvs, hb⟩ := nt_inv hd
      cases hvs
      rw [whole hc]
      exact .ok (.lit _ o _ _ ho he hn (by rw [Tree.leaves]; exact literal_tokens hb))
    · split
      · rename_i v hv
        rw [hno] at hv
        cases hv
      · split
        · exact .ok (.lost _ o _ ho he hn (notValue h3 ‹_› ‹_›))
        · rename_i v hv
          obtain ⟨hc, ts', us', hd⟩ := expr_solo h3 (List.mem_singleton_self _) (by decide) hv
          obtain ⟨vs, hvs, hb⟩ := nt_inv hd
          cases hvs
          obtain ⟨a1, m1, _, rfl, g1, k1⟩ := seq_inv hb
          obtain ⟨a2, a3, _, rfl, g2, g3⟩ := seq_inv k1
          obtain ⟨as, rfl, -⟩ := nt_inv g1
          obtain ⟨ps, rfl, gp⟩ := lab_inv g2
          obtain ⟨p, rfl, hp⟩ := oneTok_sound (K := [.PLUS, .MINUS, .STAR, .DIV, .MOD]) gp (by decide)
          obtain ⟨bs, rfl, -⟩ := single_expr 0 g3
          have hnv := notValue h3 ‹_› ‹_›
          rw [whole hc] at hnv ⊢
          have f1 : labelText .ope (.node .arithmetic_expr ([.node .column_name as] ++ ([.lab .ope [.leaf p]] ++ [.node .expr bs]))) = .ok p.text := by
            simp [labelText, Tree.label, Tree.labels, labelled, Res.must, Res.bind, Tree.text]
          have f2 : Visit.textOf .column_name (.node .arithmetic_expr ([.node .column_name as] ++ ([.lab .ope [.leaf p]] ++ [.node .expr bs]))) =
              .ok (Spec.textOf (Tree.node .column_name as).leaves) := by
            rw [← text_leaves]
            simp [Visit.textOf, Tree.child, Tree.kids, unlab, Tree.isRule, Res.must, Res.bind]
          have f3 : Visit.textOf .expr (.node .arithmetic_expr ([.node .column_name as] ++ ([.lab .ope [.leaf p]] ++ [.node .expr bs]))) =
              .ok (Spec.textOf (Tree.node .expr bs).leaves) := by
            rw [← text_leaves]
            simp [Visit.textOf, Tree.child, Tree.kids, unlab, Tree.isRule, Res.must, Res.bind]
          have f4 : (Tree.node .arithmetic_expr ([.node .column_name as] ++ ([.lab .ope [.leaf p]] ++ [.node .expr bs]))).leaves =
              (Tree.node .column_name as).leaves ++ p :: (Tree.node .expr bs).leaves := by
            simp [Tree.leaves, leavesAll]
          rw [f4] at hnv
          rw [f1, f2, f3, f4]
          simp only
          split
          · rename_i f hf
            rw [arithFunction] at hf
            obtain ⟨k, hk, rfl⟩ := Option.map_eq_some_iff.mp hf
            obtain ⟨h1, h2, h3⟩ := arith_text hk
            rw [h1, h2]
            exact .ok (.arith _ o _ p _ ho he hn hp h3)
          · exact .ok (.lost _ o _ ho he hn hnv)
  · obtain ⟨ns, rfl, -⟩ := nt_inv h1
    have e1 : Visit.textOf .column_name (.node .update_column_set ([.node .column_name_list ns] ++ ([.leaf o] ++ [.node .expr es]))) = .panic := by
      simp [Visit.textOf, Tree.child, Tree.kids, unlab, Tree.isRule, Res.must, Res.bind]
    rw [assignment, e1]
    exact .panic

theorem with_tokens {e : Elem} {ts us : List Token} {l : List Tree} (h : Derives e ts l us) (hb : begins [.WITH_] [.with_clause] e = true)
    (hl : level e 0 = some 0) : WithTokens (leavesAll l) :=
  ⟨begins_sound (K := [.WITH_]) (R := [.with_clause]) (by decide) (by decide) h hb, walk_balanced (level_sound h 0 0 hl)⟩

theorem update_tokens {cs : List Tree} (hs : Sound (.node .update_stmt cs)) :
    (Visit.update (.node .update_stmt cs)).Post (UpdateWritten (Tree.node .update_stmt cs).leaves) := by
  obtain ⟨ts, us, h⟩ := hs.derives (by decide)
  obtain ⟨l1, m1, _, rfl, h1, k1⟩ := seq_inv h
  obtain ⟨l2, m2, _, rfl, h2, k2⟩ := seq_inv k1
  obtain ⟨l3, m3, _, rfl, h3, k3⟩ := seq_inv k2
  obtain ⟨l4, m4, _, rfl, h4, k4⟩ := seq_inv k3
  obtain ⟨l5, m5, _, rfl, h5, k5⟩ := seq_inv k4
  obtain ⟨l6, m6, _, rfl, h6, k6⟩ := seq_inv k5
  obtain ⟨l7, m7, _, rfl, h7, k7⟩ := seq_inv k6
  obtain ⟨w, rfl, hw⟩ := tok_inv h2
  obtain ⟨st, rfl, hst⟩ := tok_inv h5
  have hwith := with_tokens h1 (by decide) (by decide)
  have hsep := sep_inv (single_nt .update_column_set (by decide) (by decide)) h6 h7
  have he := eats_sound (R := [.qualified_table_name, .table_name, .any_name, .keyword]) (by decide) h4 (by decide)
  have htail := begins_sound (K := [.FROM_, .WHERE_, .RETURNING_]) (R := [.returning_clause]) (by decide) (by decide) k7 (by decide)
  have halt : leavesAll l3 = [] ∨ ∃ o x, leavesAll l3 = [o, x] ∧ o.kind = .OR_ ∧ x.kind ∈ [Tok.ROLLBACK_, .ABORT_, .REPLACE_, .FAIL_, .IGNORE_] := by
    rcases opt_inv h3 with rfl | h3
    · exact Or.inl rfl
    · obtain ⟨a, b, _, rfl, g1, g2⟩ := seq_inv h3
      obtain ⟨o, rfl, ho⟩ := tok_inv g1
      obtain ⟨x, rfl, hx⟩ := oneTok_sound (K := [.ROLLBACK_, .ABORT_, .REPLACE_, .FAIL_, .IGNORE_]) g2 (by decide)
      exact Or.inr ⟨o, x, by simp [leavesAll, Tree.leaves], ho, hx⟩
  have hall : (Tree.node .update_stmt (l1 ++ ([.leaf w] ++ (l3 ++ (l4 ++ ([.leaf st] ++ (l6 ++ (l7 ++ m7)))))))).all .update_column_set =
      (unlab (l6 ++ l7)).filter (Tree.isRule .update_column_set) := by
    rw [Tree.all, Tree.kids]
    simp only [filter_unlab_append, absent_filter (r := .update_column_set) h1 (by decide), absent_filter (r := .update_column_set) h2 (by decide),
      absent_filter (r := .update_column_set) h3 (by decide), absent_filter (r := .update_column_set) h4 (by decide),
      absent_filter (r := .update_column_set) h5 (by decide), absent_filter (r := .update_column_set) k7 (by decide), List.nil_append, List.append_nil]
  have hlab : labelText .table (.node .update_stmt (l1 ++ ([.leaf w] ++ (l3 ++ (l4 ++ ([.leaf st] ++ (l6 ++ (l7 ++ m7)))))))) = .ok (Spec.textOf (leavesAll l4)) := by
    obtain ⟨ns, rfl, g⟩ := lab_inv h4
    obtain ⟨qs, rfl, -⟩ := nt_inv g
    simp only [labelText, Tree.label, Tree.labels, labelled_append, labFree_sound (q := .table) h1 (by decide), labFree_sound (q := .table) h2 (by decide),
      labFree_sound (q := .table) h3 (by decide), List.nil_append]
    simp [labelled, Res.must, Res.bind, text_leaves, leavesAll, Tree.leaves]
  unfold Visit.update
  rw [hlab, hall]
  simp only [Res.bind]
  refine (Spec.Sep.all (Q := SetTokens) (fun ts a ha => ?_) (hsep.with_mem fun a ha => hs.allOf (hall ▸ ha))).bind fun cols hcols => .next fun c => .ok ?_
  · obtain ⟨⟨rfl, us, vs, hd⟩, ds, rfl, hs⟩ := ha
    exact assignment_tokens hd fun e he => hs.noBind (by decide) (by decide) he
  · intro u hu
    cases hu
    refine ⟨leavesAll l1, w, leavesAll l3, leavesAll l4, st, leavesAll (l6 ++ l7), leavesAll m7, ?_, hwith, hw, halt, he, rfl, hst, hcols, htail⟩
    simp [Tree.leaves, leavesAll_append, leavesAll]

theorem delete_tokens {cs : List Tree} (hs : Sound (.node .delete_stmt cs)) :
    (Visit.delete (.node .delete_stmt cs)).Post (DeleteWritten (Tree.node .delete_stmt cs).leaves) := by
  obtain ⟨ts, us, h⟩ := hs.derives (by decide)
  obtain ⟨l1, m1, _, rfl, h1, k1⟩ := seq_inv h
  obtain ⟨l2, m2, _, rfl, h2, k2⟩ := seq_inv k1
  obtain ⟨l3, m3, _, rfl, h3, k3⟩ := seq_inv k2
  obtain ⟨l4, m4, _, rfl, h4, k4⟩ := seq_inv k3
  obtain ⟨w, rfl, hw⟩ := tok_inv h2
  obtain ⟨f, rfl, hf⟩ := tok_inv h3
  have hwith := with_tokens h1 (by decide) (by decide)
  have he := eats_sound (R := [.qualified_table_name, .table_name, .any_name, .keyword]) (by decide) h4 (by decide)
  have htail := begins_sound (K := [.WHERE_, .RETURNING_]) (R := [.returning_clause]) (by decide) (by decide) k4 (by decide)
  have hlab : labelText .table (.node .delete_stmt (l1 ++ ([.leaf w] ++ ([.leaf f] ++ (l4 ++ m4))))) = .ok (Spec.textOf (leavesAll l4)) := by
    obtain ⟨ns, rfl, g⟩ := lab_inv h4
    obtain ⟨qs, rfl, -⟩ := nt_inv g
    simp only [labelText, Tree.label, Tree.labels, labelled_append, labFree_sound (q := .table) h1 (by decide), labFree_sound (q := .table) h2 (by decide),
      labFree_sound (q := .table) h3 (by decide), List.nil_append]
    simp [labelled, Res.must, Res.bind, text_leaves, leavesAll, Tree.leaves]
  unfold Visit.delete
  rw [hlab]
  simp only [Res.bind]
  refine .next fun c => .ok ?_
  intro u hu
  cases hu
  refine ⟨leavesAll l1, w, f, leavesAll l4, leavesAll m4, ?_, hwith, hw, hf, he, rfl, htail⟩
  simp [Tree.leaves, leavesAll_append, leavesAll]

/-! ### INSERT -/

theorem child_head (r : Rule) (t : Tree) : t.child r = (t.all r).head? := by
  rw [Tree.child, Tree.all, List.head?_filter]

theorem cmp_parts {ts us : List Token} {c : Tree} (h : Derives (.nt .comparison_expr) ts [c] us) :
    ∃ op n l, Visit.textOf .column_name c = .ok n ∧ (c.child .literal_value).map literalWith = some l ∧
      CmpTokens c.leaves { op := op, left := { name := n }, right := some l } := by
  obtain ⟨x, hx, ht⟩ := cmp_tokens h
  rw [cmpWith] at hx
  cases hn : Visit.textOf .column_name c with
  | err => rw [hn] at hx; cases hx
  | panic => rw [hn] at hx; cases hx
  | ok n =>
    rw [hn] at hx
    cases ho : cmpOp c with
    | none => rw [ho] at hx; cases hx
    | some op =>
      rw [ho] at hx
      cases hx
      have ht' := ht
      obtain ⟨n', o', l', op', l, -, -, -, -, -, -, he⟩ := ht
      have hr := congrArg Cmp.right he
      refine ⟨op, n, l, rfl, hr, ?_⟩
      have hr' : (c.child .literal_value).map literalWith = some l := hr
      rw [hr'] at ht'
      exact ht'

theorem insertRow_cons (names : List Str) (k : Nat) (e : Tree) (r : List Tree) : insertRow names k (e :: r) =
    match e.child .comparison_expr with
    | some v => (Visit.textOf .column_name v).bind (fun n =>
        (insertRow names k r).bind (fun cs =>
          .ok ({ name := n, lit := (v.child .literal_value).map literalWith } :: cs)))
    | none =>
      match (match e.child .literal_value with
             | some v => some (literalWith v)
             | none => (e.child .bind_param).map bindParamWith) with
      | some l => (match names[k]? with
          | some n => (insertRow names (k + 1) r).bind (fun cs => .ok ({ name := n, lit := some l } :: cs))
          | none => insertRow names k r)
      | none => insertRow names k r := rfl

/-- One element of a row: what it is, and what it adds to the row. -/
theorem item_tokens {names : List Str} {ts : List Token} {e : Tree} (he : DerivedAs (.expr 0) ts e) (hb : e.child .bind_param = none) : ∃ it, ItemTokens ts it ∧
    ∀ (k : Nat) (r : List Tree) (its : List Item), (∀ k, (insertRow names k r).Post (fun cols => cols = pairUp (names.drop k) its)) →
      (insertRow names k (e :: r)).Post (fun cols => cols = pairUp (names.drop k) (it :: its)) := by
  obtain ⟨rfl, us, vs, hd⟩ := he
  have whole : ∀ {d : Tree}, [e] = [Tree.node .expr [d]] → e.leaves = d.leaves := by
    intro d hd; cases hd; rw [Tree.leaves, leavesAll_one]
  have value : ∀ (l : Literal) (k : Nat) (r : List Tree) (its : List Item),
      (∀ k, (insertRow names k r).Post (fun cols => cols = pairUp (names.drop k) its)) →
      (match names[k]? with
          | some n => (insertRow names (k + 1) r).bind (fun cs => .ok (({ name := n, lit := some l } : Column) :: cs))
          | none => insertRow names k r).Post (fun cols => cols = pairUp (names.drop k) (.value l :: its)) := by
    intro l k r its h
    split
    · rename_i n hn
      obtain ⟨hk, hn⟩ := List.getElem?_eq_some_iff.mp hn
      refine (h (k + 1)).bind fun cs hcs => .ok ?_
      rw [List.drop_eq_getElem_cons hk, hn, pairUp, hcs]
    · rename_i hn
      rw [List.getElem?_eq_none_iff] at hn
      refine (h k).mono fun cs hcs => ?_
      rw [List.drop_eq_nil_of_le hn] at hcs ⊢
      rw [hcs, pairUp]
  cases hc : e.child .comparison_expr with
  | some v =>
    obtain ⟨hw, ts', us', hd'⟩ := expr_solo hd (List.mem_singleton_self _) (by decide) hc
    obtain ⟨op, n, l, h1, h2, h3⟩ := cmp_parts hd'
    refine ⟨.named n l, .named _ op n l (by rw [whole hw]; exact h3), fun k r its h => ?_⟩
    rw [insertRow_cons, hc]
    simp only [h1, h2]
    refine (h k).bind fun cs hcs => .ok ?_
    rw [pairUp, hcs]
  | none =>
    cases hl : e.child .literal_value with
    | some v =>
      obtain ⟨hw, ts', us', hd'⟩ := expr_solo hd (List.mem_singleton_self _) (by decide) hl
      obtain ⟨xs, hxs, hb⟩ := nt_inv hd'
      cases hxs
      refine ⟨.value (literalWith (.node .literal_value xs)), .lit _ _ (by rw [whole hw, Tree.leaves]; exact literal_tokens hb), fun k r its h => ?_⟩
      rw [insertRow_cons, hc, hl]
      exact value _ k r its h
    | none =>
      refine ⟨.other, .other _ (notValue hd hl hb), fun k r its h => ?_⟩
      rw [insertRow_cons, hc, hl, hb]
      refine (h k).mono fun cs hcs => ?_
      rw [pairUp, hcs]

theorem insertRow_tokens {names : List Str} {ts : List Token} {es : List Tree} (h : Sep (DerivedAs (.expr 0)) ts es)
    (hb : ∀ e, e ∈ es → e.child .bind_param = none) : ∃ its, Sep ItemTokens ts its ∧ ∀ k, (insertRow names k es).Post (fun cols => cols = pairUp (names.drop k) its) := by
  induction h with
  | one ts e hc he =>
    obtain ⟨it, h1, h2⟩ := item_tokens (names := names) he (hb e (by simp))
    exact ⟨[it], .one _ _ hc h1, fun k => h2 k [] [] fun k => .ok (by rw [pairUp])⟩
  | cons ts w rest e l hc he hw _ ih =>
    obtain ⟨it, h1, h2⟩ := item_tokens (names := names) he (hb e (by simp))
    obtain ⟨its, h3, h4⟩ := ih fun e he => hb e (by simp [he])
    exact ⟨it :: its, .cons _ w _ _ _ hc h1 hw h3, fun k => h2 k l its h4⟩

/-- A row is what its tokens say. -/
theorem row_tokens {names : List Str} {ts : List Token} {t : Tree} (h : DerivedAs (.nt .value_row) ts t) (hs : Sound t) :
    (insertRow names 0 (t.all .expr)).Post (RowTokens names ts) := by
  obtain ⟨rfl, us, vs, hd⟩ := h
  obtain ⟨cs, hc, hb⟩ := nt_inv hd
  cases hc
  obtain ⟨l1, m1, _, rfl, h1, k1⟩ := seq_inv hb
  obtain ⟨l2, m2, _, rfl, h2, k2⟩ := seq_inv k1
  obtain ⟨l3, m3, _, rfl, h3, h4⟩ := seq_inv k2
  obtain ⟨o, rfl, ho⟩ := tok_inv h1
  obtain ⟨c, rfl, hc⟩ := tok_inv h4
  have e : (Tree.node .value_row ([.leaf o] ++ (l2 ++ (l3 ++ [.leaf c])))).all .expr = (unlab (l2 ++ l3)).filter (Tree.isRule .expr) := by
    rw [Tree.all, Tree.kids]
    simp only [filter_unlab_append, absent_filter (r := .expr) h1 (by decide), absent_filter (r := .expr) h4 (by decide), List.nil_append, List.append_nil]
  obtain ⟨its, g1, g2⟩ := insertRow_tokens (names := names) (sep_inv (single_expr 0) h2 h3)
    fun x hx => hs.noBind (by decide) (by decide) (by rw [e]; exact hx)
  rw [e]
  refine (g2 0).mono fun cols hcols => ⟨o, leavesAll (l2 ++ l3), c, its, ?_, ho, hc, g1, by simpa using hcols⟩
  simp [Tree.leaves, leavesAll_append, leavesAll]

theorem insert_tokens {cs : List Tree} (hs : Sound (.node .insert_stmt cs)) :
    (Visit.insert (.node .insert_stmt cs)).Post (InsertWritten (Tree.node .insert_stmt cs).leaves) := by
  obtain ⟨ts, us, h⟩ := hs.derives (by decide)
  obtain ⟨l1, m1, _, rfl, h1, k1⟩ := seq_inv h
  obtain ⟨l2, m2, _, rfl, h2, k2⟩ := seq_inv k1
  obtain ⟨l3, m3, _, rfl, h3, k3⟩ := seq_inv k2
  obtain ⟨l4, m4, _, rfl, h4, k4⟩ := seq_inv k3
  obtain ⟨l5, m5, _, rfl, h5, k5⟩ := seq_inv k4
  obtain ⟨l6, m6, _, rfl, h6, k6⟩ := seq_inv k5
  obtain ⟨l7, m7, _, rfl, h7, k7⟩ := seq_inv k6
  obtain ⟨l8, l9, _, rfl, h8, h9⟩ := seq_inv k7
  obtain ⟨into, rfl, hinto⟩ := tok_inv h3
  obtain ⟨tn, rfl, -⟩ := nt_inv h5
  have hwith := with_tokens h1 (by decide) (by decide)
  have hkw := eats_sound (R := []) (by decide) h2 (by decide)
  have hfirst := begins_sound (K := [.INSERT_, .REPLACE_]) (R := []) (by decide) (by decide) h2 (by decide)
  have hals := begins_sound (K := [.AS_]) (R := []) (by decide) (by decide) h6 (by decide)
  have hsch : leavesAll l4 = [] ∨ ∃ x d, leavesAll l4 = x ++ [d] ∧ d.kind = .DOT := by
    rcases opt_inv h4 with rfl | h4
    · exact Or.inl rfl
    · obtain ⟨a, b, _, rfl, g1, g2⟩ := seq_inv h4
      obtain ⟨d, rfl, hd⟩ := tok_inv g2
      exact Or.inr ⟨leavesAll a, d, by simp [leavesAll_append, leavesAll, Tree.leaves], hd⟩
  have ht : Visit.textOf .table_name (.node .insert_stmt (l1 ++ (l2 ++ ([.leaf into] ++ (l4 ++ ([.node .table_name tn] ++ (l6 ++ (l7 ++ (l8 ++ l9))))))))) =
      .ok (Tree.node .table_name tn).text := by
    rw [Visit.textOf, child_head, Tree.all, Tree.kids]
    simp only [filter_unlab_append, absent_filter (r := .table_name) h1 (by decide), absent_filter (r := .table_name) h2 (by decide),
      absent_filter (r := .table_name) h3 (by decide), absent_filter (r := .table_name) h4 (by decide), List.nil_append]
    simp [unlab, Tree.isRule, Res.must, Res.bind]
  have hn : ∃ ns, NamesTokens (leavesAll l7) (ns.map (·.text)) ∧
      (Tree.node .insert_stmt (l1 ++ (l2 ++ ([.leaf into] ++ (l4 ++ ([.node .table_name tn] ++ (l6 ++ (l7 ++ (l8 ++ l9))))))))).all .column_name = ns := by
    refine ⟨(unlab l7).filter (Tree.isRule .column_name), ?_, ?_⟩
    · rcases opt_inv h7 with rfl | h7
      · exact Or.inl ⟨rfl, rfl⟩
      · obtain ⟨a1, n1, _, rfl, g1, j1⟩ := seq_inv h7
        obtain ⟨a2, n2, _, rfl, g2, j2⟩ := seq_inv j1
        obtain ⟨a3, a4, _, rfl, g3, g4⟩ := seq_inv j2
        obtain ⟨o, rfl, ho⟩ := tok_inv g1
        obtain ⟨c, rfl, hc⟩ := tok_inv g4
        refine Or.inr ⟨o, leavesAll (a2 ++ a3), c, by simp [leavesAll_append, leavesAll, Tree.leaves], ho, hc, ?_⟩
        have e : (unlab ([.leaf o] ++ (a2 ++ (a3 ++ [.leaf c])))).filter (Tree.isRule .column_name) = (unlab (a2 ++ a3)).filter (Tree.isRule .column_name) := by
          simp only [filter_unlab_append, absent_filter (r := .column_name) g1 (by decide), absent_filter (r := .column_name) g4 (by decide), List.nil_append, List.append_nil]
        rw [e]
        refine Spec.Sep.map (fun ts t ht => ?_) (sep_inv (single_nt .column_name (by decide) (by decide)) g2 g3)
        rw [ht.1, text_leaves]
    · rw [Tree.all, Tree.kids]
      simp only [filter_unlab_append, absent_filter (r := .column_name) h1 (by decide), absent_filter (r := .column_name) h2 (by decide),
        absent_filter (r := .column_name) h3 (by decide), absent_filter (r := .column_name) h4 (by decide), absent_filter (r := .column_name) h5 (by decide),
        absent_filter (r := .column_name) h6 (by decide), absent_filter (r := .column_name) h8 (by decide), absent_filter (r := .column_name) h9 (by decide),
        List.nil_append, List.append_nil]
  obtain ⟨ns, hns, hall⟩ := hn
  have hv : (Tree.node .insert_stmt (l1 ++ (l2 ++ ([.leaf into] ++ (l4 ++ ([.node .table_name tn] ++ (l6 ++ (l7 ++ (l8 ++ l9))))))))).child .values_clause =
      ((unlab l8).filter (Tree.isRule .values_clause)).head? := by
    rw [child_head, Tree.all, Tree.kids]
    simp only [filter_unlab_append, absent_filter (r := .values_clause) h1 (by decide), absent_filter (r := .values_clause) h2 (by decide),
        absent_filter (r := .values_clause) h3 (by decide), absent_filter (r := .values_clause) h4 (by decide), absent_filter (r := .values_clause) h5 (by decide),
        absent_filter (r := .values_clause) h6 (by decide), absent_filter (r := .values_clause) h7 (by decide), absent_filter (r := .values_clause) h9 (by decide),
        List.nil_append, List.append_nil]
  unfold Visit.insert
  rw [ht, hv, hall]
  have h8' : (unlab l8).filter (Tree.isRule .values_clause) = [] ∨ ∃ vs up ts us, l8 = [.node .values_clause vs] ++ up ∧
      Derives (body .values_clause) ts vs us ∧ FirstIn [.ON_] (leavesAll up) := by
    cases h8 with
    | altRight h => exact Or.inl (absent_filter h (by decide))
    | altLeft h =>
      obtain ⟨a, b, _, rfl, g1, g2⟩ := seq_inv h
      cases g1 with
      | altRight g1 =>
        refine Or.inl ?_
        rw [filter_unlab_append, absent_filter (r := .values_clause) g1 (by decide), absent_filter (r := .values_clause) g2 (by decide)]; rfl
      | altLeft g1 =>
        obtain ⟨vs, rfl, g3⟩ := nt_inv g1
        exact Or.inr ⟨vs, b, _, _, rfl, g3, begins_sound (K := [.ON_]) (R := [.upsert_clause]) (by decide) (by decide) g2 (by decide)⟩
  rcases h8' with h8' | ⟨vs, up, ts', us', rfl, hd, hup⟩
  · rw [h8']; exact .panic
  · have e1 : ((unlab ([.node .values_clause vs] ++ up)).filter (Tree.isRule .values_clause)).head? = some (.node .values_clause vs) := by
      simp [unlab, Tree.isRule]
    obtain ⟨vs', hvs, hsv⟩ := hs.childOf (hv.trans e1)
    cases hvs
    rw [e1]
    simp only [Res.must, Res.bind]
    obtain ⟨a1, n1, _, rfl, g1, j1⟩ := seq_inv hd
    obtain ⟨a2, a3, _, rfl, g2, g3⟩ := seq_inv j1
    obtain ⟨w, rfl, hw⟩ := tok_inv g1
    have e2 : (Tree.node .values_clause ([.leaf w] ++ (a2 ++ a3))).all .value_row = (unlab (a2 ++ a3)).filter (Tree.isRule .value_row) := by
      rw [Tree.all, Tree.kids]
      simp only [filter_unlab_append, absent_filter (r := .value_row) g1 (by decide), List.nil_append]
    rw [e2]
    refine (Spec.Sep.all (Q := RowTokens (ns.map (·.text))) (fun ts t ht => row_tokens ht.1 ht.2)
      ((sep_inv (single_nt .value_row (by decide) (by decide)) g2 g3).with_mem fun a ha => by
        obtain ⟨ds, rfl, h⟩ := hsv.allOf (e2 ▸ ha)
        exact h)).bind fun rows hrows => .ok ?_
    intro i hi
    cases hi
    refine ⟨leavesAll l1, leavesAll l2, into, leavesAll l4, (Tree.node .table_name tn).leaves, leavesAll l6, leavesAll l7, w, leavesAll (a2 ++ a3),
      leavesAll up ++ leavesAll l9, ns.map (·.text), ?_, hwith, hkw, hfirst, hinto, hsch, ?_, rfl, hals, hns, hw, hrows, ?_⟩
    · simp [Tree.leaves, leavesAll_append, leavesAll]
    · obtain ⟨a, b, g1, g2, g3⟩ := trim_ends s%"'`()" (Tree.node .table_name tn).text
      have sub : ∀ c : Char, (s%"'`()").contains c = true → c ∈ quoteChars := by
        intro c hc; simp at hc; rcases hc with rfl | rfl | rfl | rfl <;> decide
      exact ⟨a, b, by rw [← text_leaves]; exact g1, fun c hc => sub c (g2 c hc), fun c hc => sub c (g3 c hc)⟩
    · refine FirstIn.append (fun t r h => ?_) fun _ => ?_
      · have := hup t r h
        rw [List.mem_singleton] at this
        rw [this]; decide
      · intro t r h
        have := begins_sound (K := [.RETURNING_]) (R := [.returning_clause]) (by decide) (by decide) h9 (by decide) t r h
        rw [List.mem_singleton] at this
        rw [this]; decide

/-! ### All statements -/

/-- A property of one kind of statement holds of what is made if it does for the handler of that kind. -/
theorem handles_kind {toUint : Str → Option Nat} {P : List Token → Statement → Prop} (k : Rule)
    (hk : ∀ {f cs}, (k, f) ∈ handlers toUint → Sound (.node k cs) → (f (.node k cs)).Post (P (Tree.node k cs).leaves))
    (ho : ∀ own s, kindOf s ≠ k → P own s) : Handles toUint P := by
  intro r f hm cs hs
  by_cases hr : r = k
  · subst hr; exact hk hm hs
  · intro s h
    refine ho _ _ ?_
    rw [handlers_gives toUint hm _ s h]; exact hr

theorem handler_update (toUint : Str → Option Nat) : Handles toUint UpdateWritten :=
  handles_kind .update_stmt (fun hm hs => by simp [handlers] at hm; subst hm; exact update_tokens hs)
    fun own s h u hu => by subst hu; exact absurd rfl h

theorem handler_delete (toUint : Str → Option Nat) : Handles toUint DeleteWritten :=
  handles_kind .delete_stmt (fun hm hs => by simp [handlers] at hm; subst hm; exact delete_tokens hs)
    fun own s h u hu => by subst hu; exact absurd rfl h

theorem handler_insert (toUint : Str → Option Nat) : Handles toUint InsertWritten :=
  handles_kind .insert_stmt (fun hm hs => by simp [handlers] at hm; subst hm; exact insert_tokens hs)
    fun own s h u hu => by subst hu; exact absurd rfl h

end Verif.Lemmas
