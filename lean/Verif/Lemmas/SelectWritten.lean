import Verif.Lemmas.Dml
import Verif.Lemmas.Find
import Verif.Spec.Select
import Verif.Props.ExecValues
/-! SELECT is what is written. -/
namespace Verif.Gram
open Verif Verif.Lex Verif.Spec

/-- No child of the part is a token of kind `k`, not even a labelled one. -/
def leafless (k : Tok) : Elem → Bool
  | .tok t => decide (t ≠ k)
  | .set f => !f k
  | .seq a b | .alt a b => leafless k a && leafless k b
  | .star a | .nstar a | .lab _ a => leafless k a
  | .eps | .eof | .nt _ | .expr _ => true
  | .seg _ => false

/-- A list of trees without a token of kind `k`. -/
def Tokless (k : Tok) (l : List Tree) : Prop := ∀ x : Token, x.kind = k → Tree.leaf x ∉ unlab l ∧ Tree.leaf x ∉ l

theorem Tokless.append {k : Tok} {a b : List Tree} (ha : Tokless k a) (hb : Tokless k b) : Tokless k (a ++ b) := by
  intro x hx
  rw [unlab_append, List.mem_append, List.mem_append]
  exact ⟨fun h => h.elim (ha x hx).1 (hb x hx).1, fun h => h.elim (ha x hx).2 (hb x hx).2⟩

theorem leafless_sound {k : Tok} {e : Elem} {ts us : List Token} {l : List Tree} (h : Derives e ts l us) (hf : leafless k e = true) :
    Tokless k l := by
  induction h with
  | eps | eof | starNil | nstarNil => exact fun _ _ => ⟨List.not_mem_nil, List.not_mem_nil⟩
  | tok y r =>
    have hk : y.kind ≠ k := by simpa [leafless] using hf
    exact fun x hx => ⟨fun h => (by cases List.mem_singleton.mp h; exact hk hx), fun h => (by cases List.mem_singleton.mp h; exact hk hx)⟩
  | set f y r hy =>
    have hk : y.kind ≠ k := by rintro rfl; rw [leafless, hy] at hf; cases hf
    exact fun x hx => ⟨fun h => (by cases List.mem_singleton.mp h; exact hk hx), fun h => (by cases List.mem_singleton.mp h; exact hk hx)⟩
  | seq _ _ ih1 ih2 =>
    simp only [leafless, Bool.and_eq_true] at hf
    exact (ih1 hf.1).append (ih2 hf.2)
  | altLeft _ ih => simp only [leafless, Bool.and_eq_true] at hf; exact ih hf.1
  | altRight _ ih => simp only [leafless, Bool.and_eq_true] at hf; exact ih hf.2
  | starCons _ _ ih1 ih2 | nstarCons _ _ ih1 ih2 => exact (ih1 hf).append (ih2 hf)
  | lab p _ ih =>
    intro x hx
    refine ⟨fun h => ?_, fun h => (by cases List.mem_singleton.mp h)⟩
    simp only [unlab, List.append_nil] at h
    exact (ih hf x hx).2 h
  | seg => cases hf
  | nt q _ ih => exact fun x _ => ⟨fun h => (by cases List.mem_singleton.mp h), fun h => (by cases List.mem_singleton.mp h)⟩
  | @expr p ts us l h ih =>
    obtain ⟨ds, hd⟩ := foldExpr_node l
    rw [hd]
    exact fun x _ => ⟨fun h => (by cases List.mem_singleton.mp h), fun h => (by cases List.mem_singleton.mp h)⟩

theorem token_none {k : Tok} {r : Rule} {l : List Tree} (h : Tokless k l) : (Tree.node r l).token k = none := by
  rw [Tree.token, Tree.kids, List.find?_eq_none]
  intro t ht hk
  cases t with
  | leaf x => exact (h x (by simpa [Tree.isTok] using hk)).1 ht
  | _ => cases hk

open Verif.Lemmas

/-! ### Calls are recognised -/

/-- A part that needs a token cannot begin with a token that it does not start with. -/
theorem dead {e : Elem} {x : Token} {r us : List Token} {l : List Tree} (h : Derives e (x :: r) l us) (hp : Proper e)
    (hs : startsWith e x.kind = false) (hn : nullable e = false) : False := by
  have := derives_starts h 80 x r rfl hp hs
  subst this
  rw [derives_nullable hp h] at hn
  cases hn

theorem anyName_ident {n : Token} {r us : List Token} {l : List Tree} (h : Derives (.nt .any_name) (n :: r) l us) (hn : n.kind = .IDENTIFIER) :
    us = r := by
  obtain ⟨cs, -, h⟩ := nt_inv h
  rcases alt_inv h with h | h
  · obtain ⟨x, rfl, -⟩ := tok_inv h
    have := derives_leaves h
    rw [leavesAll_one, Tree.leaves] at this
    exact (List.cons.inj this).2.symm
  · exact (dead h ⟨by decide, by decide⟩ (by rw [hn]; decide) (by decide)).elim

theorem name_ident {q : Rule} (hq : body q = .nt .any_name) {n : Token} {r us : List Token} {l : List Tree} (h : Derives (.nt q) (n :: r) l us)
    (hn : n.kind = .IDENTIFIER) : us = r := by
  obtain ⟨cs, -, h⟩ := nt_inv h
  rw [hq] at h
  exact anyName_ident h hn

/-- A primary expression that begins with a name and a parenthesis is a function call. -/
theorem primary_call {n o : Token} {r us : List Token} {l : List Tree} (h : Derives primary (n :: o :: r) l us) (hn : n.kind = .IDENTIFIER)
    (ho : o.kind = .OPEN_PAR) (hl : us ≠ o :: r) : ∃ fs, l = [.node .«function» fs] ∧ Derives (body .«function») (n :: o :: r) fs us := by
  rw [primary] at h
  rcases alt_inv h with h | h
  · exact (dead h ⟨by decide, by decide⟩ (by rw [hn]; decide) (by decide)).elim
  rcases alt_inv h with h | h
  · obtain ⟨cs, -, h⟩ := nt_inv h
    obtain ⟨_, _, _, -, h1, h2⟩ := seq_inv h
    have := name_ident rfl h1 hn
    subst this
    obtain ⟨_, _, _, -, h1, h2⟩ := seq_inv h2
    exact (dead h1 ⟨by decide, by decide⟩ (by rw [ho]; decide) (by decide)).elim
  rcases alt_inv h with h | h
  · exact (dead h ⟨by decide, by decide⟩ (by rw [hn]; decide) (by decide)).elim
  rcases alt_inv h with h | h
  · exact (dead h ⟨by decide, by decide⟩ (by rw [hn]; decide) (by decide)).elim
  rcases alt_inv h with h | h
  · exact (dead h ⟨by decide, by decide⟩ (by rw [hn]; decide) (by decide)).elim
  rcases alt_inv h with h | h
  · obtain ⟨_, _, _, -, h1, h2⟩ := seq_inv h
    cases h1 with
    | altLeft h1 =>
      obtain ⟨_, _, _, -, h3, h4⟩ := seq_inv h1
      cases h3 with
      | altLeft h3 =>
        obtain ⟨_, _, _, -, h3, h5⟩ := seq_inv h3
        have := name_ident rfl h3 hn
        subst this
        exact (dead h5 ⟨by decide, by decide⟩ (by rw [ho]; decide) (by decide)).elim
      | altRight h3 =>
        cases h3
        obtain ⟨_, _, _, -, h3, h5⟩ := seq_inv h4
        have := name_ident rfl h3 hn
        subst this
        exact (dead h5 ⟨by decide, by decide⟩ (by rw [ho]; decide) (by decide)).elim
    | altRight h1 =>
      cases h1
      exact absurd (name_ident rfl h2 hn) hl
  rcases alt_inv h with h | h
  · exact (dead h ⟨by decide, by decide⟩ (by rw [hn]; decide) (by decide)).elim
  have cmp : ∀ {l us}, Derives (.nt .comparison_expr) (n :: o :: r) l us → False := by
    intro l us h
    obtain ⟨cs, -, h⟩ := nt_inv h
    obtain ⟨_, _, _, -, h1, h2⟩ := seq_inv h
    have := name_ident rfl h1 hn
    subst this
    obtain ⟨_, _, _, -, h1, h2⟩ := seq_inv h2
    exact dead h1 ⟨by decide, by decide⟩ (by rw [ho]; decide) (by decide)
  rcases alt_inv h with h | h
  · exact (cmp h).elim
  rcases alt_inv h with h | h
  · obtain ⟨cs, -, h⟩ := nt_inv h
    obtain ⟨_, _, _, -, h1, h2⟩ := seq_inv h
    cases h1 with
    | lab _ h1 => exact (cmp h1).elim
  rcases alt_inv h with h | h
  · obtain ⟨cs, -, h⟩ := nt_inv h
    obtain ⟨_, _, _, -, h1, h2⟩ := seq_inv h
    cases h1 with
    | lab _ h1 => exact (cmp h1).elim
  rcases alt_inv h with h | h
  · exact nt_inv h
  · exact (dead h ⟨by decide, by decide⟩ (by rw [hn]; decide) (by decide)).elim

/-- An expression that begins with a name and a parenthesis is a function call, perhaps with an operator behind it. -/
theorem expr_call {n o : Token} {r us : List Token} {l : List Tree} (h : Derives (.expr 0) (n :: o :: r) l us) (hn : n.kind = .IDENTIFIER)
    (ho : o.kind = .OPEN_PAR) (hl : us ≠ o :: r) :
    ∃ fs vs, Derives (body .«function») (n :: o :: r) fs vs ∧ (l = [.node .expr [.node .«function» fs]] ∨
      ∃ x s, vs = x :: (s ++ us) ∧ startsWith (suffix 0) x.kind = true) := by
  cases h with
  | @expr p _ _ l h =>
    rw [exprBody] at h
    obtain ⟨a, b, vs, rfl, h1, h2⟩ := seq_inv h
    have hs := beforeSegs_split (segFree_sound h1 primary_segFree) (star_only (fun h => suffix_only h) h2)
    have hv : vs ≠ o :: r := by
      rintro rfl
      apply hl
      exact (derives_starts h2 80 o r rfl ⟨by decide, by decide⟩ (by rw [ho]; decide))
    obtain ⟨fs, rfl, hf⟩ := primary_call h1 hn ho hv
    refine ⟨fs, vs, hf, ?_⟩
    cases h2 with
    | starNil => exact Or.inl (by rfl)
    | starCons h3 h4 =>
      right
      rename_i b1 b2
      have hv := derives_leaves h3
      have hw := derives_leaves h4
      cases hx : leavesAll b1 with
      | nil =>
        rw [hx] at hv
        subst hv
        exact absurd (derives_nullable ⟨by decide, by decide⟩ h3) (by decide)
      | cons x s =>
        rw [hx] at hv
        subst hv
        refine ⟨x, s ++ leavesAll b2, by rw [hw, List.cons_append, List.append_assoc], ?_⟩
        cases hc : startsWith (suffix 0) x.kind with
        | true => rfl
        | false => exact (dead h3 ⟨by decide, by decide⟩ hc (by decide)).elim

end Verif.Gram

namespace Verif.Lemmas
open Verif Verif.Lex Verif.Gram Verif.Query Verif.Visit Verif.Util Verif.Spec

theorem upper_same (s : Str) : SameName (Str.upper s) s :=
  (sameName_iff _ _).mp ((Str.eqFold_iff _ _).mpr (Str.upper_upper s))

theorem callName_tokens {ts us : List Token} {l : List Tree} (h : Derives (.nt .function_name) ts l us) : CallName (leavesAll l) := by
  obtain ⟨a, rfl, h0⟩ := nt_inv h
  clear h
  obtain ⟨b, rfl, h⟩ := nt_inv (show Derives (.nt .any_name) ts a us from h0)
  clear h0
  have one : ∀ {t : Tree} {x : Token}, t.leaves = [x] → CallName (leavesAll [.node .function_name [.node .any_name [t]]]) := by
    intro t x ht
    exact Or.inl ⟨x, by simp [leavesAll, Tree.leaves, ht]⟩
  rcases alt_inv h with h | h
  · obtain ⟨x, rfl, -⟩ := tok_inv h; exact one rfl
  rcases alt_inv h with h | h
  · obtain ⟨c, rfl, h'⟩ := nt_inv h
    cases h' with
    | set f x r hx => exact one (x := x) (by simp [leavesAll, Tree.leaves])
  rcases alt_inv h with h | h
  · obtain ⟨x, rfl, -⟩ := tok_inv h; exact one rfl
  · obtain ⟨l1, m1, _, rfl, h1, h2⟩ := seq_inv h
    obtain ⟨l2, m2, _, rfl, h2, h3⟩ := seq_inv h2
    obtain ⟨o, rfl, ho⟩ := tok_inv h1
    obtain ⟨c, rfl, hc⟩ := tok_inv h3
    exact Or.inr ⟨o, leavesAll l2, c, by simp [leavesAll, Tree.leaves, leavesAll_append], ho, hc⟩

/-- The parenthesis that closes is determined. -/
theorem close_unique {a b r s : List Token} {c d : Token} (ha : Balanced a) (hb : Balanced b) (hc : c.kind = .CLOSE_PAR) (hd : d.kind = .CLOSE_PAR)
    (h : a ++ c :: r = b ++ d :: s) : a = b ∧ r = s := by
  have key : ∀ {a b : List Token} {c : Token} {x : List Token}, Balanced a → Balanced b → c.kind = .CLOSE_PAR → b = a ++ c :: x → False := by
    rintro a b c x ha hb hc rfl
    have h1 := hb.2 (a ++ [c]) x (by simp)
    have h2 := ha.1
    simp [countKind, hc] at h1 h2
    omega
  rcases List.append_eq_append_iff.mp h with ⟨x, rfl, hx⟩ | ⟨x, rfl, hx⟩
  · cases x with
    | nil => cases hx; exact ⟨by simp, rfl⟩
    | cons y x => cases hx; exact (key ha hb hc rfl).elim
  · cases x with
    | nil => cases hx; exact ⟨by simp, rfl⟩
    | cons y x => cases hx; exact (key hb ha hd rfl).elim

theorem named_type (w : Str) : TypeNamed w ((Fn.newFunctionTypeForName w).getD .unknown) := by
  have h := Props.C97_known w
  cases ht : Fn.newFunctionTypeForName w with
  | some t => exact Or.inl (h.2 t ht)
  | none => exact Or.inr ⟨rfl, fun t hd => by have := (h.1 t hd).2.1; rw [ht] at this; cases this⟩

/-- An alias, or nothing. -/
theorem alias_tokens {ts us : List Token} {l : List Tree} (h : Derives (.opt ((.opt (.tok .AS_)) ⬝ (.nt .column_alias))) ts l us) :
    FirstIn [.AS_, .IDENTIFIER, .STRING_LITERAL] (leavesAll l) :=
  begins_sound (R := [.column_alias]) (by decide) (by decide) h (by decide)

/-- A function call is what its tokens say. -/
theorem call_tokens {ts us : List Token} {fs : List Tree} (h : Derives (body .«function») ts fs us) :
    ∃ n o b c rest, leavesAll fs = n ++ o :: (b ++ c :: rest) ∧ CallName n ∧ o.kind = .OPEN_PAR ∧ c.kind = .CLOSE_PAR ∧ Balanced b ∧
      FirstIn [.FILTER_, .OVER_] rest ∧
      Visit.textOf .function_name (.node .«function» fs) = .ok (Spec.textOf n) ∧ ArgTokens b (functionArgs (.node .«function» fs)) := by
  obtain ⟨l1, m1, _, rfl, h1, k1⟩ := seq_inv h
  obtain ⟨l2, m2, _, rfl, h2, k2⟩ := seq_inv k1
  obtain ⟨l3, m3, _, rfl, h3, k3⟩ := seq_inv k2
  obtain ⟨l4, m4, _, rfl, h4, k4⟩ := seq_inv k3
  have hn := callName_tokens h1
  obtain ⟨ns, rfl, -⟩ := nt_inv h1
  obtain ⟨o, rfl, ho⟩ := tok_inv h2
  obtain ⟨c, rfl, hc⟩ := tok_inv h4
  rw [leavesAll_one] at hn
  refine ⟨(Tree.node .function_name ns).leaves, o, leavesAll l3, c, leavesAll m4, ?_, hn, ho, hc, walk_balanced (level_sound h3 0 0 (by decide)),
    begins_sound (K := [.FILTER_, .OVER_]) (R := [.filter_clause, .over_clause]) (by decide) (by decide) k4 (by decide), ?_, ?_⟩
  · simp [Tree.leaves, leavesAll_append, leavesAll]
  · rw [← text_leaves]
    simp [Visit.textOf, Tree.child, Tree.kids, unlab, Tree.isRule, Res.must, Res.bind]
  · have he : (Tree.node .«function» ([.node .function_name ns] ++ ([.leaf o] ++ (l3 ++ ([.leaf c] ++ m4))))).all .expr =
        (unlab l3).filter (Tree.isRule .expr) := by
      rw [Tree.all, Tree.kids]
      simp only [filter_unlab_append, absent_filter (r := .expr) h1 (by decide), absent_filter (r := .expr) h2 (by decide),
        absent_filter (r := .expr) h4 (by decide), absent_filter (r := .expr) k4 (by decide), List.nil_append, List.append_nil]
    have hno : Tokless .STAR l3 → (Tree.node .«function» ([.node .function_name ns] ++ ([.leaf o] ++ (l3 ++ ([.leaf c] ++ m4))))).token .STAR = none :=
      fun hl => token_none ((leafless_sound h1 (by decide)).append ((leafless_sound h2 (by decide)).append (hl.append
        ((leafless_sound h4 (by decide)).append (leafless_sound k4 (by decide))))))
    rcases opt_inv h3 with rfl | h3
    · rw [functionArgs, hno (fun _ _ => ⟨List.not_mem_nil, List.not_mem_nil⟩), he]
      exact .none
    · rcases alt_inv h3 with h3 | h3
      · rw [functionArgs, hno (leafless_sound h3 (by decide)), he]
        obtain ⟨a1, n1, _, rfl, g1, j1⟩ := seq_inv h3
        obtain ⟨a2, a3, _, rfl, g2, g3⟩ := seq_inv j1
        have hs := sep_inv (single_expr 0) g2 g3
        rw [leavesAll_append, filter_unlab_append, absent_filter (r := .expr) g1 (by decide), List.nil_append]
        refine .list _ _ _ ?_ (hs.map fun ts t ht => by rw [ht.1, text_leaves])
        rcases opt_inv g1 with rfl | g1
        · exact Or.inl rfl
        · obtain ⟨d, rfl, hd⟩ := tok_inv g1
          exact Or.inr ⟨d, by simp [leavesAll, Tree.leaves], hd⟩
      · obtain ⟨s, rfl, hs⟩ := tok_inv h3
        have hk : decide (o.kind = .STAR) = false := by rw [ho]; rfl
        have : (Tree.node .«function» ([.node .function_name ns] ++ ([.leaf o] ++ ([.leaf s] ++ ([.leaf c] ++ m4))))).token .STAR = some (.leaf s) := by
          simp [Tree.token, Tree.kids, unlab, Tree.isTok, List.find?, ho, hs]
        rw [functionArgs, this]
        have e : leavesAll [Tree.leaf s] = [s] := by simp [leavesAll, Tree.leaves]
        rw [e]
        exact .star s hs

/-- A result column is what its tokens say. -/
theorem selector_tokens {ts : List Token} {t : Tree} (h : DerivedAs (.nt .result_column) ts t) : (selector t).Post (SelTokens ts) := by
  obtain ⟨rfl, us, vs, hd⟩ := h
  obtain ⟨cs, hc, hb⟩ := nt_inv hd
  cases hc
  unfold selector
  split
  · rename_i f hf
    obtain ⟨e, he, hf⟩ := Option.bind_eq_some_iff.mp hf
    rcases alt_inv hb with hb | hb
    · obtain ⟨x, rfl, -⟩ := tok_inv hb
      exact absurd he (by simp [Tree.child, Tree.kids, unlab, Tree.isRule])
    rcases alt_inv hb with hb | hb
    · rw [child_head, Tree.all, Tree.kids, absent_filter hb (by decide)] at he
      cases he
    · obtain ⟨a, b, _, rfl, g1, g2⟩ := seq_inv hb
      obtain ⟨es, rfl, -⟩ := single_expr 0 g1
      have he' : Tree.node .expr es = e := by simpa [Tree.child, Tree.kids, unlab, Tree.isRule] using he
      subst he'
      obtain ⟨hw, ts', us', hd'⟩ := expr_solo g1 (List.mem_singleton_self _) (by decide) hf
      cases hw
      obtain ⟨fs, hfs, hx⟩ := nt_inv hd'
      cases hfs
      obtain ⟨n, o, bd, c, rest, e1, hn, ho, hcl, hbal, hr, e2, ha⟩ := call_tokens hx
      rw [e2]
      have e3 : (Tree.node .result_column ([.node .expr [.node .«function» fs]] ++ b)).leaves = n ++ o :: (bd ++ c :: (rest ++ leavesAll b)) := by
        simp [Tree.leaves, leavesAll, e1]
      rw [e3]
      refine .ok (.call n o bd c _ _ hn ho hcl hbal ?_ ha rfl (named_type _) rfl rfl)
      have hal := alias_tokens g2
      intro x r hx
      cases rest with
      | nil => have := hal x r hx; revert this; generalize x.kind = k; intro h; revert h; cases k <;> decide
      | cons y ys => cases hx; have := hr x ys rfl; revert this; generalize x.kind = k; intro h; revert h; cases k <;> decide
  · rename_i hnone
    rw [text_leaves]
    refine .ok (.col _ ?_)
    rintro ⟨n, o, bd, c, rest, e, hn, ho, hcl, hbal, hr⟩
    rw [Tree.leaves] at e
    have hts := derives_leaves hb
    rw [e] at hts
    rcases alt_inv hb with hb | hb
    · obtain ⟨x, rfl, -⟩ := tok_inv hb
      simp [leavesAll, Tree.leaves] at e
    rcases alt_inv hb with hb | hb
    · obtain ⟨_, _, _, -, h1, h2⟩ := seq_inv hb
      rw [hts] at h1
      have := name_ident rfl h1 hn
      subst this
      obtain ⟨_, _, _, -, h1, h2⟩ := seq_inv h2
      exact dead h1 ⟨by decide, by decide⟩ (by rw [ho]; decide) (by decide)
    · obtain ⟨a, b, ws, rfl, g1, g2⟩ := seq_inv hb
      have hws := derives_leaves g2
      rw [hts] at g1
      have hne : ws ≠ o :: (bd ++ c :: rest ++ vs) := by
        intro hw
        rw [hw] at g2
        have := derives_starts g2 80 o _ rfl ⟨by decide, by decide⟩ (by rw [ho]; decide)
        have hlen := congrArg List.length this
        simp only [List.length_append, List.length_cons] at hlen
        omega
      obtain ⟨fs, xs, hf, hl⟩ := expr_call g1 hn ho hne
      obtain ⟨n', o', b', c', rest', e1, hn', ho', hc', hb', hr', -⟩ := call_tokens hf
      have hfl := derives_leaves hf
      rw [e1] at hfl
      rcases hl with rfl | ⟨x, s, rfl, hx⟩
      · simp [Tree.child, Tree.kids, unlab, Tree.isRule] at hnone
      · have hrest : rest ++ vs = rest' ++ x :: (s ++ ws) := by
          rcases hn' with ⟨t, rfl⟩ | ⟨t, r, d, rfl, ht, -⟩
          · simp only [List.cons_append, List.nil_append, List.cons.injEq, List.append_assoc] at hfl
            have h3 : (bd ++ c :: rest) ++ vs = _ := hfl.2.2
            rw [List.append_assoc, List.cons_append] at h3
            exact (close_unique hbal hb' hcl hc' h3).2
          · simp only [List.cons_append, List.cons.injEq] at hfl
            rw [← hfl.1, hn] at ht
            cases ht
        rw [hws] at hrest
        have hrest : rest = rest' ++ x :: (s ++ leavesAll b) := by
          apply List.append_cancel_right (bs := vs)
          rw [hrest]
          simp
        cases rest' with
        | nil =>
          have := hr x _ hrest
          have hno : ∀ k ∈ [Tok.AS_, .IDENTIFIER, .STRING_LITERAL], startsWith (suffix 0) k = false := by decide
          rw [hno _ this] at hx
          cases hx
        | cons y ys =>
          have h1 := hr y _ hrest
          have h2 := hr' y ys rfl
          have hno : ∀ k ∈ [Tok.AS_, .IDENTIFIER, .STRING_LITERAL], k ∉ [Tok.FILTER_, .OVER_] := by decide
          exact hno _ h1 h2

/-- An element of FROM is what its tokens say. -/
theorem from_tokens {ts : List Token} {t : Tree} (h : DerivedAs (.nt .«from») ts t) : FromTokens ts (fromTable t) := by
  obtain ⟨rfl, us, vs, hd⟩ := h
  obtain ⟨cs, hc, hb⟩ := nt_inv hd
  cases hc
  have other : ∀ {r : Rule} {xs : List Tree}, r ≠ .from_table → (∃ x, x ∈ leavesAll xs ∧ x.kind = .OPEN_PAR) →
      FromTokens (Tree.node .«from» [.node r xs]).leaves (fromTable (.node .«from» [.node r xs])) := by
    intro r xs hr hx
    have : fromTable (.node .«from» [.node r xs]) = none := by
      simp [fromTable, Tree.child, Tree.kids, unlab, Tree.isRule, hr]
    rw [this]
    refine .other _ ?_
    rw [Tree.leaves, leavesAll_one, Tree.leaves]
    exact hx
  rcases alt_inv hb with hb | hb
  · obtain ⟨xs, rfl, hx⟩ := nt_inv hb
    have e0 : fromTable (.node .«from» [.node .from_table xs]) =
        some { name := (Tree.node .from_table xs).text, schema := (((Tree.node .from_table xs).child .schema_name).map (·.text)).getD [] } := by
      simp [fromTable, Tree.child, Tree.kids, unlab, Tree.isRule]
    have e1 : (Tree.node .«from» [.node .from_table xs]).leaves = leavesAll xs := by rw [Tree.leaves, leavesAll_one, Tree.leaves]
    rw [e0, e1, text_leaves, Tree.leaves]
    obtain ⟨l1, m1, _, rfl, h1, k1⟩ := seq_inv hx
    have hfed := feeds_sound (R := partRules) (by decide) (by decide) k1 (by decide)
    rw [child_head, Tree.all, Tree.kids, filter_unlab_append, absent_filter (r := .schema_name) k1 (by decide), List.append_nil]
    rcases opt_inv h1 with rfl | h1
    · exact .table _
    · obtain ⟨a, b, _, rfl, g1, g2⟩ := seq_inv h1
      have hs := feeds_sound (R := partRules) (by decide) (by decide) g1 (by decide)
      obtain ⟨ns, rfl, -⟩ := nt_inv g1
      obtain ⟨d, rfl, hdk⟩ := tok_inv g2
      rw [leavesAll_one] at hs
      have e2 : ((((unlab ([Tree.node .schema_name ns] ++ [.leaf d])).filter (Tree.isRule .schema_name)).head?.map (·.text)).getD []) =
          Spec.textOf (Tree.node .schema_name ns).leaves := by
        rw [← text_leaves]; simp [unlab, Tree.isRule]
      have e3 : leavesAll ([Tree.node .schema_name ns] ++ [.leaf d] ++ m1) = (Tree.node .schema_name ns).leaves ++ d :: leavesAll m1 := by
        simp [Tree.leaves, leavesAll]
      rw [e2, e3]
      exact .schema _ d _ hdk hs hfed
  rcases alt_inv hb with hb | hb
  · obtain ⟨xs, rfl, hx⟩ := nt_inv hb
    obtain ⟨l1, m1, _, rfl, h1, k1⟩ := seq_inv hx
    obtain ⟨l2, m2, _, rfl, h2, k2⟩ := seq_inv k1
    obtain ⟨l3, m3, _, rfl, h3, k3⟩ := seq_inv k2
    obtain ⟨o, rfl, ho⟩ := tok_inv h3
    exact other (by decide) ⟨o, by simp [leavesAll_append, leavesAll, Tree.leaves], ho⟩
  rcases alt_inv hb with hb | hb
  · obtain ⟨xs, rfl, hx⟩ := nt_inv hb
    obtain ⟨l1, m1, _, rfl, h1, k1⟩ := seq_inv hx
    obtain ⟨o, rfl, ho⟩ := tok_inv h1
    exact other (by decide) ⟨o, by simp [leavesAll, Tree.leaves], ho⟩
  · obtain ⟨xs, rfl, hx⟩ := nt_inv hb
    obtain ⟨l1, m1, _, rfl, h1, k1⟩ := seq_inv hx
    obtain ⟨o, rfl, ho⟩ := tok_inv h1
    exact other (by decide) ⟨o, by simp [leavesAll, Tree.leaves], ho⟩

/-- An ordering term is what its tokens say. -/
theorem term_tokens {ts : List Token} {t : Tree} (h : DerivedAs (.nt .ordering_term) ts t) : (orderOf t).Post (TermTokens ts) := by
  obtain ⟨rfl, us, vs, hd⟩ := h
  obtain ⟨cs, hc, hb⟩ := nt_inv hd
  cases hc
  obtain ⟨l1, m1, _, rfl, h1, k1⟩ := seq_inv hb
  obtain ⟨l2, m2, _, rfl, h2, k2⟩ := seq_inv k1
  obtain ⟨l3, l4, _, rfl, h3, h4⟩ := seq_inv k2
  obtain ⟨es, rfl, hp⟩ := single_expr 0 h1
  have hcoll := begins_sound (K := [.COLLATE_]) (R := []) (by decide) (by decide) h2 (by decide)
  have hnull := begins_sound (K := [.NULLS_]) (R := []) (by decide) (by decide) h4 (by decide)
  have e1 : Visit.textOf .expr (.node .ordering_term ([.node .expr es] ++ (l2 ++ (l3 ++ l4)))) = .ok (Spec.textOf (Tree.node .expr es).leaves) := by
    rw [← text_leaves]
    simp [Visit.textOf, Tree.child, Tree.kids, unlab, Tree.isRule, Res.must, Res.bind]
  have e2 : (Tree.node .ordering_term ([.node .expr es] ++ (l2 ++ (l3 ++ l4)))).child .asc_desc = ((unlab l3).filter (Tree.isRule .asc_desc)).head? := by
    rw [child_head, Tree.all, Tree.kids]
    simp only [filter_unlab_append, absent_filter (r := .asc_desc) h1 (by decide), absent_filter (r := .asc_desc) h2 (by decide),
      absent_filter (r := .asc_desc) h4 (by decide), List.nil_append, List.append_nil]
  have e3 : (Tree.node .ordering_term ([.node .expr es] ++ (l2 ++ (l3 ++ l4)))).leaves =
      (Tree.node .expr es).leaves ++ (leavesAll l2 ++ (leavesAll l3 ++ leavesAll l4)) := by
    simp [Tree.leaves, leavesAll, leavesAll_append]
  unfold orderOf
  rw [e1, e2, e3]
  simp only [Res.bind]
  refine .ok ?_
  rcases opt_inv h3 with rfl | h3
  · exact .lost _ _ [] _ hp hcoll (Or.inl rfl) hnull
  · obtain ⟨ds, rfl, hx⟩ := nt_inv h3
    obtain ⟨d, rfl, hdk⟩ := oneTok_sound (K := [.ASC_, .DESC_]) hx (by decide)
    have e4 : ((unlab [Tree.node .asc_desc [.leaf d]]).filter (Tree.isRule .asc_desc)).head? = some (.node .asc_desc [.leaf d]) := by
      simp [unlab, Tree.isRule]
    have e5 : (Tree.node .asc_desc [.leaf d]).text = d.text := by simp [Tree.text, textAll]
    have e6 : leavesAll [Tree.node .asc_desc [.leaf d]] = [d] := by simp [Tree.leaves, leavesAll]
    rw [e4, e6]
    simp only [e5, newOrderTypeWith]
    have same : ∀ {x : Str}, Str.upper x = x → (Str.upper d.text = x ↔ SameName d.text x) := by
      intro x hx
      rw [← sameName_iff, Str.eqFold_iff, hx]
    by_cases h1 : Str.upper d.text = s%"ASC"
    · rw [if_pos h1]
      exact .asc _ _ d _ hp hcoll hdk ((same (by decide)).mp h1) hnull
    · rw [if_neg h1]
      by_cases h2 : Str.upper d.text = s%"DESC"
      · rw [if_pos h2]
        exact .desc _ _ d _ hp hcoll hdk ((same (by decide)).mp h2) hnull
      · rw [if_neg h2]
        exact .lost _ _ [d] _ hp hcoll (Or.inr ⟨d, rfl, fun h => h1 ((same (by decide)).mpr h), fun h => h2 ((same (by decide)).mpr h)⟩) hnull

/-- ORDER BY is what its tokens say. -/
theorem orders_tokens {ts us : List Token} {l : List Tree} (h : Derives (.opt (.nt .order_by_stmt)) ts l us) :
    (match ((unlab l).filter (Tree.isRule .order_by_stmt)).head? with
      | none => Res.ok []
      | some o => (Res.all orderOf (o.all .ordering_term)).bind (fun l => .ok (l.filterMap id))).Post (OrderWritten (leavesAll l)) := by
  rcases opt_inv h with rfl | h
  · exact .ok (Or.inl ⟨rfl, rfl⟩)
  · obtain ⟨cs, rfl, hb⟩ := nt_inv h
    obtain ⟨l1, m1, _, rfl, h1, k1⟩ := seq_inv hb
    obtain ⟨l2, m2, _, rfl, h2, k2⟩ := seq_inv k1
    obtain ⟨l3, l4, _, rfl, h3, h4⟩ := seq_inv k2
    obtain ⟨w, rfl, hw⟩ := tok_inv h1
    obtain ⟨b, rfl, hbk⟩ := tok_inv h2
    have hs := sep_inv (single_nt .ordering_term (by decide) (by decide)) h3 h4
    have e1 : ((unlab [Tree.node .order_by_stmt ([.leaf w] ++ ([.leaf b] ++ (l3 ++ l4)))]).filter (Tree.isRule .order_by_stmt)).head? =
        some (.node .order_by_stmt ([.leaf w] ++ ([.leaf b] ++ (l3 ++ l4)))) := by
      simp [unlab, Tree.isRule]
    have e2 : (Tree.node .order_by_stmt ([.leaf w] ++ ([.leaf b] ++ (l3 ++ l4)))).all .ordering_term = (unlab (l3 ++ l4)).filter (Tree.isRule .ordering_term) := by
      rw [Tree.all, Tree.kids]
      simp only [List.cons_append, List.nil_append, unlab]
      rfl
    rw [e1]
    simp only [e2]
    refine (Spec.Sep.all (Q := TermTokens) (fun ts t ht => term_tokens ht) hs).bind fun items hi => .ok (Or.inr ⟨w, b, leavesAll (l3 ++ l4), items, ?_, hw, hbk, hi, rfl⟩)
    simp [Tree.leaves, leavesAll, leavesAll_append]

/-- LIMIT is what its tokens say. -/
theorem limit_tokens {toUint : Str → Option Nat} {ts us : List Token} {l : List Tree} (h : Derives (.opt (.nt .limit_stmt)) ts l us) :
    LimitWritten toUint (leavesAll l) (match ((unlab l).filter (Tree.isRule .limit_stmt)).head? with
      | none => { offset := 0, limit := 0 }
      | some l => match l.all .expr with
        | [] => { offset := 0, limit := 0 }
        | [a] => { offset := 0, limit := (toUint a.text).getD 0 }
        | a :: b :: _ => { offset := (toUint b.text).getD 0, limit := (toUint a.text).getD 0 }) := by
  rcases opt_inv h with rfl | h
  · exact Or.inl ⟨rfl, rfl⟩
  · obtain ⟨cs, rfl, hb⟩ := nt_inv h
    obtain ⟨l1, m1, _, rfl, h1, k1⟩ := seq_inv hb
    obtain ⟨l2, l3, _, rfl, h2, h3⟩ := seq_inv k1
    obtain ⟨w, rfl, hw⟩ := tok_inv h1
    obtain ⟨as, rfl, ha⟩ := single_expr 0 h2
    have e1 : ((unlab [Tree.node .limit_stmt ([.leaf w] ++ ([.node .expr as] ++ l3))]).filter (Tree.isRule .limit_stmt)).head? =
        some (.node .limit_stmt ([.leaf w] ++ ([.node .expr as] ++ l3))) := by
      simp [unlab, Tree.isRule]
    rw [e1]
    rcases opt_inv h3 with rfl | h3
    · have e2 : (Tree.node .limit_stmt ([.leaf w] ++ ([.node .expr as] ++ []))).all .expr = [.node .expr as] := by
        simp [Tree.all, Tree.kids, unlab, Tree.isRule]
      simp only [e2, text_leaves]
      exact Or.inr (Or.inl ⟨w, (Tree.node .expr as).leaves, by simp [Tree.leaves, leavesAll], hw, ha, rfl⟩)
    · obtain ⟨x, y, _, rfl, g1, g2⟩ := seq_inv h3
      obtain ⟨c, rfl, hc⟩ := oneTok_sound (K := [.OFFSET_, .COMMA]) g1 (by decide)
      obtain ⟨bs, rfl, hbp⟩ := single_expr 0 g2
      have e2 : (Tree.node .limit_stmt ([.leaf w] ++ ([.node .expr as] ++ ([.leaf c] ++ [.node .expr bs])))).all .expr = [.node .expr as, .node .expr bs] := by
        simp [Tree.all, Tree.kids, unlab, Tree.isRule]
      simp only [e2, text_leaves]
      exact Or.inr (Or.inr ⟨w, (Tree.node .expr as).leaves, c, (Tree.node .expr bs).leaves, by simp [Tree.leaves, leavesAll], hw, hc, ha, hbp, rfl⟩)

/-- Whatever can be joined can be an element of a list. -/
theorem from_of_table {ts us : List Token} {l : List Tree} (h : Derives (.nt .table_or_subquery) ts l us) : ∃ m, Derives (.nt .«from») ts m us := by
  obtain ⟨cs, -, h⟩ := nt_inv h
  rcases alt_inv h with h | h
  · exact ⟨_, .nt .«from» (.altLeft (.nt .from_table h))⟩
  rcases alt_inv h with h | h
  · exact ⟨_, .nt .«from» (.altRight (.altLeft (.nt .from_function h)))⟩
  rcases alt_inv h with h | h
  · exact ⟨_, .nt .«from» (.altRight (.altRight (.altRight (.nt .from_table_or_subquery h))))⟩
  · exact ⟨_, .nt .«from» (.altRight (.altRight (.altLeft (.nt .from_select h))))⟩

theorem opt_rest {a : Elem} {ts vs : List Token} {l : List Tree} (h : Derives (.opt a) ts l vs) : (l = [] ∧ vs = ts) ∨ Derives a ts l vs := by
  cases h with
  | altLeft h => exact Or.inr h
  | altRight h => cases h; exact Or.inl ⟨rfl, rfl⟩

theorem JoinTokens.behind {a b : List Token} (ha : Balanced a) (h : JoinTokens b) : JoinTokens (a ++ b) := by
  obtain ⟨x, t, y, rfl, hx, ht⟩ := h
  exact ⟨a ++ x, t, y, by simp, Balanced.append ha hx, ht⟩

theorem JoinTokens.before {a : List Token} (b : List Token) (h : JoinTokens a) : JoinTokens (a ++ b) := by
  obtain ⟨x, t, y, rfl, hx, ht⟩ := h
  exact ⟨x, t, y ++ b, by simp, hx, ht⟩

/-- What follows the first table of a join shows a join outside of parentheses, or is the rest of a list. -/
theorem joined {E : Elem} {ts us : List Token} {l : List Tree} (h : Derives E ts l us)
    (hE : E = .star ((.nt .join_operator) ⬝ (.nt .table_or_subquery) ⬝ (.opt (.nt .join_constraint)))) :
    JoinTokens (leavesAll l) ∨ ∃ m, Derives (.star ((.tok .COMMA) ⬝ (.nt .«from»))) ts m us := by
  induction h with
  | starNil a ts => exact Or.inr ⟨_, .starNil _ ts⟩
  | starCons h k _ ih =>
    cases hE
    obtain ⟨l1, m1, _, rfl, h1, k1⟩ := seq_inv h
    obtain ⟨l2, l3, _, rfl, h2, h3⟩ := seq_inv k1
    have b1 := walk_balanced (level_sound h1 0 0 (by decide))
    have b2 := walk_balanced (level_sound h2 0 0 (by decide))
    obtain ⟨c1, rfl, g1⟩ := nt_inv h1
    rcases alt_inv g1 with g1 | g1
    · rcases opt_rest h3 with ⟨rfl, rfl⟩ | h3
      · rcases ih rfl with hj | ⟨m, hm⟩
        · refine Or.inl ?_
          rw [leavesAll_append, List.append_nil, leavesAll_append]
          exact JoinTokens.behind (Balanced.append b1 b2) hj
        · obtain ⟨m', hm'⟩ := from_of_table h2
          exact Or.inr ⟨_, .starCons (.seq g1 hm') hm⟩
      · refine Or.inl ?_
        rw [leavesAll_append, leavesAll_append, leavesAll_append]
        refine JoinTokens.before _ (JoinTokens.behind b1 (JoinTokens.behind b2 ?_))
        have hf := begins_sound (K := [.ON_, .USING_]) (R := [.join_constraint]) (by decide) (by decide) h3 (by decide)
        have hn := eats_sound (R := [.join_constraint]) (by decide) h3 (by decide)
        cases he : leavesAll l3 with
        | nil => exact absurd he hn
        | cons t r => exact ⟨[], t, r, rfl, walk_balanced rfl, List.mem_cons_of_mem _ (hf t r he)⟩
    · refine Or.inl ?_
      rw [leavesAll_append, leavesAll_append]
      refine JoinTokens.before _ (JoinTokens.before _ ?_)
      obtain ⟨x1, y1, _, rfl, e1, f1⟩ := seq_inv g1
      obtain ⟨x2, x3, _, rfl, e2, e3⟩ := seq_inv f1
      have b3 := walk_balanced (level_sound e1 0 0 (by decide))
      have b4 := walk_balanced (level_sound e2 0 0 (by decide))
      obtain ⟨t, rfl, ht⟩ := tok_inv e3
      refine ⟨leavesAll x1 ++ leavesAll x2, t, [], by simp [leavesAll_append, leavesAll, Tree.leaves], Balanced.append b3 b4, ?_⟩
      rw [ht]; decide
  | _ => cases hE

/-- The FROM clause is what its tokens say. -/
theorem fromClause_tokens {ts us : List Token} {l : List Tree}
    (h : Chosen (.opt ((.tok .FROM_) ⬝ ((.opt ((.nt .«from») ⬝ (.star ((.tok .COMMA) ⬝ (.nt .«from»))))) ∣ (.nt .join_clause)))) ts l us) :
    FromWritten (leavesAll l) (((unlab l).filter (Tree.isRule .«from»)).filterMap fromTable) := by
  rcases copt_inv h with rfl | h
  · exact Or.inl ⟨rfl, rfl⟩
  · obtain ⟨l1, l2, _, rfl, h1, h2⟩ := cseq_inv h
    obtain ⟨f, rfl, hf⟩ := tok_inv h1.derives
    rw [filter_unlab_append, absent_filter (r := .«from») h1.derives (by decide), List.nil_append]
    refine Or.inr ⟨f, leavesAll l2, by simp [leavesAll, Tree.leaves], hf, ?_⟩
    rcases calt_inv h2 with h2 | ⟨h2, hno⟩
    · rcases opt_inv h2.derives with rfl | h2
      · exact Or.inl ⟨rfl, rfl⟩
      · obtain ⟨a, b, _, rfl, g1, g2⟩ := seq_inv h2
        have hs := sep_inv (single_nt .«from» (by decide) (by decide)) g1 g2
        refine Or.inr (Or.inr ⟨_, hs.map (f := fromTable) (fun ts t ht => from_tokens ht), ?_⟩)
        rw [List.filterMap_map]; rfl
    · rw [absent_filter (r := .«from») h2.derives (by decide)]
      refine Or.inr (Or.inl ⟨?_, rfl⟩)
      obtain ⟨cs, rfl, hb⟩ := nt_inv h2.derives
      obtain ⟨a, b, _, rfl, g1, g2⟩ := seq_inv hb
      rw [leavesAll_one, Tree.leaves, leavesAll_append]
      rcases joined g2 rfl with hj | ⟨m, hm⟩
      · exact JoinTokens.behind (walk_balanced (level_sound g1 0 0 (by decide))) hj
      · obtain ⟨m', hm'⟩ := from_of_table g1
        exact absurd (.altLeft (.seq hm' hm)) (hno _)

/-- The GROUP BY clause is what its tokens say. -/
theorem group_tokens {ts us : List Token} {l : List Tree} (h : Derives (.opt ((.tok .GROUP_) ⬝ (.tok .BY_) ⬝ (.lab .groupByExpr (.expr 0)) ⬝
      (.star ((.tok .COMMA) ⬝ (.lab .groupByExpr (.expr 0)))) ⬝ (.opt ((.tok .HAVING_) ⬝ (.lab .havingExpr (.expr 0)))))) ts l us) :
    GroupWritten (leavesAll l) (match labelled .groupByExpr l with
      | [] => []
      | g :: _ => g.text) := by
  rcases opt_inv h with rfl | h
  · exact Or.inl ⟨rfl, rfl⟩
  · obtain ⟨l1, m1, _, rfl, h1, k1⟩ := seq_inv h
    obtain ⟨l2, m2, _, rfl, h2, k2⟩ := seq_inv k1
    obtain ⟨l3, m3, _, rfl, h3, k3⟩ := seq_inv k2
    obtain ⟨w, rfl, hw⟩ := tok_inv h1
    obtain ⟨b, rfl, hb⟩ := tok_inv h2
    obtain ⟨xs, rfl, hx⟩ := lab_inv h3
    obtain ⟨es, rfl, hp⟩ := single_expr 0 hx
    have ht := begins_sound (K := [.COMMA, .HAVING_]) (R := []) (by decide) (by decide) k3 (by decide)
    have e1 : labelled .groupByExpr ([.leaf w] ++ ([.leaf b] ++ ([.lab .groupByExpr [.node .expr es]] ++ m3))) = .node .expr es :: labelled .groupByExpr m3 := by
      simp [labelled]
    rw [e1]
    refine Or.inr ⟨w, b, (Tree.node .expr es).leaves, leavesAll m3, by simp [leavesAll, Tree.leaves], hw, hb, hp, text_leaves _, ht⟩

/-- The first part of a SELECT is what its tokens say. -/
theorem core_tokens {ts us : List Token} {cs : List Tree} (h : Chosen (body .select_core) ts cs us) {x : Select} :
    (Res.all selector ((Tree.node .select_core cs).all .result_column)).Post fun ss =>
      x.selectors = ss → x.tables = ((Tree.node .select_core cs).all .«from»).filterMap fromTable → x.groupBy = groupOf (.node .select_core cs) →
      CoreWritten (leavesAll cs) x := by
  rcases calt_inv h with h | ⟨h, -⟩
  · obtain ⟨l1, m1, _, rfl, h1, k1⟩ := cseq_inv h
    obtain ⟨l2, m2, _, rfl, h2, k2⟩ := cseq_inv k1
    obtain ⟨l3, m3, _, rfl, h3, k3⟩ := cseq_inv k2
    obtain ⟨l4, m4, _, rfl, h4, k4⟩ := cseq_inv k3
    obtain ⟨l5, m5, _, rfl, h5, k5⟩ := cseq_inv k4
    obtain ⟨l6, m6, _, rfl, h6, k6⟩ := cseq_inv k5
    obtain ⟨l7, l8, _, rfl, h7, h8⟩ := cseq_inv k6
    obtain ⟨w, rfl, hw⟩ := tok_inv h1.derives
    have e1 : (Tree.node .select_core ([.leaf w] ++ (l2 ++ (l3 ++ (l4 ++ (l5 ++ (l6 ++ (l7 ++ l8)))))))).all .result_column =
        (unlab (l3 ++ l4)).filter (Tree.isRule .result_column) := by
      rw [Tree.all, Tree.kids]
      simp only [filter_unlab_append, absent_filter (r := .result_column) h1.derives (by decide), absent_filter (r := .result_column) h2.derives (by decide),
        absent_filter (r := .result_column) h5.derives (by decide), absent_filter (r := .result_column) h6.derives (by decide), absent_filter (r := .result_column) h7.derives (by decide),
        absent_filter (r := .result_column) h8.derives (by decide), List.nil_append, List.append_nil]
    have e2 : (Tree.node .select_core ([.leaf w] ++ (l2 ++ (l3 ++ (l4 ++ (l5 ++ (l6 ++ (l7 ++ l8)))))))).all .«from» =
        (unlab l5).filter (Tree.isRule .«from») := by
      rw [Tree.all, Tree.kids]
      simp only [filter_unlab_append, absent_filter (r := .«from») h1.derives (by decide), absent_filter (r := .«from») h2.derives (by decide),
        absent_filter (r := .«from») h3.derives (by decide), absent_filter (r := .«from») h4.derives (by decide), absent_filter (r := .«from») h6.derives (by decide),
        absent_filter (r := .«from») h7.derives (by decide), absent_filter (r := .«from») h8.derives (by decide), List.nil_append, List.append_nil]
    have e3 : (Tree.node .select_core ([.leaf w] ++ (l2 ++ (l3 ++ (l4 ++ (l5 ++ (l6 ++ (l7 ++ l8)))))))).labels .groupByExpr = labelled .groupByExpr l7 := by
      simp only [Tree.labels, labelled_append, labFree_sound (q := .groupByExpr) h1.derives (by decide), labFree_sound (q := .groupByExpr) h2.derives (by decide),
        labFree_sound (q := .groupByExpr) h3.derives (by decide), labFree_sound (q := .groupByExpr) h4.derives (by decide), labFree_sound (q := .groupByExpr) h5.derives (by decide),
        labFree_sound (q := .groupByExpr) h6.derives (by decide), labFree_sound (q := .groupByExpr) h8.derives (by decide), List.nil_append, List.append_nil]
    rw [e1, e2]
    refine (Spec.Sep.all (Q := SelTokens) (fun ts t ht => selector_tokens ht) (sep_inv (single_nt .result_column (by decide) (by decide)) h3.derives h4.derives)).mono ?_
    intro ss hs h1' h2' h3'
    refine Or.inr ⟨w, leavesAll l2, leavesAll (l3 ++ l4), leavesAll l5, leavesAll l6, leavesAll l7, leavesAll l8, ?_, hw, ?_, h1' ▸ hs, ?_, ?_, ?_, ?_⟩
    · simp [leavesAll, Tree.leaves, leavesAll_append]
    · rcases opt_inv h2.derives with rfl | h2
      · exact Or.inl rfl
      · obtain ⟨d, rfl, hd⟩ := oneTok_sound (K := [.DISTINCT_, .ALL_]) h2 (by decide)
        exact Or.inr ⟨d, by simp [leavesAll, Tree.leaves], hd⟩
    · rw [h2']; exact fromClause_tokens h5
    · exact begins_sound (K := [.WHERE_]) (R := []) (by decide) (by decide) h6.derives (by decide)
    · rw [h3', groupOf, e3]; exact group_tokens h7.derives
    · exact begins_sound (K := [.WINDOW_]) (R := []) (by decide) (by decide) h8.derives (by decide)
  · have hf := begins_sound (K := [.VALUES_]) (R := [.values_clause]) (by decide) (by decide) h.derives (by decide)
    have hn := eats_sound (R := [.values_clause]) (by decide) h.derives (by decide)
    rw [Tree.all, Tree.all, Tree.kids, absent_filter (r := .result_column) h.derives (by decide), absent_filter (r := .«from») h.derives (by decide)]
    refine .ok ?_
    intro h1' h2' h3'
    refine Or.inl ⟨?_, h1', h2', ?_⟩
    · cases he : leavesAll cs with
      | nil => exact absurd he hn
      | cons t r => exact ⟨t, r, rfl, List.mem_singleton.mp (hf t r he)⟩
    · rw [h3', groupOf, Tree.labels, labFree_sound (q := .groupByExpr) h.derives (by decide)]

theorem select_tokens {toUint : Str → Option Nat} {cs : List Tree} (hs : Sound (.node .select_stmt cs)) :
    (Visit.select toUint (.node .select_stmt cs)).Post (SelectWritten toUint (Tree.node .select_stmt cs).leaves) := by
  obtain ⟨ts, us, h⟩ := hs.chosen (by decide)
  obtain ⟨l1, m1, _, rfl, h1, k1⟩ := cseq_inv h
  obtain ⟨l2, m2, _, rfl, h2, k2⟩ := cseq_inv k1
  obtain ⟨l3, m3, _, rfl, h3, k3⟩ := cseq_inv k2
  obtain ⟨l4, l5, _, rfl, h4, h5⟩ := cseq_inv k3
  have hbal := walk_balanced (level_sound h2.derives 0 0 (by decide))
  obtain ⟨ds, rfl, h2a⟩ := clab_inv h2
  obtain ⟨es, rfl, hcore⟩ := cnt_inv h2a
  have hwith : WithTokens (leavesAll l1) :=
    ⟨begins_sound (K := [.WITH_]) (R := [.common_table_stmt]) (by decide) (by decide) h1.derives (by decide), walk_balanced (level_sound h1.derives 0 0 (by decide))⟩
  have hcomp := begins_sound (K := [.UNION_, .INTERSECT_, .EXCEPT_]) (R := [.compound_operator]) (by decide) (by decide) h3.derives (by decide)
  have e1 : (Tree.node .select_stmt (l1 ++ ([.lab .parentQuery [.node .select_core es]] ++ (l3 ++ (l4 ++ l5))))).label .parentQuery = some (.node .select_core es) := by
    simp only [Tree.label, Tree.labels, labelled_append, labFree_sound (q := .parentQuery) h1.derives (by decide), List.nil_append]
    simp [labelled]
  have e2 : (Tree.node .select_stmt (l1 ++ ([.lab .parentQuery [.node .select_core es]] ++ (l3 ++ (l4 ++ l5))))).child .order_by_stmt =
      ((unlab l4).filter (Tree.isRule .order_by_stmt)).head? := by
    rw [child_head, Tree.all, Tree.kids]
    simp only [filter_unlab_append, absent_filter (r := .order_by_stmt) h1.derives (by decide), absent_filter (r := .order_by_stmt) h2.derives (by decide),
      absent_filter (r := .order_by_stmt) h3.derives (by decide), absent_filter (r := .order_by_stmt) h5.derives (by decide), List.nil_append, List.append_nil]
  have e3 : (Tree.node .select_stmt (l1 ++ ([.lab .parentQuery [.node .select_core es]] ++ (l3 ++ (l4 ++ l5))))).child .limit_stmt =
      ((unlab l5).filter (Tree.isRule .limit_stmt)).head? := by
    rw [child_head, Tree.all, Tree.kids]
    simp only [filter_unlab_append, absent_filter (r := .limit_stmt) h1.derives (by decide), absent_filter (r := .limit_stmt) h2.derives (by decide),
      absent_filter (r := .limit_stmt) h3.derives (by decide), absent_filter (r := .limit_stmt) h4.derives (by decide), List.nil_append]
  have hc := fun x => core_tokens hcore (x := x)
  unfold Visit.select
  rw [e1]
  refine Res.Post.bind (x := Res.all selector _) (Q := fun ss => ∀ x : Select, x.selectors = ss →
      x.tables = ((Tree.node .select_core es).all .«from»).filterMap fromTable → x.groupBy = groupOf (.node .select_core es) → CoreWritten (leavesAll es) x)
    (fun ss hss x => hc x ss hss) (fun ss hss => .next fun w => ?_)
  rw [ordersOf, e2, limitOf, e3]
  refine (orders_tokens h4.derives).bind (fun os hos => .ok ?_)
  intro x hx
  cases hx
  refine ⟨leavesAll l1, leavesAll es, leavesAll l3, leavesAll l4, leavesAll l5, ?_, hwith, ?_, hss _ rfl rfl rfl, hcomp, hos, limit_tokens h5.derives⟩
  · simp [Tree.leaves, leavesAll, leavesAll_append]
  · simpa [Tree.leaves, leavesAll] using hbal

theorem handler_select (toUint : Str → Option Nat) : Handles toUint (SelectWritten toUint) :=
  handles_kind .select_stmt (fun hm hs => by simp [handlers] at hm; subst hm; exact select_tokens hs)
    fun own s h u hu => by subst hu; exact absurd rfl h

end Verif.Lemmas
