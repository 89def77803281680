import Verif.Lemmas.VisitSafe
import Verif.Lemmas.Shape
/-! A parameter is parsed as a literal value, never as the alternative for parameters behind it. -/
namespace Verif.Lemmas
open Verif Verif.Lex Verif.Gram Verif.Query Verif.Visit Verif.Spec

/-- No expression is derived as a plain rule. -/
def exprFree : Elem → Bool
  | .eps | .eof | .tok _ | .set _ | .expr _ | .seg _ => true
  | .seq a b | .alt a b => exprFree a && exprFree b
  | .star a | .nstar a | .lab _ a => exprFree a
  | .nt r => r != .expr

theorem cexpr_noBind {p : Nat} {ts vs : List Token} {e : Tree} (h : Chosen (.expr p) ts [e] vs) : e.child .bind_param = none := by
  cases hc : e.child .bind_param with
  | none => rfl
  | some c =>
    exfalso
    obtain ⟨hl, ts', us', hd⟩ := expr_solo h.derives (List.mem_singleton_self _) (by decide) hc
    generalize hlst : [e] = l at h
    cases h with
    | @expr p _ _ l h =>
      rw [exprBody] at h
      obtain ⟨a, b, us, rfl, h1, h2⟩ := cseq_inv h
      have ho : OnlySeg b := star_only (fun h => suffix_only h) h2.derives
      have hs := beforeSegs_split (segFree_sound h1.derives primary_segFree) ho
      rw [hl, foldExpr, hs.1, hs.2] at hlst
      rcases addSegs_cases ho (.node .expr a) ⟨_, rfl⟩ with ⟨-, he⟩ | ⟨x, ds, -, he⟩
      · rw [he] at hlst
        simp only [List.cons.injEq, Tree.node.injEq, true_and, and_true] at hlst
        subst hlst
        obtain ⟨cs, hcs, hb⟩ := nt_inv hd
        cases hcs
        obtain ⟨t, rfl, hk⟩ := tok_inv (show Derives (.tok .BIND_PARAMETER) _ _ _ from hb)
        rcases calt_inv h1 with h1 | ⟨h1, hn⟩
        · obtain ⟨xs, hx, -⟩ := cnt_inv h1
          simp at hx
        · have hts := derives_leaves h1.derives
          have hts : ts = t :: us := by simpa [leavesAll, Tree.leaves] using hts
          subst hts
          have hb : Derives (.nt .bind_param) (t :: us) [.node .bind_param [.leaf t]] us :=
            .nt _ (by show Derives (.tok .BIND_PARAMETER) _ _ _; rw [← hk]; exact .tok t us)
          exact hn _ (.nt _ (.altRight (.altRight (.altRight (.altRight (.altRight (.altRight (.altRight (.altRight (.altRight hb))))))))))
      · rw [he] at hlst
        simp only [List.cons.injEq, Tree.node.injEq, true_and, and_true] at hlst
        obtain ⟨rfl, -⟩ := hlst
        obtain ⟨cs, hcs, -⟩ := nt_inv hd
        simp at hcs

theorem chosen_noBind {x : Elem} {ts us : List Token} {l : List Tree} (h : Chosen x ts l us) (hf : exprFree x = true) :
    ∀ t, t ∈ unlab l → t.isRule .expr = true → t.child .bind_param = none := by
  induction h with
  | eps | eof | starNil | nstarNil => intro t ht; cases ht
  | tok | set => intro t ht hr; rw [unlab, unlab, List.mem_singleton] at ht; subst ht; cases hr
  | seq _ _ ih1 ih2 =>
    simp only [exprFree, Bool.and_eq_true] at hf
    intro t ht
    rw [unlab_append] at ht
    rcases List.mem_append.mp ht with ht | ht
    · exact ih1 hf.1 t ht
    · exact ih2 hf.2 t ht
  | altLeft _ ih => simp only [exprFree, Bool.and_eq_true] at hf; exact ih hf.1
  | altRight _ _ ih => simp only [exprFree, Bool.and_eq_true] at hf; exact ih hf.2
  | starCons _ _ ih1 ih2 | nstarCons _ _ ih1 ih2 =>
    intro t ht
    rw [unlab_append] at ht
    rcases List.mem_append.mp ht with ht | ht
    · exact ih1 hf t ht
    · exact ih2 hf t ht
  | lab q _ ih =>
    intro t ht hr
    rw [unlab, unlab, List.append_nil] at ht
    cases t with
    | node r cs => exact ih hf _ (node_unlab ht) hr
    | _ => cases hr
  | nt r =>
    intro t ht hr
    rw [unlab, unlab, List.mem_singleton] at ht
    subst ht
    simp [Tree.isRule] at hr
    subst hr
    simp [exprFree] at hf
  | @expr p ts us l h =>
    intro t ht hr
    obtain ⟨cs, he, -⟩ := expr_inv (Chosen.expr p h).derives
    have := cexpr_noBind (he ▸ Chosen.expr p h)
    rw [he, unlab, unlab, List.mem_singleton] at ht
    subst ht
    exact this
  | seg => intro t ht hr; rw [unlab, unlab, List.mem_singleton] at ht; subst ht; cases hr

/-- An expression that is a part of a rule is never a parameter. -/
theorem _root_.Verif.Gram.Sound.noBind {r : Rule} {cs : List Tree} (h : Sound (.node r cs)) (hr : r ≠ .expr) (hf : exprFree (body r) = true) {e : Tree}
    (he : e ∈ (Tree.node r cs).all .expr) : e.child .bind_param = none := by
  obtain ⟨ts, us, hc⟩ := h.chosen hr
  rw [Tree.all, List.mem_filter] at he
  exact chosen_noBind hc hf e he.1 he.2

end Verif.Lemmas
