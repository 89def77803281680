import Verif.Lemmas.Parsed
import Verif.Spec.Provenance
/-! The tokens below a tree. -/
namespace Verif.Gram
open Verif Verif.Lex Verif.Spec

mutual
/-- The tokens below a tree, in order. -/
def Tree.leaves : Tree → List Token
  | .leaf t => [t]
  | .node _ cs => leavesAll cs
  | .lab _ cs => leavesAll cs
  | .seg cs => leavesAll cs
/-- The tokens below a list of trees. -/
def leavesAll : List Tree → List Token
  | [] => []
  | t :: r => t.leaves ++ leavesAll r
end

theorem leavesAll_append (a b : List Tree) : leavesAll (a ++ b) = leavesAll a ++ leavesAll b := by
  induction a with
  | nil => rw [leavesAll]; rfl
  | cons t a ih => rw [List.cons_append, leavesAll, leavesAll, ih, List.append_assoc]

theorem leavesAll_one (t : Tree) : leavesAll [t] = t.leaves := by rw [leavesAll, leavesAll, List.append_nil]

mutual
theorem text_leaves : ∀ t : Tree, t.text = Spec.textOf t.leaves
  | .leaf t => by rw [Tree.text, Tree.leaves]; simp [Spec.textOf]
  | .node _ cs => by rw [Tree.text, Tree.leaves]; exact textAll_leaves cs
  | .lab _ cs => by rw [Tree.text, Tree.leaves]; exact textAll_leaves cs
  | .seg cs => by rw [Tree.text, Tree.leaves]; exact textAll_leaves cs
theorem textAll_leaves : ∀ l : List Tree, textAll l = Spec.textOf (leavesAll l)
  | [] => by rw [textAll, leavesAll]; rfl
  | t :: r => by
    rw [textAll, leavesAll, text_leaves t, textAll_leaves r]; simp [Spec.textOf]
end

theorem unlab_leaves (l : List Tree) : leavesAll (unlab l) = leavesAll l := by
  induction l with
  | nil => rfl
  | cons t l ih =>
    cases t with
    | lab q cs => rw [unlab, leavesAll_append, ih, leavesAll, Tree.leaves]
    | _ => rw [unlab, leavesAll, ih, leavesAll]

theorem leaves_infix_all {t : Tree} {l : List Tree} (h : t ∈ l) : ∃ a b, leavesAll l = a ++ t.leaves ++ b := by
  obtain ⟨x, y, rfl⟩ := List.append_of_mem h
  exact ⟨leavesAll x, leavesAll y, by rw [leavesAll_append, leavesAll, List.append_assoc]⟩

/-- The tokens of a child are consecutive tokens of the tree. -/
theorem kid_leaves {c t : Tree} (h : c ∈ t.kids) : ∃ a b, t.leaves = a ++ c.leaves ++ b := by
  cases t with
  | node r cs =>
    obtain ⟨a, b, he⟩ := leaves_infix_all (show c ∈ unlab cs from h)
    exact ⟨a, b, by rw [Tree.leaves, ← unlab_leaves, he]⟩
  | _ => cases h

/-! ### Derivations -/

/-- No tree of a derivation is an expression suffix. -/
def segFree : Elem → Bool
  | .seg _ => false
  | .seq a b | .alt a b => segFree a && segFree b
  | .star a | .nstar a => segFree a
  | _ => true

/-- A list without expression suffixes. -/
def NoSeg (l : List Tree) : Prop := ∀ cs, Tree.seg cs ∉ l
/-- A list of expression suffixes. -/
def OnlySeg (l : List Tree) : Prop := ∀ t, t ∈ l → ∃ cs, t = Tree.seg cs

theorem segFree_sound {e : Elem} {ts us : List Token} {l : List Tree} (h : Derives e ts l us) (hf : segFree e = true) : NoSeg l := by
  induction h with
  | eps | eof | starNil | nstarNil => intro cs hc; cases hc
  | tok x | set f x | lab | nt => intro cs hc; cases List.mem_singleton.mp hc
  | seq _ _ ih1 ih2 =>
    simp only [segFree, Bool.and_eq_true] at hf
    intro cs hc
    rcases List.mem_append.mp hc with hc | hc
    · exact ih1 hf.1 cs hc
    · exact ih2 hf.2 cs hc
  | altLeft _ ih => simp only [segFree, Bool.and_eq_true] at hf; exact ih hf.1
  | altRight _ ih => simp only [segFree, Bool.and_eq_true] at hf; exact ih hf.2
  | starCons _ _ ih1 ih2 | nstarCons _ _ ih1 ih2 =>
    intro cs hc
    rcases List.mem_append.mp hc with hc | hc
    · exact ih1 hf cs hc
    · exact ih2 hf cs hc
  | @expr p ts us l h ih =>
    obtain ⟨ds, hd⟩ := foldExpr_node l
    intro cs hc
    rw [hd] at hc
    cases List.mem_singleton.mp hc
  | seg => cases hf

theorem suffix_only {l : List (Nat × Elem)} {ts us : List Token} {m : List Tree}
    (h : Derives (l.foldr (fun s e => .seg s.2 ∣ e) (.set (fun _ => false))) ts m us) : OnlySeg m := by
  induction l with
  | nil =>
    cases h with
    | set f x r h => cases h
  | cons s l ih =>
    cases h with
    | altLeft h =>
      cases h with
      | seg h => intro t ht; exact ⟨_, List.mem_singleton.mp ht⟩
    | altRight h => exact ih h

theorem star_only {a : Elem} (ha : ∀ {ts us m}, Derives a ts m us → OnlySeg m) {ts us : List Token} {m : List Tree}
    (h : Derives (.star a) ts m us) : OnlySeg m := by
  generalize he : Elem.star a = e at h
  induction h with
  | starNil => intro t ht; cases ht
  | starCons h1 _ _ ih2 =>
    cases he
    intro t ht
    rcases List.mem_append.mp ht with ht | ht
    · exact ha h1 t ht
    · exact ih2 rfl t ht
  | _ => cases he

theorem beforeSegs_split {a b : List Tree} (ha : NoSeg a) (hb : OnlySeg b) : beforeSegs (a ++ b) = a ∧ fromSegs (a ++ b) = b := by
  induction a with
  | nil =>
    cases b with
    | nil => exact ⟨rfl, rfl⟩
    | cons t b =>
      obtain ⟨cs, rfl⟩ := hb t (List.mem_cons_self ..)
      exact ⟨rfl, rfl⟩
  | cons t a ih =>
    have ih := ih (fun cs hc => ha cs (List.mem_cons_of_mem _ hc))
    cases t with
    | seg cs => exact absurd (List.mem_cons_self ..) (ha cs)
    | _ => exact ⟨congrArg _ ih.1, ih.2⟩

theorem addSegs_leaves {b : List Tree} (hb : OnlySeg b) (t : Tree) : (addSegs t b).leaves = t.leaves ++ leavesAll b := by
  induction b generalizing t with
  | nil => simp [addSegs, leavesAll]
  | cons x b ih =>
    obtain ⟨cs, rfl⟩ := hb x (List.mem_cons_self ..)
    rw [addSegs, ih (fun y hy => hb y (List.mem_cons_of_mem _ hy)), Tree.leaves, leavesAll, leavesAll, Tree.leaves,
      List.append_assoc]

theorem foldExpr_leaves {a b : List Tree} (ha : NoSeg a) (hb : OnlySeg b) : leavesAll (foldExpr (a ++ b)) = leavesAll (a ++ b) := by
  rw [foldExpr, (beforeSegs_split ha hb).1, (beforeSegs_split ha hb).2, leavesAll_one, addSegs_leaves hb, Tree.leaves,
    leavesAll_append]

theorem primary_segFree : segFree primary = true := by decide

/-- The tree of an expression has all tokens of its derivation. -/
theorem exprBody_leaves {p : Nat} {ts us : List Token} {l : List Tree} (h : Derives (exprBody p) ts l us) :
    leavesAll (foldExpr l) = leavesAll l := by
  rw [exprBody] at h
  cases h with
  | seq h1 h2 => exact foldExpr_leaves (segFree_sound h1 primary_segFree) (star_only (fun h => suffix_only h) h2)

/-- A derivation uses up the tokens of its trees. -/
theorem derives_leaves {e : Elem} {ts us : List Token} {l : List Tree} (h : Derives e ts l us) : ts = leavesAll l ++ us := by
  induction h with
  | eps | eof | starNil | nstarNil => rw [leavesAll]; rfl
  | tok x | set f x => rw [leavesAll_one, Tree.leaves]; rfl
  | seq _ _ ih1 ih2 | starCons _ _ ih1 ih2 | nstarCons _ _ ih1 ih2 => rw [leavesAll_append, List.append_assoc, ← ih2, ← ih1]
  | altLeft _ ih | altRight _ ih => exact ih
  | lab q _ ih => rw [leavesAll_one, Tree.leaves]; exact ih
  | nt q _ ih => rw [leavesAll_one, Tree.leaves]; exact ih
  | seg _ ih => rw [leavesAll_one, Tree.leaves]; exact ih
  | expr p h ih => rw [exprBody_leaves h]; exact ih

/-! ### Semicolons -/

/-- The rules that can contain a `;`. -/
def scolRules : List Rule := [.parse, .sql_stmt_list, .sql_stmt, .create_trigger_stmt]

/-- No `;` in the part, and only rules without one. -/
def scolFree : Elem → Bool
  | .tok t => decide (t ≠ .SCOL)
  | .set f => !f .SCOL
  | .seq a b | .alt a b => scolFree a && scolFree b
  | .star a | .nstar a | .lab _ a | .seg a => scolFree a
  | .nt r => !scolRules.contains r
  | .eps | .eof | .expr _ => true

theorem scolFree_body (r : Rule) (h : scolRules.contains r = false) : scolFree (body r) = true := by
  cases r <;> first | rfl | (revert h; decide)

theorem scolFree_suffix (l : List (Nat × Elem)) (h : l.all (fun s => scolFree s.2) = true) :
    scolFree (l.foldr (fun s e => .seg s.2 ∣ e) (.set (fun _ => false))) = true := by
  induction l with
  | nil => rfl
  | cons s l ih =>
    simp only [List.all_cons, Bool.and_eq_true] at h
    simp only [List.foldr_cons, scolFree, Bool.and_eq_true]
    exact ⟨h.1, ih h.2⟩

theorem scolFree_expr (p : Nat) : scolFree (exprBody p) = true := by
  have h1 : scolFree primary = true := by decide
  have h2 : suffixes.all (fun s => scolFree s.2) = true := by decide
  have h3 : scolFree (suffix p) = true := by
    refine scolFree_suffix _ (List.all_eq_true.mpr fun x hx => ?_)
    exact List.all_eq_true.mp h2 x (List.mem_filter.mp hx).1
  simp only [exprBody, scolFree, h1, h3, Bool.and_self]

theorem scolFree_sound {e : Elem} {ts us : List Token} {l : List Tree} (h : Derives e ts l us) (hf : scolFree e = true) :
    ∀ x, x ∈ leavesAll l → x.kind ≠ .SCOL := by
  induction h with
  | eps | eof | starNil | nstarNil => intro x hx; rw [leavesAll] at hx; cases hx
  | tok x r =>
    intro y hy
    rw [leavesAll_one, Tree.leaves, List.mem_singleton] at hy
    rw [hy]; simpa [scolFree] using hf
  | set f x r h =>
    intro y hy
    rw [leavesAll_one, Tree.leaves, List.mem_singleton] at hy
    rw [hy]; intro hk
    rw [hk] at h; rw [scolFree, h] at hf; cases hf
  | seq _ _ ih1 ih2 =>
    simp only [scolFree, Bool.and_eq_true] at hf
    intro x hx
    rw [leavesAll_append] at hx
    rcases List.mem_append.mp hx with hx | hx
    · exact ih1 hf.1 x hx
    · exact ih2 hf.2 x hx
  | altLeft _ ih => simp only [scolFree, Bool.and_eq_true] at hf; exact ih hf.1
  | altRight _ ih => simp only [scolFree, Bool.and_eq_true] at hf; exact ih hf.2
  | starCons _ _ ih1 ih2 | nstarCons _ _ ih1 ih2 =>
    intro x hx
    rw [leavesAll_append] at hx
    rcases List.mem_append.mp hx with hx | hx
    · exact ih1 hf x hx
    · exact ih2 hf x hx
  | lab q _ ih => rw [leavesAll_one, Tree.leaves]; exact ih hf
  | seg _ ih => rw [leavesAll_one, Tree.leaves]; exact ih hf
  | nt r _ ih => rw [leavesAll_one, Tree.leaves]; exact ih (scolFree_body r (by simpa [scolFree] using hf))
  | expr p h ih => rw [exprBody_leaves h]; exact ih (scolFree_expr p)

end Verif.Gram
