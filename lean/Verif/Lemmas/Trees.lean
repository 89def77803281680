import Verif.Lemmas.Prefer
import Verif.Model.Visitor
/-! What parse trees contain: the children the grammar forces a rule to have. -/
namespace Verif.Gram
open Verif Verif.Lex Verif.Spec

/-- Every derivation of the part has a child of rule `r` (labels taken off). -/
def has (r : Rule) : Elem → Bool
  | .nt q => decide (q = r)
  | .expr _ => decide (r = .expr)
  | .seq a b => has r a || has r b
  | .alt a b => has r a && has r b
  | .lab _ a => has r a && noLab a
  | _ => false
where
  /-- No labels inside a label. -/
  noLab : Elem → Bool
    | .nt _ | .expr _ | .tok _ | .set _ | .eps | .eof => true
    | .seq a b | .alt a b => noLab a && noLab b
    | .star a | .nstar a => noLab a
    | .lab _ _ | .seg _ => false

/-- Every derivation of the part has at least one tree. -/
def solid : Elem → Bool
  | .nt _ | .expr _ | .tok _ | .set _ | .lab _ _ | .seg _ => true
  | .seq a b => solid a || solid b
  | .alt a b => solid a && solid b
  | _ => false

/-- Every derivation of the part has something labelled `q`. -/
def hasLab (q : Lab) : Elem → Bool
  | .lab p a => decide (p = q) && solid a
  | .seq a b => hasLab q a || hasLab q b
  | .alt a b => hasLab q a && hasLab q b
  | _ => false

theorem unlab_append (a b : List Tree) : unlab (a ++ b) = unlab a ++ unlab b := by
  induction a with
  | nil => rfl
  | cons t a ih => cases t <;> simp [unlab, ih]

theorem labelled_append (l : Lab) (a b : List Tree) : labelled l (a ++ b) = labelled l a ++ labelled l b := by
  induction a with
  | nil => rfl
  | cons t a ih =>
    cases t with
    | lab k cs => simp only [List.cons_append, labelled]; split <;> simp [ih]
    | _ => simpa [labelled] using ih

theorem addSegs_node (t : Tree) (l : List Tree) (ht : ∃ cs, t = .node .expr cs) : ∃ cs, addSegs t l = .node .expr cs := by
  induction l generalizing t with
  | nil => exact ht
  | cons x l ih =>
    cases x with
    | seg cs => exact ih _ ⟨_, rfl⟩
    | _ => exact ht

theorem foldExpr_node (l : List Tree) : ∃ cs, foldExpr l = [.node .expr cs] := by
  obtain ⟨cs, h⟩ := addSegs_node (.node .expr (beforeSegs l)) (fromSegs l) ⟨_, rfl⟩
  exact ⟨cs, by rw [foldExpr, h]⟩

theorem solid_sound {e : Elem} {ts us : List Token} {l : List Tree} (h : Derives e ts l us) (hs : solid e = true) : l ≠ [] := by
  induction h with
  | seq _ _ ih1 ih2 =>
    simp only [solid, Bool.or_eq_true] at hs
    rcases hs with hs | hs
    · simp [ih1 hs]
    · simp [ih2 hs]
  | altLeft _ ih => simp only [solid, Bool.and_eq_true] at hs; exact ih hs.1
  | altRight _ ih => simp only [solid, Bool.and_eq_true] at hs; exact ih hs.2
  | expr p h ih => simp [foldExpr]
  | tok | set | lab | nt | seg => simp
  | eps | eof | starNil | starCons | nstarNil | nstarCons => cases hs

theorem noLab_unlab {e : Elem} {ts us : List Token} {l : List Tree} (h : Derives e ts l us) (hn : has.noLab e = true) :
    unlab l = l := by
  induction h with
  | eps | eof | starNil | nstarNil => rfl
  | tok | set => rfl
  | seq _ _ ih1 ih2 =>
    simp only [has.noLab, Bool.and_eq_true] at hn
    rw [unlab_append, ih1 hn.1, ih2 hn.2]
  | altLeft _ ih => simp only [has.noLab, Bool.and_eq_true] at hn; exact ih hn.1
  | altRight _ ih => simp only [has.noLab, Bool.and_eq_true] at hn; exact ih hn.2
  | starCons _ _ ih1 ih2 => rw [unlab_append, ih1 hn, ih2 hn]
  | nstarCons _ _ ih1 ih2 => rw [unlab_append, ih1 hn, ih2 hn]
  | lab | seg => cases hn
  | nt r h ih => rfl
  | @expr p ts us l h ih =>
    obtain ⟨cs, hc⟩ := foldExpr_node l
    rw [hc]; rfl

theorem has_sound {r : Rule} {e : Elem} {ts us : List Token} {l : List Tree} (h : Derives e ts l us) (hs : has r e = true) :
    ∃ cs, Tree.node r cs ∈ unlab l := by
  induction h with
  | seq _ _ ih1 ih2 =>
    simp only [has, Bool.or_eq_true] at hs
    rcases hs with hs | hs
    · obtain ⟨cs, hc⟩ := ih1 hs
      exact ⟨cs, by rw [unlab_append]; exact List.mem_append_left _ hc⟩
    · obtain ⟨cs, hc⟩ := ih2 hs
      exact ⟨cs, by rw [unlab_append]; exact List.mem_append_right _ hc⟩
  | altLeft _ ih => simp only [has, Bool.and_eq_true] at hs; exact ih hs.1
  | altRight _ ih => simp only [has, Bool.and_eq_true] at hs; exact ih hs.2
  | lab q h ih =>
    simp only [has, Bool.and_eq_true] at hs
    obtain ⟨cs, hc⟩ := ih hs.1
    rw [noLab_unlab h hs.2] at hc
    exact ⟨cs, by simpa [unlab] using hc⟩
  | nt q h ih =>
    have : q = r := by simpa [has] using hs
    subst this
    exact ⟨_, List.mem_cons_self ..⟩
  | @expr p ts us l h ih =>
    have : r = .expr := by simpa [has] using hs
    subst this
    obtain ⟨cs, hc⟩ := foldExpr_node l
    exact ⟨cs, by rw [hc]; simp [unlab]⟩
  | eps | tok | set | eof | starNil | starCons | nstarNil | nstarCons | seg => cases hs

theorem hasLab_sound {q : Lab} {e : Elem} {ts us : List Token} {l : List Tree} (h : Derives e ts l us)
    (hs : hasLab q e = true) : labelled q l ≠ [] := by
  induction h with
  | seq _ _ ih1 ih2 =>
    simp only [hasLab, Bool.or_eq_true] at hs
    rw [labelled_append]
    rcases hs with hs | hs
    · simp [ih1 hs]
    · simp [ih2 hs]
  | altLeft _ ih => simp only [hasLab, Bool.and_eq_true] at hs; exact ih hs.1
  | altRight _ ih => simp only [hasLab, Bool.and_eq_true] at hs; exact ih hs.2
  | lab p h ih =>
    simp only [hasLab, Bool.and_eq_true, decide_eq_true_eq] at hs
    have := solid_sound h hs.2
    simp [labelled, hs.1, this]
  | eps | tok | set | eof | starNil | starCons | nstarNil | nstarCons | seg | nt | expr => cases hs

/-! ### Subtrees -/

/-- Every rule in the tree (other than `expr`) is derived by the grammar, with the first alternatives that fit. -/
inductive Sound : Tree → Prop
  | leaf (x : Token) : Sound (.leaf x)
  | node {r : Rule} {cs : List Tree} (h : r ≠ .expr → ∃ ts us, Chosen (body r) ts cs us) (hc : ∀ c, c ∈ cs → Sound c) :
      Sound (.node r cs)
  | lab {q : Lab} {cs : List Tree} (hc : ∀ c, c ∈ cs → Sound c) : Sound (.lab q cs)
  | seg {cs : List Tree} (hc : ∀ c, c ∈ cs → Sound c) : Sound (.seg cs)

theorem addSegs_sound (l : List Tree) (t : Tree) (ht : Sound t) (hl : ∀ c, c ∈ l → Sound c) : Sound (addSegs t l) := by
  induction l generalizing t with
  | nil => exact ht
  | cons x l ih =>
    cases x with
    | seg cs =>
      refine ih _ (.node (fun h => absurd rfl h) ?_) (fun c hc => hl c (List.mem_cons_of_mem _ hc))
      intro c hc
      rcases List.mem_cons.mp hc with rfl | hc
      · exact ht
      · cases hl (.seg cs) (List.mem_cons_self ..) with
        | seg h => exact h c hc
    | _ => exact ht

/-- Every rule in the tree (other than `expr`) is derived by the grammar. -/
inductive Derived : Tree → Prop
  | leaf (x : Token) : Derived (.leaf x)
  | node {r : Rule} {cs : List Tree} (h : r ≠ .expr → ∃ ts us, Derives (body r) ts cs us) (hc : ∀ c, c ∈ cs → Derived c) :
      Derived (.node r cs)
  | lab {q : Lab} {cs : List Tree} (hc : ∀ c, c ∈ cs → Derived c) : Derived (.lab q cs)
  | seg {cs : List Tree} (hc : ∀ c, c ∈ cs → Derived c) : Derived (.seg cs)

theorem addSegs_derived (l : List Tree) (t : Tree) (ht : Derived t) (hl : ∀ c, c ∈ l → Derived c) : Derived (addSegs t l) := by
  induction l generalizing t with
  | nil => exact ht
  | cons x l ih =>
    cases x with
    | seg cs =>
      refine ih _ (.node (fun h => absurd rfl h) ?_) (fun c hc => hl c (List.mem_cons_of_mem _ hc))
      intro c hc
      rcases List.mem_cons.mp hc with rfl | hc
      · exact ht
      · cases hl (.seg cs) (List.mem_cons_self ..) with
        | seg h => exact h c hc
    | _ => exact ht

theorem beforeSegs_sub (l : List Tree) : ∀ c, c ∈ beforeSegs l → c ∈ l := by
  induction l with
  | nil => intro c h; exact h
  | cons x l ih =>
    intro c h
    cases x with
    | seg cs => cases h
    | _ =>
      rcases List.mem_cons.mp h with h | h
      · exact h ▸ List.mem_cons_self ..
      · exact List.mem_cons_of_mem _ (ih c h)

theorem fromSegs_sub (l : List Tree) : ∀ c, c ∈ fromSegs l → c ∈ l := by
  induction l with
  | nil => intro c h; exact h
  | cons x l ih =>
    intro c h
    cases x with
    | seg cs => exact h
    | _ => exact List.mem_cons_of_mem _ (ih c h)

theorem chosen_sound {e : Elem} {ts us : List Token} {l : List Tree} (h : Chosen e ts l us) : ∀ c, c ∈ l → Sound c := by
  induction h with
  | eps | eof | starNil | nstarNil => intro c h; cases h
  | tok x | set f x =>
    intro c h
    rw [List.mem_singleton] at h
    subst h; exact .leaf x
  | seq _ _ ih1 ih2 | starCons _ _ ih1 ih2 | nstarCons _ _ ih1 ih2 =>
    intro c h
    rcases List.mem_append.mp h with h | h
    · exact ih1 c h
    · exact ih2 c h
  | altLeft _ ih => exact ih
  | altRight _ _ ih => exact ih
  | lab q _ ih =>
    intro c h
    rw [List.mem_singleton] at h
    subst h; exact .lab ih
  | seg _ ih =>
    intro c h
    rw [List.mem_singleton] at h
    subst h; exact .seg ih
  | nt r hd ih =>
    intro c h
    rw [List.mem_singleton] at h
    subst h; exact .node (fun _ => ⟨_, _, hd⟩) ih
  | @expr p ts us l _ ih =>
    intro c h
    rw [foldExpr, List.mem_singleton] at h
    subst h
    refine addSegs_sound _ _ (.node (fun h => absurd rfl h) fun c hc => ih c (beforeSegs_sub l c hc))
      (fun c hc => ih c (fromSegs_sub l c hc))

theorem derives_derived {e : Elem} {ts us : List Token} {l : List Tree} (h : Derives e ts l us) : ∀ c, c ∈ l → Derived c := by
  induction h with
  | eps | eof | starNil | nstarNil => intro c h; cases h
  | tok x | set f x =>
    intro c h
    rw [List.mem_singleton] at h
    subst h; exact .leaf x
  | seq _ _ ih1 ih2 | starCons _ _ ih1 ih2 | nstarCons _ _ ih1 ih2 =>
    intro c h
    rcases List.mem_append.mp h with h | h
    · exact ih1 c h
    · exact ih2 c h
  | altLeft _ ih | altRight _ ih => exact ih
  | lab q _ ih =>
    intro c h
    rw [List.mem_singleton] at h
    subst h; exact .lab ih
  | seg _ ih =>
    intro c h
    rw [List.mem_singleton] at h
    subst h; exact .seg ih
  | nt r hd ih =>
    intro c h
    rw [List.mem_singleton] at h
    subst h; exact .node (fun _ => ⟨_, _, hd⟩) ih
  | @expr p ts us l _ ih =>
    intro c h
    rw [foldExpr, List.mem_singleton] at h
    subst h
    refine addSegs_derived _ _ (.node (fun h => absurd rfl h) fun c hc => ih c (beforeSegs_sub l c hc))
      (fun c hc => ih c (fromSegs_sub l c hc))

theorem unlab_sub (l : List Tree) (c : Tree) (h : c ∈ unlab l) : c ∈ l ∨ ∃ q cs, Tree.lab q cs ∈ l ∧ c ∈ cs := by
  induction l with
  | nil => cases h
  | cons x l ih =>
    have go : c ∈ unlab l → c ∈ x :: l ∨ ∃ q cs, Tree.lab q cs ∈ x :: l ∧ c ∈ cs := fun h => by
      rcases ih h with h | ⟨q, cs, h1, h2⟩
      · exact Or.inl (List.mem_cons_of_mem _ h)
      · exact Or.inr ⟨q, cs, List.mem_cons_of_mem _ h1, h2⟩
    cases x with
    | lab q cs =>
      rcases List.mem_append.mp h with h | h
      · exact Or.inr ⟨q, cs, List.mem_cons_self .., h⟩
      · exact go h
    | _ =>
      rcases List.mem_cons.mp h with h | h
      · exact Or.inl (h ▸ List.mem_cons_self ..)
      · exact go h

theorem labelled_sub (q : Lab) (l : List Tree) (c : Tree) (h : c ∈ labelled q l) : ∃ cs, Tree.lab q cs ∈ l ∧ c ∈ cs := by
  induction l with
  | nil => cases h
  | cons x l ih =>
    have go : c ∈ labelled q l → ∃ cs, Tree.lab q cs ∈ x :: l ∧ c ∈ cs := fun h => by
      obtain ⟨cs, h1, h2⟩ := ih h
      exact ⟨cs, List.mem_cons_of_mem _ h1, h2⟩
    cases x with
    | lab p cs =>
      rw [labelled] at h
      split at h
      · rename_i hp
        subst hp
        rcases List.mem_append.mp h with h | h
        · exact ⟨cs, List.mem_cons_self .., h⟩
        · exact go h
      · exact go h
    | _ => exact go h

/-- Children and labelled children. -/
def Tree.Below (c t : Tree) : Prop := c ∈ t.kids

theorem Sound.kid {t c : Tree} (h : Sound t) (hc : c ∈ t.kids) : Sound c := by
  cases h with
  | node hd hs =>
    rcases unlab_sub _ c hc with h | ⟨q, cs, h1, h2⟩
    · exact hs c h
    · cases hs _ h1 with
      | lab h => exact h c h2
  | leaf | lab | seg => cases hc

theorem labels_kids {q : Lab} {t c : Tree} (h : c ∈ t.labels q) : c ∈ t.kids := by
  cases t with
  | node r cs =>
    have h' : c ∈ labelled q cs := h
    show c ∈ unlab cs
    clear h
    induction cs with
    | nil => cases h'
    | cons x l ih =>
      cases x with
      | lab p ds =>
        rw [labelled] at h'
        rw [unlab]
        split at h'
        · rcases List.mem_append.mp h' with h | h
          · exact List.mem_append_left _ h
          · exact List.mem_append_right _ (ih h)
        · exact List.mem_append_right _ (ih h')
      | _ => exact List.mem_cons_of_mem _ (ih h')
  | _ => cases h

theorem Sound.label {t c : Tree} {q : Lab} (h : Sound t) (hc : t.label q = some c) : Sound c :=
  h.kid (labels_kids (List.mem_of_mem_head? hc))

theorem child_mem {r : Rule} {t c : Tree} (h : t.child r = some c) : c ∈ t.kids ∧ ∃ cs, c = .node r cs := by
  refine ⟨List.mem_of_find?_eq_some h, ?_⟩
  have := List.find?_some h
  cases c with
  | node q cs => exact ⟨cs, by simpa [Tree.isRule] using this⟩
  | _ => cases this

theorem all_mem {r : Rule} {t c : Tree} (h : c ∈ t.all r) : c ∈ t.kids ∧ ∃ cs, c = .node r cs := by
  rw [Tree.all, List.mem_filter] at h
  refine ⟨h.1, ?_⟩
  cases c with
  | node q cs => exact ⟨cs, by simpa [Tree.isRule] using h.2⟩
  | _ => cases h.2

theorem Sound.has {r q : Rule} {cs : List Tree} (h : Sound (.node r cs)) (hr : r ≠ .expr) (hq : Gram.has q (body r) = true) :
    ∃ ds, (Tree.node r cs).child q = some (.node q ds) := by
  cases h with
  | node hd _ =>
    obtain ⟨ts, us, hd⟩ := hd hr
    obtain ⟨ds, hm⟩ := has_sound hd.derives hq
    cases hf : (Tree.node r cs).child q with
    | some c => obtain ⟨-, es, rfl⟩ := child_mem hf; exact ⟨es, rfl⟩
    | none =>
      exfalso
      rw [Tree.child, List.find?_eq_none] at hf
      exact hf _ hm (by simp [Tree.isRule])

theorem Sound.hasLab {r : Rule} {q : Lab} {cs : List Tree} (h : Sound (.node r cs)) (hr : r ≠ .expr)
    (hq : Gram.hasLab q (body r) = true) : ∃ c, (Tree.node r cs).label q = some c := by
  cases h with
  | node hd _ =>
    obtain ⟨ts, us, hd⟩ := hd hr
    have hm := hasLab_sound hd.derives hq
    cases hl : labelled q cs with
    | nil => exact absurd hl hm
    | cons c l => exact ⟨c, by simp [Tree.label, Tree.labels, hl]⟩

end Verif.Gram
