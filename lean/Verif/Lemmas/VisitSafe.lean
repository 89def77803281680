import Verif.Lemmas.Trees
/-! When the visitor panics. -/
namespace Verif

/-- The call returns a value. -/
def Res.Fine {α : Type} (x : Res α) : Prop := ∃ a, x = .ok a

theorem Res.Fine.ok {α : Type} (a : α) : Res.Fine (.ok a) := ⟨a, rfl⟩

theorem Res.Fine.bind {α β : Type} {x : Res α} {f : α → Res β} (hx : x.Fine) (hf : ∀ a, (f a).Fine) : (x.bind f).Fine := by
  obtain ⟨a, rfl⟩ := hx; exact hf a

theorem Res.Fine.all {α β : Type} {f : α → Res β} {l : List α} (h : ∀ a, a ∈ l → (f a).Fine) : (Res.all f l).Fine := by
  induction l with
  | nil => exact ⟨_, rfl⟩
  | cons a l ih =>
    exact (h a (List.mem_cons_self ..)).bind (fun b => (ih (fun x hx => h x (List.mem_cons_of_mem _ hx))).bind (fun r => ⟨_, rfl⟩))

/-- The call returns a value, or panics exactly in the case `P`. -/
def Res.Unless {α : Type} (P : Prop) (x : Res α) : Prop := (P ∧ x = .panic) ∨ (¬ P ∧ x.Fine)

theorem Res.Unless.fine {α : Type} {x : Res α} {P : Prop} (h : x.Fine) (hp : ¬ P) : x.Unless P := Or.inr ⟨hp, h⟩

theorem Res.Unless.congr {α : Type} {x : Res α} {P Q : Prop} (h : x.Unless P) (e : P ↔ Q) : x.Unless Q := by
  rwa [Unless, ← e]

theorem Res.Unless.bind {α β : Type} {x : Res α} {f : α → Res β} {P : Prop} (hx : x.Unless P) (hf : ∀ a, (f a).Fine) :
    (x.bind f).Unless P := by
  rcases hx with ⟨hp, rfl⟩ | ⟨hp, a, rfl⟩
  · exact Or.inl ⟨hp, rfl⟩
  · exact Or.inr ⟨hp, hf a⟩

theorem Res.Fine.bindUnless {α β : Type} {x : Res α} {f : α → Res β} {P : Prop} (hx : x.Fine) (hf : ∀ a, (f a).Unless P) :
    (x.bind f).Unless P := by
  obtain ⟨a, rfl⟩ := hx
  exact hf a

theorem Res.Unless.all {α β : Type} {f : α → Res β} {l : List α} {P : α → Prop} (h : ∀ a, a ∈ l → (f a).Unless (P a)) :
    (Res.all f l).Unless (∃ a, a ∈ l ∧ P a) := by
  induction l with
  | nil => exact Or.inr ⟨by simp, ⟨_, rfl⟩⟩
  | cons a l ih =>
    rcases h a (List.mem_cons_self ..) with ⟨hp, he⟩ | ⟨hp, b, he⟩
    · exact Or.inl ⟨⟨a, List.mem_cons_self .., hp⟩, by rw [Res.all, he]; rfl⟩
    · have hr := ih (fun x hx => h x (List.mem_cons_of_mem _ hx))
      rcases hr with ⟨⟨x, hx, hpx⟩, hr⟩ | ⟨hn, c, hr⟩
      · exact Or.inl ⟨⟨x, List.mem_cons_of_mem _ hx, hpx⟩, by rw [Res.all, he, hr]; rfl⟩
      · refine Or.inr ⟨?_, b :: c, by rw [Res.all, he, hr]; rfl⟩
        rintro ⟨x, hx, hpx⟩
        rcases List.mem_cons.mp hx with rfl | hx
        · exact hp hpx
        · exact hn ⟨x, hx, hpx⟩

end Verif

namespace Verif.Gram
open Verif Verif.Lex Verif.Spec Verif.Query Verif.Visit

/-- At most that many children of rule `r` (1000 stands for any number). -/
def most (r : Rule) : Elem → Nat
  | .nt q => if q = r then 1 else 0
  | .expr _ => if r = .expr then 1 else 0
  | .seq a b => most r a + most r b
  | .alt a b => max (most r a) (most r b)
  | .star a | .nstar a => if most r a = 0 then 0 else 1000
  | .lab _ a => if has.noLab a then most r a else 1000
  | _ => 0

theorem most_sound {r : Rule} {e : Elem} {ts us : List Token} {l : List Tree} (h : Derives e ts l us) (hm : most r e < 1000) :
    ((unlab l).filter (Tree.isRule r)).length ≤ most r e := by
  induction h with
  | eps | eof | starNil | nstarNil => exact Nat.zero_le _
  | tok | set => exact Nat.zero_le _
  | seg => exact Nat.zero_le _
  | seq _ _ ih1 ih2 =>
    simp only [most] at hm ⊢
    rw [unlab_append, List.filter_append, List.length_append]
    exact Nat.add_le_add (ih1 (by omega)) (ih2 (by omega))
  | altLeft _ ih => simp only [most] at hm ⊢; exact Nat.le_trans (ih (by omega)) (Nat.le_max_left ..)
  | altRight _ ih => simp only [most] at hm ⊢; exact Nat.le_trans (ih (by omega)) (Nat.le_max_right ..)
  | @starCons a ts us vs l m _ _ ih1 ih2 | @nstarCons a ts us vs l m _ _ ih1 ih2 =>
    have h2 := ih2 hm
    simp only [most] at hm h2 ⊢
    split at hm
    · rename_i h0
      rw [if_pos h0] at h2 ⊢
      have h1 := ih1 (by omega)
      rw [unlab_append, List.filter_append, List.length_append]
      omega
    · omega
  | lab q h ih =>
    simp only [most] at hm ⊢
    split at hm
    · rename_i hn
      rw [if_pos hn]
      have := ih hm
      rw [noLab_unlab h hn] at this
      simpa [unlab] using this
    · omega
  | nt q h ih =>
    simp only [most, unlab, List.filter_cons, Tree.isRule, List.filter_nil]
    by_cases hq : q = r <;> simp [hq]
  | @expr p ts us l h ih =>
    obtain ⟨cs, hc⟩ := foldExpr_node l
    rw [hc]
    simp only [most, unlab, List.filter_cons, Tree.isRule, List.filter_nil]
    by_cases hq : r = .expr
    · simp [hq]
    · simp [hq, Ne.symm hq]

/-- A part without labels on rules `r`: its children are direct ones. -/
def bare (r : Rule) : Elem → Bool
  | .lab _ a => decide (most r a = 0)
  | .seq a b | .alt a b => bare r a && bare r b
  | .star a | .nstar a => bare r a
  | _ => true

theorem bare_sound {r : Rule} {e : Elem} {ts us : List Token} {l : List Tree} (h : Derives e ts l us) (hb : bare r e = true)
    {c : Tree} (hc : c ∈ unlab l) (hr : c.isRule r = true) : c ∈ l := by
  induction h with
  | eps | eof | starNil | nstarNil => cases hc
  | tok | set => exact hc
  | seg => exact hc
  | seq _ _ ih1 ih2 =>
    simp only [bare, Bool.and_eq_true] at hb
    rw [unlab_append] at hc
    rcases List.mem_append.mp hc with hc | hc
    · exact List.mem_append_left _ (ih1 hb.1 hc)
    · exact List.mem_append_right _ (ih2 hb.2 hc)
  | altLeft _ ih => simp only [bare, Bool.and_eq_true] at hb; exact ih hb.1 hc
  | altRight _ ih => simp only [bare, Bool.and_eq_true] at hb; exact ih hb.2 hc
  | starCons _ _ ih1 ih2 | nstarCons _ _ ih1 ih2 =>
    rw [unlab_append] at hc
    rcases List.mem_append.mp hc with hc | hc
    · exact List.mem_append_left _ (ih1 hb hc)
    · exact List.mem_append_right _ (ih2 hb hc)
  | @lab q a ts us l h ih =>
    exfalso
    have h0 : most r a = 0 := by simpa [bare] using hb
    have := most_sound h (r := r) (by omega)
    rw [h0] at this
    have hl : c ∈ l := by simpa [unlab] using hc
    have hu : c ∈ unlab l := by
      clear h ih this hc
      induction l with
      | nil => cases hl
      | cons x l ih =>
        rcases List.mem_cons.mp hl with rfl | hl'
        · cases c with
          | node q cs => exact List.mem_cons_self ..
          | _ => cases hr
        · cases x with
          | lab q cs => exact List.mem_append_right _ (ih hl')
          | _ => exact List.mem_cons_of_mem _ (ih hl')
    have hm : c ∈ (unlab l).filter (Tree.isRule r) := List.mem_filter.mpr ⟨hu, hr⟩
    have := List.length_pos_of_mem hm
    omega
  | nt q h ih => exact hc
  | @expr p ts us l h ih =>
    obtain ⟨cs, he⟩ := foldExpr_node l
    rw [he] at hc ⊢
    exact hc

theorem node_unlab {r : Rule} {cs ds : List Tree} (h : Tree.node r ds ∈ cs) : Tree.node r ds ∈ unlab cs := by
  induction cs with
  | nil => cases h
  | cons x l ih =>
    rcases List.mem_cons.mp h with rfl | h'
    · exact List.mem_cons_self ..
    · cases x with
      | lab q cs => exact List.mem_append_right _ (ih h')
      | _ => exact List.mem_cons_of_mem _ (ih h')

theorem Sound.derives {r : Rule} {cs : List Tree} (h : Sound (.node r cs)) (hr : r ≠ .expr) :
    ∃ ts us, Derives (body r) ts cs us := by
  cases h with
  | node hd _ => obtain ⟨ts, us, hd⟩ := hd hr; exact ⟨ts, us, hd.derives⟩

/-- The children of a rule are derived with the first alternatives that fit. -/
theorem Sound.chosen {r : Rule} {cs : List Tree} (h : Sound (.node r cs)) (hr : r ≠ .expr) : ∃ ts us, Chosen (body r) ts cs us := by
  cases h with
  | node hd _ => exact hd hr

theorem mem_all {r q : Rule} {cs : List Tree} (h : Sound (.node r cs)) (hr : r ≠ .expr) (hb : bare q (body r) = true) (ds : List Tree) :
    Tree.node q ds ∈ (Tree.node r cs).all q ↔ Tree.node q ds ∈ cs := by
  rw [Tree.all, List.mem_filter]
  constructor
  · rintro ⟨h1, -⟩
    obtain ⟨ts, us, hd⟩ := h.derives hr
    exact bare_sound hd hb h1 (by simp [Tree.isRule])
  · intro h1
    exact ⟨node_unlab h1, by simp [Tree.isRule]⟩

theorem child_none {r q : Rule} {cs : List Tree} (h : Sound (.node r cs)) (hr : r ≠ .expr) (hb : bare q (body r) = true) :
    (Tree.node r cs).child q = none ↔ ¬ Includes q cs := by
  rw [Tree.child, List.find?_eq_none]
  constructor
  · rintro h1 ⟨ds, hd⟩
    exact h1 _ (node_unlab hd) (by simp [Tree.isRule])
  · intro h1 c hc hq
    cases c with
    | node p ds =>
      have : p = q := by simpa [Tree.isRule] using hq
      subst this
      obtain ⟨ts, us, hd⟩ := h.derives hr
      exact h1 ⟨ds, bare_sound hd hb hc hq⟩
    | _ => cases hq

/-! ### The pieces -/

theorem textOf_fine {r q : Rule} {cs : List Tree} (h : Sound (.node r cs)) (hr : r ≠ .expr := by decide)
    (hq : has q (body r) = true := by rfl) : (Visit.textOf q (.node r cs)).Fine := by
  obtain ⟨ds, hd⟩ := h.has hr hq
  exact ⟨_, by rw [Visit.textOf, hd]; rfl⟩

theorem labelText_fine {r : Rule} {q : Lab} {cs : List Tree} (h : Sound (.node r cs)) (hr : r ≠ .expr := by decide)
    (hq : hasLab q (body r) = true := by rfl) : (Visit.labelText q (.node r cs)).Fine := by
  obtain ⟨c, hd⟩ := h.hasLab hr hq
  exact ⟨_, by rw [Visit.labelText, hd]; rfl⟩

theorem textOf_unless {r q : Rule} {cs : List Tree} (h : Sound (.node r cs)) (hr : r ≠ .expr := by decide)
    (hb : bare q (body r) = true := by rfl) : (Visit.textOf q (.node r cs)).Unless (¬ Includes q cs) := by
  cases hc : (Tree.node r cs).child q with
  | none => exact Or.inl ⟨(child_none h hr hb).mp hc, by rw [Visit.textOf, hc]; rfl⟩
  | some c =>
    refine Or.inr ⟨?_, c.text, by rw [Visit.textOf, hc]; rfl⟩
    intro hn
    rw [(child_none h hr hb).mpr hn] at hc
    cases hc

variable {cs : List Tree}

theorem Sound.allOf {q : Rule} {t c : Tree} (h : Sound t) (hc : c ∈ t.all q) : ∃ ds, c = .node q ds ∧ Sound (.node q ds) := by
  obtain ⟨h1, ds, rfl⟩ := all_mem hc
  exact ⟨ds, rfl, h.kid h1⟩

theorem Sound.childOf {q : Rule} {t c : Tree} (h : Sound t) (hc : t.child q = some c) : ∃ ds, c = .node q ds ∧ Sound (.node q ds) := by
  obtain ⟨h1, ds, rfl⟩ := child_mem hc
  exact ⟨ds, rfl, h.kid h1⟩

theorem whenChild_fine {α : Type} {q : Rule} {t : Tree} {f : Tree → Res α} (h : Sound t)
    (hf : ∀ ds, Sound (.node q ds) → (f (.node q ds)).Fine) : (Visit.whenChild q t f).Fine := by
  cases hc : t.child q with
  | none => exact ⟨none, by rw [Visit.whenChild, hc]⟩
  | some c =>
    obtain ⟨ds, rfl, hs⟩ := h.childOf hc
    obtain ⟨a, ha⟩ := hf ds hs
    exact ⟨some a, by rw [Visit.whenChild, hc]; simp only [ha]; rfl⟩

theorem createDatabase_fine (h : Sound (.node .create_database_stmt cs)) : (createDatabase (.node .create_database_stmt cs)).Fine :=
  (textOf_fine h).bind (fun _ => ⟨_, rfl⟩)

theorem dropDatabase_fine (h : Sound (.node .drop_database_stmt cs)) : (dropDatabase (.node .drop_database_stmt cs)).Fine :=
  (textOf_fine h).bind (fun _ => ⟨_, rfl⟩)

theorem dropIndex_fine (h : Sound (.node .drop_index_stmt cs)) : (dropIndex (.node .drop_index_stmt cs)).Fine :=
  (textOf_fine h).bind (fun _ => ⟨_, rfl⟩)

theorem use_fine (h : Sound (.node .use_stmt cs)) : (use (.node .use_stmt cs)).Fine :=
  (textOf_fine h).bind (fun _ => ⟨_, rfl⟩)

theorem columnWith_fine (h : Sound (.node .column_def cs)) : (columnWith (.node .column_def cs)).Fine := by
  refine (textOf_fine h).bind (fun n => ?_)
  simp only
  split
  · exact ⟨_, rfl⟩
  · split
    · exact ⟨_, rfl⟩
    · split <;> exact ⟨_, rfl⟩

theorem indexDefs_fine (h : Sound (.node .column_def cs)) : (indexDefs (.node .column_def cs)).Fine :=
  (textOf_fine h).bind (fun _ => ⟨_, rfl⟩)

theorem columnStep_fine (h : Sound (.node .column_def cs)) (acc : List Column × List Index) :
    (columnStep (.node .column_def cs) acc).Fine := by
  refine (columnWith_fine h).bind (fun c => ?_)
  cases c <;> exact ⟨_, rfl⟩

theorem indexStep_fine (h : Sound (.node .column_def cs)) (acc : List Column × List Index) :
    (indexStep (.node .column_def cs) acc).Fine := by
  refine (textOf_fine h).bind (fun n => ?_)
  split
  · refine (indexDefs_fine h).bind (fun ds => ?_)
    split <;> exact ⟨_, rfl⟩
  · split
    · refine (indexDefs_fine h).bind (fun ds => ?_)
      split <;> exact ⟨_, rfl⟩
    · exact ⟨_, rfl⟩

theorem columnDefs_fine (l : List Tree) (h : ∀ c, c ∈ l → ∃ ds, c = .node .column_def ds ∧ Sound (.node .column_def ds))
    (acc : List Column × List Index) : (columnDefs acc l).Fine := by
  induction l generalizing acc with
  | nil => exact ⟨_, rfl⟩
  | cons c l ih =>
    obtain ⟨ds, rfl, hs⟩ := h c (List.mem_cons_self ..)
    rw [columnDefs]
    exact (columnStep_fine hs acc).bind (fun a => (indexStep_fine hs a).bind (fun b =>
      ih (fun x hx => h x (List.mem_cons_of_mem _ hx)) b))

theorem indexedColumnWith_unless (h : Sound (.node .indexed_column cs)) :
    (indexedColumnWith (.node .indexed_column cs)).Unless (¬ Includes .column_name cs) :=
  (textOf_unless h).bind (fun _ => ⟨_, rfl⟩)

theorem indexed_unless {α : Type} {f : Tree → Res α} {r : Rule} (h : Sound (.node r cs)) (hr : r ≠ .expr)
    (hb : bare .indexed_column (body r) = true)
    (hf : ∀ ds, Sound (.node .indexed_column ds) → (f (.node .indexed_column ds)).Unless (¬ Includes .column_name ds)) :
    (Res.all f ((Tree.node r cs).all .indexed_column)).Unless (IndexedExpr cs) := by
  have hx : ∀ c, c ∈ (Tree.node r cs).all .indexed_column →
      (f c).Unless (∃ ds, c = .node .indexed_column ds ∧ ¬ Includes .column_name ds) := by
    intro c hc
    obtain ⟨ds, rfl, hs⟩ := h.allOf hc
    refine (hf ds hs).congr ⟨fun hn => ⟨ds, rfl, hn⟩, ?_⟩
    rintro ⟨es, he, hn⟩
    cases he; exact hn
  refine (Res.Unless.all hx).congr ⟨?_, ?_⟩
  · rintro ⟨c, hc, ds, rfl, hn⟩
    exact ⟨ds, (mem_all h hr hb ds).mp hc, hn⟩
  · rintro ⟨ds, hd, hn⟩
    exact ⟨_, (mem_all h hr hb ds).mpr hd, ds, rfl, hn⟩

theorem createIndex_unless (h : Sound (.node .create_index_stmt cs)) :
    (createIndex (.node .create_index_stmt cs)).Unless (IndexedExpr cs) := by
  refine Res.Unless.bind ((textOf_fine h).bindUnless (fun i => (textOf_fine h).bindUnless (fun n => ?_))) (fun _ => ⟨_, rfl⟩)
  refine (indexed_unless h (by decide) rfl ?_).bind (fun _ => ⟨_, rfl⟩)
  intro ds hs
  exact (textOf_unless hs).bind (fun _ => ⟨_, rfl⟩)

theorem primary_once {ds es : List Tree} (h : Sound (.node .table_constraint ds)) (he : Tree.node .primary_key_def es ∈ ds) :
    (Tree.node .table_constraint ds).child .primary_key_def = some (.node .primary_key_def es) := by
  obtain ⟨ts, us, hd⟩ := h.derives (by decide)
  have hm := most_sound hd (r := .primary_key_def) (by decide)
  have hone : most .primary_key_def (body .table_constraint) = 1 := rfl
  rw [hone] at hm
  have hin : Tree.node .primary_key_def es ∈ (unlab ds).filter (Tree.isRule .primary_key_def) :=
    List.mem_filter.mpr ⟨node_unlab he, by simp [Tree.isRule]⟩
  rw [Tree.child, ← List.head?_filter]
  show ((unlab ds).filter (Tree.isRule .primary_key_def)).head? = _
  cases hl : (unlab ds).filter (Tree.isRule .primary_key_def) with
  | nil => rw [hl] at hin; cases hin
  | cons x l =>
    rw [hl] at hm hin
    have : l = [] := by
      cases l with
      | nil => rfl
      | cons y l => simp at hm
    subst this
    rw [List.mem_singleton] at hin
    rw [hin]; rfl

theorem tableKeys_unless (h : Sound (.node .create_table_stmt cs)) : (tableKeys (.node .create_table_stmt cs)).Unless
    (∃ ds es, Tree.node .table_constraint ds ∈ cs ∧ Tree.node .primary_key_def es ∈ ds ∧ IndexedExpr es) := by
  have hx : ∀ p, p ∈ ((Tree.node .create_table_stmt cs).all .table_constraint).filterMap (·.child .primary_key_def) →
      ((Res.all indexedColumnWith (p.all .indexed_column)).bind (fun cs => .ok (newPrimaryIndexWith cs))).Unless
        (∃ es, p = .node .primary_key_def es ∧ IndexedExpr es) := by
    intro p hp
    obtain ⟨c, hc, hcp⟩ := List.mem_filterMap.mp hp
    obtain ⟨ds, rfl, hs⟩ := h.allOf hc
    obtain ⟨es, rfl, hs'⟩ := hs.childOf hcp
    refine Res.Unless.bind ?_ (fun _ => ⟨_, rfl⟩)
    refine (indexed_unless hs' (by decide) rfl (fun ds hs => indexedColumnWith_unless hs)).congr ⟨fun h => ⟨es, rfl, h⟩, ?_⟩
    rintro ⟨es', he, hi⟩
    cases he; exact hi
  refine (Res.Unless.all hx).congr ⟨?_, ?_⟩
  · rintro ⟨p, hp, es, rfl, hi⟩
    obtain ⟨c, hc, hcp⟩ := List.mem_filterMap.mp hp
    obtain ⟨ds, rfl, hs⟩ := h.allOf hc
    refine ⟨ds, es, (mem_all h (by decide) rfl ds).mp hc, ?_, hi⟩
    obtain ⟨ts, us, hd⟩ := hs.derives (by decide)
    exact bare_sound hd (r := .primary_key_def) rfl (child_mem hcp).1 (by simp [Tree.isRule])
  · rintro ⟨ds, es, hd, he, hi⟩
    refine ⟨.node .primary_key_def es, List.mem_filterMap.mpr ⟨_, (mem_all h (by decide) rfl ds).mpr hd, ?_⟩, es, rfl, hi⟩
    exact primary_once (h.kid (node_unlab hd)) he

theorem createTable_unless (h : Sound (.node .create_table_stmt cs)) : (createTable (.node .create_table_stmt cs)).Unless
    (∃ ds es, Tree.node .table_constraint ds ∈ cs ∧ Tree.node .primary_key_def es ∈ ds ∧ IndexedExpr es) := by
  refine Res.Unless.bind ((textOf_fine h).bindUnless (fun n => ?_)) (fun _ => ⟨_, rfl⟩)
  exact (columnDefs_fine _ (fun c hc => h.allOf hc) _).bindUnless (fun a => (tableKeys_unless h).bind (fun _ => ⟨_, rfl⟩))

theorem alterDatabase_fine (h : Sound (.node .alter_database_stmt cs)) : (alterDatabase (.node .alter_database_stmt cs)).Fine := by
  refine (textOf_fine h).bind (fun n => ?_)
  cases hc : (Tree.node .alter_database_stmt cs).child .rename_database_to with
  | none => exact ⟨_, rfl⟩
  | some c =>
    obtain ⟨ds, rfl, hs⟩ := h.childOf hc
    exact (labelText_fine hs).bind (fun _ => ⟨_, rfl⟩)

theorem addIndex_fine (h : Sound (.node .add_table_index cs)) : (addIndex (.node .add_table_index cs)).Fine := by
  refine Res.Fine.bind ?_ (fun _ => ⟨_, rfl⟩)
  rw [addIndexKind]
  cases hc : (Tree.node .add_table_index cs).child .column_constraint with
  | none => exact ⟨_, rfl⟩
  | some c =>
    obtain ⟨ds, rfl, hs⟩ := h.childOf hc
    simp only
    cases hi : (Tree.node .column_constraint ds).child .index_constraint with
    | none => exact ⟨_, rfl⟩
    | some i =>
      obtain ⟨es, rfl, hs'⟩ := hs.childOf hi
      exact (textOf_fine hs').bind (fun _ => ⟨_, rfl⟩)

theorem addColumnOf_fine (h : Sound (.node .add_table_column cs)) : (addColumnOf (.node .add_table_column cs)).Fine := by
  obtain ⟨ds, hd⟩ := h.has (q := .column_def) (by decide) rfl
  rw [addColumnOf, hd]
  obtain ⟨es, he, hs⟩ := h.childOf hd
  cases he
  exact columnWith_fine hs

theorem alterTable_fine (h : Sound (.node .alter_table_stmt cs)) : (alterTable (.node .alter_table_stmt cs)).Fine := by
  refine (whenChild_fine h (fun ds hs => textOf_fine hs)).bind (fun rt => ?_)
  refine (whenChild_fine h (fun ds hs => (labelText_fine hs).bind (fun a => (labelText_fine hs).bind (fun b => ⟨_, rfl⟩)))).bind (fun rc => ?_)
  refine (whenChild_fine h (fun ds hs => addColumnOf_fine hs)).bind (fun ac => ?_)
  refine (whenChild_fine h (fun ds hs => addIndex_fine hs)).bind (fun ai => ?_)
  exact (labelText_fine h).bind (fun n => ⟨_, rfl⟩)

/-! ### Conditions -/

theorem token_of {t : Tok} {cs : List Tree} {q : Lab} {x : Token} (h : Tree.lab q [.leaf x] ∈ cs) (hx : x.kind = t) (r : Rule) :
    ((Tree.node r cs).token t).isSome = true := by
  rw [Tree.token, List.find?_isSome]
  refine ⟨.leaf x, ?_, by simp [Tree.isTok, hx]⟩
  show Tree.leaf x ∈ unlab cs

  induction cs with
  | nil => cases h
  | cons y l ih =>
    rcases List.mem_cons.mp h with rfl | h'
    · exact List.mem_append_left _ (List.mem_singleton.mpr rfl)
    · cases y with
      | lab q cs => exact List.mem_append_right _ (ih h')
      | _ => exact List.mem_cons_of_mem _ (ih h')

theorem ope_token {e : Elem} {ts us : List Token} {l : List Tree} (h : Derives e ts l us) (q : Lab) {a : Elem}
    (he : e = .lab q a) (ha : a = ((.tok .ASSIGN) ∣ (.tok .NOT_EQ1) ∣ (.tok .NOT_EQ2) ∣ (.tok .LT) ∣
      (.tok .LT_EQ) ∣ (.tok .GT) ∣ (.tok .GT_EQ))) :
    ∃ x : Token, l = [.lab q [.leaf x]] ∧ x.kind ∈ [Tok.ASSIGN, .NOT_EQ1, .NOT_EQ2, .LT, .LT_EQ, .GT, .GT_EQ] := by
  subst he ha
  cases h with
  | lab _ h =>
    have fin : ∀ {t : Tok} {ts us : List Token} {l : List Tree}, Derives (.tok t) ts l us → ∃ x : Token, l = [.leaf x] ∧ x.kind = t := by
      intro t ts us l h
      cases h with
      | tok x r => exact ⟨x, rfl, rfl⟩
    have go : ∀ {t : Tok} {ts us : List Token} {l : List Tree}, Derives (.tok t) ts l us →
        t ∈ [Tok.ASSIGN, .NOT_EQ1, .NOT_EQ2, .LT, .LT_EQ, .GT, .GT_EQ] →
        ∃ x : Token, [Tree.lab q l] = [.lab q [.leaf x]] ∧ x.kind ∈ [Tok.ASSIGN, .NOT_EQ1, .NOT_EQ2, .LT, .LT_EQ, .GT, .GT_EQ] := by
      intro t ts us l h ht
      obtain ⟨x, rfl, hx⟩ := fin h
      exact ⟨x, rfl, hx ▸ ht⟩
    cases h with
    | altLeft h => exact go h (by decide)
    | altRight h => cases h with
      | altLeft h => exact go h (by decide)
      | altRight h => cases h with
        | altLeft h => exact go h (by decide)
        | altRight h => cases h with
          | altLeft h => exact go h (by decide)
          | altRight h => cases h with
            | altLeft h => exact go h (by decide)
            | altRight h => cases h with
              | altLeft h => exact go h (by decide)
              | altRight h => exact go h (by decide)

theorem cmpOp_some (h : Sound (.node .comparison_expr cs)) : ∃ o, cmpOp (.node .comparison_expr cs) = some o := by
  obtain ⟨ts, us, hd⟩ := h.derives (by decide)
  have hd' : Derives ((.nt .column_name) ⬝ (.lab .ope ((.tok .ASSIGN) ∣ (.tok .NOT_EQ1) ∣ (.tok .NOT_EQ2) ∣ (.tok .LT) ∣
      (.tok .LT_EQ) ∣ (.tok .GT) ∣ (.tok .GT_EQ))) ⬝ (.nt .literal_value)) ts cs us := hd
  cases hd' with
  | seq h1 h2 =>
    cases h2 with
    | seq h2 h3 =>
      obtain ⟨x, rfl, hx⟩ := ope_token h2 .ope rfl rfl
      have hm : ∀ a b : List Tree, Tree.lab .ope [.leaf x] ∈ a ++ ([.lab .ope [.leaf x]] ++ b) := by simp
      have tk : ∀ t, x.kind = t → ∀ a b : List Tree, ((Tree.node .comparison_expr (a ++ ([.lab .ope [.leaf x]] ++ b))).token t).isSome = true :=
        fun t ht a b => token_of (hm a b) ht _
      unfold cmpOp
      simp only [List.mem_cons, List.not_mem_nil, or_false] at hx
      rcases hx with hx | hx | hx | hx | hx | hx | hx <;>
      · have := tk _ hx
        simp only [this, Bool.true_or, Bool.or_true, if_true]
        repeat (first | exact ⟨_, rfl⟩ | split)

theorem cmpWith_fine (h : Sound (.node .comparison_expr cs)) : ∃ e, cmpWith (.node .comparison_expr cs) = .ok (some e) := by
  obtain ⟨n, hn⟩ := textOf_fine (q := .column_name) h
  obtain ⟨o, ho⟩ := cmpOp_some h
  exact ⟨_, by rw [cmpWith, hn, ho]; rfl⟩

theorem label_comparison {r : Rule} {q : Lab} (h : Sound (.node r cs)) (hr : r ≠ .expr)
    (hq : ∃ a b c, (body r = (.lab .left (.nt .comparison_expr)) ⬝ a ⬝ (.lab .right (.nt .comparison_expr))) ∧
      a = .tok b ∧ c = q ∧ (q = .left ∨ q = .right)) :
    ∃ ds, (Tree.node r cs).label q = some (.node .comparison_expr ds) ∧ Sound (.node .comparison_expr ds) := by
  obtain ⟨a, b, c, hb, rfl, rfl, hq⟩ := hq
  obtain ⟨ts, us, hd⟩ := h.derives hr
  rw [hb] at hd
  cases hd with
  | seq h1 h2 =>
    cases h1 with
    | lab _ h1 =>
      cases h1 with
      | nt _ h1 =>
        cases h2 with
        | seq h2 h3 =>
          cases h2 with
          | tok x =>
            cases h3 with
            | lab _ h3 =>
              cases h3 with
              | nt _ h3 =>
                rcases hq with rfl | rfl
                · refine ⟨_, rfl, ?_⟩
                  exact h.label (q := .left) rfl
                · refine ⟨_, rfl, ?_⟩
                  exact h.label (q := .right) rfl

theorem pairWith_fine {r : Rule} {mk : Expr → Expr → Expr} (h : Sound (.node r cs)) (hr : r ≠ .expr)
    (hb : ∃ b, body r = (.lab .left (.nt .comparison_expr)) ⬝ (.tok b) ⬝ (.lab .right (.nt .comparison_expr))) :
    (pairWith mk (.node r cs)).Fine := by
  obtain ⟨b, hb⟩ := hb
  obtain ⟨ds, h1, h2⟩ := label_comparison (q := .left) h hr ⟨_, b, _, hb, rfl, rfl, Or.inl rfl⟩
  obtain ⟨es, h3, h4⟩ := label_comparison (q := .right) h hr ⟨_, b, _, hb, rfl, rfl, Or.inr rfl⟩
  obtain ⟨x, hx⟩ := cmpWith_fine h2
  obtain ⟨y, hy⟩ := cmpWith_fine h4
  refine ⟨some (mk x y), ?_⟩
  rw [pairWith, h1, h3]
  simp only [Res.must, Res.bind, hx, hy]

theorem exprWith_fine {t : Tree} (h : Sound t) : (exprWith t).Fine := by
  rw [exprWith]
  cases ha : t.child .and_expr with
  | some a =>
    obtain ⟨ds, rfl, hs⟩ := h.childOf ha
    exact pairWith_fine hs (by decide) ⟨_, rfl⟩
  | none =>
    simp only
    cases ho : t.child .or_expr with
    | some o =>
      obtain ⟨ds, rfl, hs⟩ := h.childOf ho
      exact pairWith_fine hs (by decide) ⟨_, rfl⟩
    | none =>
      simp only
      cases hc : t.child .comparison_expr with
      | none => exact ⟨_, rfl⟩
      | some c =>
        obtain ⟨ds, rfl, hs⟩ := h.childOf hc
        obtain ⟨e, he⟩ := cmpWith_fine hs
        exact ⟨_, he⟩

theorem whereOf_fine {t : Tree} (h : Sound t) : (whereOf t).Fine := by
  rw [whereOf]
  cases hl : t.label .whereExpr with
  | none => exact ⟨_, rfl⟩
  | some w => exact exprWith_fine (h.label hl)

/-! ### Statements with values -/

theorem insertRow_fine (names : List Str) (l : List Tree) (h : ∀ c, c ∈ l → Sound c) (k : Nat) : (insertRow names k l).Fine := by
  induction l generalizing k with
  | nil => exact ⟨_, by rw [insertRow]⟩
  | cons e l ih =>
    have ih' := ih (fun c hc => h c (List.mem_cons_of_mem _ hc))
    rw [insertRow]
    cases hv : e.child .comparison_expr with
    | some v =>
      obtain ⟨ds, rfl, hs⟩ := (h e (List.mem_cons_self ..)).childOf hv
      exact (textOf_fine hs).bind (fun n => (ih' k).bind (fun cs => ⟨_, rfl⟩))
    | none =>
      simp only
      split
      · split
        · exact (ih' _).bind (fun cs => ⟨_, rfl⟩)
        · exact ih' _
      · exact ih' _

theorem insert_unless (h : Sound (.node .insert_stmt cs)) :
    (Visit.insert (.node .insert_stmt cs)).Unless (¬ Includes .values_clause cs) := by
  refine (textOf_fine h).bindUnless (fun n => ?_)
  cases hc : (Tree.node .insert_stmt cs).child .values_clause with
  | none => exact Or.inl ⟨(child_none h (by decide) rfl).mp hc, rfl⟩
  | some v =>
    refine Or.inr ⟨fun hn => ?_, ?_⟩
    · rw [(child_none h (by decide) rfl).mpr hn] at hc
      cases hc
    · obtain ⟨ds, rfl, hs⟩ := h.childOf hc
      simp only [Res.must, Res.bind]
      refine Res.Fine.bind (Res.Fine.all (fun row hr => ?_)) (fun _ => ⟨_, rfl⟩)
      obtain ⟨es, rfl, hs'⟩ := hs.allOf hr
      exact insertRow_fine _ _ (fun c hc => hs'.kid (all_mem hc).1) _

theorem arith_fine (h : Sound (.node .arithmetic_expr cs)) (n : Str) :
    ((labelText .ope (.node .arithmetic_expr cs)).bind (fun o => (Visit.textOf .column_name (.node .arithmetic_expr cs)).bind (fun a =>
            (Visit.textOf .expr (.node .arithmetic_expr cs)).bind (fun b => match arithFunction o [a, b] with
              | some f => .ok ({ name := n, fn := some f, args := [a, b] } : Column)
              | none => .ok { name := n })))).Fine := by
  refine (labelText_fine h).bind (fun o => (textOf_fine h).bind (fun a => (textOf_fine h).bind (fun b => ?_)))
  split <;> exact ⟨_, rfl⟩

theorem assignment_unless (h : Sound (.node .update_column_set cs)) :
    (assignment (.node .update_column_set cs)).Unless (¬ Includes .column_name cs) := by
  refine (textOf_unless h).bind (fun n => ?_)
  obtain ⟨ds, hd⟩ := h.has (q := .expr) (by decide) rfl
  have hs := h.kid (child_mem hd).1
  rw [hd]
  simp only [Res.must, Res.bind]
  split
  · exact ⟨_, rfl⟩
  · split
    · exact ⟨_, rfl⟩
    · cases ha : (Tree.node .expr ds).child .arithmetic_expr with
      | none => exact ⟨_, rfl⟩
      | some v =>
        obtain ⟨es, rfl, hs'⟩ := hs.childOf ha
        exact arith_fine hs' n

theorem update_unless (h : Sound (.node .update_stmt cs)) : (Visit.update (.node .update_stmt cs)).Unless
    (∃ ds, Tree.node .update_column_set ds ∈ cs ∧ ¬ Includes .column_name ds) := by
  refine (labelText_fine h).bindUnless (fun n => ?_)
  have hx : ∀ c, c ∈ (Tree.node .update_stmt cs).all .update_column_set →
      (assignment c).Unless (∃ ds, c = .node .update_column_set ds ∧ ¬ Includes .column_name ds) := by
    intro c hc
    obtain ⟨ds, rfl, hs⟩ := h.allOf hc
    refine (assignment_unless hs).congr ⟨fun hn => ⟨ds, rfl, hn⟩, ?_⟩
    rintro ⟨es, he, hn⟩
    cases he; exact hn
  refine Res.Unless.bind ((Res.Unless.all hx).congr ⟨?_, ?_⟩) (fun cs => (whereOf_fine h).bind (fun _ => ⟨_, rfl⟩))
  · rintro ⟨c, hc, ds, rfl, hn⟩
    exact ⟨ds, (mem_all h (by decide) rfl ds).mp hc, hn⟩
  · rintro ⟨ds, hd, hn⟩
    exact ⟨_, (mem_all h (by decide) rfl ds).mpr hd, ds, rfl, hn⟩

theorem selector_fine (h : Sound (.node .result_column cs)) : (selector (.node .result_column cs)).Fine := by
  rw [selector]
  cases he : (Tree.node .result_column cs).child .expr with
  | none => exact ⟨_, rfl⟩
  | some e =>
    simp only [Option.bind_some]
    cases hf : e.child .«function» with
    | none => exact ⟨_, rfl⟩
    | some f =>
      have hs := h.kid (child_mem he).1
      obtain ⟨ds, rfl, hs'⟩ := hs.childOf hf
      exact (textOf_fine hs').bind (fun _ => ⟨_, rfl⟩)

theorem ordersOf_fine {t : Tree} (h : Sound t) : (ordersOf t).Fine := by
  rw [ordersOf]
  cases ho : t.child .order_by_stmt with
  | none => exact ⟨_, rfl⟩
  | some o =>
    obtain ⟨ds, rfl, hs⟩ := h.childOf ho
    refine Res.Fine.bind (Res.Fine.all (fun c hc => ?_)) (fun _ => ⟨_, rfl⟩)
    obtain ⟨es, rfl, hs'⟩ := hs.allOf hc
    exact (textOf_fine hs').bind (fun _ => ⟨_, rfl⟩)

theorem select_fine (toUint : Str → Option Nat) (h : Sound (.node .select_stmt cs)) : (Visit.select toUint (.node .select_stmt cs)).Fine := by
  rw [Visit.select]
  cases hq : (Tree.node .select_stmt cs).label .parentQuery with
  | none => exact (ordersOf_fine h).bind (fun _ => ⟨_, rfl⟩)
  | some q =>
    have hs := h.label hq
    refine Res.Fine.bind (Res.Fine.all (fun c hc => ?_)) (fun ss => (whereOf_fine hs).bind (fun w => (ordersOf_fine h).bind (fun os => ⟨_, rfl⟩)))
    obtain ⟨ds, rfl, hs'⟩ := hs.allOf hc
    exact selector_fine hs'

theorem delete_fine (h : Sound (.node .delete_stmt cs)) : (Visit.delete (.node .delete_stmt cs)).Fine :=
  (labelText_fine h).bind (fun _ => (whereOf_fine h).bind (fun _ => ⟨_, rfl⟩))

theorem copy_fine (h : Sound (.node .copy_stmt cs)) : (Visit.copy (.node .copy_stmt cs)).Fine :=
  (whenChild_fine h (fun _ hs => labelText_fine hs)).bind (fun _ => (labelText_fine h).bind (fun _ => (textOf_fine h).bind (fun _ => ⟨_, rfl⟩)))

end Verif.Gram
