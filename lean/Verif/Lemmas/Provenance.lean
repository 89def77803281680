import Verif.Lemmas.Leaves
import Verif.Lemmas.Find
/-! Every text the visitor puts into a statement is written in the tokens of the statement's tree. -/
namespace Verif.Lemmas
open Verif Verif.Lex Verif.Gram Verif.Visit Verif.Query Verif.Util Verif.Parse Verif.Props Verif.Spec

/-- A text written in the tokens of the tree. -/
abbrev In (t : Tree) (x : Str) : Prop := WrittenIn t.leaves x

theorem in_text (t : Tree) : In t t.text :=
  ⟨[], t.leaves, [], [], [], by simp, by rw [text_leaves]; simp, (fun _ h => by cases h), (fun _ h => by cases h)⟩

theorem in_nil (t : Tree) : In t [] :=
  ⟨[], [], t.leaves, [], [], by simp, rfl, (fun _ h => by cases h), (fun _ h => by cases h)⟩

theorem in_kid {t c : Tree} {x : Str} (hc : c ∈ t.kids) (h : In c x) : In t x := by
  obtain ⟨a, b, he⟩ := kid_leaves hc
  obtain ⟨p, k, s, l, r, h1, h2⟩ := h
  exact ⟨a ++ p, k, s ++ b, l, r, by rw [he, h1]; simp, h2⟩

theorem in_trim {cut : Str} (hq : ∀ c, cut.contains c = true → c ∈ quoteChars) {t : Tree} {x : Str} (h : In t x) :
    In t (Str.trim cut x) := by
  obtain ⟨p, k, s, l, r, h1, h2, h3, h4⟩ := h
  have e1 := List.takeWhile_append_dropWhile (p := fun c => cut.contains c) (l := x)
  have e2 := congrArg List.reverse (List.takeWhile_append_dropWhile (p := fun c => cut.contains c)
    (l := (x.dropWhile (fun c => cut.contains c)).reverse))
  rw [List.reverse_append, List.reverse_reverse] at e2
  refine ⟨p, k, s, l ++ x.takeWhile (fun c => cut.contains c),
    ((x.dropWhile (fun c => cut.contains c)).reverse.takeWhile (fun c => cut.contains c)).reverse ++ r, h1, ?_, ?_, ?_⟩
  · rw [h2, Str.trim_eq]
    conv => lhs; rw [← e1, ← e2]
    simp
  · intro c hc
    rcases List.mem_append.mp hc with hc | hc
    · exact h3 c hc
    · exact hq c (Str.of_mem_takeWhile _ _ _ hc)
  · intro c hc
    rcases List.mem_append.mp hc with hc | hc
    · exact hq c (Str.of_mem_takeWhile (fun c => cut.contains c) _ _ (List.mem_reverse.mp hc))
    · exact h4 c hc

theorem in_name {t : Tree} {x : Str} (h : In t x) : In t (unEscapeNameString x) :=
  in_trim (by intro c hc; simp at hc; rcases hc with rfl | rfl | rfl | rfl <;> decide) h

theorem in_string {t : Tree} {x : Str} (h : In t x) : In t (unEscapeString x) :=
  in_trim (by intro c hc; simp at hc; rcases hc with rfl | rfl <;> decide) h

theorem in_child {r : Rule} {t c : Tree} {x : Str} (hc : t.child r = some c) (h : In c x) : In t x := in_kid (child_mem hc).1 h

theorem in_all {r : Rule} {t c : Tree} {x : Str} (hc : c ∈ t.all r) (h : In c x) : In t x := in_kid (all_mem hc).1 h

theorem in_labels {q : Lab} {t c : Tree} {x : Str} (hc : c ∈ t.labels q) (h : In c x) : In t x := in_kid (labels_kids hc) h

theorem in_label {q : Lab} {t c : Tree} {x : Str} (hc : t.label q = some c) (h : In c x) : In t x :=
  in_labels (List.mem_of_mem_head? hc) h

theorem textOf_in (r : Rule) (t : Tree) : (Visit.textOf r t).Post (In t) := by
  unfold Visit.textOf
  cases hc : t.child r with
  | none => exact .panic
  | some c => exact .ok (in_child hc (in_text c))

theorem labelText_in (q : Lab) (t : Tree) : (labelText q t).Post (In t) := by
  unfold labelText
  cases hc : t.label q with
  | none => exact .panic
  | some c => exact .ok (in_label hc (in_text c))

/-- All texts of the list are written in the tree. -/
abbrev AllIn (t : Tree) (l : List Str) : Prop := ∀ x, x ∈ l → In t x

theorem AllIn.append {t : Tree} {a b : List Str} (ha : AllIn t a) (hb : AllIn t b) : AllIn t (a ++ b) := by
  intro x hx
  rcases List.mem_append.mp hx with hx | hx
  · exact ha x hx
  · exact hb x hx

theorem AllIn.cons {t : Tree} {a : Str} {b : List Str} (ha : In t a) (hb : AllIn t b) : AllIn t (a :: b) := by
  intro x hx
  rcases List.mem_cons.mp hx with rfl | hx
  · exact ha
  · exact hb x hx

theorem AllIn.nil {t : Tree} : AllIn t [] := by intro x hx; cases hx

theorem AllIn.one {t : Tree} {a : Str} (ha : In t a) : AllIn t [a] := .cons ha .nil

theorem AllIn.flatMap {α : Type} {t : Tree} {f : α → List Str} {l : List α} (h : ∀ a, a ∈ l → AllIn t (f a)) : AllIn t (l.flatMap f) := by
  intro x hx
  obtain ⟨a, ha, hx⟩ := List.mem_flatMap.mp hx
  exact h a ha x hx

theorem AllIn.option {α : Type} {t : Tree} {f : α → List Str} {o : Option α} (h : ∀ a, o = some a → AllIn t (f a)) :
    AllIn t ((o.map f).getD []) := by
  cases o with
  | none => exact .nil
  | some a => exact h a rfl

theorem AllIn.lift {c t : Tree} {l : List Str} (h : ∀ x, In c x → In t x) (hl : AllIn c l) : AllIn t l := fun x hx => h x (hl x hx)

theorem named_in {t : Tree} {n : Str} (h : In t n) : AllIn t (colTexts (columnNamed n)) := .one h

theorem tableName_in {t : Tree} {n : Str} (h : In t n) : AllIn t (tableTexts { name := n }) := .cons (in_nil t) (.one h)

/-! ### Table definitions -/

theorem columnWith_in (t : Tree) : (columnWith t).Post (fun o => ∀ c, o = some c → AllIn t (colTexts c)) := by
  refine (textOf_in .column_name t).bind fun n hn => ?_
  simp only
  split
  · exact .ok (by simp)
  · split
    · exact .ok (by simp)
    · split
      · exact .ok (by simp)
      · exact .ok (by rintro c ⟨⟩; exact .one (in_name hn))

/-- The columns and indexes of a table definition so far. -/
def AccIn (t : Tree) (a : List Column × List Index) : Prop :=
  (∀ c, c ∈ a.1 → AllIn t (colTexts c)) ∧ ∀ i, i ∈ a.2 → AllIn t (indexTexts i)

theorem primary_in {t : Tree} {cs : List Column} (h : ∀ c, c ∈ cs → AllIn t (colTexts c)) : AllIn t (indexTexts (newPrimaryIndexWith cs)) :=
  AllIn.append .nil (.flatMap h)

theorem secondary_in {t : Tree} {n : Str} {cs : List Column} (hn : In t n) (h : ∀ c, c ∈ cs → AllIn t (colTexts c)) :
    AllIn t (indexTexts (newSecondaryIndexWith n cs)) := AllIn.append (.one hn) (.flatMap h)

theorem columnStep_in {t d : Tree} (up : ∀ x, In d x → In t x) {acc : List Column × List Index} (h : AccIn t acc) :
    (columnStep d acc).Post (AccIn t) := by
  refine (columnWith_in d).bind (fun o ho => ?_)
  cases o with
  | none => exact .ok h
  | some c =>
    have hc := AllIn.lift up (ho c rfl)
    refine .ok ⟨?_, ?_⟩
    · intro x hx
      rcases List.mem_append.mp hx with hx | hx
      · exact h.1 x hx
      · rw [List.mem_singleton.mp hx]; exact hc
    · intro i hx
      rcases List.mem_append.mp hx with hx | hx
      · exact h.2 i hx
      · obtain ⟨_, -, rfl⟩ := List.mem_map.mp hx
        exact primary_in (fun x hx => by rw [List.mem_singleton.mp hx]; exact hc)

theorem indexDefs_in (t : Tree) : (indexDefs t).Post (AllIn t) := by
  refine (textOf_in .column_name t).bind fun n hn => .ok ?_
  refine .cons (in_name hn) ?_
  split
  · exact .nil
  · rename_i y hy
    intro x hx
    obtain ⟨z, hz, rfl⟩ := List.mem_map.mp hx
    exact in_child hy (in_all hz (in_text z))

theorem primaryScan_name {cs : List Column} {ws : List Str} {i : Str} {c : Column} (h : primaryScan cs ws = some (i, c)) : i = [] := by
  fun_induction primaryScan cs ws with
  | case1 w r c' hc => cases h; rfl
  | case2 w r hc ih => exact ih h
  | case3 v w r hv ih => exact ih h
  | case4 => cases h

theorem indexScan_in {t : Tree} {cs : List Column} {ws : List Str} (hw : AllIn t ws) {i : Str} {c : Column}
    (h : indexScan cs ws = some (i, c)) : In t i := by
  fun_induction indexScan cs ws with
  | case1 v w r x hx =>
    cases h
    split at hx
    · rw [primaryScan_name hx]; exact in_nil t
    · split at hx
      · unfold keyScan at hx
        split at hx
        · rename_i n c' _ he
          obtain ⟨y, -, h⟩ := Option.map_eq_some_iff.mp hx
          cases h
          refine in_name (hw n (List.mem_cons_of_mem _ ?_))
          rw [he]; exact List.mem_cons_self ..
        · cases hx
      · cases hx
  | case2 v w r hx ih => exact ih (fun x hx => hw x (List.mem_cons_of_mem _ hx)) h
  | case3 => cases h

theorem indexStep_in {t d : Tree} (up : ∀ x, In d x → In t x) {acc : List Column × List Index} (h : AccIn t acc) :
    (indexStep d acc).Post (AccIn t) := by
  have add : ∀ (x : Index), AllIn t (indexTexts x) → AccIn t (acc.1, acc.2 ++ [x]) := by
    intro x hx
    refine ⟨h.1, fun i hm => ?_⟩
    rcases List.mem_append.mp hm with hm | hm
    · exact h.2 i hm
    · rw [List.mem_singleton.mp hm]; exact hx
  have one : ∀ {ds : List Str} {i : Str} {c : Column}, indexScan acc.1 ds = some (i, c) → ∀ x, x ∈ [c] → AllIn t (colTexts x) := by
    intro ds i c hs x hx
    rw [List.mem_singleton.mp hx]; exact h.1 c (indexScan_mem hs)
  refine .next fun n => ?_
  split
  · refine (indexDefs_in d).bind fun ds hd => ?_
    split
    · rename_i c hs
      exact .ok (add _ (primary_in (one hs)))
    · exact .ok h
  · split
    · refine (indexDefs_in d).bind fun ds hd => ?_
      split
      · rename_i i c hs
        exact .ok (add _ (secondary_in (up _ (indexScan_in hd hs)) (one hs)))
      · exact .ok h
    · exact .ok h

theorem columnDefs_in {t : Tree} (l : List Tree) (hl : ∀ d, d ∈ l → ∀ x, In d x → In t x) {acc : List Column × List Index} (h : AccIn t acc) :
    (columnDefs acc l).Post (AccIn t) := by
  induction l generalizing acc with
  | nil => exact .ok h
  | cons d r ih =>
    have up := hl d (List.mem_cons_self ..)
    exact (columnStep_in up h).bind (fun a ha => (indexStep_in up ha).bind (fun b hb =>
      ih (fun d hd => hl d (List.mem_cons_of_mem _ hd)) hb))

theorem tableKeys_in (t : Tree) : (tableKeys t).Post (fun ks => ∀ i, i ∈ ks → AllIn t (indexTexts i)) := by
  refine Res.Post.all (fun p hp => ?_)
  obtain ⟨k, hk, hp⟩ := List.mem_filterMap.mp hp
  refine (Res.Post.all (P := fun c => AllIn t (colTexts c)) (fun x hx => ?_)).bind (fun cs hcs => .ok (primary_in hcs))
  exact (textOf_in .column_name x).bind fun n hn => .ok (.one (in_all hk (in_child hp (in_all hx (in_name hn)))))

theorem tableSchema_in (t : Tree) : (tableSchema t).Post (fun s => AllIn t (schemaTexts s)) := by
  refine (textOf_in .table_name t).bind fun n hn => ?_
  refine (columnDefs_in (t := t) (acc := ([], [])) _ (fun d hd x hx => in_all hd hx)
    ⟨fun c hc => (by cases hc), fun c hc => (by cases hc)⟩).bind (fun a ha => ?_)
  refine (tableKeys_in t).bind (fun ks hks => .ok (.append (.append (tableName_in (in_name hn)) (.flatMap ha.1)) (.flatMap ?_)))
  intro i hi
  rcases List.mem_append.mp hi with hi | hi
  · exact ha.2 i hi
  · exact hks i hi

theorem indexSchema_in (t : Tree) : (indexSchema t).Post (fun s => AllIn t (schemaTexts s)) := by
  refine (textOf_in .index_name t).bind fun i hi => (textOf_in .table_name t).bind fun n hn => ?_
  refine (Res.Post.all (P := fun c => AllIn t (colTexts c)) (fun x hx => ?_)).bind (fun cs hcs => .ok ?_)
  · exact (textOf_in .column_name x).bind fun m hm => .ok (.one (in_all hx (in_name hm)))
  · refine .append (.append (tableName_in (in_name hn)) .nil) (.flatMap fun x hx => ?_)
    rw [List.mem_singleton.mp hx]
    exact secondary_in (in_name hi) hcs

/-! ### ALTER TABLE -/

theorem whenChild_in {α : Type} {r : Rule} {t : Tree} {f : Tree → Res α} {P : Tree → α → Prop}
    (hf : ∀ c, (f c).Post (P c)) : (whenChild r t f).Post (fun o => ∀ a, o = some a → ∃ c, t.child r = some c ∧ P c a) := by
  unfold whenChild
  split
  · exact .ok (by simp)
  · rename_i c hc
    exact (hf c).bind (fun a ha => .ok (by rintro _ ⟨⟩; exact ⟨c, hc, ha⟩))

theorem addIndexKind_in (t : Tree) : (addIndexKind t).Post (fun k => In t k.2) := by
  unfold addIndexKind
  split
  · exact .ok (in_nil t)
  · rename_i c hc
    split
    · rename_i i hi
      exact (textOf_in .index_name i).bind fun n hn => .ok (in_child hc (in_child hi (in_name hn)))
    · exact .ok (in_nil t)

theorem addIndex_in (t : Tree) : (addIndex t).Post (fun i => AllIn t (indexTexts i)) := by
  refine (addIndexKind_in t).bind fun k hk => .ok (.append ?_ (.flatMap fun c hc => ?_))
  · split
    · exact .nil
    · exact .one hk
  · obtain ⟨x, hx, rfl⟩ := List.mem_map.mp hc
    exact .one (in_all hx (in_name (in_text x)))

theorem schema_in (t : Tree) : In t (((t.child .schema_name).map (fun s => unEscapeNameString s.text)).getD []) := by
  cases h : t.child .schema_name with
  | none => exact in_nil t
  | some s => exact in_child h (in_name (in_text s))

theorem alterTable_in (t : Tree) : (Visit.alterTable t).Post (fun s => AllIn t (stmtTexts s)) := by
  refine (whenChild_in (P := In) (fun c => textOf_in _ c)).bind fun rt hrt => ?_
  refine (whenChild_in (P := fun c p => In c p.1.name ∧ In c p.2.name ∧ p.1 = columnNamed p.1.name ∧ p.2 = columnNamed p.2.name)
    (fun c => ?_)).bind fun rc hrc => ?_
  · exact (labelText_in _ c).bind fun a ha => (labelText_in _ c).bind fun b hb => .ok ⟨ha, hb, rfl, rfl⟩
  refine (whenChild_in (P := fun c o => ∀ d, o = some d → AllIn c (colTexts d)) (fun c => ?_)).bind fun ac hac => ?_
  · unfold addColumnOf
    cases hd : c.child .column_def with
    | none => exact .panic
    | some d => exact (columnWith_in d).mono fun o ho e he => .lift (fun x hx => in_child hd hx) (ho e he)
  refine (whenChild_in (P := fun c i => AllIn c (indexTexts i)) (fun c => addIndex_in c)).bind fun ai hai => ?_
  refine (labelText_in _ t).bind fun n hn => .ok ?_
  refine .append (.append (.append (.append (.append (.append (.append (.cons (schema_in t) (.one hn)) ?_) ?_) ?_) ?_) ?_) ?_) .nil
  · refine .option fun a ha => ?_
    obtain ⟨m, hm, rfl⟩ := Option.map_eq_some_iff.mp ha
    obtain ⟨c, hc, h⟩ := hrt m hm
    exact tableName_in (in_child hc (in_name h))
  · refine .option fun a ha => ?_
    obtain ⟨p, hp, rfl⟩ := Option.map_eq_some_iff.mp ha
    obtain ⟨c, hc, h⟩ := hrc p hp
    rw [h.2.2.1]; exact named_in (in_child hc h.1)
  · refine .option fun a ha => ?_
    obtain ⟨p, hp, rfl⟩ := Option.map_eq_some_iff.mp ha
    obtain ⟨c, hc, h⟩ := hrc p hp
    rw [h.2.2.2]; exact named_in (in_child hc h.2.1)
  · refine .option fun a ha => ?_
    cases ac with
    | none => cases ha
    | some o =>
      obtain ⟨c, hc, h⟩ := hac o rfl
      exact .lift (fun x hx => in_child hc hx) (h a ha)
  · refine .option fun a ha => ?_
    obtain ⟨c, hc, h⟩ := hai a ha
    exact .lift (fun x hx => in_child hc hx) h
  · refine .option fun a ha => ?_
    obtain ⟨d, hd, rfl⟩ := Option.map_eq_some_iff.mp ha
    exact named_in (in_child hd (in_text d))

/-! ### Conditions -/

theorem literalWith_in (t : Tree) : AllIn t (litTexts (literalWith t)) := by
  unfold literalWith
  split
  · rename_i s hs
    exact .one (in_child hs (in_string (in_text s)))
  · exact .one (in_text t)

theorem bindParamWith_in (t : Tree) : AllIn t (litTexts (bindParamWith t)) := .one (in_text t)

theorem cmpWith_in (t : Tree) : (cmpWith t).Post (fun o => AllIn t (condTexts o)) := by
  refine (textOf_in _ t).bind fun n hn => .ok (.option fun e he => ?_)
  obtain ⟨o, -, rfl⟩ := Option.map_eq_some_iff.mp he
  refine .append (named_in hn) (.option fun l hl => ?_)
  obtain ⟨v, hv, rfl⟩ := Option.map_eq_some_iff.mp hl
  exact .lift (fun x hx => in_child hv hx) (literalWith_in v)

theorem pairWith_in {mk : Expr → Expr → Expr} (hm : ∀ a b, exprTexts (mk a b) = exprTexts a ++ exprTexts b) (t : Tree) :
    (pairWith mk t).Post (fun o => AllIn t (condTexts o)) := by
  unfold pairWith
  cases hl : t.label .left with
  | none => exact .panic
  | some l =>
    refine (cmpWith_in l).bind fun a ha => ?_
    cases hr : t.label .right with
    | none => exact .panic
    | some r =>
      refine (cmpWith_in r).bind fun b hb => ?_
      cases a with
      | none => exact .panic
      | some x =>
        cases b with
        | none => exact .panic
        | some y =>
          refine .ok ?_
          show AllIn t (exprTexts (mk x y))
          rw [hm]
          exact .append (.lift (fun x hx => in_label hl hx) ha) (.lift (fun x hx => in_label hr hx) hb)

theorem exprWith_in (t : Tree) : (exprWith t).Post (fun o => AllIn t (condTexts o)) := by
  unfold exprWith
  split
  · rename_i a ha
    exact (pairWith_in (fun _ _ => rfl) a).mono fun o ho => .lift (fun x hx => in_child ha hx) ho
  · split
    · rename_i a ha
      exact (pairWith_in (fun _ _ => rfl) a).mono fun o ho => .lift (fun x hx => in_child ha hx) ho
    · split
      · rename_i a ha
        exact (cmpWith_in a).mono fun o ho => .lift (fun x hx => in_child ha hx) ho
      · exact .ok .nil

theorem whereOf_in (t : Tree) : (whereOf t).Post (fun o => AllIn t (condTexts o)) := by
  unfold whereOf
  split
  · rename_i w hw
    exact (exprWith_in w).mono fun o ho => .lift (fun x hx => in_label hw hx) ho
  · exact .ok .nil

/-! ### Rows -/

theorem column_in {t : Tree} {c : Column} (hn : In t c.name) (hl : AllIn t ((c.lit.map litTexts).getD []))
    (ha : AllIn t c.args) (hf : AllIn t ((c.fn.map fnTexts).getD [])) : AllIn t (colTexts c) :=
  .cons hn (.append (.append hl ha) hf)

theorem insertRow_in {t : Tree} (names : List Str) (hn : AllIn t names) (k : Nat) (es : List Tree) (h : ∀ e, e ∈ es → ∀ x, In e x → In t x) :
    (insertRow names k es).Post (fun cs => ∀ c, c ∈ cs → AllIn t (colTexts c) ∧ c.fn = none) := by
  induction es generalizing k with
  | nil => exact .ok (fun c hc => by cases hc)
  | cons e r ih =>
    have ih := fun k => ih k (fun x hx => h x (List.mem_cons_of_mem _ hx))
    have up := h e (List.mem_cons_self ..)
    have add : ∀ {c : Column} {cs : List Column}, AllIn t (colTexts c) ∧ c.fn = none → (∀ c, c ∈ cs → AllIn t (colTexts c) ∧ c.fn = none) →
        ∀ x, x ∈ c :: cs → AllIn t (colTexts x) ∧ x.fn = none := by
      intro c cs hc hcs x hx
      rcases List.mem_cons.mp hx with rfl | hx
      · exact hc
      · exact hcs x hx
    unfold insertRow
    split
    · rename_i v hv
      refine (textOf_in _ v).bind fun n hnm => (ih k).bind (fun cs hcs => .ok (add ⟨?_, rfl⟩ hcs))
      refine column_in (up _ (in_child hv hnm)) (.option fun l hl => ?_) .nil .nil
      obtain ⟨y, hy, rfl⟩ := Option.map_eq_some_iff.mp hl
      exact .lift (fun x hx => up x (in_child hv (in_child hy hx))) (literalWith_in y)
    · split
      · rename_i l hl
        split
        · rename_i n hk
          refine (ih (k + 1)).bind (fun cs hcs => .ok (add ⟨?_, rfl⟩ hcs))
          refine column_in (hn n (List.mem_of_getElem? hk)) ?_ .nil .nil
          show AllIn t (litTexts l)
          split at hl
          · rename_i v hv
            cases hl
            exact .lift (fun x hx => up x (in_child hv hx)) (literalWith_in v)
          · obtain ⟨v, hv, rfl⟩ := Option.map_eq_some_iff.mp hl
            exact .lift (fun x hx => up x (in_child hv hx)) (bindParamWith_in v)
        · exact ih k
      · exact ih k

theorem insert_in (t : Tree) : (Visit.insert t).Post (fun s => AllIn t (stmtTexts s) ∧ stmtFunctions s = []) := by
  refine (textOf_in _ t).bind fun n hn => ?_
  cases hv : t.child .values_clause with
  | none => exact .panic
  | some v =>
    refine (Res.Post.all (P := fun row => ∀ c, c ∈ row → AllIn t (colTexts c) ∧ c.fn = none) (fun row hr => ?_)).bind (fun rows hrows => .ok ⟨?_, ?_⟩)
    · refine insertRow_in _ ?_ 0 _ (fun e he x hx => in_child hv (in_all hr (in_all he hx)))
      intro x hx
      obtain ⟨c, hc, rfl⟩ := List.mem_map.mp hx
      exact in_all hc (in_text c)
    · exact .append (tableName_in (in_name hn)) (.flatMap fun row hr => .flatMap fun c hc => (hrows row hr c hc).1)
    · show rows.flatMap (·.flatMap colFunctions) = []
      refine List.flatMap_eq_nil_iff.mpr fun row hr => List.flatMap_eq_nil_iff.mpr fun c hc => ?_
      rw [colFunctions, (hrows row hr c hc).2]; rfl

/-! ### UPDATE -/

theorem arith_name {ope : Str} {k : Fn.ExecId} (h : Fn.newArithOperatorFor ope = some k) : k.name = ope := by
  unfold Fn.newArithOperatorFor at h
  split at h
  · cases h; rename_i he; rw [he]; rfl
  split at h
  · cases h; rename_i he; rw [he]; rfl
  split at h
  · cases h; rename_i he; rw [he]; rfl
  split at h
  · cases h; rename_i he; rw [he]; rfl
  split at h
  · cases h; rename_i he; rw [he]; rfl
  cases h

/-- Function names are written in the tree up to letter case. -/
abbrev FnIn (t : Tree) (l : List Str) : Prop := ∀ x, x ∈ l → ∃ y, In t y ∧ SameName x y

theorem FnIn.lift {c t : Tree} {l : List Str} (h : ∀ x, In c x → In t x) (hl : FnIn c l) : FnIn t l := fun x hx => by
  obtain ⟨y, hy, hn⟩ := hl x hx
  exact ⟨y, h y hy, hn⟩

theorem FnIn.nil {t : Tree} : FnIn t [] := by intro x hx; cases hx

theorem FnIn.flatMap {α : Type} {t : Tree} {f : α → List Str} {l : List α} (h : ∀ a, a ∈ l → FnIn t (f a)) : FnIn t (l.flatMap f) := by
  intro x hx
  obtain ⟨a, ha, hx⟩ := List.mem_flatMap.mp hx
  exact h a ha x hx

theorem assignment_in (t : Tree) : (assignment t).Post (fun c => AllIn t (colTexts c) ∧ FnIn t (colFunctions c)) := by
  refine (textOf_in _ t).bind fun n hn => ?_
  cases he : t.child .expr with
  | none => exact .panic
  | some e =>
    show Res.Post _ (match e.child .literal_value with | some v => _ | none => _)
    split
    · rename_i v hv
      exact .ok ⟨column_in hn (.lift (fun x hx => in_child he (in_child hv hx)) (literalWith_in v)) .nil .nil, .nil⟩
    · split
      · rename_i v hv
        exact .ok ⟨column_in hn (.lift (fun x hx => in_child he (in_child hv hx)) (bindParamWith_in v)) .nil .nil, .nil⟩
      · split
        · exact .ok ⟨column_in hn .nil .nil .nil, .nil⟩
        · rename_i v hv
          have up : ∀ x, In v x → In t x := fun x hx => in_child he (in_child hv hx)
          refine (labelText_in _ v).bind fun o ho => (textOf_in _ v).bind fun a ha => (textOf_in _ v).bind fun b hb => ?_
          have hargs : AllIn t [a, b] := .cons (up _ ha) (.one (up _ hb))
          split
          · rename_i f hf
            obtain ⟨k, hk, rfl⟩ := Option.map_eq_some_iff.mp hf
            refine .ok ⟨column_in hn .nil hargs hargs, fun x hx => ?_⟩
            have hx : x = k.name := List.mem_singleton.mp hx
            rw [hx, arith_name hk]
            exact ⟨o, up _ ho, rfl⟩
          · exact .ok ⟨column_in hn .nil .nil .nil, .nil⟩

theorem update_in (t : Tree) : (Visit.update t).Post (fun s => AllIn t (stmtTexts s) ∧ FnIn t (stmtFunctions s)) := by
  refine (labelText_in _ t).bind fun n hn => ?_
  refine (Res.Post.all (P := fun c => AllIn t (colTexts c) ∧ FnIn t (colFunctions c)) (fun x hx => ?_)).bind (fun cs hcs => ?_)
  · exact (assignment_in x).mono fun c hc => ⟨.lift (fun y hy => in_all hx hy) hc.1, .lift (fun y hy => in_all hx hy) hc.2⟩
  · refine (whereOf_in t).bind fun w hw => .ok ⟨?_, ?_⟩
    · exact .append (.append (tableName_in hn) (.flatMap fun c hc => (hcs c hc).1)) hw
    · exact .flatMap fun c hc => (hcs c hc).2

/-! ### SELECT -/

theorem token_mem {k : Tok} {t c : Tree} (h : t.token k = some c) : c ∈ t.kids := List.mem_of_find?_eq_some h

theorem functionArgs_in (f : Tree) : AllIn f (functionArgs f) := by
  unfold functionArgs
  split
  · rename_i s hs
    exact .one (in_kid (token_mem hs) (in_text s))
  · intro x hx
    obtain ⟨e, he, rfl⟩ := List.mem_map.mp hx
    exact in_all he (in_text e)

/-- The function of something selected. -/
def selFunctions (s : Selector) : List Str :=
  match s with
  | .col c => colFunctions c
  | .fn f => [f.name]

theorem selector_in (t : Tree) : (selector t).Post (fun s => AllIn t (selectorTexts s) ∧ FnIn t (selFunctions s)) := by
  unfold selector
  split
  · rename_i f hf
    obtain ⟨e, he, hf⟩ := Option.bind_eq_some_iff.mp hf
    have up : ∀ x, In f x → In t x := fun x hx => in_child he (in_child hf hx)
    refine (textOf_in _ f).bind fun n hn => .ok ⟨.append (.lift up (functionArgs_in f)) .nil, fun x hx => ?_⟩
    have hx : x = Str.upper n := List.mem_singleton.mp hx
    refine ⟨n, up _ hn, ?_⟩
    rw [hx]
    exact (Lemmas.sameName_iff _ _).mp ((Str.eqFold_iff _ _).mpr (by simp))
  · exact .ok ⟨named_in (in_text t), .nil⟩

theorem orderOf_in (t : Tree) : (orderOf t).Post (fun o => ∀ a, o = some a → In t a.column) := by
  refine (textOf_in _ t).bind fun n hn => .ok ?_
  intro a ha
  split at ha
  · cases ha
  · cases ha; exact hn

theorem ordersOf_in (t : Tree) : (ordersOf t).Post (fun os => AllIn t (os.map (·.column))) := by
  unfold ordersOf
  split
  · exact .ok .nil
  · rename_i o ho
    refine (Res.Post.all (P := fun x => ∀ a, x = some a → In t a.column) (fun y hy => ?_)).bind (fun l hl => .ok ?_)
    · exact (orderOf_in y).mono fun x hx a ha => in_child ho (in_all hy (hx a ha))
    · intro x hx
      obtain ⟨a, ha, rfl⟩ := List.mem_map.mp hx
      obtain ⟨b, hb, he⟩ := List.mem_filterMap.mp ha
      exact hl b hb a he

theorem select_in (toUint : Str → Option Nat) (t : Tree) :
    (Visit.select toUint t).Post (fun s => AllIn t (stmtTexts s) ∧ FnIn t (stmtFunctions s)) := by
  unfold Visit.select
  split
  · exact (ordersOf_in t).bind fun os hos => .ok ⟨.append (.append .nil hos) (.one (in_nil t)), .nil⟩
  · rename_i q hq
    have up : ∀ x, In q x → In t x := fun x hx => in_label hq hx
    refine (Res.Post.all (P := fun s => AllIn q (selectorTexts s) ∧ FnIn q (selFunctions s)) (fun x hx => ?_)).bind (fun ss hss => ?_)
    · exact (selector_in x).mono fun s hs => ⟨.lift (fun y hy => in_all hx hy) hs.1, .lift (fun y hy => in_all hx hy) hs.2⟩
    · refine (whereOf_in q).bind fun w hw => (ordersOf_in t).bind fun os hos => .ok ⟨?_, ?_⟩
      · refine .append (.append (.append (.append ?_ ?_) (.lift up hw)) hos) (.one ?_)
        · exact .flatMap fun s hs => .lift up (hss s hs).1
        · refine .flatMap fun b hb => ?_
          obtain ⟨f, hf, hb⟩ := List.mem_filterMap.mp hb
          obtain ⟨c, hc, rfl⟩ := Option.map_eq_some_iff.mp hb
          have up' : ∀ x, In c x → In t x := fun x hx => up x (in_all hf (in_child hc hx))
          refine .cons (up' _ ?_) (.one (up' _ (in_text c)))
          cases hs : c.child .schema_name with
          | none => exact in_nil c
          | some s => exact in_child hs (in_text s)
        · unfold groupOf
          split
          · exact in_nil t
          · rename_i g r hg
            exact up _ (in_labels (q := .groupByExpr) (by rw [hg]; exact List.mem_cons_self ..) (in_text g))
      · show FnIn t (ss.flatMap selFunctions)
        exact .flatMap fun s hs => .lift up (hss s hs).2

theorem delete_in (t : Tree) : (Visit.delete t).Post (fun s => AllIn t (stmtTexts s)) := by
  exact (labelText_in _ t).bind fun n hn => (whereOf_in t).bind fun w hw => .ok (.append (tableName_in hn) hw)

theorem copy_in (t : Tree) : (Visit.copy t).Post (fun s => AllIn t (stmtTexts s)) := by
  refine .next fun f => (labelText_in _ t).bind fun n hn => (textOf_in _ t).bind fun s hs => .ok ?_
  refine .append (.append (tableName_in (in_string hn)) (.flatMap fun c hc => ?_)) (.one (in_string hs))
  cases hl : t.child .copy_column_list with
  | none => rw [hl] at hc; cases hc
  | some l =>
    rw [hl] at hc
    obtain ⟨x, hx, rfl⟩ := List.mem_map.mp hc
    exact named_in (in_child hl (in_all hx (in_string (in_text x))))

/-! ### All statements -/

/-- Everything a statement carries is written in the tokens of its tree. -/
theorem handler_made (toUint : Str → Option Nat) {r : Rule} {f : Tree → Res Statement} (hm : (r, f) ∈ handlers toUint) (t : Tree) :
    (f t).Post (MadeFrom t.leaves) := by
  have pure : ∀ {x : Res Statement}, x.Post (fun s => AllIn t (stmtTexts s)) → x.Post (fun s => stmtFunctions s = []) → x.Post (MadeFrom t.leaves) := by
    intro x h1 h2 s hs
    refine ⟨h1 s hs, ?_⟩
    rw [h2 s hs]; exact FnIn.nil (t := t)
  have tables : ∀ {ns : List Tree} {g : Str → Str} (_ : ∀ n, In t n → In t (g n)) (_ : ∀ n, n ∈ ns → ∀ x, In n x → In t x),
      AllIn t ((ns.map (fun n => ({ name := g n.text } : Table))).flatMap tableTexts) := by
    intro ns g hg hns
    refine .flatMap fun b hb => ?_
    obtain ⟨n, hn, rfl⟩ := List.mem_map.mp hb
    exact tableName_in (hg _ (hns n hn _ (in_text n)))
  simp only [handlers, List.mem_cons, List.not_mem_nil, or_false, Prod.mk.injEq] at hm
  rcases hm with ⟨-, rfl⟩ | ⟨-, rfl⟩ | ⟨-, rfl⟩ | ⟨-, rfl⟩ | ⟨-, rfl⟩ | ⟨-, rfl⟩ | ⟨-, rfl⟩ | ⟨-, rfl⟩ | ⟨-, rfl⟩ | ⟨-, rfl⟩ |
    ⟨-, rfl⟩ | ⟨-, rfl⟩ | ⟨-, rfl⟩ | ⟨-, rfl⟩ | ⟨-, rfl⟩ | ⟨-, rfl⟩ | ⟨-, rfl⟩ | ⟨-, rfl⟩ | ⟨-, rfl⟩
  · exact pure ((textOf_in _ t).bind fun n hn => .ok (.one hn)) (.next fun n => .ok rfl)
  · exact pure ((tableSchema_in t).bind fun s hs => .ok hs) (.next fun n => .ok rfl)
  · exact pure ((indexSchema_in t).bind fun s hs => .ok hs) (.next fun n => .ok rfl)
  · exact pure ((textOf_in _ t).bind fun n hn => .ok (.one hn)) (.next fun n => .ok rfl)
  · exact pure (.ok (tables (fun n hn => in_name hn) (fun n hn x hx => in_all hn hx))) (.ok rfl)
  · exact pure ((textOf_in _ t).bind fun n hn => .ok (.cons (schema_in t) (.one (in_name hn)))) (.next fun n => .ok rfl)
  · refine pure ((textOf_in _ t).bind fun n hn => ?_) (.next fun n => ?_)
    · split
      · exact .ok (.cons hn (.one (in_nil t)))
      · rename_i c hc
        exact (labelText_in _ c).bind fun m hm => .ok (.cons hn (.one (in_child hc hm)))
    · split
      · exact .ok rfl
      · exact .next fun m => .ok rfl
  · exact pure (alterTable_in t) (.next fun _ => .next fun _ => .next fun _ => .next fun _ => .next fun _ => .ok rfl)
  · exact (insert_in t).mono fun s hs => ⟨hs.1, by rw [hs.2]; exact FnIn.nil (t := t)⟩
  · exact update_in t
  · exact select_in toUint t
  · exact pure (delete_in t) (.next fun _ => .next fun _ => .ok rfl)
  · exact pure (.ok .nil) (.ok rfl)
  · exact pure (.ok .nil) (.ok rfl)
  · exact pure (.ok .nil) (.ok rfl)
  · exact pure ((textOf_in _ t).bind fun n hn => .ok (.one hn)) (.next fun n => .ok rfl)
  · exact pure (copy_in t) (.next fun _ => .next fun _ => .next fun _ => .ok rfl)
  · exact pure (.ok (tables (g := id) (fun n hn => hn) (fun n hn x hx => in_all hn hx))) (.ok rfl)
  · refine pure (.ok (.option fun b hb => ?_)) (.ok rfl)
    obtain ⟨n, hn, rfl⟩ := Option.map_eq_some_iff.mp hb
    exact tableName_in (in_child hn (in_text n))

/-! ### The statements of a query -/

/-- Trees of statements in disjoint stretches of the tokens, in order. -/
inductive Ordered : List Token → List (Rule × List Tree) → Prop
  | nil (toks : List Token) : Ordered toks []
  | cons (before : List Token) {rest : List Token} {x : Rule × List Tree} {l : List (Rule × List Tree)}
      (hr : Ordered rest l) : Ordered (before ++ leavesAll x.2 ++ rest) (x :: l)

theorem Ordered.before {a b : List Token} {l : List (Rule × List Tree)} (h : Ordered b l) : Ordered (a ++ b) l := by
  cases h with
  | nil => exact .nil _
  | cons p hr =>
    rw [← List.append_assoc, ← List.append_assoc]
    exact .cons (a ++ p) hr

theorem Ordered.append {a b : List Token} {l m : List (Rule × List Tree)} (h : Ordered a l) (k : Ordered b m) : Ordered (a ++ b) (l ++ m) := by
  induction h with
  | nil => exact k.before
  | cons p hr ih =>
    rw [List.append_assoc]
    exact .cons p ih

theorem lastStmt_ordered (s : List Tree) : Ordered (leavesAll s) (lastStmt s) := by
  unfold lastStmt
  split
  · rename_i r cs h
    obtain ⟨l, rfl⟩ := List.getLast?_eq_some_iff.mp h
    rw [leavesAll_append, leavesAll_one, Tree.leaves, ← List.append_nil (leavesAll l ++ leavesAll cs)]
    exact Ordered.cons (x := (r, cs)) _ (.nil [])
  · exact .nil _

theorem flat_ordered (f : Tree → List (Rule × List Tree)) (hf : ∀ t, Ordered t.leaves (f t)) (l : List Tree) :
    Ordered (leavesAll l) (l.flatMap f) := by
  induction l with
  | nil => exact .nil _
  | cons t l ih =>
    rw [leavesAll, List.flatMap_cons]
    exact (hf t).append ih

theorem queryStmts_ordered (t : Tree) : Ordered t.leaves (queryStmts t) := by
  unfold queryStmts
  split
  · rename_i ls
    rw [Tree.leaves]
    refine flat_ordered _ (fun c => ?_) ls
    split
    · rename_i l
      rw [Tree.leaves]
      refine flat_ordered _ (fun c => ?_) l
      split
      · rw [Tree.leaves]; exact lastStmt_ordered _
      · exact .nil _
    · exact .nil _
  · exact .nil _

theorem Pieces.before {P : List Token → Statement → Prop} {a b : List Token} {l : List Statement} (h : Pieces P b l) : Pieces P (a ++ b) l := by
  cases h with
  | nil => exact .nil _
  | cons p own h hs hr =>
    rw [← List.append_assoc, ← List.append_assoc]
    exact .cons (a ++ p) own h hs hr

/-- What holds of the tokens of a statement's tree and the statement, for every kind of statement. -/
def Handles (toUint : Str → Option Nat) (P : List Token → Statement → Prop) : Prop :=
  ∀ {r : Rule} {f : Tree → Res Statement}, (r, f) ∈ handlers toUint → ∀ {cs : List Tree}, Sound (.node r cs) →
    (f (.node r cs)).Post (P (Tree.node r cs).leaves)

theorem objects_pieces (toUint : Str → Option Nat) {P : List Token → Statement → Prop} (hP : Handles toUint P) {toks : List Token} {xs : List (Rule × List Tree)} (ho : Ordered toks xs)
    (hx : ∀ x, x ∈ xs → Sound (.node x.1 x.2)) {os : List (Option Statement)} (h : Res.all (object toUint) xs = .ok os) :
    Pieces P toks (os.filterMap id) := by
  induction ho generalizing os with
  | nil => cases h; exact .nil _
  | @cons p rest x l hr ih =>
    obtain ⟨r, cs⟩ := x
    have hx' := fun y hy => hx y (List.mem_cons_of_mem _ hy)
    rw [Res.all] at h
    cases ha : object toUint (r, cs) with
    | err => rw [ha] at h; cases h
    | panic => rw [ha] at h; cases h
    | ok o =>
      rw [ha] at h
      cases hb : Res.all (object toUint) l with
      | err => rw [hb] at h; cases h
      | panic => rw [hb] at h; cases h
      | ok bs =>
        rw [hb] at h
        cases h
        have ih := ih hx' hb
        cases o with
        | none => exact Pieces.before ih
        | some s =>
          simp only [object] at ha
          cases hl : (handlers toUint).lookup r with
          | none => rw [hl] at ha; cases ha
          | some f =>
            rw [hl] at ha
            have hfs : f (.node r cs) = .ok s := by
              cases hf : f (.node r cs) with
              | ok s' => simp only [hf, Res.bind] at ha; cases ha; rfl
              | err => simp only [hf, Res.bind] at ha; cases ha
              | panic => simp only [hf, Res.bind] at ha; cases ha
            have hm := lookup_mem hl
            have hmade := hP hm (hx (r, cs) (List.mem_cons_self ..)) s hfs
            rw [Tree.leaves] at hmade
            have hc : r ≠ .expr ∧ scolRules.contains r = false := by
              simp only [handlers, List.mem_cons, List.not_mem_nil, or_false, Prod.mk.injEq] at hm
              rcases hm with ⟨rfl, -⟩ | ⟨rfl, -⟩ | ⟨rfl, -⟩ | ⟨rfl, -⟩ | ⟨rfl, -⟩ | ⟨rfl, -⟩ | ⟨rfl, -⟩ | ⟨rfl, -⟩ | ⟨rfl, -⟩ |
                ⟨rfl, -⟩ | ⟨rfl, -⟩ | ⟨rfl, -⟩ | ⟨rfl, -⟩ | ⟨rfl, -⟩ | ⟨rfl, -⟩ | ⟨rfl, -⟩ | ⟨rfl, -⟩ | ⟨rfl, -⟩ | ⟨rfl, -⟩ <;> decide
            obtain ⟨ts, us, hd⟩ := (hx (r, cs) (List.mem_cons_self ..)).derives hc.1
            exact .cons p (leavesAll cs) hmade (scolFree_sound hd (scolFree_body r hc.2)) ih

/-- The statements of an accepted query are made from stretches of its tokens. -/
theorem parsed_pieces {toUint : Str → Option Nat} {P : List Token → Statement → Prop} {q : Str} {l : List Statement}
    (h : parseQuery toUint q = .ok l) (hP : Handles toUint P) : ∃ toks, Writes q toks ∧ Pieces P toks l := by
  rw [parseQuery, Parser.parseString] at h
  cases he : isEmptyQuery q with
  | true => simp [he] at h
  | false =>
    cases ht : treeOf q with
    | none => simp [he, ht] at h
    | some t =>
      have h' : Visit.statements toUint t = .ok l := by simpa [he, ht, newParser] using h
      have hso := treeOf_sound ht
      obtain ⟨h1, h2⟩ := statements_object toUint hso.1 hso.2
      rw [h1] at h'
      cases ha : Res.all (object toUint) (queryStmts t) with
      | err => rw [ha] at h'; cases h'
      | panic => rw [ha] at h'; cases h'
      | ok os =>
        rw [ha] at h'
        have h' : Res.ok (os.filterMap id) = Res.ok l := h'
        cases h'
        obtain ⟨ts, hts, -⟩ := lex_spec q
        rw [treeOf, hts] at ht
        have hd := derives_leaves (parseTree_derives ht)
        rw [leavesAll_one, List.append_nil] at hd
        refine ⟨visible ts, writes_lex.mpr ⟨ts, hts, rfl⟩, ?_⟩
        rw [hd]
        exact objects_pieces toUint hP (queryStmts_ordered t) (fun x hx => (h2 x hx).2) ha

end Verif.Lemmas
