import Verif.Lemmas.Erase
import Verif.Lemmas.Shape
import Verif.Lemmas.VisitAll
import Verif.Lemmas.LexQuoted
import Verif.Lemmas.KeywordText
import Verif.Spec.Blank
/-! The visitor reports the same up to names and values for trees that are the same up to texts. -/
namespace Verif.Lemmas
open Verif Verif.Lex Verif.Gram Verif.Query Verif.Util Verif.Visit Verif.Spec

/-- The outcome with the value changed. -/
def mapRes {α β : Type} (g : α → β) : Res α → Res β
  | .ok a => .ok (g a)
  | .err => .err
  | .panic => .panic

/-- The same outcomes, up to what `g` and `g'` look away from. -/
def LikeRes {α β γ : Type} (g : α → γ) (g' : β → γ) (x : Res α) (y : Res β) : Prop := mapRes g x = mapRes g' y

theorem LikeRes.ok {α β γ : Type} {g : α → γ} {g' : β → γ} {a : α} {b : β} (h : g a = g' b) : LikeRes g g' (.ok a) (.ok b) := by
  simp [LikeRes, mapRes, h]

theorem LikeRes.bind {α α' β β' γ δ : Type} {g : α → γ} {g' : α' → γ} {h : β → δ} {h' : β' → δ} {x : Res α} {y : Res α'}
    {f : α → Res β} {f' : α' → Res β'} (hx : LikeRes g g' x y) (hf : ∀ a b, y = .ok b → g a = g' b → LikeRes h h' (f a) (f' b)) :
    LikeRes h h' (x.bind f) (y.bind f') := by
  cases x <;> cases y <;> simp only [LikeRes, mapRes, reduceCtorEq, Res.ok.injEq] at hx
  · exact hf _ _ rfl hx
  · rfl
  · rfl

theorem LikeRes.must {γ δ : Type} {f : Tree → γ} {g : δ → γ} {k : Tree → δ} (o : Option Tree) (h : ∀ t, f (Tree.erase t) = g (k t)) :
    LikeRes f g (Res.must (o.map Tree.erase)) (match o with | some t => .ok (k t) | none => .panic) := by
  cases o with
  | none => rfl
  | some t => exact .ok (h t)

/-- Nothing remains. -/
def none' {α : Type} (_ : α) : Unit := ()

theorem LikeRes.all {α α' β β' δ : Type} {h : β → δ} {h' : β' → δ} (k : α' → α) {f : α → Res β} {f' : α' → Res β'} (l : List α')
    (hf : ∀ a, a ∈ l → LikeRes h h' (f (k a)) (f' a)) : LikeRes (List.map h) (List.map h') (Res.all f (l.map k)) (Res.all f' l) := by
  induction l with
  | nil => exact .ok rfl
  | cons a l ih =>
    refine LikeRes.bind (hf a (List.mem_cons_self ..)) (fun x y _ hxy => ?_)
    refine LikeRes.bind (ih (fun b hb => hf b (List.mem_cons_of_mem _ hb))) (fun r s _ hrs => .ok ?_)
    simp [hxy, hrs]

/-! ### Parts of trees -/

theorem textOf_like (r : Rule) (t : Tree) : LikeRes none' none' (textOf r t.erase) (textOf r t) := by
  rw [Visit.textOf, Visit.textOf, child_erase]
  cases t.child r <;> rfl

theorem labelText_like (q : Lab) (t : Tree) : LikeRes none' none' (labelText q t.erase) (labelText q t) := by
  rw [labelText, labelText, label_erase]
  cases t.label q <;> rfl

/-! ### Tokens with one spelling -/

theorem leaf_upper {x : Token} (h : oneSpelling x.kind = true) : (Tree.leaf x).erase.text = Str.upper x.text := by
  simp [Tree.retext, Tree.text, retok, bareText, h]

/-- Whatever is labelled `q` in the part is one token of the kinds `K`. -/
def labTok (q : Lab) (K : List Tok) : Elem → Bool
  | .lab p e => decide (p ≠ q) || oneTok K e
  | .seq a b | .alt a b => labTok q K a && labTok q K b
  | .star a | .nstar a => labTok q K a
  | _ => true

theorem labTok_sound {q : Lab} {K : List Tok} {e : Elem} {ts us : List Token} {l : List Tree} (h : Derives e ts l us) (hf : labTok q K e = true) :
    ∀ c, c ∈ labelled q l → ∃ x, c = .leaf x ∧ x.kind ∈ K := by
  induction h with
  | eps | eof | starNil | nstarNil | tok | set | nt | seg => intro c hc; cases hc
  | seq _ _ ih1 ih2 =>
    simp only [labTok, Bool.and_eq_true] at hf
    intro c hc
    rw [labelled_append, List.mem_append] at hc
    exact hc.elim (ih1 hf.1 c) (ih2 hf.2 c)
  | altLeft _ ih => simp only [labTok, Bool.and_eq_true] at hf; exact ih hf.1
  | altRight _ ih => simp only [labTok, Bool.and_eq_true] at hf; exact ih hf.2
  | starCons _ _ ih1 ih2 | nstarCons _ _ ih1 ih2 =>
    intro c hc
    rw [labelled_append, List.mem_append] at hc
    exact hc.elim (ih1 hf c) (ih2 hf c)
  | @lab p e ts us l h ih =>
    intro c hc
    by_cases hp : p = q
    · have ho : oneTok K e = true := by simpa [labTok, hp] using hf
      obtain ⟨x, rfl, hx⟩ := oneTok_sound h ho
      simp [labelled, hp] at hc
      exact ⟨x, hc, hx⟩
    · simp [labelled, hp] at hc
  | @expr p ts us l h ih =>
    obtain ⟨ds, hd⟩ := foldExpr_node l
    intro c hc
    rw [hd] at hc
    cases hc

theorem label_tok {r : Rule} {q : Lab} {K : List Tok} {cs : List Tree} {c : Tree} (h : Sound (.node r cs)) (hr : r ≠ .expr)
    (hk : labTok q K (body r) = true) (hc : (Tree.node r cs).label q = some c) : ∃ x, c = .leaf x ∧ x.kind ∈ K := by
  obtain ⟨ts, us, hd⟩ := h.derives hr
  exact labTok_sound hd hk c (List.mem_of_mem_head? (by rw [Tree.label, Tree.labels] at hc; exact hc))

theorem arith_upper (w : Str) : Fn.newArithOperatorFor (Str.upper w) = Fn.newArithOperatorFor w := by
  have key : ∀ c : Char, Str.upC c = c → ¬ ('A'.toNat ≤ c.toNat ∧ c.toNat ≤ 'Z'.toNat) → (Str.upper w = [c] ↔ w = [c]) := by
    intro c hc hn
    constructor
    · intro h
      match w, h with
      | [d], h =>
        simp only [Str.upper, List.map_cons, List.map_nil, List.cons.injEq, and_true] at h
        rw [upC_fix c hc hn d (by rw [h, hc])]
    · rintro rfl; simp [Str.upper, hc]
  rw [Fn.newArithOperatorFor, Fn.newArithOperatorFor]
  simp only [key '+' (by decide) (by decide), key '-' (by decide) (by decide), key '*' (by decide) (by decide), key '/' (by decide) (by decide),
    key '%' (by decide) (by decide)]

/-! ### CREATE, DROP, ALTER -/

/-- Statements without names and values. -/
abbrev LikeStmt (x y : Res Statement) : Prop := LikeRes blank blank x y

theorem isSome_erase (o : Option Tree) : (o.map Tree.erase).isSome = o.isSome := by cases o <;> rfl

theorem createDatabase_like (t : Tree) : LikeStmt (createDatabase t.erase) (createDatabase t) := by
  refine (textOf_like _ t).bind (fun _ _ _ _ => .ok ?_)
  simp [blank, child_erase]

theorem columnWith_like (t : Tree) : LikeRes none' none' (columnWith t.erase) (textOf .column_name t) := by
  rw [columnWith]
  have h := textOf_like .column_name t
  cases hx : textOf .column_name t.erase <;> cases hy : textOf .column_name t <;> rw [hx, hy] at h <;>
    simp only [LikeRes, mapRes, reduceCtorEq] at h
  · simp only [Res.bind]
    split
    · rfl
    · split
      · rfl
      · split <;> rfl
  · rfl
  · rfl

theorem columnWith_same (t : Tree) : LikeRes none' none' (columnWith t) (textOf .column_name t) := by
  rw [columnWith]
  cases hx : textOf .column_name t
  · simp only [Res.bind]
    split
    · rfl
    · split
      · rfl
      · split <;> rfl
  · rfl
  · rfl

theorem columnStep_same (t : Tree) (acc : List Column × List Index) : LikeRes none' none' (columnStep t acc) (textOf .column_name t) := by
  have h := columnWith_same t
  rw [columnStep]
  cases hx : columnWith t <;> cases hy : textOf .column_name t <;> rw [hx, hy] at h <;> simp only [LikeRes, mapRes, reduceCtorEq] at h
  · simp only [Res.bind]
    split <;> rfl
  · rfl
  · rfl

theorem indexStep_same (t : Tree) (acc : List Column × List Index) : LikeRes none' none' (indexStep t acc) (textOf .column_name t) := by
  rw [indexStep, indexDefs]
  cases hy : textOf .column_name t
  · simp only [Res.bind]
    split
    · split <;> rfl
    · split
      · split <;> rfl
      · rfl
  · rfl
  · rfl

theorem columnDefs_same (l : List Tree) (acc : List Column × List Index) :
    LikeRes none' none' (columnDefs acc l) (Res.all (textOf .column_name) l) := by
  induction l generalizing acc with
  | nil => rfl
  | cons t l ih =>
    rw [columnDefs, Res.all]
    refine (columnStep_same t acc).bind (fun a b hb _ => ?_)
    have hi := indexStep_same t a
    rw [hb] at hi
    cases hx : indexStep t a <;> rw [hx] at hi <;> simp only [LikeRes, mapRes, reduceCtorEq] at hi
    rename_i acc'
    have := ih acc'
    show LikeRes none' none' (columnDefs acc' l) _
    cases hz : columnDefs acc' l <;> cases hw : Res.all (Visit.textOf .column_name) l <;> rw [hz, hw] at this <;>
      first | rfl | (simp only [LikeRes, mapRes, reduceCtorEq] at this)

theorem LikeRes.symm {α β γ : Type} {g : α → γ} {g' : β → γ} {x : Res α} {y : Res β} (h : LikeRes g g' x y) : LikeRes g' g y x := Eq.symm h

theorem LikeRes.trans {α β δ γ : Type} {g : α → γ} {g' : β → γ} {g'' : δ → γ} {x : Res α} {y : Res β} {z : Res δ} (h : LikeRes g g' x y)
    (h' : LikeRes g' g'' y z) : LikeRes g g'' x z := Eq.trans h h'

theorem LikeRes.away {α β γ : Type} {g : α → γ} {g' : β → γ} {x : Res α} {y : Res β} (h : LikeRes g g' x y) : LikeRes none' none' x y := by
  cases x <;> cases y <;> first | rfl | (simp only [LikeRes, mapRes, reduceCtorEq] at h)

theorem columnDefs_like (l : List Tree) (acc acc' : List Column × List Index) :
    LikeRes none' none' (columnDefs acc (l.map Tree.erase)) (columnDefs acc' l) :=
  (columnDefs_same _ acc).trans
    ((LikeRes.away (LikeRes.all (h := none') (h' := none') Tree.erase l (fun t _ => textOf_like .column_name t))).trans (columnDefs_same l acc').symm)

theorem filterMap_erase (r : Rule) (l : List Tree) : (l.map Tree.erase).filterMap (·.child r) = (l.filterMap (·.child r)).map Tree.erase := by
  induction l with
  | nil => rfl
  | cons t l ih =>
    rw [List.map_cons, List.filterMap_cons, List.filterMap_cons, child_erase, ih]
    cases t.child r <;> rfl

theorem tableKeys_like (t : Tree) : LikeRes none' none' (tableKeys t.erase) (tableKeys t) := by
  rw [tableKeys, tableKeys, all_erase, filterMap_erase]
  refine LikeRes.away (LikeRes.all (h := none') (h' := none') _ _ (fun p _ => ?_))
  rw [all_erase]
  refine (LikeRes.all (h := none') (h' := none') _ _ (fun c _ => ?_)).bind (fun _ _ _ _ => .ok rfl)
  exact (textOf_like _ c).bind (fun _ _ _ _ => .ok rfl)

theorem createTable_like (t : Tree) : LikeStmt (createTable t.erase) (createTable t) := by
  have h : LikeRes none' none' (tableSchema t.erase) (tableSchema t) := by
    rw [tableSchema, tableSchema, all_erase]
    refine (textOf_like _ t).bind (fun _ _ _ _ => ?_)
    refine (columnDefs_like _ _ _).bind (fun _ _ _ _ => ?_)
    exact (tableKeys_like t).bind (fun _ _ _ _ => .ok rfl)
  refine h.bind (fun _ _ _ _ => .ok ?_)
  simp [blank, child_erase]

theorem createIndex_like (t : Tree) : LikeStmt (createIndex t.erase) (createIndex t) := by
  have h : LikeRes (fun s : Schema => s.indexes.map blankIndex) (fun s : Schema => s.indexes.map blankIndex) (indexSchema t.erase) (indexSchema t) := by
    rw [indexSchema, indexSchema, all_erase]
    refine (textOf_like _ t).bind (fun _ _ _ _ => ?_)
    refine (textOf_like _ t).bind (fun _ _ _ _ => ?_)
    refine (LikeRes.all (h := blankColumn) (h' := blankColumn) _ _ (fun c _ => ?_)).bind (fun a b _ hab => .ok ?_)
    · exact (textOf_like _ c).bind (fun _ _ _ _ => .ok rfl)
    · simp [newSchemaWith, newSecondaryIndexWith, blankIndex, hab]
  refine h.bind (fun _ _ _ hab => .ok ?_)
  simp [blank, child_erase, hab]

theorem dropDatabase_like (t : Tree) : LikeStmt (dropDatabase t.erase) (dropDatabase t) := by
  refine (textOf_like _ t).bind (fun _ _ _ _ => .ok ?_)
  simp [blank, child_erase]

theorem dropTable_like (t : Tree) : LikeStmt (dropTable t.erase) (dropTable t) := by
  refine .ok ?_
  simp [blank, child_erase, all_erase, blankTable, Function.comp_def]

theorem dropIndex_like (t : Tree) : LikeStmt (dropIndex t.erase) (dropIndex t) := by
  refine (textOf_like _ t).bind (fun _ _ _ _ => .ok ?_)
  simp [blank, child_erase]

theorem alterDatabase_like (t : Tree) : LikeStmt (alterDatabase t.erase) (alterDatabase t) := by
  refine (textOf_like _ t).bind (fun _ _ _ _ => ?_)
  simp only [child_erase]
  cases t.child .rename_database_to with
  | none => exact .ok rfl
  | some r => exact (labelText_like _ r).bind (fun _ _ _ _ => .ok rfl)

theorem whenChild_like {α β γ : Type} {g : α → γ} {g' : β → γ} (r : Rule) (t : Tree) {f : Tree → Res α} {f' : Tree → Res β}
    (h : ∀ c, t.child r = some c → LikeRes g g' (f c.erase) (f' c)) :
    LikeRes (Option.map g) (Option.map g') (whenChild r t.erase f) (whenChild r t f') := by
  rw [whenChild, whenChild, child_erase]
  cases hc : t.child r with
  | none => exact .ok rfl
  | some c => exact (h c hc).bind (fun a b _ hab => .ok (by simp [hab]))

theorem addIndex_like (t : Tree) : LikeRes blankIndex blankIndex (addIndex t.erase) (addIndex t) := by
  have h : LikeRes (fun p : IndexType × Str => p.1) (fun p : IndexType × Str => p.1) (addIndexKind t.erase) (addIndexKind t) := by
    rw [addIndexKind, addIndexKind, child_erase]
    cases t.child .column_constraint with
    | none => exact .ok rfl
    | some c =>
      simp only [Option.map_some, child_erase]
      cases c.child .index_constraint with
      | none => exact .ok (by simp)
      | some i => exact (textOf_like _ i).bind (fun _ _ _ _ => .ok rfl)
  refine h.bind (fun a b _ hab => .ok ?_)
  simp [blankIndex, all_erase, hab, Function.comp_def, columnNamed, blankColumn]

theorem map_none' {α β γ : Type} {o : Option α} {o' : Option β} (h : o.map none' = o'.map none') (c : γ) : o.map (fun _ => c) = o'.map (fun _ => c) := by
  cases o <;> cases o' <;> first | rfl | cases h

theorem alterTable_like (t : Tree) : LikeStmt (alterTable t.erase) (alterTable t) := by
  refine (whenChild_like (g := none') (g' := none') _ t (fun c _ => textOf_like _ c)).bind (fun _ _ _ h1 => ?_)
  refine (whenChild_like (g := fun p : Column × Column => (blankColumn p.1, blankColumn p.2))
    (g' := fun p : Column × Column => (blankColumn p.1, blankColumn p.2)) _ t (fun c _ => ?_)).bind (fun _ _ _ h2 => ?_)
  · exact (labelText_like _ c).bind (fun _ _ _ _ => (labelText_like _ c).bind (fun _ _ _ _ => .ok rfl))
  refine (whenChild_like (g := none') (g' := none') _ t (fun c _ => ?_)).bind (fun _ _ _ h3 => ?_)
  · rw [addColumnOf, addColumnOf, child_erase]
    cases c.child .column_def with
    | none => rfl
    | some d => exact (columnWith_like d).trans (columnWith_same d).symm
  refine (whenChild_like _ t (fun c _ => addIndex_like c)).bind (fun _ _ _ h4 => ?_)
  refine (labelText_like _ t).bind (fun _ _ _ _ => .ok ?_)
  have e1 := map_none' h1 ({ name := [] } : Table)
  have e2 := congrArg (Option.map Prod.fst) h2
  have e3 := congrArg (Option.map Prod.snd) h2
  simp only [Option.map_map, Function.comp_def] at e2 e3
  simp only [blank, Option.map_map, Function.comp_def, blankTable, child_erase, h4, Statement.alterTable.injEq, AlterTable.mk.injEq, true_and, and_true]
  exact ⟨e1, e2, e3, rfl⟩

/-! ### Values and conditions -/

theorem literalWith_like (t : Tree) : blankLiteral (literalWith t.erase) = blankLiteral (literalWith t) := by
  rw [literalWith, literalWith, child_erase]
  cases t.child .string_literal <;> rfl

theorem cmpOp_erase (t : Tree) : cmpOp t.erase = cmpOp t := by
  simp only [cmpOp, token_erase, isSome_erase]

/-- Conditions without names and values. -/
abbrev LikeCond (x y : Res (Option Expr)) : Prop := LikeRes (Option.map blankExpr) (Option.map blankExpr) x y

theorem cmpWith_like (t : Tree) : LikeCond (cmpWith t.erase) (cmpWith t) := by
  refine (textOf_like _ t).bind (fun _ _ _ _ => .ok ?_)
  rw [cmpOp_erase, child_erase]
  cases cmpOp t with
  | none => rfl
  | some o => cases t.child .literal_value with
    | none => rfl
    | some v => simp [blankExpr, literalWith_like]

theorem pairWith_like (mk : Expr → Expr → Expr) (hm : ∀ a b a' b', blankExpr a = blankExpr a' → blankExpr b = blankExpr b' →
    blankExpr (mk a b) = blankExpr (mk a' b')) (t : Tree) : LikeCond (pairWith mk t.erase) (pairWith mk t) := by
  rw [pairWith, pairWith, label_erase, label_erase]
  cases t.label .left with
  | none => rfl
  | some l =>
    refine (cmpWith_like l).bind (fun a a' _ ha => ?_)
    cases t.label .right with
    | none => rfl
    | some r =>
      refine (cmpWith_like r).bind (fun b b' _ hb => ?_)
      cases a <;> cases a' <;> cases b <;> cases b' <;> first | rfl | skip | skip
      all_goals simp only [Option.map_some, Option.map_none, Option.some.injEq, reduceCtorEq] at ha hb
      exact .ok (congrArg some (hm _ _ _ _ ha hb))

theorem exprWith_like (t : Tree) : LikeCond (exprWith t.erase) (exprWith t) := by
  rw [exprWith, exprWith, child_erase, child_erase, child_erase]
  cases t.child .and_expr with
  | some a => exact pairWith_like _ (fun a b a' b' h1 h2 => by simp [blankExpr, h1, h2]) a
  | none => cases t.child .or_expr with
    | some o => exact pairWith_like _ (fun a b a' b' h1 h2 => by simp [blankExpr, h1, h2]) o
    | none => cases t.child .comparison_expr with
      | some c => exact cmpWith_like c
      | none => exact .ok rfl

theorem whereOf_like (t : Tree) : LikeCond (whereOf t.erase) (whereOf t) := by
  rw [whereOf, whereOf, label_erase]
  cases t.label .whereExpr with
  | some w => exact exprWith_like w
  | none => exact .ok rfl

/-! ### INSERT, UPDATE, SELECT, DELETE -/

theorem insertRow_like (names names' : List Str) (hn : names.length = names'.length) (l : List Tree) (k : Nat) :
    LikeRes (List.map blankColumn) (List.map blankColumn) (insertRow names k (l.map Tree.erase)) (insertRow names' k l) := by
  induction l generalizing k with
  | nil => exact .ok rfl
  | cons e l ih =>
    rw [List.map_cons, insertRow, insertRow, child_erase, child_erase, child_erase]
    cases e.child .comparison_expr with
    | some v =>
      refine (textOf_like _ v).bind (fun _ _ _ _ => (ih k).bind (fun _ _ _ h => .ok ?_))
      rw [List.map_cons, List.map_cons, h, child_erase]
      cases v.child .literal_value with
      | none => rfl
      | some w => simp [blankColumn, literalWith_like]
    | none =>
      have step : ∀ x y, blankLiteral x = blankLiteral y → LikeRes (List.map blankColumn) (List.map blankColumn)
          (match names[k]? with
            | some n => (insertRow names (k + 1) (l.map Tree.erase)).bind (fun cs => .ok ({ name := n, lit := some x } :: cs))
            | none => insertRow names k (l.map Tree.erase))
          (match names'[k]? with
            | some n => (insertRow names' (k + 1) l).bind (fun cs => .ok ({ name := n, lit := some y } :: cs))
            | none => insertRow names' k l) := by
        intro x y hs
        have : (names[k]?).isSome = (names'[k]?).isSome := by
          rw [Bool.eq_iff_iff]; simp [hn]
        cases hx : names[k]? <;> cases hy : names'[k]? <;> rw [hx, hy] at this <;> simp only [Option.isSome_some, Option.isSome_none, reduceCtorEq] at this
        · exact ih k
        · refine (ih (k + 1)).bind (fun _ _ _ h => .ok ?_)
          simp [h, blankColumn, hs]
      cases e.child .literal_value with
      | some v => exact step _ _ (literalWith_like v)
      | none => cases e.child .bind_param with
        | some v => exact step _ _ rfl
        | none => exact ih k

theorem insert_like (t : Tree) : LikeStmt (insert t.erase) (insert t) := by
  refine (textOf_like _ t).bind (fun _ _ _ _ => ?_)
  rw [child_erase]
  cases t.child .values_clause with
  | none => rfl
  | some v =>
    show LikeStmt (Res.bind (Res.all _ (v.erase.all _)) _) (Res.bind (Res.all _ (v.all _)) _)
    rw [all_erase, all_erase]
    refine (LikeRes.all (h := List.map blankColumn) (h' := List.map blankColumn) _ _ (fun r _ => ?_)).bind (fun _ _ _ h => .ok ?_)
    · rw [all_erase]
      exact insertRow_like _ _ (by simp) _ _
    · simp [blank, h]

theorem assignment_like (t : Tree) (hs : Sound t) : LikeRes blankColumn blankColumn (assignment t.erase) (assignment t) := by
  refine (textOf_like _ t).bind (fun _ _ _ _ => ?_)
  rw [child_erase]
  cases he : t.child .expr with
  | none => rfl
  | some e =>
    obtain ⟨es, -, hes⟩ := hs.childOf he
    rename_i heq
    show LikeRes _ _ (match e.erase.child _ with | some v => _ | none => _) (match e.child _ with | some v => _ | none => _)
    rw [child_erase, child_erase, child_erase]
    cases e.child .literal_value with
    | some v => exact .ok (by simp [blankColumn, literalWith_like])
    | none => cases e.child .bind_param with
      | some v => exact .ok rfl
      | none => cases ha : e.child .arithmetic_expr with
        | none => exact .ok rfl
        | some v =>
          obtain ⟨vs, rfl, hvs⟩ := (hs.kid (child_mem he).1).childOf ha
          show LikeRes _ _ (Res.bind (labelText .ope (Tree.node .arithmetic_expr vs).erase) _) (Res.bind (labelText .ope (.node .arithmetic_expr vs)) _)
          generalize hT : Tree.node .arithmetic_expr vs = T
          have ho : LikeRes Fn.newArithOperatorFor Fn.newArithOperatorFor (labelText .ope T.erase) (labelText .ope T) := by
            rw [labelText, labelText, label_erase]
            cases hl : T.label .ope with
            | none => rfl
            | some c =>
              subst hT
              obtain ⟨x, rfl, hx⟩ := label_tok (K := [.PLUS, .MINUS, .STAR, .DIV, .MOD]) hvs (by decide) (by decide) hl
              refine .ok ?_
              rw [leaf_upper, arith_upper]; rfl
              have : ∀ k ∈ [Tok.PLUS, .MINUS, .STAR, .DIV, .MOD], oneSpelling k = true := by decide +kernel
              exact this _ hx
          refine ho.bind (fun o o' _ hoo => ?_)
          refine (textOf_like _ T).bind (fun _ _ _ _ => (textOf_like _ T).bind (fun _ _ _ _ => ?_))
          rw [arithFunction, arithFunction, hoo]
          cases Fn.newArithOperatorFor o' with
          | none => exact .ok rfl
          | some f => exact .ok rfl

theorem update_like (t : Tree) (hs : Sound t) : LikeStmt (update t.erase) (update t) := by
  refine (labelText_like _ t).bind (fun _ _ _ _ => ?_)
  rw [all_erase]
  refine (LikeRes.all (h := blankColumn) (h' := blankColumn) _ _ (fun r hr => ?_)).bind (fun _ _ _ h => ?_)
  · obtain ⟨ds, rfl, hd⟩ := hs.allOf hr
    exact assignment_like _ hd
  · exact (whereOf_like t).bind (fun _ _ _ hw => .ok (by simp [blank, h, hw]))

theorem functionArgs_like (f : Tree) : blanks (functionArgs f.erase) = blanks (functionArgs f) := by
  rw [functionArgs, functionArgs, token_erase, all_erase]
  cases f.token .STAR with
  | some s => rfl
  | none => simp [blanks, Function.comp_def]

theorem selector_like (t : Tree) : LikeRes blankSelector blankSelector (selector t.erase) (selector t) := by
  rw [selector, selector, child_erase]
  have he : ((t.child .expr).map Tree.erase).bind (·.child .«function») = ((t.child .expr).bind (·.child .«function»)).map Tree.erase := by
    cases t.child .expr with
    | none => rfl
    | some e => exact child_erase _ e
  rw [he]
  cases (t.child .expr).bind (·.child .«function») with
  | none => exact .ok rfl
  | some f =>
    refine (textOf_like _ f).bind (fun _ _ _ _ => .ok ?_)
    simp [blankSelector, Function.named, functionArgs_like]

theorem orderOf_like (t : Tree) (hs : Sound t) :
    LikeRes (Option.map fun o : Order => o.order) (Option.map fun o : Order => o.order) (orderOf t.erase) (orderOf t) := by
  refine (textOf_like _ t).bind (fun _ _ _ _ => .ok ?_)
  have key : ∀ (o : OrderType) (a b : Str), Option.map (fun o : Order => o.order) (match o with
      | .none => none
      | o => some { column := a, order := o }) = Option.map (fun o : Order => o.order) (match o with
      | .none => none
      | o => some { column := b, order := o }) := by intro o a b; cases o <;> rfl
  rw [child_erase]
  cases hd : t.child .asc_desc with
  | none => rfl
  | some d =>
    obtain ⟨ds, rfl, hds⟩ := hs.childOf hd
    obtain ⟨ts, us, hdd⟩ := hds.derives (by decide)
    obtain ⟨x, rfl, hx⟩ := oneTok_sound (K := [.ASC_, .DESC_]) hdd (by decide)
    have hk : oneSpelling x.kind = true := by
      have : ∀ k ∈ [Tok.ASC_, .DESC_], oneSpelling k = true := by decide +kernel
      exact this _ hx
    have e1 : (Tree.node .asc_desc [.leaf x]).erase.text = Str.upper x.text := by
      have := leaf_upper hk
      simpa [Tree.retext, retextAll, Tree.text, textAll] using this
    have e2 : (Tree.node .asc_desc [.leaf x]).text = x.text := by simp [Tree.text, textAll]
    have e3 : newOrderTypeWith (Str.upper x.text) = newOrderTypeWith x.text := by rw [newOrderTypeWith, newOrderTypeWith, Str.upper_upper]
    simp only [Option.map_some]
    rw [e1, e2, e3]
    exact key _ _ _

theorem ordersOf_like (t : Tree) (hs : Sound t) :
    LikeRes (List.map fun o : Order => o.order) (List.map fun o : Order => o.order) (ordersOf t.erase) (ordersOf t) := by
  rw [ordersOf, ordersOf, child_erase]
  cases ho : t.child .order_by_stmt with
  | none => exact .ok rfl
  | some o =>
    show LikeRes _ _ (Res.bind (Res.all _ (o.erase.all _)) _) (Res.bind (Res.all _ (o.all _)) _)
    rw [all_erase]
    refine (LikeRes.all (h := Option.map fun o : Order => o.order) (h' := Option.map fun o : Order => o.order) _ _ (fun r hr => ?_)).bind (fun a b _ h => .ok ?_)
    · obtain ⟨ds, rfl, hd⟩ := (hs.kid (child_mem ho).1).allOf hr
      exact orderOf_like _ hd
    · have key : ∀ l : List (Option Order), (l.filterMap id).map (·.order) = (l.map (Option.map fun o : Order => o.order)).filterMap id := by
        intro l
        induction l with
        | nil => rfl
        | cons x l ih => cases x <;> simp_all
      rw [key, key, h]

theorem fromTable_like (l : List Tree) : ((l.map Tree.erase).filterMap fromTable).map blankTable = (l.filterMap fromTable).map blankTable := by
  induction l with
  | nil => rfl
  | cons t l ih =>
    rw [List.map_cons, List.filterMap_cons, List.filterMap_cons, fromTable, fromTable, child_erase]
    cases t.child .from_table with
    | none => exact ih
    | some b => simp only [Option.map_some, List.map_cons, ih]; rfl

theorem select_like (u u' : Str → Option Nat) (t : Tree) (hs : Sound t) : LikeStmt (select u t.erase) (select u' t) := by
  have key : ∀ l l' : List Order, l.map (fun o => o.order) = l'.map (fun o => o.order) →
      l.map (fun o => ({ column := [], order := o.order } : Order)) = l'.map (fun o => ({ column := [], order := o.order } : Order)) := by
    intro l l' h
    have := congrArg (List.map fun o => ({ column := [], order := o } : Order)) h
    simpa [List.map_map, Function.comp_def] using this
  rw [select, select, label_erase]
  cases t.label .parentQuery with
  | none => exact (ordersOf_like t hs).bind (fun _ _ _ h => .ok (by simp [blank, key _ _ h]))
  | some q =>
    show LikeStmt (Res.bind (Res.all _ (q.erase.all _)) _) (Res.bind (Res.all _ (q.all _)) _)
    rw [all_erase]
    refine (LikeRes.all (h := blankSelector) (h' := blankSelector) _ _ (fun r _ => selector_like r)).bind (fun _ _ _ h1 => ?_)
    refine (whereOf_like q).bind (fun _ _ _ h2 => (ordersOf_like t hs).bind (fun _ _ _ h => .ok ?_))
    simp only [blank, h1, h2, key _ _ h, all_erase, fromTable_like]

theorem delete_like (t : Tree) : LikeStmt (delete t.erase) (delete t) := by
  refine (labelText_like _ t).bind (fun _ _ _ _ => ?_)
  exact (whereOf_like t).bind (fun _ _ _ hw => .ok (by simp [blank, hw]))

/-! ### Other statements -/

theorem copy_like (t : Tree) (hs : Sound t) : LikeStmt (copy t.erase) (copy t) := by
  have hf : ∀ c, t.child .copy_format = some c → LikeRes (CopyFormat.parse .text) (CopyFormat.parse .text)
      (labelText .format_type c.erase) (labelText .format_type c) := by
    intro c hc
    obtain ⟨ds, rfl, hd⟩ := hs.childOf hc
    rw [labelText, labelText, label_erase]
    cases hl : (Tree.node .copy_format ds).label .format_type with
    | none => rfl
    | some c =>
      obtain ⟨x, rfl, hx⟩ := label_tok (K := [.TEXT_, .CSV_, .BINARY_]) hd (by decide) (by decide) hl
      have hk : oneSpelling x.kind = true := by
        have : ∀ k ∈ [Tok.TEXT_, .CSV_, .BINARY_], oneSpelling k = true := by decide +kernel
        exact this _ hx
      refine .ok ?_
      rw [leaf_upper hk, CopyFormat.parse, CopyFormat.parse, Str.upper_upper]; rfl
  refine (whenChild_like _ t hf).bind (fun a b _ h => ?_)
  refine (labelText_like _ t).bind (fun _ _ _ _ => (textOf_like _ t).bind (fun _ _ _ _ => .ok ?_))
  rw [child_erase]
  simp only [blank, h, Statement.copy.injEq, Copy.mk.injEq, true_and, and_true]
  cases t.child .copy_column_list with
  | none => rfl
  | some l => simp [all_erase, Function.comp_def, columnNamed, blankColumn]

theorem truncate_like (t : Tree) : LikeStmt (truncate t.erase) (truncate t) := by
  refine .ok ?_
  simp [blank, all_erase, blankTable, Function.comp_def]

theorem vacuum_like (t : Tree) : LikeStmt (vacuum t.erase) (vacuum t) := by
  refine .ok ?_
  simp [blank, child_erase, blankTable, Function.comp_def]

theorem use_like (t : Tree) : LikeStmt (use t.erase) (use t) := (textOf_like _ t).bind (fun _ _ _ _ => .ok rfl)

/-- The same handlers, up to names and values. -/
inductive Handlers : List (Rule × (Tree → Res Statement)) → List (Rule × (Tree → Res Statement)) → Prop
  | nil : Handlers [] []
  | cons {r : Rule} {f f' : Tree → Res Statement} {l l'} (h : ∀ t, Sound t → LikeStmt (f t.erase) (f' t)) (hl : Handlers l l') :
      Handlers ((r, f) :: l) ((r, f') :: l')

theorem handle_like {l l' : List (Rule × (Tree → Res Statement))} (h : Handlers l l') (t : Tree) (hs : Sound t) :
    LikeRes (Option.map blank) (Option.map blank) (handle t.erase l) (handle t l') := by
  induction h with
  | nil => exact .ok rfl
  | @cons r f f' l l' hf _ ih =>
    rw [handle, handle, child_erase]
    cases hc : t.child r with
    | none => exact ih
    | some c => exact (hf c (hs.kid (child_mem hc).1)).bind (fun _ _ _ h => .ok (by simp [h]))

theorem handlers_like (u u' : Str → Option Nat) : Handlers (handlers u) (handlers u') := by
  refine .cons (fun t _ => createDatabase_like t) (.cons (fun t _ => createTable_like t) (.cons (fun t _ => createIndex_like t) ?_))
  refine .cons (fun t _ => dropDatabase_like t) (.cons (fun t _ => dropTable_like t) (.cons (fun t _ => dropIndex_like t) ?_))
  refine .cons (fun t _ => alterDatabase_like t) (.cons (fun t _ => alterTable_like t) (.cons (fun t _ => insert_like t) ?_))
  refine .cons update_like (.cons (select_like u u') (.cons (fun t _ => delete_like t) ?_))
  refine .cons (fun t _ => rfl) (.cons (fun t _ => rfl) (.cons (fun t _ => rfl) ?_))
  refine .cons (fun t _ => use_like t) (.cons copy_like (.cons (fun t _ => truncate_like t) (.cons (fun t _ => vacuum_like t) .nil)))

theorem statements_like (u u' : Str → Option Nat) (t : Tree) (hs : Sound t) :
    LikeRes (List.map blank) (List.map blank) (statements u t.erase) (statements u' t) := by
  rw [statements, statements]
  have he : (t.erase.all .sql_stmt_list).flatMap (·.all .sql_stmt) = ((t.all .sql_stmt_list).flatMap (·.all .sql_stmt)).map Tree.erase := by
    rw [all_erase, List.flatMap_map, List.map_flatMap]
    simp only [all_erase]
  rw [he]
  refine (LikeRes.all (h := Option.map blank) (h' := Option.map blank) _ _ (fun r hr => ?_)).bind (fun a b _ h => .ok ?_)
  · rw [List.mem_flatMap] at hr
    obtain ⟨x, hx, hr⟩ := hr
    obtain ⟨ds, rfl, hd⟩ := hs.allOf hx
    obtain ⟨ds', rfl, hd'⟩ := hd.allOf hr
    exact handle_like (handlers_like u u') _ hd'
  · have key : ∀ l : List (Option Statement), (l.filterMap id).map blank = (l.map (Option.map blank)).filterMap id := by
      intro l
      induction l with
      | nil => rfl
      | cons x l ih => cases x <;> simp_all
    rw [key, key, h]

theorem outcome_eq (x : Res (List Statement)) : outcome x = mapRes (List.map blank) x := by cases x <;> rfl

/-! ### Queries -/

theorem spelled_once : ∀ p, p ∈ rules → ∀ k, k ∈ operators ++ keywords → p.1 = k.1 → p.2 = Re.lit k.2 := by
  have h1 : ∀ o, o ∈ operators ++ keywords → ∀ k, k ∈ operators ++ keywords → o.1 = k.1 → o.2 = k.2 := by decide +kernel
  have h3 : ∀ o, o ∈ otherRules.map (·.1) → ∀ k, k ∈ operators ++ keywords → o ≠ k.1 := by decide +kernel
  intro p hp k hk he
  rw [rules, List.mem_append, ← List.map_append, List.mem_map] at hp
  rcases hp with ⟨o, ho, rfl⟩ | hp
  · rw [show o.2 = k.2 from h1 o ho k hk he]
  · exact absurd he (h3 p.1 (List.mem_map_of_mem hp) k hk)

theorem tokenised_spelled {q : Str} {ts : List Token} (h : Tokenised rules q ts) (t : Token) (ht : t ∈ ts) (k : Tok × Str)
    (hk : k ∈ operators ++ keywords) (he : t.kind = k.1) : Str.upper t.text = Str.upper k.2 := by
  induction h with
  | nil => cases ht
  | cons x w rest ts hl _ ih =>
    rcases List.mem_cons.mp ht with rfl | ht
    · obtain ⟨-, ⟨pre, r, post, hr, hm, -⟩, -⟩ := hl
      have := spelled_once (x, r) (by rw [hr]; simp) k hk he
      simp only at this
      rw [this, matches_lit] at hm
      exact hm
    · exact ih ht

theorem bareTok_eq {q q' : Str} {toks toks' : List Token} (h : Writes q toks) (h' : Writes q' toks')
    (hk : toks.map (·.kind) = toks'.map (·.kind)) : toks.map bareTok = toks'.map bareTok := by
  have main : ∀ a b : List Token, (∀ t, t ∈ a → ∀ k, k ∈ operators ++ keywords → t.kind = k.1 → Str.upper t.text = Str.upper k.2) →
      (∀ t, t ∈ b → ∀ k, k ∈ operators ++ keywords → t.kind = k.1 → Str.upper t.text = Str.upper k.2) → a.map (·.kind) = b.map (·.kind) →
      a.map bareTok = b.map bareTok := by
    intro a
    induction a with
    | nil => intro b _ _ hk; cases b with
      | nil => rfl
      | cons => cases hk
    | cons x a ih => intro b ha hb hk; cases b with
      | nil => cases hk
      | cons y b =>
        simp only [List.map_cons, List.cons.injEq] at hk ⊢
        refine ⟨?_, ih b (fun t ht => ha t (List.mem_cons_of_mem _ ht)) (fun t ht => hb t (List.mem_cons_of_mem _ ht)) hk.2⟩
        rw [bareTok, retok, retok, bareText, bareText, ← hk.1]
        split
        · rename_i ho
          rw [oneSpelling, List.any_eq_true] at ho
          obtain ⟨k, hm, ho⟩ := ho
          have ho : k.1 = x.kind := by simpa using ho
          rw [ha x (List.mem_cons_self ..) k hm ho.symm, hb y (List.mem_cons_self ..) k hm (by rw [← hk.1, ho])]
        · rfl
  obtain ⟨ts, h1, rfl⟩ := h
  obtain ⟨ts', h1', rfl⟩ := h'
  exact main _ _ (fun t ht => tokenised_spelled h1 t (List.mem_filter.mp ht).1) (fun t ht => tokenised_spelled h1' t (List.mem_filter.mp ht).1) hk

end Verif.Lemmas
