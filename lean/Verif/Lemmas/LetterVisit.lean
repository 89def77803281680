import Verif.Lemmas.BlankVisit
import Verif.Spec.Letters
/-! The visitor reports the same up to letter case for trees that are the same up to letter case. -/
namespace Verif.Gram
open Verif Verif.Lex

/-- A tree in capital letters. -/
abbrev Tree.cap : Tree → Tree := Tree.retext fun t => Str.upper t.text

theorem child_cap (r : Rule) (t : Tree) : t.cap.child r = (t.child r).map Tree.cap := child_retext r t
theorem token_cap (k : Tok) (t : Tree) : t.cap.token k = (t.token k).map Tree.cap := token_retext k t
theorem all_cap (r : Rule) (t : Tree) : t.cap.all r = (t.all r).map Tree.cap := all_retext r t
theorem labels_cap (q : Lab) (t : Tree) : t.cap.labels q = (t.labels q).map Tree.cap := labels_retext q t
theorem label_cap (q : Lab) (t : Tree) : t.cap.label q = (t.label q).map Tree.cap := label_retext q t

mutual
theorem text_cap (t : Tree) : t.cap.text = Str.upper t.text := by
  cases t with
  | leaf x => simp [Tree.retext, Tree.text, retok]
  | node r cs => simp only [Tree.retext, Tree.text]; exact textAll_cap cs
  | lab l cs => simp only [Tree.retext, Tree.text]; exact textAll_cap cs
  | seg cs => simp only [Tree.retext, Tree.text]; exact textAll_cap cs
theorem textAll_cap (l : List Tree) : textAll (retextAll (fun t => Str.upper t.text) l) = Str.upper (textAll l) := by
  cases l with
  | nil => simp [retextAll, textAll]
  | cons x l =>
    simp only [retextAll, textAll]
    have h1 := text_cap x
    rw [textAll_cap l, Str.upper_append, ← h1]
end

end Verif.Gram

namespace Verif.Lemmas
open Verif Verif.Lex Verif.Gram Verif.Query Verif.Util Verif.Visit Verif.Spec

/-! ### Texts -/

theorem dropWhile_upper (p : Char → Bool) (hp : ∀ c, p (Str.upC c) = p c) (s : Str) : (Str.upper s).dropWhile p = Str.upper (s.dropWhile p) := by
  induction s with
  | nil => rfl
  | cons c s ih =>
    rw [Str.upper_cons, List.dropWhile_cons, List.dropWhile_cons, hp, ih]
    split <;> rfl

theorem trim_upper (cut s : Str) (hc : ∀ q ∈ cut, Str.upC q = q ∧ ¬ ('A'.toNat ≤ q.toNat ∧ q.toNat ≤ 'Z'.toNat)) :
    Str.trim cut (Str.upper s) = Str.upper (Str.trim cut s) := by
  have hp : ∀ c, cut.contains (Str.upC c) = cut.contains c := by
    intro c
    rw [Bool.eq_iff_iff, List.contains_iff_mem, List.contains_iff_mem]
    constructor
    · intro h
      obtain ⟨h1, h2⟩ := hc _ h
      have := upC_fix _ h1 h2 c (by simp)
      rw [← this] at h; exact h
    · intro h; rw [(hc _ h).1]; exact h
  have hr : ∀ s : Str, (Str.upper s).reverse = Str.upper s.reverse := by intro s; simp [Str.upper]
  rw [Str.trim, Str.trim, Str.trimRight, Str.trimRight, Str.trimLeft, Str.trimLeft, dropWhile_upper _ hp, hr, dropWhile_upper _ hp, hr]

theorem unEscapeString_upper (s : Str) : unEscapeString (Str.upper s) = Str.upper (unEscapeString s) := trim_upper _ s (by decide)
theorem unEscapeNameString_upper (s : Str) : unEscapeNameString (Str.upper s) = Str.upper (unEscapeNameString s) := trim_upper _ s (by decide)

theorem unEscapeName_same {a b : Str} (h : Str.upper a = Str.upper b) : Str.upper (unEscapeNameString a) = Str.upper (unEscapeNameString b) := by
  rw [← unEscapeNameString_upper, ← unEscapeNameString_upper, h]

theorem unEscape_same {a b : Str} (h : Str.upper a = Str.upper b) : Str.upper (unEscapeString a) = Str.upper (unEscapeString b) := by
  rw [← unEscapeString_upper, ← unEscapeString_upper, h]

theorem isDigit_upC (c : Char) : Str.isDigit (Str.upC c) = Str.isDigit c := by
  rw [Bool.eq_iff_iff]
  simp only [Str.isDigit, Bool.and_eq_true, decide_eq_true_eq, Str.upC_toNat]
  split <;> omega

theorem toNat?_upper (s : Str) : Str.toNat? (Str.upper s) = Str.toNat? s := by
  have h : (Str.upper s).all Str.isDigit = s.all Str.isDigit := by simp [Str.upper, List.all_map, Function.comp_def, isDigit_upC]
  have h2 : (Str.upper s).isEmpty = s.isEmpty := by cases s <;> rfl
  rw [Str.toNat?, Str.toNat?, h, h2]
  split
  · rfl
  · split
    · rename_i ha
      have : Str.upper s = s := by
        rw [Str.upper]
        conv => rhs; rw [← List.map_id s]
        apply List.map_congr_left
        intro c hc
        have := List.all_eq_true.mp ha c hc
        simp only [Str.isDigit, Bool.and_eq_true, decide_eq_true_eq] at this
        unfold Str.upC
        rw [if_neg (by omega)]; rfl
      rw [this]
    · rfl

theorem atoi_upper (s : Str) : Str.atoi (Str.upper s) = Str.atoi s := by
  have : Str.signed? (Str.upper s) = Str.signed? s := by
    cases s with
    | nil => rfl
    | cons c r =>
      by_cases h1 : c = '-'
      · subst h1
        rw [Str.upper_cons, show Str.upC '-' = '-' by decide]
        simp only [Str.signed?, toNat?_upper]
      · by_cases h2 : c = '+'
        · subst h2
          rw [Str.upper_cons, show Str.upC '+' = '+' by decide]
          simp only [Str.signed?, toNat?_upper]
        · have e : ∀ c r, c ≠ '-' → c ≠ '+' → Str.signed? (c :: r) = (Str.toNat? (c :: r)).map (fun n => (n : Int)) := by
            intro c r h1 h2
            unfold Str.signed?
            split
            · rename_i h; injection h with h; exact absurd h h1
            · rename_i h; injection h with h; exact absurd h h2
            · rfl
          rw [e c r h1 h2, Str.upper_cons, e _ _ (fun h => h1 (upC_fix '-' (by decide) (by decide) c (by rw [h]; decide)))
            (fun h => h2 (upC_fix '+' (by decide) (by decide) c (by rw [h]; decide))), ← Str.upper_cons, toNat?_upper]
  rw [Str.atoi, Str.atoi, this]

theorem fixed_iff (k : Char) (hk : Str.upC k = k) (hn : ¬ ('A'.toNat ≤ k.toNat ∧ k.toNat ≤ 'Z'.toNat)) (w : Str) : Str.upper w = [k] ↔ w = [k] := by
  constructor
  · intro h
    cases w with
    | nil => cases h
    | cons c w =>
      simp only [Str.upper_cons, List.cons.injEq] at h
      have hw : w = [] := by cases w with
        | nil => rfl
        | cons => cases h.2
      rw [hw, upC_fix k hk hn c (by rw [h.1, hk])]
  · rintro rfl; simp [hk]

theorem dataDef_upper (l l' : List Str) (h : l.map Str.upper = l'.map Str.upper) : newDataDefFromStrings l = newDataDefFromStrings l' := by
  have hd : ∀ {a b : Str} (n : Int), Str.upper a = Str.upper b → newDataDefFrom a n = newDataDefFrom b n := by
    intro a b n h
    rw [newDataDefFrom, newDataDefFrom, newDataTypeFromString, newDataTypeFromString, newDataTypeFromStringIn, newDataTypeFromStringIn, h]
  have ho := fixed_iff '(' (by decide) (by decide)
  have hc := fixed_iff ')' (by decide) (by decide)
  rcases l with _ | ⟨a, _ | ⟨a1, _ | ⟨a2, _ | ⟨a3, r⟩⟩⟩⟩ <;> rcases l' with _ | ⟨b, _ | ⟨b1, _ | ⟨b2, _ | ⟨b3, r'⟩⟩⟩⟩ <;>
    simp only [List.map_cons, List.map_nil, List.cons.injEq, reduceCtorEq, and_false, and_true] at h
  · rfl
  · exact hd _ h
  · exact hd _ h.1
  · exact hd _ h.1
  · obtain ⟨h0, h1, h2, h3, -⟩ := h
    rw [newDataDefFromStrings, newDataDefFromStrings]
    have e1 : a1 = s%"(" ↔ b1 = s%"(" := by rw [← ho a1, ← ho b1, h1]
    have e3 : a3 = s%")" ↔ b3 = s%")" := by rw [← hc a3, ← hc b3, h3]
    rw [← atoi_upper a2, h2, atoi_upper b2, hd _ h0]
    simp only [e1, e3]
    cases Str.atoi b2 with
    | none => rfl
    | some v => simp only [hd _ h0]

/-! ### Pieces -/

theorem text_cap_upper (t : Tree) : Str.upper t.cap.text = Str.upper t.text := by rw [text_cap, Str.upper_upper]

theorem textOf_cap (r : Rule) (t : Tree) : LikeRes Str.upper Str.upper (Visit.textOf r t.cap) (Visit.textOf r t) := by
  rw [Visit.textOf, Visit.textOf, child_cap]
  cases t.child r with
  | none => rfl
  | some c => exact .ok (text_cap_upper c)

theorem labelText_cap (q : Lab) (t : Tree) : LikeRes Str.upper Str.upper (labelText q t.cap) (labelText q t) := by
  rw [labelText, labelText, label_cap]
  cases t.label q with
  | none => rfl
  | some c => exact .ok (text_cap_upper c)

theorem isSome_cap (o : Option Tree) : (o.map Tree.cap).isSome = o.isSome := by cases o <;> rfl

theorem texts_cap (l : List Tree) : ((l.map Tree.cap).map (·.text)).map Str.upper = (l.map (·.text)).map Str.upper := by
  rw [List.map_map, List.map_map, List.map_map]
  exact List.map_congr_left (fun t _ => text_cap_upper t)

/-- The text of the schema name. -/
theorem schemaText_cap (t : Tree) : Str.upper (((t.cap.child .schema_name).map (fun s => unEscapeNameString s.text)).getD []) =
    Str.upper (((t.child .schema_name).map (fun s => unEscapeNameString s.text)).getD []) := by
  rw [child_cap]
  cases t.child .schema_name with
  | none => rfl
  | some s => exact unEscapeName_same (text_cap_upper s)

/-- Statements in capital letters. -/
abbrev LikeCap (x y : Res Statement) : Prop := LikeRes capStatement capStatement x y

theorem createDatabase_cap (t : Tree) : LikeCap (createDatabase t.cap) (createDatabase t) := by
  refine (textOf_cap _ t).bind (fun _ _ _ h => .ok ?_)
  simp [capStatement, child_cap, h]

theorem joinUpper (l l' : List Str) (h : l.map Str.upper = l'.map Str.upper) (sep : Str) : Str.upper (Str.join sep l) = Str.upper (Str.join sep l') := by
  induction l generalizing l' with
  | nil => cases l' with
    | nil => rfl
    | cons => cases h
  | cons a l ih => cases l' with
    | nil => cases h
    | cons b l' =>
      simp only [List.map_cons, List.cons.injEq] at h
      cases l <;> cases l'
      · exact h.1
      · cases h.2
      · cases h.2
      · rw [Str.join, Str.join, Str.upper_append, Str.upper_append, Str.upper_append, Str.upper_append, h.1, ih _ h.2]

theorem typeWords_cap (y : Tree) : (typeWords y.cap).map Str.upper = (typeWords y).map Str.upper := by
  rw [typeWords, typeWords, List.map_append, List.map_append, all_cap, texts_cap, token_cap, token_cap, isSome_cap, isSome_cap, all_cap]
  congr 1
  split
  · simp only [List.map_cons, List.map_nil, List.cons.injEq, and_true, true_and]
    exact joinUpper _ _ (texts_cap _) _
  · rfl

theorem columnKeywords_same {a b : Str} (h : Str.upper a = Str.upper b) : columnKeywords.any (Str.eqFold a) = columnKeywords.any (Str.eqFold b) := by
  have : Str.eqFold a = Str.eqFold b := by funext w; rw [Str.eqFold, Str.eqFold, h]
  rw [this]

theorem columnWith_cap (t : Tree) : LikeRes (Option.map capColumn) (Option.map capColumn) (columnWith t.cap) (columnWith t) := by
  refine (textOf_cap _ t).bind (fun a b _ h => ?_)
  have hn := unEscapeName_same h
  simp only [columnKeywords_same hn, child_cap]
  split
  · exact .ok rfl
  · cases t.child .type_name with
    | none => exact .ok rfl
    | some y =>
      have hw := typeWords_cap y
      have hl : (typeWords y.cap).length = (typeWords y).length := by have := congrArg List.length hw; simpa using this
      simp only [Option.map_some, hl]
      split
      · exact .ok rfl
      · refine .ok ?_
        simp [capColumn, hn, dataDef_upper _ _ hw]

theorem columnStep_cap (t : Tree) (acc acc' : List Column × List Index) (h : acc.1.map capColumn = acc'.1.map capColumn) :
    LikeRes (fun p : List Column × List Index => p.1.map capColumn) (fun p : List Column × List Index => p.1.map capColumn)
      (columnStep t.cap acc) (columnStep t acc') := by
  refine (columnWith_cap t).bind (fun a b _ hab => ?_)
  cases a <;> cases b <;> simp only [Option.map_some, Option.map_none, Option.some.injEq, reduceCtorEq] at hab
  · exact .ok h
  · refine .ok ?_
    simp [h, hab]

theorem indexStep_cap (t : Tree) (acc acc' : List Column × List Index) (h : acc.1.map capColumn = acc'.1.map capColumn) :
    LikeRes (fun p : List Column × List Index => p.1.map capColumn) (fun p : List Column × List Index => p.1.map capColumn)
      (indexStep t.cap acc) (indexStep t acc') := by
  have key : ∀ t acc, LikeRes (fun p : List Column × List Index => p.1) (fun _ : Str => acc.1) (indexStep t acc) (Visit.textOf .column_name t) := by
    intro t acc
    rw [indexStep, indexDefs]
    cases hy : Visit.textOf .column_name t
    · simp only [Res.bind]
      split
      · split <;> rfl
      · split
        · split <;> rfl
        · rfl
    · rfl
    · rfl
  have a := key t.cap acc
  have b := key t acc'
  have c := textOf_cap .column_name t
  cases h1 : indexStep t.cap acc <;> cases h2 : Visit.textOf .column_name t.cap <;> cases h3 : Visit.textOf .column_name t <;>
    cases h4 : indexStep t acc' <;> rw [h1, h2] at a <;> rw [h4, h3] at b <;> rw [h2, h3] at c <;>
    simp only [LikeRes, mapRes, reduceCtorEq, Res.ok.injEq] at a b c
  · exact .ok (by simp only [a, b, h])
  · rfl
  · rfl

theorem columnDefs_cap (l : List Tree) (acc acc' : List Column × List Index) (h : acc.1.map capColumn = acc'.1.map capColumn) :
    LikeRes (fun p : List Column × List Index => p.1.map capColumn) (fun p : List Column × List Index => p.1.map capColumn)
      (columnDefs acc (l.map Tree.cap)) (columnDefs acc' l) := by
  induction l generalizing acc acc' with
  | nil => exact .ok h
  | cons t l ih =>
    refine (columnStep_cap t acc acc' h).bind (fun a b _ hab => ?_)
    exact (indexStep_cap t a b hab).bind (fun c d _ hcd => ih c d hcd)

theorem filterMap_cap (r : Rule) (l : List Tree) : (l.map Tree.cap).filterMap (·.child r) = (l.filterMap (·.child r)).map Tree.cap := by
  induction l with
  | nil => rfl
  | cons t l ih =>
    rw [List.map_cons, List.filterMap_cons, List.filterMap_cons, child_cap, ih]
    cases t.child r <;> rfl

theorem tableKeys_cap (t : Tree) : LikeRes none' none' (tableKeys t.cap) (tableKeys t) := by
  rw [tableKeys, tableKeys, all_cap, filterMap_cap]
  refine LikeRes.away (LikeRes.all (h := none') (h' := none') _ _ (fun p _ => ?_))
  rw [all_cap]
  refine (LikeRes.all (h := none') (h' := none') _ _ (fun c _ => ?_)).bind (fun _ _ _ _ => .ok rfl)
  exact (textOf_cap _ c).bind (fun _ _ _ _ => .ok rfl)

theorem createTable_cap (t : Tree) : LikeCap (createTable t.cap) (createTable t) := by
  have h : LikeRes (fun s : Schema => (capTable s.table, s.columns.map capColumn)) (fun s : Schema => (capTable s.table, s.columns.map capColumn))
      (tableSchema t.cap) (tableSchema t) := by
    rw [tableSchema, tableSchema, all_cap]
    refine (textOf_cap _ t).bind (fun _ _ _ h1 => ?_)
    refine (columnDefs_cap _ _ _ rfl).bind (fun _ _ _ h2 => ?_)
    refine (tableKeys_cap t).bind (fun _ _ _ _ => .ok ?_)
    simp [newSchemaWith, capTable, unEscapeName_same h1, h2]
  refine h.bind (fun _ _ _ h => .ok ?_)
  simp only [Prod.mk.injEq] at h
  simp [capStatement, child_cap, h.1, h.2]

theorem createIndex_cap (t : Tree) : LikeCap (createIndex t.cap) (createIndex t) := by
  have h : LikeRes (fun s : Schema => (capTable s.table, s.columns.map capColumn, s.indexes.map capIndex))
      (fun s : Schema => (capTable s.table, s.columns.map capColumn, s.indexes.map capIndex)) (indexSchema t.cap) (indexSchema t) := by
    rw [indexSchema, indexSchema, all_cap]
    refine (textOf_cap _ t).bind (fun _ _ _ h1 => ?_)
    refine (textOf_cap _ t).bind (fun _ _ _ h2 => ?_)
    refine (LikeRes.all (h := capColumn) (h' := capColumn) _ _ (fun c _ => ?_)).bind (fun a b _ hab => .ok ?_)
    · refine (textOf_cap _ c).bind (fun _ _ _ h => .ok ?_)
      simp [columnNamed, capColumn, unEscapeName_same h]
    · simp [newSchemaWith, newSecondaryIndexWith, capIndex, capTable, hab, unEscapeName_same h1, unEscapeName_same h2]
  refine h.bind (fun _ _ _ h => .ok ?_)
  simp only [Prod.mk.injEq] at h
  simp [capStatement, child_cap, h.1, h.2.1, h.2.2]

theorem dropDatabase_cap (t : Tree) : LikeCap (dropDatabase t.cap) (dropDatabase t) := by
  refine (textOf_cap _ t).bind (fun _ _ _ h => .ok ?_)
  simp [capStatement, child_cap, h]

theorem dropTable_cap (t : Tree) : LikeCap (dropTable t.cap) (dropTable t) := by
  refine .ok ?_
  simp only [capStatement, child_cap, isSome_cap, all_cap, List.map_map, Function.comp_def, capTable, unEscapeName_same (text_cap_upper _)]

theorem dropIndex_cap (t : Tree) : LikeCap (dropIndex t.cap) (dropIndex t) := by
  refine (textOf_cap _ t).bind (fun _ _ _ h => .ok ?_)
  simp only [capStatement]
  rw [schemaText_cap, unEscapeName_same h, child_cap, isSome_cap]

theorem alterDatabase_cap (t : Tree) : LikeCap (alterDatabase t.cap) (alterDatabase t) := by
  refine (textOf_cap _ t).bind (fun _ _ _ h => ?_)
  simp only [child_cap]
  cases t.child .rename_database_to with
  | none => exact .ok (by simp [capStatement, h])
  | some r => exact (labelText_cap _ r).bind (fun _ _ _ h' => .ok (by simp [capStatement, h, h']))

theorem whenChild_cap {α β γ : Type} {g : α → γ} {g' : β → γ} (r : Rule) (t : Tree) {f : Tree → Res α} {f' : Tree → Res β}
    (h : ∀ c, t.child r = some c → LikeRes g g' (f c.cap) (f' c)) :
    LikeRes (Option.map g) (Option.map g') (whenChild r t.cap f) (whenChild r t f') := by
  rw [whenChild, whenChild, child_cap]
  cases hc : t.child r with
  | none => exact .ok rfl
  | some c => exact (h c hc).bind (fun a b _ hab => .ok (by simp [hab]))

theorem columnsOf_cap (l : List Tree) : ((l.map Tree.cap).map (fun c => columnNamed (unEscapeNameString c.text))).map capColumn =
    (l.map (fun c => columnNamed (unEscapeNameString c.text))).map capColumn := by
  rw [List.map_map, List.map_map, List.map_map]
  refine List.map_congr_left (fun t _ => ?_)
  simp only [Function.comp_def, columnNamed, capColumn, unEscapeName_same (text_cap_upper t)]

theorem addIndex_cap (t : Tree) : LikeRes capIndex capIndex (addIndex t.cap) (addIndex t) := by
  have h : LikeRes (fun p : IndexType × Str => (p.1, Str.upper p.2)) (fun p : IndexType × Str => (p.1, Str.upper p.2)) (addIndexKind t.cap) (addIndexKind t) := by
    rw [addIndexKind, addIndexKind, child_cap]
    cases t.child .column_constraint with
    | none => exact .ok rfl
    | some c =>
      simp only [Option.map_some, child_cap]
      cases c.child .index_constraint with
      | none => exact .ok (by simp)
      | some i => exact (textOf_cap _ i).bind (fun _ _ _ h => .ok (by simp [unEscapeName_same h]))
  refine h.bind (fun a b _ hab => .ok ?_)
  simp only [Prod.mk.injEq] at hab
  simp only [capIndex, all_cap, columnsOf_cap, hab.1, hab.2]

theorem optUpper {o o' : Option Str} (h : o.map Str.upper = o'.map Str.upper) :
    (o.map (fun m => ({ name := unEscapeNameString m } : Table))).map capTable = (o'.map (fun m => ({ name := unEscapeNameString m } : Table))).map capTable := by
  cases o <;> cases o' <;> simp only [Option.map_some, Option.map_none, Option.some.injEq, reduceCtorEq] at h
  · rfl
  · simp [capTable, unEscapeName_same h]

theorem alterTable_cap (t : Tree) : LikeCap (alterTable t.cap) (alterTable t) := by
  refine (whenChild_cap _ t (fun c _ => textOf_cap _ c)).bind (fun _ _ _ h1 => ?_)
  refine (whenChild_cap (g := fun p : Column × Column => (capColumn p.1, capColumn p.2))
    (g' := fun p : Column × Column => (capColumn p.1, capColumn p.2)) _ t (fun c _ => ?_)).bind (fun _ _ _ h2 => ?_)
  · exact (labelText_cap _ c).bind (fun _ _ _ h => (labelText_cap _ c).bind (fun _ _ _ h' => .ok (by simp [columnNamed, capColumn, h, h'])))
  refine (whenChild_cap (g := Option.map capColumn) (g' := Option.map capColumn) _ t (fun c _ => ?_)).bind (fun x y _ h3 => ?_)
  · rw [addColumnOf, addColumnOf, child_cap]
    cases c.child .column_def with
    | none => rfl
    | some d => exact columnWith_cap d
  refine (whenChild_cap _ t (fun c _ => addIndex_cap c)).bind (fun _ _ _ h4 => ?_)
  refine (labelText_cap _ t).bind (fun _ _ _ h5 => .ok ?_)
  have e1 := optUpper h1
  have e2 := congrArg (Option.map Prod.fst) h2
  have e3 := congrArg (Option.map Prod.snd) h2
  simp only [Option.map_map, Function.comp_def] at e2 e3
  have e4 : (x.getD none).map capColumn = (y.getD none).map capColumn := by
    cases x <;> cases y <;> simp only [Option.map_some, Option.map_none, Option.some.injEq, reduceCtorEq] at h3
    · rfl
    · exact h3
  have e5 : ((t.child .drop_table_column).map Tree.cap).map (fun d => capColumn (columnNamed d.text)) =
      (t.child .drop_table_column).map (fun d => capColumn (columnNamed d.text)) := by
    cases t.child .drop_table_column with
    | none => rfl
    | some d => simp [columnNamed, capColumn, text_cap_upper]
  simp only [capStatement, e1, e4, h4, Statement.alterTable.injEq, AlterTable.mk.injEq, Option.map_map, Function.comp_def, e2, e3, true_and, and_true, capTable, Table.mk.injEq, h5]
  refine ⟨schemaText_cap t, ?_⟩
  rw [child_cap]
  exact e5

/-! ### Values and conditions -/

theorem literalWith_cap (t : Tree) : capLiteral (literalWith t.cap) = capLiteral (literalWith t) := by
  rw [literalWith, literalWith, child_cap]
  cases t.child .string_literal with
  | none => simp [capLiteral, text_cap_upper]
  | some s => simp [capLiteral, unEscape_same (text_cap_upper s)]

theorem bindParam_cap (t : Tree) : capLiteral (bindParamWith t.cap) = capLiteral (bindParamWith t) := by
  simp [bindParamWith, capLiteral, text_cap_upper]

theorem cmpOp_cap (t : Tree) : cmpOp t.cap = cmpOp t := by
  simp only [cmpOp, token_cap, isSome_cap]

/-- Conditions in capital letters. -/
abbrev LikeCapCond (x y : Res (Option Expr)) : Prop := LikeRes (Option.map capExpr) (Option.map capExpr) x y

theorem cmpWith_cap (t : Tree) : LikeCapCond (cmpWith t.cap) (cmpWith t) := by
  refine (textOf_cap _ t).bind (fun _ _ _ h => .ok ?_)
  rw [cmpOp_cap, child_cap]
  cases cmpOp t with
  | none => rfl
  | some o => cases t.child .literal_value with
    | none => simp [capExpr, columnNamed, h]
    | some v => simp [capExpr, columnNamed, literalWith_cap, h]

theorem pairWith_cap (mk : Expr → Expr → Expr) (hm : ∀ a b a' b', capExpr a = capExpr a' → capExpr b = capExpr b' →
    capExpr (mk a b) = capExpr (mk a' b')) (t : Tree) : LikeCapCond (pairWith mk t.cap) (pairWith mk t) := by
  rw [pairWith, pairWith, label_cap, label_cap]
  cases t.label .left with
  | none => rfl
  | some l =>
    refine (cmpWith_cap l).bind (fun a a' _ ha => ?_)
    cases t.label .right with
    | none => rfl
    | some r =>
      refine (cmpWith_cap r).bind (fun b b' _ hb => ?_)
      cases a <;> cases a' <;> cases b <;> cases b' <;> first | rfl | skip | skip
      all_goals simp only [Option.map_some, Option.map_none, Option.some.injEq, reduceCtorEq] at ha hb
      exact .ok (congrArg some (hm _ _ _ _ ha hb))

theorem exprWith_cap (t : Tree) : LikeCapCond (exprWith t.cap) (exprWith t) := by
  rw [exprWith, exprWith, child_cap, child_cap, child_cap]
  cases t.child .and_expr with
  | some a => exact pairWith_cap _ (fun a b a' b' h1 h2 => by simp [capExpr, h1, h2]) a
  | none => cases t.child .or_expr with
    | some o => exact pairWith_cap _ (fun a b a' b' h1 h2 => by simp [capExpr, h1, h2]) o
    | none => cases t.child .comparison_expr with
      | some c => exact cmpWith_cap c
      | none => exact .ok rfl

theorem whereOf_cap (t : Tree) : LikeCapCond (whereOf t.cap) (whereOf t) := by
  rw [whereOf, whereOf, label_cap]
  cases t.label .whereExpr with
  | some w => exact exprWith_cap w
  | none => exact .ok rfl

/-! ### INSERT, UPDATE, SELECT, DELETE -/

theorem insertRow_cap (names names' : List Str) (hn : names.map Str.upper = names'.map Str.upper) (l : List Tree) (k : Nat) :
    LikeRes (List.map capColumn) (List.map capColumn) (insertRow names k (l.map Tree.cap)) (insertRow names' k l) := by
  induction l generalizing k with
  | nil => exact .ok rfl
  | cons e l ih =>
    rw [List.map_cons, insertRow, insertRow, child_cap, child_cap, child_cap]
    cases e.child .comparison_expr with
    | some v =>
      refine (textOf_cap _ v).bind (fun _ _ _ h0 => (ih k).bind (fun _ _ _ h => .ok ?_))
      rw [List.map_cons, List.map_cons, h, child_cap]
      cases v.child .literal_value with
      | none => simp [capColumn, h0]
      | some w => simp [capColumn, literalWith_cap, h0]
    | none =>
      have step : ∀ x y, capLiteral x = capLiteral y → LikeRes (List.map capColumn) (List.map capColumn)
          (match names[k]? with
            | some n => (insertRow names (k + 1) (l.map Tree.cap)).bind (fun cs => .ok ({ name := n, lit := some x } :: cs))
            | none => insertRow names k (l.map Tree.cap))
          (match names'[k]? with
            | some n => (insertRow names' (k + 1) l).bind (fun cs => .ok ({ name := n, lit := some y } :: cs))
            | none => insertRow names' k l) := by
        intro x y hs
        have : (names[k]?).map Str.upper = (names'[k]?).map Str.upper := by
          rw [← List.getElem?_map, ← List.getElem?_map, hn]
        cases hx : names[k]? <;> cases hy : names'[k]? <;> rw [hx, hy] at this <;>
          simp only [Option.map_some, Option.map_none, Option.some.injEq, reduceCtorEq] at this
        · exact ih k
        · refine (ih (k + 1)).bind (fun _ _ _ h => .ok ?_)
          simp [h, capColumn, hs, this]
      cases e.child .literal_value with
      | some v => exact step _ _ (literalWith_cap v)
      | none => cases e.child .bind_param with
        | some v => exact step _ _ (bindParam_cap v)
        | none => exact ih k

theorem insert_cap (t : Tree) : LikeCap (insert t.cap) (insert t) := by
  refine (textOf_cap _ t).bind (fun _ _ _ h0 => ?_)
  rw [child_cap]
  cases t.child .values_clause with
  | none => rfl
  | some v =>
    show LikeCap (Res.bind (Res.all _ (v.cap.all _)) _) (Res.bind (Res.all _ (v.all _)) _)
    rw [all_cap, all_cap]
    refine (LikeRes.all (h := List.map capColumn) (h' := List.map capColumn) _ _ (fun r _ => ?_)).bind (fun _ _ _ h => .ok ?_)
    · rw [all_cap]
      exact insertRow_cap _ _ (texts_cap _) _ _
    · simp [capStatement, capTable, h, unEscapeName_same h0]

theorem assignment_cap (t : Tree) : LikeRes capColumn capColumn (assignment t.cap) (assignment t) := by
  refine (textOf_cap _ t).bind (fun _ _ _ h0 => ?_)
  rw [child_cap]
  cases t.child .expr with
  | none => rfl
  | some e =>
    show LikeRes _ _ (match e.cap.child _ with | some v => _ | none => _) (match e.child _ with | some v => _ | none => _)
    rw [child_cap, child_cap, child_cap]
    cases e.child .literal_value with
    | some v => exact .ok (by simp [capColumn, literalWith_cap, h0])
    | none => cases e.child .bind_param with
      | some v => exact .ok (by simp [capColumn, bindParam_cap, h0])
      | none => cases e.child .arithmetic_expr with
        | none => exact .ok (by simp [capColumn, h0])
        | some T =>
          refine (labelText_cap _ T).bind (fun o o' _ ho => ?_)
          refine (textOf_cap _ T).bind (fun _ _ _ h1 => (textOf_cap _ T).bind (fun _ _ _ h2 => ?_))
          have hoo : Fn.newArithOperatorFor o = Fn.newArithOperatorFor o' := by rw [← arith_upper o, ho, arith_upper]
          rw [arithFunction, arithFunction, hoo]
          cases Fn.newArithOperatorFor o' with
          | none => exact .ok (by simp [capColumn, h0])
          | some f => exact .ok (by simp [capColumn, h0, h1, h2])

theorem update_cap (t : Tree) : LikeCap (update t.cap) (update t) := by
  refine (labelText_cap _ t).bind (fun _ _ _ h0 => ?_)
  rw [all_cap]
  refine (LikeRes.all (h := capColumn) (h' := capColumn) _ _ (fun r _ => assignment_cap r)).bind (fun _ _ _ h => ?_)
  exact (whereOf_cap t).bind (fun _ _ _ hw => .ok (by simp [capStatement, capTable, h, hw, h0]))

theorem functionArgs_cap (f : Tree) : (functionArgs f.cap).map Str.upper = (functionArgs f).map Str.upper := by
  rw [functionArgs, functionArgs, token_cap, all_cap]
  cases f.token .STAR with
  | some s => simp [text_cap_upper]
  | none => exact texts_cap _

theorem selector_cap (t : Tree) : LikeRes capSelector capSelector (selector t.cap) (selector t) := by
  rw [selector, selector, child_cap]
  have he : ((t.child .expr).map Tree.cap).bind (·.child .«function») = ((t.child .expr).bind (·.child .«function»)).map Tree.cap := by
    cases t.child .expr with
    | none => rfl
    | some e => exact child_cap _ e
  rw [he]
  cases (t.child .expr).bind (·.child .«function») with
  | none => exact .ok (by simp [capSelector, capColumn, columnNamed, text_cap_upper])
  | some f =>
    refine (textOf_cap _ f).bind (fun _ _ _ h => .ok ?_)
    simp [capSelector, Function.named, functionArgs_cap, h]

/-- A direction in capital letters. -/
abbrev capOrder (o : Order) : Order := { column := Str.upper o.column, order := o.order }

theorem orderOf_cap (t : Tree) : LikeRes (Option.map capOrder) (Option.map capOrder) (orderOf t.cap) (orderOf t) := by
  refine (textOf_cap _ t).bind (fun _ _ _ h => .ok ?_)
  have key : ∀ (o : OrderType) (a b : Str), Str.upper a = Str.upper b → Option.map capOrder (match o with
      | .none => none
      | o => some { column := a, order := o }) = Option.map capOrder (match o with
      | .none => none
      | o => some { column := b, order := o }) := by intro o a b h; cases o <;> simp [capOrder, h]
  rw [child_cap]
  cases t.child .asc_desc with
  | none => rfl
  | some d =>
    have e3 : newOrderTypeWith d.cap.text = newOrderTypeWith d.text := by rw [newOrderTypeWith, newOrderTypeWith, text_cap_upper]
    simp only [Option.map_some, e3]
    exact key _ _ _ h

theorem ordersOf_cap (t : Tree) : LikeRes (List.map capOrder) (List.map capOrder) (ordersOf t.cap) (ordersOf t) := by
  rw [ordersOf, ordersOf, child_cap]
  cases t.child .order_by_stmt with
  | none => exact .ok rfl
  | some o =>
    show LikeRes _ _ (Res.bind (Res.all _ (o.cap.all _)) _) (Res.bind (Res.all _ (o.all _)) _)
    rw [all_cap]
    refine (LikeRes.all (h := Option.map capOrder) (h' := Option.map capOrder) _ _ (fun r _ => orderOf_cap r)).bind (fun a b _ h => .ok ?_)
    have key : ∀ l : List (Option Order), (l.filterMap id).map capOrder = (l.map (Option.map capOrder)).filterMap id := by
      intro l
      induction l with
      | nil => rfl
      | cons x l ih => cases x <;> simp_all
    rw [key, key, h]

theorem fromTable_cap (l : List Tree) : ((l.map Tree.cap).filterMap fromTable).map capTable = (l.filterMap fromTable).map capTable := by
  induction l with
  | nil => rfl
  | cons t l ih =>
    rw [List.map_cons, List.filterMap_cons, List.filterMap_cons, fromTable, fromTable, child_cap]
    cases t.child .from_table with
    | none => exact ih
    | some b =>
      simp only [Option.map_some, List.map_cons, ih, capTable, text_cap_upper, child_cap]
      cases b.child .schema_name with
      | none => rfl
      | some s => simp [text_cap_upper]

theorem limitOf_cap (u : Str → Option Nat) (hu : CaseBlind u) (t : Tree) : limitOf u t.cap = limitOf u t := by
  rw [limitOf, limitOf, child_cap]
  cases t.child .limit_stmt with
  | none => rfl
  | some l =>
    simp only [Option.map_some, all_cap]
    rcases l.all .expr with _ | ⟨a, _ | ⟨b, r⟩⟩
    · rfl
    · simp [hu _ _ (text_cap_upper a)]
    · simp [hu _ _ (text_cap_upper a), hu _ _ (text_cap_upper b)]

theorem groupOf_cap (t : Tree) : Str.upper (groupOf t.cap) = Str.upper (groupOf t) := by
  rw [groupOf, groupOf, labels_cap]
  rcases t.labels .groupByExpr with _ | ⟨g, r⟩
  · rfl
  · exact text_cap_upper g

theorem select_cap (u : Str → Option Nat) (hu : CaseBlind u) (t : Tree) : LikeCap (select u t.cap) (select u t) := by
  rw [select, select, label_cap]
  cases t.label .parentQuery with
  | none => exact (ordersOf_cap t).bind (fun _ _ _ h => .ok (by simp [capStatement, h, limitOf_cap u hu]))
  | some q =>
    show LikeCap (Res.bind (Res.all _ (q.cap.all _)) _) (Res.bind (Res.all _ (q.all _)) _)
    rw [all_cap]
    refine (LikeRes.all (h := capSelector) (h' := capSelector) _ _ (fun r _ => selector_cap r)).bind (fun _ _ _ h1 => ?_)
    refine (whereOf_cap q).bind (fun _ _ _ h2 => (ordersOf_cap t).bind (fun _ _ _ h => .ok ?_))
    simp only [capStatement, h1, h2, h, all_cap, fromTable_cap, limitOf_cap u hu, groupOf_cap]

theorem delete_cap (t : Tree) : LikeCap (delete t.cap) (delete t) := by
  refine (labelText_cap _ t).bind (fun _ _ _ h => ?_)
  exact (whereOf_cap t).bind (fun _ _ _ hw => .ok (by simp [capStatement, capTable, h, hw]))

/-! ### Other statements -/

theorem copy_cap (t : Tree) : LikeCap (copy t.cap) (copy t) := by
  refine (whenChild_cap _ t (fun c _ => labelText_cap _ c)).bind (fun a b _ h => ?_)
  refine (labelText_cap _ t).bind (fun _ _ _ h1 => (textOf_cap _ t).bind (fun _ _ _ h2 => .ok ?_))
  have hf : (a.map (CopyFormat.parse .text)).getD .text = (b.map (CopyFormat.parse .text)).getD .text := by
    cases a <;> cases b <;> simp only [Option.map_some, Option.map_none, Option.some.injEq, reduceCtorEq] at h
    · rfl
    · simp [CopyFormat.parse, h]
  rw [child_cap]
  simp only [capStatement, hf, Statement.copy.injEq, Copy.mk.injEq, true_and, and_true, capTable, unEscape_same h1, unEscape_same h2]
  cases t.child .copy_column_list with
  | none => rfl
  | some l =>
    simp only [Option.map_some, Option.getD_some, all_cap, List.map_map]
    refine List.map_congr_left (fun c _ => ?_)
    simp [columnNamed, capColumn, unEscape_same (text_cap_upper c)]

theorem truncate_cap (t : Tree) : LikeCap (truncate t.cap) (truncate t) := by
  refine .ok ?_
  simp [capStatement, all_cap, capTable, Function.comp_def, text_cap_upper]

theorem vacuum_cap (t : Tree) : LikeCap (vacuum t.cap) (vacuum t) := by
  refine .ok ?_
  simp [capStatement, child_cap, capTable, Function.comp_def, text_cap_upper]

theorem use_cap (t : Tree) : LikeCap (use t.cap) (use t) := (textOf_cap _ t).bind (fun _ _ _ h => .ok (by simp [capStatement, h]))

theorem handle_cap {l : List (Rule × (Tree → Res Statement))} (h : ∀ p ∈ l, ∀ t, LikeCap (p.2 t.cap) (p.2 t)) (t : Tree) :
    LikeRes (Option.map capStatement) (Option.map capStatement) (handle t.cap l) (handle t l) := by
  induction l with
  | nil => exact .ok rfl
  | cons p l ih =>
    obtain ⟨r, f⟩ := p
    rw [handle, handle, child_cap]
    cases t.child r with
    | none => exact ih (fun p hp => h p (List.mem_cons_of_mem _ hp))
    | some c => exact (h (r, f) (List.mem_cons_self ..) c).bind (fun _ _ _ h => .ok (by simp [h]))

theorem handlers_cap (u : Str → Option Nat) (hu : CaseBlind u) : ∀ p ∈ handlers u, ∀ t, LikeCap (p.2 t.cap) (p.2 t) := by
  intro p hp t
  simp only [handlers, List.mem_cons, List.not_mem_nil, or_false] at hp
  rcases hp with rfl | rfl | rfl | rfl | rfl | rfl | rfl | rfl | rfl | rfl | rfl | rfl | rfl | rfl | rfl | rfl | rfl | rfl | rfl
  · exact createDatabase_cap t
  · exact createTable_cap t
  · exact createIndex_cap t
  · exact dropDatabase_cap t
  · exact dropTable_cap t
  · exact dropIndex_cap t
  · exact alterDatabase_cap t
  · exact alterTable_cap t
  · exact insert_cap t
  · exact update_cap t
  · exact select_cap u hu t
  · exact delete_cap t
  · rfl
  · rfl
  · rfl
  · exact use_cap t
  · exact copy_cap t
  · exact truncate_cap t
  · exact vacuum_cap t

theorem statements_cap (u : Str → Option Nat) (hu : CaseBlind u) (t : Tree) :
    LikeRes (List.map capStatement) (List.map capStatement) (statements u t.cap) (statements u t) := by
  rw [statements, statements]
  have he : (t.cap.all .sql_stmt_list).flatMap (·.all .sql_stmt) = ((t.all .sql_stmt_list).flatMap (·.all .sql_stmt)).map Tree.cap := by
    rw [all_cap, List.flatMap_map, List.map_flatMap]
    simp only [all_cap]
  rw [he]
  refine (LikeRes.all (h := Option.map capStatement) (h' := Option.map capStatement) _ _ (fun r _ => handle_cap (handlers_cap u hu) r)).bind (fun a b _ h => .ok ?_)
  have key : ∀ l : List (Option Statement), (l.filterMap id).map capStatement = (l.map (Option.map capStatement)).filterMap id := by
    intro l
    induction l with
    | nil => rfl
    | cons x l ih => cases x <;> simp_all
  rw [key, key, h]

theorem capitals_eq (x : Res (List Statement)) : capitals x = mapRes (List.map capStatement) x := by cases x <;> rfl

end Verif.Lemmas
