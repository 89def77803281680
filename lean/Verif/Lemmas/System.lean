import Verif.Spec.System
import Verif.Lemmas.ResultSet
import Verif.Lemmas.Find
import Verif.Spec.ResultSet
/-! Lemmas about the information_schema helpers. -/
namespace Verif.Lemmas
open Verif Verif.Query Verif.Spec Verif.Sys Verif.Rs
variable {V F T : Type}

/-- The object of a column's row. -/
def sysObj (ofText : Str → V) (name : Str) (d : ColumnDef) : GoMap Str (Option V) :=
  [(kCatalog, some (ofText catalogDefault)), (kSchema, some (ofText infoSchema)),
   (kTable, some (ofText infoColumns)), (kColumn, some (ofText name)), (kType, some (ofText d.typ.toStr))]

theorem fillAll_eq (ofText : Str → V) (c : Column) (d : ColumnDef) :
    fillAll (F := F) (T := T) ofText c d [] ((rsSchema (V := V) (F := F) (T := T)).columns.map (·.name)) =
      .ok (sysObj ofText c.name d) := by
  rfl

theorem schemaRow_eq (ofText : Str → V) (c : Column) (d : ColumnDef) (h : c.def_ = some d) :
    schemaRow (F := F) (T := T) ofText c = .ok { object := some (sysObj ofText c.name d), schema := some rsSchema } := by
  unfold schemaRow
  rw [h]
  rfl

theorem schemaRow_none (ofText : Str → V) (c : Column) (h : c.def_ = none) :
    schemaRow (F := F) (T := T) ofText c = .panic := by
  unfold schemaRow; rw [h]

/-- The row of a column with a definition. -/
def sysRow (ofText : Str → V) (c : Column) : Row V F T :=
  { object := some (sysObj ofText c.name (c.def_.getD unknownDataDef)), schema := some rsSchema }

theorem schemaRow_some (ofText : Str → V) (c : Column) (h : c.def_.isSome = true) :
    schemaRow (F := F) (T := T) ofText c = .ok (sysRow ofText c) := by
  cases hd : c.def_ with
  | none => rw [hd] at h; cases h
  | some d => rw [schemaRow_eq ofText c d hd, sysRow, hd]; rfl

theorem rowsOfColumns_ok (ofText : Str → V) (cs : List Column) (rows : List (Row V F T))
    (h : ∀ c ∈ cs, c.def_.isSome = true) :
    rowsOfColumns ofText rows cs = .ok (rows ++ cs.map (sysRow ofText)) := by
  induction cs generalizing rows with
  | nil => simp [rowsOfColumns]
  | cons c cs ih =>
    simp only [rowsOfColumns, schemaRow_some ofText c (h c (by simp))]
    rw [ih _ (fun d hd => h d (List.mem_cons_of_mem _ hd))]
    simp

theorem rowsOfColumns_panic (ofText : Str → V) (cs : List Column) (rows : List (Row V F T))
    (h : ∃ c ∈ cs, c.def_ = none) : rowsOfColumns ofText rows cs = .panic := by
  induction cs generalizing rows with
  | nil => obtain ⟨_, h, _⟩ := h; cases h
  | cons c cs ih =>
    cases hd : c.def_ with
    | none => simp only [rowsOfColumns, schemaRow_none ofText c hd]
    | some d =>
      simp only [rowsOfColumns, schemaRow_eq ofText c d hd]
      obtain ⟨x, hx, hn⟩ := h
      rcases List.mem_cons.mp hx with rfl | hx
      · rw [hd] at hn; cases hn
      · exact ih _ ⟨x, hx, hn⟩

theorem rowsOfSchemas_ok (ofText : Str → V) (ss : List Query.Schema) (rows : List (Row V F T))
    (h : ∀ s ∈ ss, ∀ c ∈ s.columns, c.def_.isSome = true) :
    rowsOfSchemas ofText rows ss = .ok (rows ++ (columnsOf ss).map (fun p => sysRow ofText p.2)) := by
  induction ss generalizing rows with
  | nil => simp [rowsOfSchemas, columnsOf]
  | cons s ss ih =>
    simp only [rowsOfSchemas, rowsOfColumns_ok ofText s.columns rows (h s (by simp))]
    rw [ih _ (fun t ht => h t (List.mem_cons_of_mem _ ht))]
    simp [columnsOf]

theorem rowsOfSchemas_panic (ofText : Str → V) (ss : List Query.Schema) (rows : List (Row V F T))
    (h : ∃ s ∈ ss, ∃ c ∈ s.columns, c.def_ = none) : rowsOfSchemas ofText rows ss = .panic := by
  induction ss generalizing rows with
  | nil => obtain ⟨_, h, _⟩ := h; cases h
  | cons s ss ih =>
    by_cases hs : ∃ c ∈ s.columns, c.def_ = none
    · simp only [rowsOfSchemas, rowsOfColumns_panic ofText s.columns rows hs]
    · have hs' : ∀ c ∈ s.columns, c.def_.isSome = true := by
        intro c hc
        cases hd : c.def_ with
        | some _ => rfl
        | none => exact absurd ⟨c, hc, hd⟩ hs
      simp only [rowsOfSchemas, rowsOfColumns_ok ofText s.columns rows hs']
      obtain ⟨x, hx, hn⟩ := h
      rcases List.mem_cons.mp hx with rfl | hx
      · exact absurd hn hs
      · exact ih _ ⟨x, hx, hn⟩

/-- Projecting the object of a column's row onto the result set's schema changes nothing. -/
theorem newRow_sysRow (R : REnv V F T) (ofText : Str → V) (c : Column) :
    newRowFromObject R (some rsSchema) (sysRow (F := F) (T := T) ofText c).getObject.2 = .ok (sysRow ofText c) := by
  rfl

/-- The result set of the schemas. -/
def sysSet (ofText : Str → V) (ss : List Query.Schema) : RSet V F T :=
  { schema := some rsSchema, rows := (columnsOf ss).map (fun p => sysRow ofText p.2) }

theorem fromSchemas_ok (ofText : Str → V) (ss : List Query.Schema)
    (h : ∀ s ∈ ss, ∀ c ∈ s.columns, c.def_.isSome = true) :
    fromSchemas (F := F) (T := T) ofText ss = .ok (sysSet ofText ss) := by
  unfold fromSchemas
  rw [rowsOfSchemas_ok ofText ss [] h]
  rfl

theorem sysSet_proj (R : REnv V F T) (ofText : Str → V) (ss : List Query.Schema) :
    proj R (sysSet ofText ss) = (columnsOf ss).map (fun p => .ok (sysRow ofText p.2)) := by
  unfold proj sysSet
  rw [List.map_map]
  rfl

theorem readLoop_eq (S : SEnv V F T) (ord : List (DataType × Str)) {rs rs' : RSet V F T} {l : List (Res (Row V F T))}
    (h : Loop RSet.next (RSet.row S.R) rs l rs') :
    ∀ (rows : List (Row V F T)) (cs cols : List SysColumn) (fuel : Nat), l = rows.map .ok →
      rows.map (columnOfRow S ord) = cs.map some → l.length < fuel →
      readLoop S ord fuel rs cols = some (.ok (cols ++ cs)) := by
  induction h with
  | stop hn =>
    intro rows cs cols fuel hl hc hf
    obtain ⟨fuel, rfl⟩ : ∃ k, fuel = k + 1 := ⟨fuel - 1, by omega⟩
    cases rows with
    | cons _ _ => cases hl
    | nil =>
      cases cs with
      | cons _ _ => cases hc
      | nil => simp [readLoop, hn]
  | turn hn hr _ ih =>
    intro rows cs cols fuel hl hc hf
    obtain ⟨fuel, rfl⟩ : ∃ k, fuel = k + 1 := ⟨fuel - 1, by omega⟩
    cases rows with
    | nil => cases hl
    | cons row rows =>
      cases cs with
      | nil => cases hc
      | cons c cs =>
        simp only [List.map_cons, List.cons.injEq] at hl hc
        obtain ⟨rfl, hl⟩ := hl
        simp only [readLoop, hn, hr, hc.1, if_true]
        rw [ih rows cs (cols ++ [c]) fuel hl hc.2 (by simp only [List.length_cons] at hf; omega)]
        simp

theorem sysSet_loop (R : REnv V F T) (ofText : Str → V) (ss : List Query.Schema) (hn : (columnsOf ss).length < 2 ^ 63) :
    ∃ rs', Loop RSet.next (RSet.row R) (sysSet ofText ss)
      ((columnsOf ss).map (fun p => .ok (sysRow ofText p.2))) rs' := by
  obtain ⟨rs', hl, _⟩ := loop_exists R _ (sysSet ofText ss)
    ⟨by simp [sysSet], by simp [sysSet], by simp only [sysSet, List.length_map]; omega⟩ (by simp [sysSet]) rfl
  have hw : wend (sysSet (F := F) (T := T) ofText ss) = (proj R (sysSet ofText ss)).length := by
    simp [wend, sysSet, proj]
  have h0 : max (sysSet (F := F) (T := T) ofText ss).cursor (sysSet (F := F) (T := T) ofText ss).offset = 0 := rfl
  rw [h0, hw, List.take_length, List.drop_zero, sysSet_proj] at hl
  exact ⟨rs', hl⟩

/-! ### Conditions -/

/-- One pair of a conjunction. -/
def pairStep (st : Str × List Str) (p : Str × Str) : Str × List Str :=
  if Str.eqFold p.1 kSchema then (p.2, st.2) else if Str.eqFold p.1 kTable then (st.1, st.2 ++ [p.2]) else st

theorem traverse_conj {e : Expr} {ps : List (Str × Str)} (h : Conjunction e ps) :
    ∀ st, traverseExpr e st = .ok (ps.foldl pairStep st) := by
  induction h with
  | @eq c v t =>
    intro st
    simp only [traverseExpr, List.foldl, pairStep]
    simp only [ne_eq, not_true_eq_false, if_false]
    split
    · rfl
    · split <;> rfl
  | and _ _ ih1 ih2 =>
    intro st
    simp only [traverseExpr, ih1, ih2, List.foldl_append]

theorem traverse_ok {e : Expr} : ∀ {st st' : Str × List Str}, traverseExpr e st = .ok st' → ∃ ps, Conjunction e ps := by
  induction e with
  | cmp c =>
    intro st st' h
    obtain ⟨op, left, right⟩ := c
    simp only [traverseExpr] at h
    by_cases ho : op = .eq
    · subst ho
      simp only [ne_eq, not_true_eq_false, if_false] at h
      cases right with
      | none => cases h
      | some lit =>
        obtain ⟨v, t⟩ := lit
        cases v with
        | str v => exact ⟨_, .eq⟩
        | _ => cases h
    · simp [ho] at h
  | and l r ih1 ih2 =>
    intro st st' h
    simp only [traverseExpr] at h
    cases hl : traverseExpr l st with
    | err => rw [hl] at h; cases h
    | panic => rw [hl] at h; cases h
    | ok st1 =>
      rw [hl] at h
      obtain ⟨x, hx⟩ := ih1 hl
      obtain ⟨y, hy⟩ := ih2 h
      exact ⟨_, .and hx hy⟩
  | or l r _ _ => intro st st' h; cases h

theorem traverse_complete {e : Expr} (hc : Complete e) : ∀ st, traverseExpr e st ≠ .panic := by
  induction e with
  | cmp c =>
    intro st h
    simp only [traverseExpr] at h
    by_cases ho : c.op = .eq
    · simp only [ho, ne_eq, not_true_eq_false, if_false] at h
      cases hr : c.right with
      | none => exact hc hr
      | some lit =>
        simp only [hr] at h
        cases hv : lit.v <;> simp only [hv] at h <;> first | cases h | skip
        split at h
        · cases h
        · split at h <;> cases h
    · simp [ho] at h
  | and l r ih1 ih2 =>
    intro st h
    simp only [traverseExpr] at h
    cases hl : traverseExpr l st with
    | err => rw [hl] at h; cases h
    | panic => exact ih1 hc.1 st hl
    | ok st1 => rw [hl] at h; exact ih2 hc.2 st1 h
  | or l r _ _ => intro st h; cases h

theorem kTable_ne_kSchema (n : Str) (h1 : SameName n kSchema) (h2 : SameName n kTable) : False := by
  have : SameName kSchema kTable := h1.symm.trans h2
  revert this; decide

theorem foldl_pairStep (ps : List (Str × Str)) (st : Str × List Str) :
    ps.foldl pairStep st = (((valuesFor kSchema ps).getLast?).getD st.1, st.2 ++ valuesFor kTable ps) := by
  induction ps generalizing st with
  | nil => simp [valuesFor]
  | cons p ps ih =>
    rw [List.foldl_cons, ih]
    by_cases h1 : SameName p.1 kSchema
    · have h2 : ¬ SameName p.1 kTable := fun h => kTable_ne_kSchema _ h1 h
      have e1 : Str.eqFold p.1 kSchema = true := (sameName_iff _ _).mpr h1
      simp only [pairStep, e1, if_true, valuesFor, List.filterMap_cons, h1, h2, if_false]
      simp only [List.getLast?_cons, Option.getD_some]
    · have e1 : ¬ Str.eqFold p.1 kSchema = true := fun h => h1 ((sameName_iff _ _).mp h)
      by_cases h2 : SameName p.1 kTable
      · have e2 : Str.eqFold p.1 kTable = true := (sameName_iff _ _).mpr h2
        simp [pairStep, e1, e2, valuesFor, h1, h2]
      · have e2 : ¬ Str.eqFold p.1 kTable = true := fun h => h2 ((sameName_iff _ _).mp h)
        simp [pairStep, e1, e2, valuesFor, h1, h2]

end Verif.Lemmas
