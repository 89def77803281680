import Verif.Props.Schema
import Verif.Spec.Casts
/-! C19, C20: exact forms. -/
namespace Verif.Props
open Verif Verif.Query Verif.Spec

theorem casts_iff (k : Caster) (t : DataType) (v w : Val) : Casts k t v w ↔ k.coerce t v = some w := by
  constructor
  · intro h
    cases h with
    | other h => cases t <;> first | rfl | exact absurd (by decide) h
    | _ h => simp [Caster.coerce, h]
  · intro h
    by_cases ht : Converted t
    · have e : ∀ {α : Type} {o : Option α} {f : α → Val}, o.map f = some w → ∃ a, o = some a ∧ w = f a := by
        intro α o f h
        obtain ⟨a, h1, h2⟩ := Option.map_eq_some_iff.mp h
        exact ⟨a, h1, h2.symm⟩
      cases t <;> first
        | exact absurd ht (by decide)
        | (obtain ⟨a, h1, rfl⟩ := e (show Option.map _ _ = some w from h); constructor; exact h1)
    · have : k.coerce t v = some v := by revert ht; cases t <;> simp [Converted, Caster.coerce]
      rw [this] at h
      cases h
      exact .other ht

theorem litCasts_iff (k : Caster) (c : Column) (d : Option ColumnDef) (x : Column) :
    ((c.setDefinition k d).2 = true ∧ (c.setDefinition k d).1 = x) ↔ ∃ lit, LitCasts k d c.lit lit ∧ x = { c with def_ := d, lit := lit } := by
  obtain ⟨name, def_, lit, fn, args⟩ := c
  constructor
  · rintro ⟨h1, rfl⟩
    cases d with
    | none => exact ⟨lit, .noDefinition lit, by cases lit <;> rfl⟩
    | some d =>
      cases lit with
      | none => exact ⟨none, .noLiteral _, rfl⟩
      | some l =>
        cases h : k.coerce d.typ l.v with
        | none => simp [Column.setDefinition, h] at h1
        | some v => exact ⟨_, .cast ((casts_iff k _ _ _).mpr h), by simp [Column.setDefinition, h]⟩
  · rintro ⟨lit', h, rfl⟩
    cases h with
    | cast h => simp [Column.setDefinition, (casts_iff k _ _ _).mp h]
    | noDefinition => cases lit <;> simp [Column.setDefinition]
    | noLiteral => cases d <;> simp [Column.setDefinition]

/-- C19, exactly: setting a definition succeeds if and only if the literal can be converted by the type of the definition, and
then the column has the definition and the converted literal; when it fails, the column has the definition, and the
literal as it was. -/
theorem C19_exact (k : Caster) (c : Column) (d : Option ColumnDef) :
    (∀ c', ((c.setDefinition k d).2 = true ∧ (c.setDefinition k d).1 = c') ↔ ∃ lit, LitCasts k d c.lit lit ∧ c' = { c with def_ := d, lit := lit }) ∧
    ((c.setDefinition k d).2 = false ↔ ∀ lit, ¬ LitCasts k d c.lit lit) ∧
    ((c.setDefinition k d).2 = false → (c.setDefinition k d).1 = { c with def_ := d }) := by
  refine ⟨litCasts_iff k c d, ?_, ?_⟩
  · constructor
    · intro h lit hl
      have := ((litCasts_iff k c d _).mpr ⟨lit, hl, rfl⟩).1
      rw [h] at this
      cases this
    · intro h
      rw [← Bool.not_eq_true]
      intro ht
      obtain ⟨lit, hl, -⟩ := (litCasts_iff k c d _).mp ⟨ht, rfl⟩
      exact h lit hl
  · unfold Column.setDefinition
    split
    · split <;> simp
    · simp

/-- C20, exactly: setting a schema succeeds if and only if every column can become the column it should, and then every one
has; when it fails, the columns before the first one that cannot are changed, this one has the definition if the schema
has its name, and the others are as they were. -/
theorem C20_exact (k : Caster) (sc cs : List Column) :
    (∀ cs', ((setSchema k sc cs).2 = true ∧ (setSchema k sc cs).1 = cs') ↔ Pairwise2 (Adopts k sc) cs cs') ∧
    ((setSchema k sc cs).2 = false ↔ ∃ c ∈ cs, ∀ c', ¬ Adopts k sc c c') ∧
    (∀ a a' c b, cs = a ++ c :: b → Pairwise2 (Adopts k sc) a a' → (∀ c', ¬ Adopts k sc c c') →
      ((NoneOf (fun d : Column => SameName d.name c.name) sc → (setSchema k sc cs).1 = a' ++ c :: b) ∧
       ∀ j s, FirstAt (fun d : Column => SameName d.name c.name) sc j s → (setSchema k sc cs).1 = a' ++ { c with def_ := s.def_ } :: b)) := by
  have one : ∀ c s, lookupColumn sc c.name = some s → ∀ c', ((c.setDefinition k s.def_).2 = true ∧ (c.setDefinition k s.def_).1 = c') ↔ Adopts k sc c c' := by
    intro c s hs c'
    obtain ⟨j, hj⟩ := ((C11_lookup_column sc c.name).1 s).mp hs
    rw [litCasts_iff]
    constructor
    · rintro ⟨lit, h1, h2⟩
      exact ⟨j, s, lit, hj, h1, h2⟩
    · rintro ⟨j', s', lit, hj', h1, h2⟩
      have := ((C11_lookup_column sc c.name).1 s').mpr ⟨j', hj'⟩
      rw [hs] at this
      cases this
      exact ⟨lit, h1, h2⟩
  have unknown : ∀ c, lookupColumn sc c.name = none → ∀ c', ¬ Adopts k sc c c' := by
    rintro c hn c' ⟨j, s, lit, hj, -, -⟩
    have := ((C11_lookup_column sc c.name).1 s).mpr ⟨j, hj⟩
    rw [hn] at this
    cases this
  induction cs with
  | nil =>
    refine ⟨fun cs' => ⟨fun h => ?_, fun h => ?_⟩, by simp [setSchema], ?_⟩
    · rw [← h.2]; exact .nil
    · cases h; exact ⟨rfl, rfl⟩
    · intro a a' c b h; cases a <;> simp at h
  | cons c cs ih =>
    obtain ⟨ih1, ih2, ih3⟩ := ih
    cases hl : lookupColumn sc c.name with
    | none =>
      have hno := unknown c hl
      have e : setSchema k sc (c :: cs) = (c :: cs, false) := by simp [setSchema, hl]
      rw [e]
      refine ⟨fun cs' => ⟨fun h => (by cases h.1), fun h => ?_⟩, ⟨fun _ => ⟨c, by simp, hno⟩, fun _ => rfl⟩, ?_⟩
      · cases h with | cons h _ => exact absurd h (hno _)
      · intro a a' d b h1 h2 h3
        cases h2 with
        | nil =>
          simp only [List.nil_append, List.cons.injEq] at h1
          obtain ⟨rfl, rfl⟩ := h1
          refine ⟨fun _ => rfl, fun j s hj => ?_⟩
          have := ((C11_lookup_column sc c.name).1 s).mpr ⟨j, hj⟩
          rw [hl] at this
          cases this
        | cons h _ =>
          simp only [List.cons_append, List.cons.injEq] at h1
          obtain ⟨rfl, -⟩ := h1
          exact absurd h (hno _)
    | some s =>
      have h1 := one c s hl
      cases hd : (c.setDefinition k s.def_).2 with
      | true =>
        have e : setSchema k sc (c :: cs) = ((c.setDefinition k s.def_).1 :: (setSchema k sc cs).1, (setSchema k sc cs).2) := by simp [setSchema, hl, hd]
        have hc := (h1 _).mp ⟨hd, rfl⟩
        rw [e]
        refine ⟨fun cs' => ⟨fun h => ?_, fun h => ?_⟩, ?_, ?_⟩
        · rw [← h.2]; exact .cons hc ((ih1 _).mp ⟨h.1, rfl⟩)
        · cases h with
          | cons ha hb =>
            obtain ⟨h3, h4⟩ := (ih1 _).mpr hb
            exact ⟨h3, by simp only [((h1 _).mpr ha).2, h4]⟩
        · show (setSchema k sc cs).2 = false ↔ _
          rw [ih2]
          constructor
          · rintro ⟨d, hd, h⟩; exact ⟨d, by simp [hd], h⟩
          · rintro ⟨d, hd, h⟩
            rcases List.mem_cons.mp hd with rfl | hd
            · exact absurd hc (h _)
            · exact ⟨d, hd, h⟩
        · intro a a' d b h2 h3 h4
          cases h3 with
          | nil =>
            simp only [List.nil_append, List.cons.injEq] at h2
            obtain ⟨rfl, rfl⟩ := h2
            exact absurd hc (h4 _)
          | cons ha hb =>
            simp only [List.cons_append, List.cons.injEq] at h2
            obtain ⟨rfl, h2⟩ := h2
            obtain ⟨h5, h6⟩ := ih3 _ _ _ _ h2 hb h4
            refine ⟨fun h => ?_, fun j s' h => ?_⟩
            · simp only [((h1 _).mpr ha).2, h5 h, List.cons_append]
            · simp only [((h1 _).mpr ha).2, h6 j s' h, List.cons_append]
      | false =>
        have e : setSchema k sc (c :: cs) = ((c.setDefinition k s.def_).1 :: cs, false) := by simp [setSchema, hl, hd]
        have hno : ∀ c', ¬ Adopts k sc c c' := by
          intro c' h
          have := ((h1 _).mpr h).1
          rw [hd] at this
          cases this
        have hx := (C19_exact k c s.def_).2.2 hd
        rw [e]
        refine ⟨fun cs' => ⟨fun h => (by cases h.1), fun h => ?_⟩, ⟨fun _ => ⟨c, by simp, hno⟩, fun _ => rfl⟩, ?_⟩
        · cases h with | cons h _ => exact absurd h (hno _)
        · intro a a' d b h2 h3 h4
          cases h3 with
          | nil =>
            simp only [List.nil_append, List.cons.injEq] at h2
            obtain ⟨rfl, rfl⟩ := h2
            refine ⟨fun h => ?_, fun j s' hj => ?_⟩
            · have := (C11_lookup_column sc c.name).2.2.1.mpr h
              rw [hl] at this
              cases this
            · have := ((C11_lookup_column sc c.name).1 s').mpr ⟨j, hj⟩
              rw [hl] at this
              cases this
              simp [hx]
          | cons h _ =>
            simp only [List.cons_append, List.cons.injEq] at h2
            obtain ⟨rfl, -⟩ := h2
            exact absurd h (hno _)

/-- A conversion of numbers only. -/
def numberCaster : Caster where
  toInt8 v := match v with | .i64 i => some i | _ => none
  toInt16 v := match v with | .i64 i => some i | _ => none
  toInt32 v := match v with | .i64 i => some i | _ => none
  toInt64 v := match v with | .i64 i => some i | _ => none
  toFloat32 _ := none
  toFloat64 _ := none
  toBool _ := none

/-- A number becomes an integer of the width of its column, and a text in the second column is an error. -/
example : Adopts numberCaster [{ name := s%"A", def_ := some { typ := .smallInt, length := -1 } }] { name := s%"a", lit := some { v := .i64 7 } }
      { name := s%"a", def_ := some { typ := .smallInt, length := -1 }, lit := some { v := .i16 7 } } ∧
    setSchema numberCaster [{ name := s%"A", def_ := some { typ := .smallInt, length := -1 } }] [{ name := s%"a", lit := some { v := .i64 7 } }, { name := s%"A", lit := some { v := .str s%"x" } }] =
      ([{ name := s%"a", def_ := some { typ := .smallInt, length := -1 }, lit := some { v := .i16 7 } },
        { name := s%"A", def_ := some { typ := .smallInt, length := -1 }, lit := some { v := .str s%"x" } }], false) := by
  refine ⟨⟨0, _, _, ⟨rfl, by decide, fun j y h => absurd h (by omega)⟩, .cast (.smallInt rfl), rfl⟩, by decide +kernel⟩

end Verif.Props
