import Verif.Spec.RsSchema
import Verif.Lemmas.Find
set_option linter.unusedSimpArgs false
namespace Verif.Lemmas
open Verif Verif.Query Verif.Rs Verif.Spec

theorem selectorColumn_iff {s : Query.Schema} {x : Selector} {c : AnyCol} : selectorColumn s x = some c ↔ SelectorColumn s x c := by
  unfold selectorColumn
  cases hf : x.function with
  | none =>
    simp only [lookupColumn, Option.map_eq_some_iff, find?_iff_firstAt]
    constructor
    · rintro ⟨d, ⟨i, hi⟩, rfl⟩
      exact .plain hf ((firstAt_congr (fun y : Column => sameName_iff y.name x.name) _ _ _).mp hi)
    · intro h
      cases h with
      | plain _ hc => exact ⟨_, ⟨_, (firstAt_congr (fun y : Column => sameName_iff y.name x.name) _ _ _).mpr hc⟩, rfl⟩
      | function h => rw [hf] at h; cases h
  | some f =>
    simp only [Option.map_eq_some_iff]
    constructor
    · rintro ⟨t, ht, rfl⟩
      have : t = .float ∧ f.typ ∈ [Fn.FnType.math, .aggregate, .cast, .arith] := by
        generalize f.typ = k at ht ⊢
        cases k <;> simp [newDataTypeForFunction] at ht ⊢ <;> exact ht.symm
      rw [this.1]
      exact .function hf this.2
    · intro h
      cases h with
      | plain h => rw [hf] at h; cases h
      | function h hk =>
        rw [hf] at h; cases h
        refine ⟨.float, ?_, rfl⟩
        generalize f.typ = k at hk ⊢
        cases k <;> simp [newDataTypeForFunction] at hk ⊢

theorem selectorColumns_iff {s : Query.Schema} (xs : List Selector) : ∀ cs : List AnyCol, selectorColumns s xs = some cs ↔ Pairwise2 (SelectorColumn s) xs cs := by
  induction xs with
  | nil =>
    intro cs
    constructor
    · intro h; cases h; exact .nil
    · intro h; cases h; rfl
  | cons x xs ih =>
    intro cs
    rw [selectorColumns]
    constructor
    · intro h
      cases hx : selectorColumn s x with
      | none => rw [hx] at h; cases h
      | some c =>
        rw [hx] at h
        obtain ⟨ds, hd, rfl⟩ := Option.map_eq_some_iff.mp h
        exact .cons (selectorColumn_iff.mp hx) ((ih ds).mp hd)
    · intro h
      cases h with
      | cons hc hr => rw [selectorColumn_iff.mpr hc]; exact Option.map_eq_some_iff.mpr ⟨_, (ih _).mpr hr, rfl⟩

theorem selectorColumns_none {s : Query.Schema} (xs : List Selector) : selectorColumns s xs = none ↔ ∃ x, x ∈ xs ∧ ∀ c, ¬ SelectorColumn s x c := by
  induction xs with
  | nil => simp [selectorColumns]
  | cons x xs ih =>
    rw [selectorColumns]
    cases hx : selectorColumn s x with
    | none =>
      refine iff_of_true rfl ⟨x, List.mem_cons_self, fun c hc => ?_⟩
      rw [selectorColumn_iff.mpr hc] at hx
      cases hx
    | some c =>
      have hc := selectorColumn_iff.mp hx
      simp only [Option.map_eq_none_iff, ih]
      constructor
      · rintro ⟨y, hy, hn⟩; exact ⟨y, List.mem_cons_of_mem _ hy, hn⟩
      · rintro ⟨y, hy, hn⟩
        rcases List.mem_cons.mp hy with rfl | hy
        · exact absurd hc (hn c)
        · exact ⟨y, hy, hn⟩

/-! ### Options -/

section
variable {S O : Type} {apply : S → O → Res S}

/-- As `apply`, with errors dropped. -/
def lenient (apply : S → O → Res S) (s : S) (o : O) : Res S :=
  match apply s o with
  | .err => .ok s
  | r => r

theorem applyAll_until (os : List O) : ∀ s, applyAll apply s os = applyUntil (lenient apply) s os := by
  induction os with
  | nil => intro s; rfl
  | cons o os ih =>
    intro s
    rw [applyAll, applyUntil, lenient]
    cases apply s o with
    | ok s' => exact ih s'
    | err => exact ih s
    | panic => rfl

theorem until_append {os os' : List O} : ∀ {s r : S}, applyUntil apply s (os ++ os') = .ok r ↔
    ∃ m, applyUntil apply s os = .ok m ∧ applyUntil apply m os' = .ok r := by
  induction os with
  | nil => intro s r; simp [applyUntil]
  | cons o os ih =>
    intro s r
    rw [List.cons_append, applyUntil, applyUntil]
    cases apply s o with
    | ok s' => exact ih
    | err => simp
    | panic => simp

/-- Two options can be swapped. -/
def Swaps (apply : S → O → Res S) (x y : O) : Prop :=
  ∀ s a b, apply s x = .ok a → apply a y = .ok b → ∃ a', apply s y = .ok a' ∧ apply a' x = .ok b

theorem until_perm {C : O → O → Prop} (symm : ∀ x y, C x y → C y x) (hc : ∀ x y, C x y → Swaps apply x y) {os os' : List O} (hp : os.Perm os') :
    os.Pairwise C → ∀ {s r : S}, applyUntil apply s os = .ok r → applyUntil apply s os' = .ok r := by
  induction hp with
  | nil => intro _ s r h; exact h
  | cons x _ ih =>
    intro hw s r h
    rw [applyUntil] at h ⊢
    cases hx : apply s x with
    | ok a => rw [hx] at h; exact ih hw.of_cons h
    | err => rw [hx] at h; cases h
    | panic => rw [hx] at h; cases h
  | swap x y l =>
    intro hw s r h
    have hyx : C y x := List.rel_of_pairwise_cons hw List.mem_cons_self
    rw [applyUntil] at h
    cases hy : apply s y with
    | err => rw [hy] at h; cases h
    | panic => rw [hy] at h; cases h
    | ok a =>
      rw [hy] at h
      simp only [applyUntil] at h
      cases hx : apply a x with
      | err => rw [hx] at h; cases h
      | panic => rw [hx] at h; cases h
      | ok b =>
        rw [hx] at h
        obtain ⟨a', h1, h2⟩ := hc _ _ hyx s a b hy hx
        simp only [applyUntil, h1, h2]
        exact h
  | trans h1 _ ih1 ih2 =>
    intro hw s r h
    exact ih2 ((h1.pairwise_iff (fun {x y} => symm x y)).mp hw) (ih1 hw h)

/-- What the lenient loop makes is what the strict one makes of the options that do not fail. -/
theorem all_sublist {os : List O} : ∀ {s r : S}, applyAll apply s os = .ok r →
    ∃ os', os'.Sublist os ∧ applyUntil apply s os' = .ok r ∧ (applyUntil apply s os ≠ .err → os' = os) := by
  induction os with
  | nil => intro s r h; exact ⟨[], .slnil, h, fun _ => rfl⟩
  | cons o os ih =>
    intro s r h
    rw [applyAll] at h
    cases ho : apply s o with
    | ok a =>
      rw [ho] at h
      obtain ⟨os', h1, h2, h3⟩ := ih h
      refine ⟨o :: os', h1.cons_cons o, by rw [applyUntil, ho]; exact h2, fun hn => ?_⟩
      rw [applyUntil, ho] at hn
      rw [h3 hn]
    | err =>
      rw [ho] at h
      obtain ⟨os', h1, h2, -⟩ := ih h
      exact ⟨os', h1.cons o, h2, fun hn => absurd (by rw [applyUntil, ho]) hn⟩
    | panic => rw [ho] at h; cases h

theorem all_not_err (os : List O) : ∀ s : S, applyAll apply s os ≠ .err := by
  induction os with
  | nil => intro s h; cases h
  | cons o os ih =>
    intro s h
    rw [applyAll] at h
    cases ho : apply s o with
    | ok a => rw [ho] at h; exact ih a h
    | err => rw [ho] at h; exact ih s h
    | panic => rw [ho] at h; cases h

theorem until_all {os : List O} : ∀ {s r : S}, applyUntil apply s os = .ok r → applyAll apply s os = .ok r := by
  induction os with
  | nil => intro s r h; exact h
  | cons o os ih =>
    intro s r h
    rw [applyUntil] at h
    rw [applyAll]
    cases ho : apply s o with
    | ok a => rw [ho] at h; exact ih h
    | err => rw [ho] at h; cases h
    | panic => rw [ho] at h; cases h

theorem until_err {os : List O} : ∀ {s : S}, applyUntil apply s os = .err ↔
    ∃ before o after m, os = before ++ o :: after ∧ applyUntil apply s before = .ok m ∧ apply m o = .err := by
  induction os with
  | nil =>
    intro s
    constructor
    · intro h; cases h
    · rintro ⟨b, o, a, m, h, -⟩; simp at h
  | cons o os ih =>
    intro s
    rw [applyUntil]
    cases ho : apply s o with
    | ok a =>
      simp only [ih]
      constructor
      · rintro ⟨b, p, c, m, rfl, h1, h2⟩
        exact ⟨o :: b, p, c, m, rfl, by rw [applyUntil, ho]; exact h1, h2⟩
      · rintro ⟨b, p, c, m, h, h1, h2⟩
        cases b with
        | nil =>
          cases h
          cases h1
          rw [ho] at h2; cases h2
        | cons q b =>
          cases h
          rw [applyUntil, ho] at h1
          exact ⟨b, p, c, m, rfl, h1, h2⟩
    | err => exact iff_of_true rfl ⟨[], o, os, s, rfl, rfl, ho⟩
    | panic =>
      constructor
      · intro h; cases h
      · rintro ⟨b, p, c, m, h, h1, h2⟩
        cases b with
        | nil =>
          cases h
          cases h1
          rw [ho] at h2; cases h2
        | cons q b =>
          cases h
          rw [applyUntil, ho] at h1
          cases h1

end

theorem apart_symm (x y : SchemaOption) (h : Apart x y) : Apart y x :=
  ⟨fun p hp => ⟨fun hx => (h.1 p hx).1 hp, h.2 p hp⟩, fun p hp => (h.1 p hp).2⟩

theorem apart_swaps (x y : SchemaOption) (h : Apart x y) : Swaps SchemaOption.apply x y := by
  intro s a b hx hy
  have key : ∀ p, p ∈ setsPart x → p ∈ setsPart y → False := fun p h1 h2 => (h.1 p h1).1 h2
  have k1 : ∀ p, p ∈ setsPart x → p ∈ needsPart y → False := fun p h1 h2 => (h.1 p h1).2 h2
  have k2 : ∀ p, p ∈ setsPart y → p ∈ needsPart x → False := fun p h1 h2 => h.2 p h1 h2
  cases x <;> cases y <;>
    first
    | (refine (key .database ?_ ?_).elim <;> simp [setsPart, needsPart]; done)
    | (refine (key .table ?_ ?_).elim <;> simp [setsPart, needsPart]; done)
    | (refine (key .columns ?_ ?_).elim <;> simp [setsPart, needsPart]; done)
    | (refine (key .base ?_ ?_).elim <;> simp [setsPart, needsPart]; done)
    | (refine (k1 .base ?_ ?_).elim <;> simp [setsPart, needsPart]; done)
    | (refine (k2 .base ?_ ?_).elim <;> simp [setsPart, needsPart]; done)
    | skip
  all_goals
    simp only [SchemaOption.apply] at hx hy ⊢
    repeat' split at hx
    all_goals cases hx
    all_goals repeat' split at hy
    all_goals cases hy
    all_goals simp_all [SchemaOption.apply]

theorem lenient_selectors (s : RSchema) (ss : List Selector) : lenient SchemaOption.apply s (.selectors ss) =
    .ok { s with columns := (s.base.bind (selectorColumns · ss)).getD s.columns } := by
  unfold lenient SchemaOption.apply
  cases hb : s.base with
  | none => cases s; simp_all
  | some b =>
    cases hc : selectorColumns b ss with
    | none => cases s; simp_all
    | some cs => simp [hc]

theorem lenient_rowObject (s : RSchema) (o : List (Str × GoKind)) : lenient SchemaOption.apply s (.rowObject o) =
    .ok { s with columns := (objectColumns o).getD s.columns } := by
  unfold lenient SchemaOption.apply
  cases hc : objectColumns o with
  | none => simp [hc]
  | some cs => simp [hc]

theorem lenient_database (s : RSchema) (n : Str) : lenient SchemaOption.apply s (.database n) = .ok { s with database := n } := rfl
theorem lenient_table (s : RSchema) (n : Str) : lenient SchemaOption.apply s (.table n) = .ok { s with table := n } := rfl
theorem lenient_columns (s : RSchema) (cs : List AnyCol) : lenient SchemaOption.apply s (.columns cs) = .ok { s with columns := cs } := rfl
theorem lenient_tableSchema (s : RSchema) (b : Query.Schema) : lenient SchemaOption.apply s (.tableSchema (some b)) =
    .ok { s with table := b.table.name, base := some b } := rfl
theorem lenient_nil (s : RSchema) : lenient SchemaOption.apply s (.tableSchema none) = .panic := rfl

/-- As `apart_swaps`, for the lenient loop. -/
theorem apart_swaps_lenient (x y : SchemaOption) (h : Apart x y) : Swaps (lenient SchemaOption.apply) x y := by
  intro s a b hx hy
  have key : ∀ p, p ∈ setsPart x → p ∈ setsPart y → False := fun p h1 h2 => (h.1 p h1).1 h2
  have k1 : ∀ p, p ∈ setsPart x → p ∈ needsPart y → False := fun p h1 h2 => (h.1 p h1).2 h2
  have k2 : ∀ p, p ∈ setsPart y → p ∈ needsPart x → False := fun p h1 h2 => h.2 p h1 h2
  cases x <;> cases y <;>
    first
    | (refine (key .database ?_ ?_).elim <;> simp [setsPart, needsPart]; done)
    | (refine (key .table ?_ ?_).elim <;> simp [setsPart, needsPart]; done)
    | (refine (key .columns ?_ ?_).elim <;> simp [setsPart, needsPart]; done)
    | (refine (key .base ?_ ?_).elim <;> simp [setsPart, needsPart]; done)
    | (refine (k1 .base ?_ ?_).elim <;> simp [setsPart, needsPart]; done)
    | (refine (k2 .base ?_ ?_).elim <;> simp [setsPart, needsPart]; done)
    | skip
  all_goals try cases ‹Option Query.Schema›
  all_goals
    simp only [lenient_database, lenient_table, lenient_columns, lenient_tableSchema, lenient_nil, lenient_selectors, lenient_rowObject] at hx hy ⊢
    first
    | (cases hx; done)
    | (cases hx; cases hy; done)
    | (cases hx; cases hy; exact ⟨_, rfl, rfl⟩)

section
variable {V F T : Type}

theorem rapart_symm (x y : RSetOption V F T) (h : RApart x y) : RApart y x := ⟨fun e => h.1 e.symm, h.2.2, h.2.1⟩

theorem rapart_swaps (x y : RSetOption V F T) (h : RApart x y) : Swaps RSetOption.apply x y := by
  intro s a b hx hy
  obtain ⟨h1, h2, h3⟩ := h
  cases x <;> cases y <;> first
    | exact absurd rfl h1
    | skip
  all_goals try cases ‹RowsArg V F T›
  all_goals
    simp only [RSetOption.apply] at hx hy ⊢
    repeat' split at hx
    all_goals cases hx
    all_goals repeat' split at hy
    all_goals cases hy
    all_goals simp_all [RSetOption.apply, setsRPart, needsRSchema]

theorem rapart_swaps_lenient (x y : RSetOption V F T) (h : RApart x y) : Swaps (lenient RSetOption.apply) x y := by
  intro s a b hx hy
  obtain ⟨h1, h2, h3⟩ := h
  cases x <;> cases y <;> first
    | exact absurd rfl h1
    | skip
  all_goals try cases ‹RowsArg V F T›
  all_goals
    simp only [lenient, RSetOption.apply] at hx hy ⊢
    repeat' split at hx
    all_goals cases hx
    all_goals repeat' split at hy
    all_goals cases hy
    all_goals simp_all [RSetOption.apply, setsRPart, needsRSchema]

end

theorem objectColumns_iff (o : List (Str × GoKind)) : ∀ cs : List AnyCol, objectColumns o = some cs ↔
    Pairwise2 (fun (e : Str × GoKind) c => ∃ t, newDataTypeForValue e.2 = some t ∧ c = AnyCol.own { name := e.1, typ := t }) o cs := by
  induction o with
  | nil =>
    intro cs
    constructor
    · intro h; cases h; exact .nil
    · intro h; cases h; rfl
  | cons e es ih =>
    intro cs
    rw [objectColumns]
    constructor
    · intro h
      cases ht : newDataTypeForValue e.2 with
      | none => rw [ht] at h; cases h
      | some t =>
        rw [ht] at h
        obtain ⟨ds, hd, rfl⟩ := Option.map_eq_some_iff.mp h
        exact .cons ⟨t, ht, rfl⟩ ((ih ds).mp hd)
    · intro h
      cases h with
      | cons hc hr =>
        obtain ⟨t, ht, rfl⟩ := hc
        rw [ht]
        exact Option.map_eq_some_iff.mpr ⟨_, (ih _).mpr hr, rfl⟩

theorem objectColumns_none (o : List (Str × GoKind)) : objectColumns o = none ↔ ∃ e, e ∈ o ∧ newDataTypeForValue e.2 = none := by
  induction o with
  | nil => simp [objectColumns]
  | cons e es ih =>
    rw [objectColumns]
    cases ht : newDataTypeForValue e.2 with
    | none => simp [ht]
    | some t => simp [ih, ht]

end Verif.Lemmas
