import Verif.Props.RsSchema
/-! C141 and C142: which options of schemas and result sets are refused, and what they make. -/
namespace Verif.Spec
open Verif Verif.Query Verif.Rs

/-- The value of the last member that gives one. -/
def lastGiven {O α : Type} (pick : O → Option α) (os : List O) : Option α := os.reverse.findSome? pick

/-- The table of an option for a schema. -/
def tableOf : SchemaOption → Option Query.Schema
  | .tableSchema b => b
  | _ => none

/-- The option cannot be applied after those before it: a selection list without a table, or one with a selector that has no
column, or an object with a value of a type that has no SQL type. -/
inductive CannotApply (before : List SchemaOption) : SchemaOption → Prop
  | noTable (ss : List Selector) : lastGiven tableOf before = none → CannotApply before (.selectors ss)
  | noColumn (ss : List Selector) (b : Query.Schema) (x : Selector) : lastGiven tableOf before = some b → x ∈ ss → (∀ c, ¬ SelectorColumn b x c) →
      CannotApply before (.selectors ss)
  | noType (o : List (Str × GoKind)) (e : Str × GoKind) : e ∈ o → newDataTypeForValue e.2 = none → CannotApply before (.rowObject o)

/-- The schema of an option for a result set, possibly nil. -/
def schemaGiven {V F T : Type} : RSetOption V F T → Option (Option (Rs.Schema V F T))
  | .schema s => some s
  | _ => none

/-- The rows of an option for a result set, by the schema that was given before. -/
def rowsGiven {V F T : Type} (s : Option (Rs.Schema V F T)) : RSetOption V F T → Option (List (Row V F T))
  | .rows rs | .rowsOf (.rows rs) => some rs
  | .rowsOf (.maps ms) => some (ms.map fun m => { object := some m, schema := s })
  | _ => none

end Verif.Spec

namespace Verif.Props
open Verif Verif.Query Verif.Rs Verif.Spec Verif.Lemmas

theorem lastGiven_cons {O α : Type} (pick : O → Option α) (o : O) (os : List O) : lastGiven pick (o :: os) = (lastGiven pick os).or (pick o) := by
  rw [lastGiven, List.reverse_cons, List.findSome?_append, lastGiven]
  simp [List.findSome?]
  cases pick o <;> rfl

/-- What the options leave of one part, if each leaves it as it was unless it gives a value. -/
theorem until_part {S O α : Type} {apply : S → O → Res S} (get : S → α) (pick : O → Option α)
    (h : ∀ s o s', apply s o = .ok s' → get s' = (pick o).getD (get s)) (os : List O) : ∀ s r, applyUntil apply s os = .ok r →
      get r = (lastGiven pick os).getD (get s) := by
  induction os with
  | nil => intro s r hr; cases hr; rfl
  | cons o os ih =>
    intro s r hr
    rw [applyUntil] at hr
    cases ha : apply s o with
    | ok s' =>
      rw [ha] at hr
      rw [ih s' r hr, h s o s' ha, lastGiven_cons]
      cases lastGiven pick os <;> simp
    | err => rw [ha] at hr; cases hr
    | panic => rw [ha] at hr; cases hr

theorem base_of (os : List SchemaOption) (m : RSchema) (h : newSchemaFrom os = .ok m) : m.base = lastGiven tableOf os := by
  have := until_part (apply := SchemaOption.apply) (fun s => s.base) (fun o => (tableOf o).map some) (by
    intro s o s' ha
    cases o with
    | tableSchema b =>
      cases b with
      | none => cases ha
      | some b => cases ha; rfl
    | selectors ss =>
      simp only [SchemaOption.apply] at ha
      split at ha
      · cases ha
      · split at ha <;> cases ha
        rfl
    | rowObject o =>
      simp only [SchemaOption.apply] at ha
      split at ha <;> cases ha
      rfl
    | _ => cases ha; rfl) os {} m h
  rw [this]
  have h2 : ∀ os : List SchemaOption, lastGiven (fun o => (tableOf o).map some) os = (lastGiven tableOf os).map some := by
    intro os
    induction os with
    | nil => rfl
    | cons o os ih => rw [lastGiven_cons, lastGiven_cons, ih]; cases lastGiven tableOf os <;> simp
  rw [h2]
  cases lastGiven tableOf os <;> rfl

/-- C141, exactly, for schemas: `NewSchemaFrom` fails if and only if some option cannot be applied after those before it. -/
theorem C141_schema_exact (os : List SchemaOption) : newSchemaFrom os = .err ↔
    ∃ before o after m, os = before ++ o :: after ∧ newSchemaFrom before = .ok m ∧ CannotApply before o := by
  rw [C141_schema_partial]
  have key : ∀ before o m, newSchemaFrom before = .ok m → (o.apply m = .err ↔ CannotApply before o) := by
    intro before o m hm
    have hb := base_of before m hm
    cases o with
    | selectors ss =>
      simp only [SchemaOption.apply]
      rw [hb]
      cases hl : lastGiven tableOf before with
      | none => exact ⟨fun _ => .noTable ss hl, fun _ => rfl⟩
      | some b =>
        cases hs : selectorColumns b ss with
        | none =>
          obtain ⟨x, hx, hc⟩ := (selectorColumns_none ss).mp hs
          exact ⟨fun _ => .noColumn ss b x hl hx hc, fun _ => by simp only [hs]⟩
        | some cs =>
          simp only [hs]
          refine ⟨fun h => (nomatch h), fun h => ?_⟩
          cases h with
          | noTable _ h => rw [hl] at h; cases h
          | noColumn _ b' x h hx hc =>
            rw [hl] at h
            cases h
            rw [(selectorColumns_none ss).mpr ⟨x, hx, hc⟩] at hs
            cases hs
    | rowObject o =>
      simp only [SchemaOption.apply]
      cases ho : objectColumns o with
      | none =>
        obtain ⟨e, he, hn⟩ := (objectColumns_none o).mp ho
        exact ⟨fun _ => .noType o e he hn, fun _ => rfl⟩
      | some cs =>
        refine ⟨fun h => (nomatch h), fun h => ?_⟩
        cases h with
        | noType _ e he hn => rw [(objectColumns_none o).mpr ⟨e, he, hn⟩] at ho; cases ho
    | tableSchema b => cases b <;> exact ⟨fun h => (nomatch h), fun h => (nomatch h)⟩
    | _ => exact ⟨fun h => (nomatch h), fun h => (nomatch h)⟩
  constructor
  · rintro ⟨b, o, a, m, h1, h2, h3⟩; exact ⟨b, o, a, m, h1, h2, (key b o m h2).mp h3⟩
  · rintro ⟨b, o, a, m, h1, h2, h3⟩; exact ⟨b, o, a, m, h1, h2, (key b o m h2).mpr h3⟩

/-- C141, exactly, for result sets: `NewResultSetFrom` fails if and only if rows of another type than the two known ones are
given. -/
theorem C141_resultset_exact {V F T : Type} (os : List (RSetOption V F T)) :
    (newResultSetFrom os = .err ↔ .rowsOf .other ∈ os) ∧ newResultSetFrom os ≠ .panic := by
  suffices h : ∀ r : RSet V F T, (applyUntil RSetOption.apply r os = .err ↔ .rowsOf .other ∈ os) ∧ applyUntil RSetOption.apply r os ≠ .panic from h {}
  induction os with
  | nil => intro r; exact ⟨⟨fun h => (nomatch h), fun h => (nomatch h)⟩, fun h => nomatch h⟩
  | cons o os ih =>
    intro r
    cases o with
    | rowsOf a =>
      cases a with
      | other => simp [applyUntil, RSetOption.apply]
      | rows rs => simpa [applyUntil, RSetOption.apply] using ih _
      | maps ms => simpa [applyUntil, RSetOption.apply] using ih _
    | _ => simpa [applyUntil, RSetOption.apply] using ih _

/-- C142, what result sets are made of: every part is that of the last option for it, or empty; and maps become rows by the
schema given before them, if any. -/
theorem C142_resultset_parts {V F T : Type} (os : List (RSetOption V F T)) (r : RSet V F T) (h : newResultSetFrom os = .ok r) :
    r.rowsAffected = (lastGiven (fun | .rowsAffected n => some n | _ => none) os).getD 0 ∧
    r.schema = (lastGiven schemaGiven os).getD none ∧
    r.offset = (lastGiven (fun | .offset n => some n | _ => none) os).getD 0 ∧
    r.limit = (lastGiven (fun | .limit n => some n | _ => none) os).getD 0 ∧
    r.groupBy = (lastGiven (fun | .groupBy g => some g | _ => none) os).getD [] ∧
    r.cursor = 0 ∧
    (∀ before o after rs, os = before ++ o :: after → rowsGiven ((lastGiven schemaGiven before).getD none) o = some rs →
      (∀ p ∈ after, rowsGiven none p = none) → r.rows = rs) ∧
    ((∀ p ∈ os, rowsGiven none p = none) → r.rows = []) := by
  have hpart : ∀ {α : Type} (get : RSet V F T → α) (pick : RSetOption V F T → Option α),
      (∀ s o s', RSetOption.apply s o = .ok s' → get s' = (pick o).getD (get s)) → ∀ os s r, applyUntil RSetOption.apply s os = .ok r →
      get r = (lastGiven pick os).getD (get s) := fun get pick h os s r => until_part get pick h os s r
  have hschema : ∀ os s r, applyUntil RSetOption.apply s os = .ok r → r.schema = (lastGiven (schemaGiven (V := V) (F := F) (T := T)) os).getD s.schema :=
    hpart (fun r => r.schema) schemaGiven (by
      intro s o s' ha
      rcases o with _ | _ | _ | _ | _ | _ | (_ | _ | _) <;> cases ha <;> rfl)
  have hrows : ∀ os s r, applyUntil RSetOption.apply s os = .ok r → (∀ p ∈ os, rowsGiven (V := V) (F := F) (T := T) none p = none) → r.rows = s.rows := by
    intro os
    induction os with
    | nil => intro s r h _; cases h; rfl
    | cons o os ih =>
      intro s r h hn
      have ho := hn o (by simp)
      have hos : ∀ p ∈ os, rowsGiven none p = none := fun p hp => hn p (by simp [hp])
      rcases o with _ | _ | _ | _ | _ | _ | (_ | _ | _) <;> simp only [applyUntil, RSetOption.apply] at h <;> first
        | (cases h; done)
        | (exact (ih _ _ h hos).trans rfl)
        | (cases ho; done)
  refine ⟨?_, hschema os {} r h, ?_, ?_, ?_, ?_, ?_, fun hn => hrows os {} r h hn⟩
  · exact hpart (fun r => r.rowsAffected) _ (by intro s o s' ha; rcases o with _ | _ | _ | _ | _ | _ | (_ | _ | _) <;> cases ha <;> rfl) os {} r h
  · exact hpart (fun r => r.offset) _ (by intro s o s' ha; rcases o with _ | _ | _ | _ | _ | _ | (_ | _ | _) <;> cases ha <;> rfl) os {} r h
  · exact hpart (fun r => r.limit) _ (by intro s o s' ha; rcases o with _ | _ | _ | _ | _ | _ | (_ | _ | _) <;> cases ha <;> rfl) os {} r h
  · exact hpart (fun r => r.groupBy) _ (by intro s o s' ha; rcases o with _ | _ | _ | _ | _ | _ | (_ | _ | _) <;> cases ha <;> rfl) os {} r h
  · have := hpart (fun r => r.cursor) (fun _ => none) (by intro s o s' ha; rcases o with _ | _ | _ | _ | _ | _ | (_ | _ | _) <;> cases ha <;> rfl) os {} r h
    rw [this]
    have : ∀ os : List (RSetOption V F T), lastGiven (fun _ => (none : Option Nat)) os = none := by
      intro os
      induction os with
      | nil => rfl
      | cons o os ih => rw [lastGiven_cons, ih]; rfl
    rw [this]; rfl
  · intro before o after rs he hg hn
    rw [he] at h
    obtain ⟨m, h1, h2⟩ := until_append.mp h
    have hm := hschema before {} m h1
    rw [show (({} : RSet V F T).schema) = none from rfl] at hm
    rw [← hm] at hg
    rcases o with _ | _ | rs' | _ | _ | _ | (rs' | ms | _) <;> simp only [applyUntil, RSetOption.apply] at h2 <;> cases hg
    · exact hrows after _ r h2 hn
    · exact hrows after _ r h2 hn
    · exact hrows after _ r h2 hn

example : newResultSetFrom (V := Nat) (F := Nat) (T := Nat) [.limit 1, .rowsOf .other, .limit 2] = .err := (C141_resultset_exact _).1.mpr (by simp)

example : CannotApply [.table s%"t"] (.selectors [.col { name := s%"a" }]) := .noTable _ rfl

example (m : GoMap Str (Option Nat)) : ∃ r, newResultSetFrom (F := Nat) (T := Nat) [.limit 1, .rows [], .offset 3, .limit 2, .rowsOf (.maps [m])] = .ok r ∧
    r.limit = 2 ∧ r.offset = 3 ∧ r.rows = [{ object := some m, schema := none }] :=
  ⟨_, rfl, rfl, rfl, (C142_resultset_parts (F := Nat) (T := Nat) [.limit 1, .rows [], .offset 3, .limit 2, .rowsOf (.maps [m])] _ rfl).2.2.2.2.2.2.1
    [.limit 1, .rows [], .offset 3, .limit 2] (.rowsOf (.maps [m])) [] _ rfl rfl (by simp)⟩

end Verif.Props
