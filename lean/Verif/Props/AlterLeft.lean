import Verif.Props.Schema
/-! C16: what an ALTER TABLE that fails leaves behind. -/
namespace Verif.Props
open Verif Verif.Util Verif.Query Verif.Spec Verif.Lemmas

/-- The statement renames the table or a column. -/
def Renames (a : AlterTable) : Prop := a.renameTo ≠ none ∨ (a.renameColumnFrom ≠ none ∧ a.renameColumnTo ≠ none)

theorem rename_schema (s : Schema) (a : AlterTable) : (s.alterRename a).1 = s := by
  unfold Schema.alterRename
  split
  · rfl
  · split <;> rfl

theorem renameError_ne (a : AlterTable) : renameError a ≠ .ok () := by
  unfold renameError
  split <;> nofun

theorem rename_never (s : Schema) (a : AlterTable) (h : Renames a) : (s.alterRename a).2 ≠ .ok () := by
  unfold Schema.alterRename
  split
  · exact renameError_ne a
  · rename_i h0
    rcases h with h | ⟨h1, h2⟩
    · exact absurd h0 h
    · split
      · exact renameError_ne a
      · rename_i hn
        cases hf : a.renameColumnFrom with
        | none => exact absurd hf h1
        | some x =>
          cases ht : a.renameColumnTo with
          | none => exact absurd ht h2
          | some y => exact absurd ht (hn x y hf)

theorem dropIndex_columns (s : Schema) (n : Str) : (s.dropIndex n).1.columns = s.columns := by
  unfold Schema.dropIndex
  split <;> rfl

theorem dropColumn_indexes (s : Schema) (n : Str) : (s.dropColumn n).1.indexes = s.indexes := by
  unfold Schema.dropColumn
  split <;> rfl

theorem alterDropIndex_columns (s : Schema) (a : AlterTable) : (s.alterDropIndex a).1.columns = s.columns := by
  unfold Schema.alterDropIndex
  split
  · rw [rename_schema]
  · dsimp only
    split
    · rw [rename_schema, dropIndex_columns]
    · exact dropIndex_columns ..

theorem alterDropIndex_never (s : Schema) (a : AlterTable) (h : Renames a) : (s.alterDropIndex a).2 ≠ .ok () := by
  unfold Schema.alterDropIndex
  split
  · exact rename_never s a h
  · dsimp only
    split
    · exact rename_never _ a h
    · nofun

theorem alterDropColumn_never (s : Schema) (a : AlterTable) (h : Renames a) : (s.alterDropColumn a).2 ≠ .ok () := by
  unfold Schema.alterDropColumn
  split
  · exact alterDropIndex_never s a h
  · dsimp only
    split
    · exact alterDropIndex_never _ a h
    · nofun

theorem alterDropColumn_indexes (s : Schema) (a : AlterTable) (h : a.dropIndex = none) : (s.alterDropColumn a).1.indexes = s.indexes := by
  have hr : ∀ s : Schema, (s.alterDropIndex a).1 = s := fun s => by rw [Schema.alterDropIndex, h]; exact rename_schema s a
  unfold Schema.alterDropColumn
  split
  · rw [hr]
  · dsimp only
    split
    · rw [hr, dropColumn_indexes]
    · exact dropColumn_indexes ..

/-- C16: a statement that renames anything never succeeds, whatever the schema and the other clauses are. -/
theorem C16_rename_refused (s : Schema) (a : AlterTable) (h : Renames a) : (s.alter a).2 ≠ .ok () := alterDropColumn_never _ a h

/-- C16 fails for every schema and every statement that adds a column, drops none and renames anything: it does not succeed,
and the column is added. -/
theorem C16_column_left_fails (s : Schema) (a : AlterTable) (c : Column) (hc : a.addColumn = some c) (hd : a.dropColumn = none) (hr : Renames a) :
    (s.alter a).2 ≠ .ok () ∧ (s.alter a).1.columns = s.columns ++ [c] ∧ (s.alter a).1 ≠ s := by
  have h : (s.alter a).1.columns = s.columns ++ [c] := by
    simp only [Schema.alter, hc, Schema.alterDropColumn, hd, alterDropIndex_columns]
    cases a.addIndex <;> rfl
  refine ⟨C16_rename_refused s a hr, h, fun he => ?_⟩
  rw [he] at h
  simpa using congrArg List.length h

/-- C16 fails for every schema and every statement that adds an index, drops none and renames anything: it does not succeed,
and the index is added. -/
theorem C16_index_left_fails (s : Schema) (a : AlterTable) (i : Index) (hi : a.addIndex = some i) (hd : a.dropIndex = none) (hr : Renames a) :
    (s.alter a).2 ≠ .ok () ∧ (s.alter a).1.indexes = s.indexes ++ [i] ∧ (s.alter a).1 ≠ s := by
  have h : (s.alter a).1.indexes = s.indexes ++ [i] := by
    simp only [Schema.alter, hi, alterDropColumn_indexes _ a hd]
    cases a.addColumn <;> rfl
  refine ⟨C16_rename_refused s a hr, h, fun he => ?_⟩
  rw [he] at h
  simpa using congrArg List.length h

example : let a : AlterTable := { table := { name := s%"t" }, addColumn := some { name := s%"a" }, addIndex := some { name := s%"i", columns := [], typ := .secondary }, renameTo := some { name := s%"u" } }
    Renames a ∧ a.dropColumn = none ∧ a.dropIndex = none := ⟨.inl nofun, rfl, rfl⟩

end Verif.Props
