import Verif.Props.Helpers
import Verif.Props.Schema
/-! C109 for DROP INDEX, exactly, for every schema and every index. -/
namespace Verif.Props
open Verif Verif.Query Verif.Spec Verif.Lemmas

/-- C109 for DROP INDEX, exactly, on every schema: the ALTER TABLE statement made of it is an error if and only if all
indexes of the schema have the name that is to be dropped, and changes nothing then; otherwise it removes the first index
that has another name, and changes nothing else. -/
theorem C109_drop_index_exact (sn idx : Str) (ie : Bool) (sch : Schema) :
    ∃ a, newAlterTableFrom (.dropIndex sn idx ie) = some a ∧
      ((∀ x ∈ sch.indexes, SameName x.name idx) → sch.alter a = (sch, .err)) ∧
      (∀ pre y post, sch.indexes = pre ++ y :: post → (∀ x ∈ pre, SameName x.name idx) → ¬ SameName y.name idx →
        sch.alter a = ({ sch with indexes := pre ++ post }, .ok ())) := by
  obtain ⟨a, ha, hr⟩ := C109_drop_index_partial sn idx ie sch
  refine ⟨a, ha, fun h => ?_, fun pre y post hs hp hy => ?_⟩
  · have : sch.indexes.findIdx? (fun i => !Str.eqFold i.name idx) = none := by
      rw [List.findIdx?_eq_none_iff]
      intro x hx
      simpa using (sameName_iff _ _).mpr (h x hx)
    rw [hr]
    simp [Schema.dropIndex, this]
  · have : sch.indexes.findIdx? (fun i => !Str.eqFold i.name idx) = some pre.length := by
      rw [List.findIdx?_eq_some_iff_getElem]
      refine ⟨by simp [hs], ?_, ?_⟩
      · simp only [hs, List.getElem_append_right (Nat.le_refl _), Nat.sub_self, List.getElem_cons_zero, Bool.not_eq_true']
        exact Bool.eq_false_iff.mpr fun h => hy ((sameName_iff _ _).mp h)
      · intro j hj
        simp only [hs, List.getElem_append_left hj, Bool.not_eq_true', Bool.not_eq_false']
        simpa using (sameName_iff _ _).mpr (hp _ (List.getElem_mem hj))
    have hd : (pre ++ y :: post).drop (pre.length + 1) = post := by
      rw [show pre ++ y :: post = (pre ++ [y]) ++ post by simp, show pre.length + 1 = (pre ++ [y]).length by simp,
        List.drop_left]
    rw [hr]
    simp only [Schema.dropIndex, this, if_true]
    simp only [hs, List.take_left, hd]

/-- C109, negation for every index and every schema: no ALTER TABLE statement made of a DROP INDEX removes an index of the
name it is about. On a schema with that index it is an error, or another index is lost. -/
theorem C109_drop_index_every_fails (sn idx : Str) (ie : Bool) (sch : Schema) (i : Index) (hi : i ∈ sch.indexes)
    (hn : SameName i.name idx) :
    ∃ a, newAlterTableFrom (.dropIndex sn idx ie) = some a ∧ i ∈ (sch.alter a).1.indexes ∧
      ((sch.alter a).2 = .ok () → ∃ y, ¬ SameName y.name idx ∧ sch.indexes.count y = (sch.alter a).1.indexes.count y + 1) := by
  obtain ⟨a, ha, h1, h2⟩ := C109_drop_index_exact sn idx ie sch
  refine ⟨a, ha, ?_⟩
  by_cases hall : ∀ x ∈ sch.indexes, SameName x.name idx
  · rw [h1 hall]
    exact ⟨hi, fun h => nomatch h⟩
  · obtain ⟨pre, y, post, hs, hp, hy⟩ : ∃ pre y post, sch.indexes = pre ++ y :: post ∧ (∀ x ∈ pre, SameName x.name idx) ∧
        ¬ SameName y.name idx := by
      clear h1 h2 hi
      generalize sch.indexes = l at hall
      induction l with
      | nil => exact absurd (by intro x hx; cases hx) hall
      | cons x l ih =>
        by_cases hx : SameName x.name idx
        · obtain ⟨pre, y, post, rfl, hp, hy⟩ := ih fun h => hall fun z hz => by
            rcases List.mem_cons.mp hz with rfl | hz
            · exact hx
            · exact h z hz
          refine ⟨x :: pre, y, post, rfl, ?_, hy⟩
          intro z hz
          rcases List.mem_cons.mp hz with rfl | hz
          · exact hx
          · exact hp z hz
        · exact ⟨[], x, l, rfl, (by intro z hz; cases hz), hx⟩
    rw [h2 pre y post hs hp hy]
    refine ⟨?_, fun _ => ⟨y, hy, ?_⟩⟩
    · rw [hs] at hi
      simp only [List.mem_append, List.mem_cons] at hi ⊢
      rcases hi with h | rfl | h
      · exact .inl h
      · exact absurd hn hy
      · exact .inr h
    · rw [hs]
      simp only [List.count_append, List.count_cons_self]
      omega

example : ∃ (sch : Schema) (i : Index), i ∈ sch.indexes ∧ SameName i.name s%"i" ∧ ¬ ∀ x ∈ sch.indexes, SameName x.name s%"i" :=
  ⟨newSchemaWith s%"t" [] [newSecondaryIndexWith s%"I" [], newSecondaryIndexWith s%"j" []], newSecondaryIndexWith s%"I" [],
    .head _, by decide, by decide⟩

end Verif.Props
