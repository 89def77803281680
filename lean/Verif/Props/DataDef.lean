import Verif.Lemmas.TableWritten
/-! C22: exact forms. -/
namespace Verif.Props
open Verif Verif.Query Verif.Spec Verif.Lemmas

theorem dataDef_iff (w : Str) (l : Int) (d : ColumnDef) : newDataDefFrom w l = some d ↔ ∃ t, TypeWord w t ∧ d = { typ := t, length := l } := by
  unfold newDataDefFrom
  rw [Option.map_eq_some_iff]
  constructor
  · rintro ⟨t, h, rfl⟩; exact ⟨t, (typeWord_iff w t).mpr h, rfl⟩
  · rintro ⟨t, h, rfl⟩; exact ⟨t, (typeWord_iff w t).mp h, rfl⟩

/-- C22, exactly which lists of tokens are read, and as what: a type name in any case, and the length in the third token behind
it, if it has an opening parenthesis before it or a closing one behind it, one of them being enough. -/
theorem C22_exact (ts : List Str) (d : ColumnDef) : newDataDefFromStrings ts = some d ↔ DefWritten ts d := by
  constructor
  · intro h
    unfold newDataDefFromStrings at h
    split at h
    · cases h
    · split at h
      · rename_i hp
        split at h
        · cases h
        · rename_i v hv
          obtain ⟨t, h1, rfl⟩ := (dataDef_iff _ _ _).mp h
          exact .sized _ _ _ _ _ t v h1 hp ((atoi_iff _ _).mp hv)
      · rename_i hp
        obtain ⟨t, h1, rfl⟩ := (dataDef_iff _ _ _).mp h
        exact .plain _ _ _ _ _ t h1 (fun e => hp (Or.inl e)) (fun e => hp (Or.inr e))
    · rename_i w rest hn
      obtain ⟨t, h1, rfl⟩ := (dataDef_iff _ _ _).mp h
      refine .short _ _ t h1 ?_
      match rest, hn with
      | [], _ => simp
      | [_], _ => simp
      | [_, _], _ => simp
      | a :: b :: c :: r, hn => exact absurd rfl (hn a b c r)
  · intro h
    cases h with
    | short w rest t h hl =>
      have := (dataDef_iff w (-1) _).mpr ⟨t, h, rfl⟩
      match rest, hl with
      | [], _ => exact this
      | [_], _ => exact this
      | [_, _], _ => exact this
      | a :: b :: c :: r, hl => simp at hl; omega
    | plain w a n b rest t h ha hb =>
      show (if a = s%"(" ∨ b = s%")" then _ else _) = _
      rw [if_neg (by simp [ha, hb])]
      exact (dataDef_iff w (-1) _).mpr ⟨t, h, rfl⟩
    | sized w a n b rest t v h hp hv =>
      show (if a = s%"(" ∨ b = s%")" then _ else _) = _
      rw [if_pos hp, (atoi_iff n v).mpr hv]
      exact (dataDef_iff w v _).mpr ⟨t, h, rfl⟩

/-- C22 is false of the code for every length that is not positive, and not the one that stands for none: the text has no
length, and its tokens are read as a definition without one. -/
theorem C22_length_fails (t : DataType) (hn : t.toStr ≠ []) (l : Int) (hl : l ≤ 0) (hm : l ≠ -1) :
    ({ typ := t, length := l } : ColumnDef).toStr = t.toStr ∧ newDataDefFromStrings (defTokens t.toStr none) = some { typ := t, length := -1 } ∧
    newDataDefFromStrings (defTokens t.toStr none) ≠ some { typ := t, length := l } := by
  have h := (C22_exact (defTokens t.toStr none) { typ := t, length := -1 }).mpr (.short _ _ t ⟨hn, Or.inl rfl⟩ (by decide))
  refine ⟨by simp [ColumnDef.toStr, Int.not_lt.mpr hl], h, ?_⟩
  rw [h]
  intro e
  simp at e
  exact hm e.symm

example : DefWritten [s%"Varchar", s%"(", s%"-20", s%"x", s%"y"] { typ := .varChar, length := -20 } ∧ DataType.varChar.toStr ≠ [] :=
  ⟨.sized _ _ _ _ _ .varChar _ ⟨by decide +kernel, Or.inl (by decide +kernel)⟩ (Or.inl rfl) (.minus _ (by unfold Digits; decide) (by decide)), by decide +kernel⟩

end Verif.Props
