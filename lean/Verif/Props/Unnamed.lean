import Verif.Props.ResultSet
import Verif.Lemmas.Unnamed
/-! C191: rows without a schema. -/
namespace Verif.Props
open Verif Verif.Rs

variable {V F T : Type}

/-- C191, by name: in a row built from values and no schema, the value at position i (from 0) is found under the decimal
numeral of i + 1, and there is an error for every other name. -/
theorem C191_names (vs : List (Option V)) :
    (∀ (i : Nat) v, vs[i]? = some v → ((({ values := some vs } : Row V F T)).valueBy (Nat.repr (i + 1)).toList).2 = .ok v) ∧
    (∀ name, (∀ i, i < vs.length → name ≠ (Nat.repr (i + 1)).toList) → ((({ values := some vs } : Row V F T)).valueBy name).2 = .err) := by
  have hk : ∀ name, ((({ values := some vs } : Row V F T)).valueBy name).2 =
      (match (objectOf (numbers vs.length) vs).get? name with | some v => (Res.ok v : Res (Option V)) | none => .err) := fun _ => rfl
  constructor
  · intro i v hv
    obtain ⟨hi, rfl⟩ := List.getElem?_eq_some_iff.mp hv
    rw [hk, ← ofNat_repr, object_numbers vs i hi]
  · intro name hn
    rw [hk, get_not_key]
    rw [keys_objectOf _ (numbers_nodup _)]
    intro hm
    obtain ⟨i, hi, rfl⟩ := List.mem_map.mp hm
    exact hn i (List.mem_range.mp hi) (ofNat_repr _)

/-- C191, by position: the values of a row built from an object and no schema are the object's values in ascending order of
their names. -/
theorem C191_order (o : GoMap Str (Option V)) (hn : o.keys.Nodup) : ∃ names : List Str, names.Perm o.keys ∧ names.Pairwise (· < ·) ∧
    (({ object := some o } : Row V F T)).getValues.2 = names.map (fun n => (o.get? n).join) := by
  refine ⟨sortKeys o.keys, sortKeys_perm _, sortKeys_sorted _ hn, ?_⟩
  rw [Lemmas.values_of_object _ o rfl rfl]
  apply List.map_congr_left
  intro n _
  simp only [valueOf]
  cases o.get? n <;> rfl

/-- The values of a row built from the object of a row built from values, both without a schema. -/
theorem unnamed_back (vs : List (Option V)) :
    (({ object := some ({ values := some vs } : Row V F T).getObject.2 } : Row V F T)).getValues.2 =
      (sortKeys (numbers vs.length)).map (valueOf (objectOf (numbers vs.length) vs)) := by
  rw [Lemmas.values_of_object _ _ rfl rfl]
  have : ({ values := some vs } : Row V F T).getObject.2 = objectOf (numbers vs.length) vs := rfl
  rw [this, Row.namesForObject, keys_objectOf _ (numbers_nodup _)]

/-- C191 for at most nine values: a row built from the object of a row of these values has the same values in the same order.
Missing from the full statement: ten values and more, see `C191_back_fails`. -/
theorem C191_back_partial (vs : List (Option V)) (h : vs.length ≤ 9) :
    (({ object := some ({ values := some vs } : Row V F T).getObject.2 } : Row V F T)).getValues.2 = vs := by
  rw [unnamed_back, sorted_few h]
  apply List.ext_getElem (by simp [numbers])
  intro i h1 h2
  have hi : (numbers vs.length)[i]'(by simpa [numbers] using h2) = Str.ofNat (i + 1) := by simp [numbers]
  rw [List.getElem_map, hi, valueOf, object_numbers vs i h2]

/-- C191 is false of the code for ten values and more: in a row built from the object of a row of these values, there are as many
values, and the second of them is the tenth of the given ones, because the names are sorted as texts, 10 before 2. -/
theorem C191_back_fails (vs : List (Option V)) (h : 10 ≤ vs.length) :
    (({ object := some ({ values := some vs } : Row V F T).getObject.2 } : Row V F T)).getValues.2.length = vs.length ∧
    (({ object := some ({ values := some vs } : Row V F T).getObject.2 } : Row V F T)).getValues.2[1]? = vs[9]? := by
  rw [unnamed_back]
  constructor
  · rw [List.length_map, (sortKeys_perm _).length_eq]; simp [numbers]
  · obtain ⟨l, hl⟩ := sorted_numbers h
    rw [hl]
    have ten : Str.ofNat (9 + 1) = s%"10" := by rw [Str.ofNat, Str.ofNat]; rfl
    have := object_numbers vs 9 (by omega)
    rw [ten] at this
    simp only [List.map_cons, List.getElem?_cons_succ, List.getElem?_cons_zero, valueOf, this]
    rw [List.getElem?_eq_getElem (by omega)]

/-- C191, exactly: a list of values without repetition comes back in order if and only if there are at most nine. -/
theorem C191_back_iff (vs : List (Option V)) (hn : vs.Nodup) :
    (({ object := some ({ values := some vs } : Row V F T).getObject.2 } : Row V F T)).getValues.2 = vs ↔ vs.length ≤ 9 := by
  constructor
  · intro he
    refine Decidable.byContradiction fun hc => ?_
    have h := (C191_back_fails (F := F) (T := T) vs (by omega)).2
    rw [he] at h
    have := (List.getElem?_inj (i := 1) (j := 9) (by omega) hn).mp h
    omega
  · exact C191_back_partial vs

example : (([none, some 4, some 7] : List (Option Nat)).length ≤ 9) ∧ ([none, some 4, some 7] : List (Option Nat)).Nodup := by decide
example : 10 ≤ ((List.range 12).map some).length := by decide
example : (({ object := some ({ values := some ((List.range 11).map some) } : Row Nat Nat Unit).getObject.2 } : Row Nat Nat Unit)).getValues.2[1]? =
    some (some 9) := (C191_back_fails (F := Nat) (T := Unit) ((List.range 11).map some) (by decide)).2
example : ((({ values := some [some 5, none, some 6] } : Row Nat Nat Unit)).valueBy s%"3").2 = .ok (some 6) :=
  (C191_names (F := Nat) (T := Unit) [some 5, none, some 6]).1 2 _ rfl
example : (GoMap.keys ([(s%"b", some 1), (s%"a", some 2)] : GoMap Str (Option Nat))).Nodup := by decide

end Verif.Props
