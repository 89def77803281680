import Verif.Props.Errors
import Verif.Spec.ErrorTexts
import Verif.Lemmas.Str
/-! C193: the texts of errors. -/
namespace Verif.Props
open Verif Verif.Errors Verif.Spec

/-- The exported constructor of an error about one thing. -/
def complain : Complaint → Str → Err
  | .databaseNotExist => newErrDatabaseNotExist
  | .tableNotExist => newErrTableNotExist
  | .databaseExist => newErrDatabaseExist
  | .tableExist => newErrTableExist
  | .columnNotExist => newErrColumnNotExist
  | .columnValueNotExist => newErrColumnValueNotExist
  | .groupByNotFound => newErrGroupByColumnValueNotFound
  | .statementNotExist => newErrPreparedStatementNotExist
  | .portalNotExist => newErrPreparedPortalNotExist
  | .manyStatements => newErrMultiplePreparedStatementNotSupported
  | .manyTables => newErrMultipleTableNotSupported
  | .noTable => newErrNoTable

/-- C193: the text of an error about one thing is the thing, verbatim, between the two fixed texts of its kind. -/
theorem C193_text (k : Complaint) (v : Str) : (complain k v).msg = k.text.1 ++ v ++ k.text.2 := by
  cases k <;> simp [complain, Complaint.text, newErrDatabaseNotExist, newErrTableNotExist, newErrDatabaseExist, newErrTableExist, newErrColumnNotExist,
    newErrColumnValueNotExist, newErrGroupByColumnValueNotFound, newErrPreparedStatementNotExist, newErrPreparedPortalNotExist,
    newErrMultiplePreparedStatementNotSupported, newErrMultipleTableNotSupported, newErrNoTable, errAbout, Sentinel.text]

/-- C193: the text of such an error determines which one it is and what it is about. No thing, whatever brackets and words occur
in it, makes the text of one kind look like that of another. -/
theorem C193_apart (k k' : Complaint) (v v' : Str) : (complain k v).msg = (complain k' v').msg ↔ k = k' ∧ v = v' := by
  constructor
  · intro h
    rw [C193_text, C193_text] at h
    by_cases hk : k = k'
    · subst hk
      exact ⟨rfl, by simpa using h⟩
    · exact absurd h (clash_ne (Complaint.clash hk) v v')
  · rintro ⟨rfl, rfl⟩; rfl

/-- C193: the text of the error about two numbers of columns determines both. -/
theorem C193_numbers (a b a' b' : Nat) : (newErrColumnsNotEqual a b).msg = (newErrColumnsNotEqual a' b').msg ↔ a = a' ∧ b = b' := by
  constructor
  · intro h
    have h1 : Str.ofNat a ++ ')' :: (s%" is not equal to the number of schema columns (" ++ (Str.ofNat b ++ s%")")) =
        Str.ofNat a' ++ ')' :: (s%" is not equal to the number of schema columns (" ++ (Str.ofNat b' ++ s%")")) := by
      have e : ∀ a b : Nat, (newErrColumnsNotEqual a b).msg = s%"the number of columns (" ++
          (Str.ofNat a ++ ')' :: (s%" is not equal to the number of schema columns (" ++ (Str.ofNat b ++ s%")"))) := by
        intro a b
        have e1 : ∀ n : Nat, Str.ofInt (n : Int) = Str.ofNat n := fun _ => rfl
        rw [newErrColumnsNotEqual]
        simp only [e1, Sentinel.text, List.append_assoc, List.cons_append, List.nil_append]
      rw [e, e] at h
      exact List.append_cancel_left h
    have hd : ∀ n : Nat, ∀ c ∈ Str.ofNat n, (c != ')') = true := by
      intro n c hc
      have := Str.ofNat_digits n c hc
      simp only [bne_iff_ne]
      rintro rfl
      exact absurd this (by decide)
    have ht : ∀ (n : Nat) (r : Str), (Str.ofNat n ++ ')' :: r).takeWhile (· != ')') = Str.ofNat n := by
      intro n r
      rw [List.takeWhile_append_of_pos (hd n)]
      simp
    have ha := congrArg (List.takeWhile (· != ')')) h1
    rw [ht, ht] at ha
    have ha' := Str.ofNat_inj ha
    subst ha'
    have h2 := List.append_cancel_left h1
    rw [List.cons.injEq] at h2
    have h3 := List.append_cancel_right (List.append_cancel_left h2.2)
    exact ⟨rfl, Str.ofNat_inj h3⟩
  · rintro ⟨rfl, rfl⟩; rfl

/-- C193 is false for the general constructors: the text of `NewErrNotSupported` can be that of another kind about another thing,
for every thing, and the text for something that exists says that it does not. -/
theorem C193_general_fails (v : Str) :
    (newErrNotSupported (s%"multiple table (" ++ v ++ s%")")).msg = (newErrMultipleTableNotSupported v).msg ∧
    (newErrExist v).msg = v ++ s%" is not exists" ∧ (newErrNotExist v).msg = v ++ s%" is not exists" := by
  refine ⟨?_, rfl, rfl⟩
  simp [newErrNotSupported, newErrMultipleTableNotSupported, errAbout, Sentinel.text]

/-- What holds of the general constructors: within each the text determines the thing, and it says what is the matter with it. -/
theorem C193_general_partial (v w : Str) :
    (newErrNotImplemented v).msg = v ++ s%" is not implemented" ∧ (newErrNotSupported v).msg = v ++ s%" is not supported" ∧
    ((newErrNotImplemented v).msg = (newErrNotImplemented w).msg ↔ v = w) ∧ ((newErrNotSupported v).msg = (newErrNotSupported w).msg ↔ v = w) ∧
    ((newErrNotExist v).msg = (newErrNotExist w).msg ↔ v = w) ∧ ((newErrExist v).msg = (newErrExist w).msg ↔ v = w) ∧
    (newErrNotImplemented v).msg ≠ (newErrNotSupported w).msg := by
  refine ⟨by simp [newErrNotImplemented, Sentinel.text], rfl, by simp [newErrNotImplemented], by simp [newErrNotSupported],
    by simp [newErrNotExist], by simp [newErrExist], ?_⟩
  have := clash_ne (a := ([], s%" is not implemented")) (b := ([], s%" is not supported")) (by decide +kernel) v w
  simpa [newErrNotImplemented, newErrNotSupported, Sentinel.text] using this

example : (complain .columnNotExist s%"a) value (b").msg = s%"column (a) value (b) is not exist" := by decide +kernel
example : (newErrColumnsNotEqual 2 13).msg = s%"the number of columns (2) is not equal to the number of schema columns (13)" := by decide +kernel

end Verif.Props
