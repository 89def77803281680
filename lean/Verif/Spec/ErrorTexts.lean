import Verif.Model.Str
/-! The texts of errors. -/
namespace Verif.Spec
open Verif

/-- The errors about one thing. -/
inductive Complaint
  | databaseNotExist | tableNotExist | databaseExist | tableExist | columnNotExist | columnValueNotExist | groupByNotFound
  | statementNotExist | portalNotExist | manyStatements | manyTables | noTable
  deriving DecidableEq, Repr

/-- All of them. -/
def Complaint.all : List Complaint := [.databaseNotExist, .tableNotExist, .databaseExist, .tableExist, .columnNotExist, .columnValueNotExist,
  .groupByNotFound, .statementNotExist, .portalNotExist, .manyStatements, .manyTables, .noTable]

theorem Complaint.mem_all (k : Complaint) : k ∈ Complaint.all := by cases k <;> decide

/-- What the text says before and after the thing. -/
def Complaint.text : Complaint → Str × Str
  | .databaseNotExist => (s%"database (", s%") is not exist")
  | .tableNotExist => (s%"table (", s%") is not exist")
  | .databaseExist => (s%"database (", s%") is exist")
  | .tableExist => (s%"table (", s%") is exist")
  | .columnNotExist => (s%"column (", s%") is not exist")
  | .columnValueNotExist => (s%"column (", s%") value is not exist")
  | .groupByNotFound => (s%"group by column (", s%") value is not found")
  | .statementNotExist => (s%"prepared statement (", s%") is not exist")
  | .portalNotExist => (s%"prepared portal (", s%") is not exist")
  | .manyStatements => (s%"multiple prepared statement (", s%") is not supported")
  | .manyTables => (s%"multiple table (", s%") is not supported")
  | .noTable => (s%"no table specified in query (", s%")")

/-- Two texts around a thing cannot be taken for each other: their beginnings differ somewhere, or their ends do. -/
def clash (a b : Str × Str) : Bool :=
  (!a.1.isPrefixOf b.1 && !b.1.isPrefixOf a.1) || (!a.2.isSuffixOf b.2 && !b.2.isSuffixOf a.2)

theorem clash_ne {a b : Str × Str} (h : clash a b = true) (v w : Str) : a.1 ++ v ++ a.2 ≠ b.1 ++ w ++ b.2 := by
  intro he
  have hp : a.1 <+: b.1 ∨ b.1 <+: a.1 := by
    refine List.prefix_or_prefix_of_prefix (l₃ := a.1 ++ v ++ a.2) ⟨v ++ a.2, by simp⟩ ?_
    rw [he]
    exact ⟨w ++ b.2, by simp⟩
  have hs : a.2 <:+ b.2 ∨ b.2 <:+ a.2 := by
    refine List.suffix_or_suffix_of_suffix (l₃ := a.1 ++ v ++ a.2) ⟨a.1 ++ v, by simp⟩ ?_
    rw [he]
    exact ⟨b.1 ++ w, by simp⟩
  simp only [clash, Bool.or_eq_true, Bool.and_eq_true, Bool.not_eq_true', ← Bool.not_eq_true, List.isPrefixOf_iff_prefix, List.isSuffixOf_iff_suffix] at h
  rcases h with ⟨h1, h2⟩ | ⟨h1, h2⟩
  · exact hp.elim h1 h2
  · exact hs.elim h1 h2

theorem Complaint.clash {a b : Complaint} (h : a ≠ b) : Spec.clash a.text b.text = true := by
  have : ∀ a ∈ Complaint.all, ∀ b ∈ Complaint.all, a ≠ b → Spec.clash a.text b.text = true := by decide +kernel
  exact this a a.mem_all b b.mem_all h

end Verif.Spec
