import Verif.Props.TableWritten
/-! C102: no constraint of a column and no schema of a table is ever reported. -/
namespace Verif.Props
open Verif Verif.Lex Verif.Gram Verif.Query Verif.Parse Verif.Spec Verif.Lemmas

/-- A column as ParseString reports it: it has a type, and no constraint whatever is written. -/
def Unconstrained (c : Column) : Prop :=
  c.lit = none ∧ ∃ d, c.def_ = some d ∧ Constraint.isPrimaryKey d.consts = false ∧ Constraint.isNotNull d.consts = false ∧
    Constraint.isUnique d.consts = false

theorem typeWritten_free {ws ss : List Str} {t : ColumnDef} (h : TypeWritten ws ss t) : t.consts = 0 := by
  cases h <;> rfl

theorem built_free {pre : List Column} {ds : List Def} {all : List Column} {is : List Index} (h : Built pre ds all is)
    (hp : ∀ c ∈ pre, Unconstrained c) : ∀ c ∈ all, Unconstrained c := by
  induction h with
  | nil => exact hp
  | cons cols d ds o k all is ho hk _ ih =>
    refine ih (fun c hc => ?_)
    rcases List.mem_append.mp hc with hc | hc
    · exact hp c hc
    · cases ho with
      | untyped => cases hc
      | word => cases hc
      | col n t hn hk ht =>
        simp only [Option.toList, List.mem_cons, List.not_mem_nil, or_false] at hc
        subst hc
        refine ⟨rfl, t, rfl, ?_⟩
        rw [typeWritten_free ht]
        decide

theorem pieces_each {P : List Token → Statement → Prop} {toks : List Token} {l : List Statement} (h : Pieces P toks l) :
    ∀ s ∈ l, ∃ own, P own s := by
  induction h with
  | nil => intro s hs; cases hs
  | cons b o hp _ _ ih =>
    intro s hs
    rcases List.mem_cons.mp hs with rfl | hs
    · exact ⟨o, hp⟩
    · exact ih s hs

/-- C102 fails for every table with a schema or with constraints on its columns: in no CREATE TABLE that ParseString reports, for
any query, does the table have a schema or any column a constraint; NOT NULL, UNIQUE and PRIMARY KEY tests are false of all columns. -/
theorem C102_never_fails (toUint : Str → Option Nat) (q : Str) (l : List Statement) (h : parseQuery toUint q = .ok l) (s : Schema) (b : Bool)
    (hs : .createTable s b ∈ l) : s.table.schema = [] ∧ ∀ c ∈ s.columns, Unconstrained c := by
  obtain ⟨toks, -, hp⟩ := C136_create_table_partial toUint q l h
  obtain ⟨own, hw⟩ := pieces_each hp _ hs
  obtain ⟨w, tmp, t, ine, qual, name, rest, -, -, -, -, -, -, -, -, hsch, hb⟩ := hw s b rfl
  refine ⟨hsch, ?_⟩
  rcases hb with ⟨a, sel, -, -, hc, -⟩ | ⟨o, body, c, opts, ks, ds, os, -, -, -, -, -, hbuilt, -⟩
  · rw [hc]
    intro c hc
    cases hc
  · exact built_free hbuilt (by intro c hc; cases hc)

set_option maxRecDepth 10000 in
example : parseQuery (fun _ => none) s%"CREATE TABLE s.t (a INT NOT NULL UNIQUE, b INT PRIMARY KEY)" =
    .ok [.createTable { table := { name := s%"t" }, columns := [{ name := s%"a", def_ := some { typ := .int, length := -1 } },
      { name := s%"b", def_ := some { typ := .int, length := -1 } }], indexes := [newPrimaryIndexWith [{ name := s%"b", def_ := some { typ := .int, length := -1 } }]] } false] := by krfl

end Verif.Props
