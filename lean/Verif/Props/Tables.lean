import Verif.Lemmas.Parsed
import Verif.Props.Helpers
import Verif.Lemmas.Find
import Verif.Tactic.KRfl
/-! What a reported CREATE TABLE contains: C121 (columns) and C122 (keys). -/
namespace Verif.Lemmas
open Verif Verif.Lex Verif.Gram Verif.Visit Verif.Query Verif.Util Verif.Parse Verif.Props Verif.Spec

/-- Not a word that begins a constraint or key. -/
def NoKeyword (c : Column) : Prop := columnKeywords.any (Str.eqFold c.name) = false

theorem columnWith_word (t : Tree) : (columnWith t).Post (fun o => ∀ c, o = some c → NoKeyword c) := by
  refine .next fun n => ?_
  simp only
  split
  · exact .ok (by simp)
  · rename_i hk
    split
    · exact .ok (by simp)
    · split
      · exact .ok (by simp)
      · exact .ok (by rintro c ⟨⟩; exact eq_false_of_ne_true hk)

/-- Columns that are no keywords; keys that are primary or on one of the columns. -/
def AccOk (a : List Column × List Index) : Prop :=
  (∀ c, c ∈ a.1 → NoKeyword c) ∧ ∀ i, i ∈ a.2 → i.typ = .primary ∨ i.typ = .secondary ∧ ∃ c, c ∈ a.1 ∧ i.columns = [c]

theorem columnStep_ok (t : Tree) {acc : List Column × List Index} (h : AccOk acc) : (columnStep t acc).Post AccOk := by
  refine (columnWith_word t).bind (fun o ho => ?_)
  cases o with
  | none => exact .ok h
  | some c =>
    refine .ok ⟨?_, ?_⟩
    · intro x hx
      rcases List.mem_append.mp hx with hx | hx
      · exact h.1 x hx
      · rw [List.mem_singleton.mp hx]; exact ho c rfl
    · intro i hx
      rcases List.mem_append.mp hx with hx | hx
      · rcases h.2 i hx with h | ⟨h, d, hd, he⟩
        · exact Or.inl h
        · exact Or.inr ⟨h, d, List.mem_append_left _ hd, he⟩
      · obtain ⟨_, -, rfl⟩ := List.mem_map.mp hx
        exact Or.inl rfl

theorem indexStep_ok (t : Tree) {acc : List Column × List Index} (h : AccOk acc) : (indexStep t acc).Post AccOk := by
  have add : ∀ (x : Index), (x.typ = .primary ∨ x.typ = .secondary ∧ ∃ c, c ∈ acc.1 ∧ x.columns = [c]) → AccOk (acc.1, acc.2 ++ [x]) := by
    intro x hx
    refine ⟨h.1, fun i hm => ?_⟩
    rcases List.mem_append.mp hm with hm | hm
    · exact h.2 i hm
    · rw [List.mem_singleton.mp hm]; exact hx
  refine .next fun n => ?_
  split
  · refine .next fun ds => ?_
    split
    · exact .ok (add _ (Or.inl rfl))
    · exact .ok h
  · split
    · refine .next fun ds => ?_
      split
      · rename_i c hs
        exact .ok (add _ (Or.inr ⟨rfl, c, indexScan_mem hs, rfl⟩))
      · exact .ok h
    · exact .ok h

theorem columnDefs_ok (l : List Tree) {acc : List Column × List Index} (h : AccOk acc) : (columnDefs acc l).Post AccOk := by
  induction l generalizing acc with
  | nil => exact .ok h
  | cons t r ih => exact (columnStep_ok t h).bind (fun a ha => (indexStep_ok t ha).bind (fun b hb => ih hb))

theorem tableKeys_primary (t : Tree) : (tableKeys t).Post (fun ks => ∀ i, i ∈ ks → i.typ = IndexType.primary) := by
  refine Res.Post.all (P := fun i : Index => i.typ = IndexType.primary) (fun p _ => ?_)
  exact .next fun cs => .ok rfl

theorem tableSchema_ok (t : Tree) : (tableSchema t).Post (fun s => AccOk (s.columns, s.indexes)) := by
  refine .next fun n => ?_
  refine (columnDefs_ok _ (acc := ([], [])) ⟨fun c hc => (by cases hc), fun c hc => (by cases hc)⟩).bind (fun a ha => ?_)
  refine Res.Post.bind (Q := fun ks => ∀ i, i ∈ ks → i.typ = IndexType.primary) (tableKeys_primary t)
    (fun ks hks => .ok ⟨ha.1, fun i hi => ?_⟩)
  rcases List.mem_append.mp hi with hi | hi
  · exact ha.2 i hi
  · exact Or.inl (hks i hi)

/-- A reported CREATE TABLE comes from a tree. -/
theorem createTable_ok {toUint : Str → Option Nat} {q : Str} {l : List Statement} (h : parseQuery toUint q = .ok l) {s : Schema} {b : Bool}
    (hs : .createTable s b ∈ l) : AccOk (s.columns, s.indexes) := by
  obtain ⟨t, r, cs, f, -, -, -, hm, hf⟩ := parsed_object h hs
  obtain ⟨rfl, rfl⟩ := handlers_select hm hf (r' := .create_table_stmt) rfl rfl
  have hp : (createTable (.node .create_table_stmt cs)).Post (fun y => ∀ s' b', y = .createTable s' b' → AccOk (s'.columns, s'.indexes)) :=
    (tableSchema_ok _).bind fun s hs => .ok (by rintro s' b' ⟨⟩; exact hs)
  exact hp _ hf _ _ rfl

end Verif.Lemmas

namespace Verif.Props
open Verif Verif.Lex Verif.Gram Verif.Query Verif.Parse Verif.Spec Verif.Lemmas

/-- The words that begin a constraint or a key inside CREATE TABLE. -/
def keyWords : List Str := [s%"PRIMARY", s%"KEY", s%"UNIQUE", s%"INDEX", s%"CONSTRAINT"]

/-- C121: no reported CREATE TABLE has a column named like one of the words that begin a constraint or key, in any
letter case. -/
theorem C121_never (toUint : Str → Option Nat) (q : Str) (l : List Statement) (h : parseQuery toUint q = .ok l) (s : Schema) (b : Bool)
    (hs : .createTable s b ∈ l) (c : Column) (hc : c ∈ s.columns) (k : Str) (hk : k ∈ keyWords) : ¬ SameName c.name k := by
  intro hn
  have := (createTable_ok h hs).1 c hc
  rw [NoKeyword, List.any_eq_false] at this
  exact this k hk ((sameName_iff _ _).mpr hn)

/-- A table with one column of type INT. -/
def oneColumn (is : List Index) : List Statement :=
  [.createTable { table := { name := s%"t" }, columns := [{ name := s%"a", def_ := some { typ := .int, length := -1 } }], indexes := is } false]

set_option maxRecDepth 10000 in
example : parseQuery (fun _ => none) s%"CREATE TABLE t (a INT, unique key (a))" = .ok (oneColumn []) := by krfl

set_option maxRecDepth 10000 in
/-- C121: not every declared column is reported: a quoted column named like one of these words is left out, a column
without a type is left out, and neither is an error. -/
theorem C121_fails (toUint : Str → Option Nat) :
    parseQuery toUint s%"CREATE TABLE t (a INT, `key` INT)" = .ok (oneColumn []) ∧
    parseQuery toUint s%"CREATE TABLE t (a INT, b)" = .ok (oneColumn []) := ⟨by krfl, by krfl⟩

/-- C122: every key of a reported CREATE TABLE is a primary key, or a secondary key on exactly one column, which is a
column of the table. -/
theorem C122_keys_partial (toUint : Str → Option Nat) (q : Str) (l : List Statement) (h : parseQuery toUint q = .ok l) (s : Schema) (b : Bool)
    (hs : .createTable s b ∈ l) (i : Index) (hi : i ∈ s.indexes) :
    i.typ = .primary ∨ i.typ = .secondary ∧ ∃ c, c ∈ s.columns ∧ i.columns = [c] := (createTable_ok h hs).2 i hi

set_option maxRecDepth 10000 in
example : parseQuery (fun _ => none) s%"CREATE TABLE t (a INT, KEY k (a))" =
    .ok (oneColumn [{ name := s%"k", typ := .secondary, columns := [{ name := s%"a", def_ := some { typ := .int, length := -1 } }] }]) := by krfl

set_option maxRecDepth 10000 in
/-- C122: a primary key can be on a column the table does not have; keys written in small letters, without a name, on
an unknown column, before the column, or UNIQUE are left out; and none of this is an error. -/
theorem C122_fails (toUint : Str → Option Nat) :
    parseQuery toUint s%"CREATE TABLE t (a INT, PRIMARY KEY (z))" =
      .ok (oneColumn [{ name := s%"z", typ := .primary, columns := [{ name := s%"z", def_ := some { typ := .unknown, length := 0 } }] }]) ∧
    parseQuery toUint s%"CREATE TABLE t (a INT, key k (a))" = .ok (oneColumn []) ∧
    parseQuery toUint s%"CREATE TABLE t (a INT, KEY (a))" = .ok (oneColumn []) ∧
    parseQuery toUint s%"CREATE TABLE t (a INT, KEY k (z))" = .ok (oneColumn []) ∧
    parseQuery toUint s%"CREATE TABLE t (KEY k (a), a INT)" = .ok (oneColumn []) ∧
    parseQuery toUint s%"CREATE TABLE t (a INT, UNIQUE KEY k (a))" = .ok (oneColumn []) :=
  ⟨by krfl, by krfl, by krfl, by krfl, by krfl, by krfl⟩

end Verif.Props
