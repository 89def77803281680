import Verif.Props.Ddl
import Verif.Props.Tables
/-! C121 and C122, exactly, for every written CREATE TABLE: which columns and which keys are reported. -/
namespace Verif.Props
open Verif Verif.Lex Verif.Gram Verif.Parse Verif.Spec Verif.Query

/-- A name that is none of the words with which a constraint or key begins, in any letter case. -/
def NoClauseWord (n : Str) : Prop := ∀ k ∈ clauseWords, ¬ SameName n k

instance (n : Str) : Decidable (NoClauseWord n) := inferInstanceAs (Decidable (∀ k ∈ clauseWords, ¬ SameName n k))

theorem keyword_iff (n : Str) : Visit.columnKeywords.any (Str.eqFold n) = false ↔ NoClauseWord n := by
  rw [← Bool.not_eq_true, List.any_eq_true]
  constructor
  · intro h k hk hs
    exact h ⟨k, hk, (Lemmas.sameName_iff _ _).mpr hs⟩
  · rintro h ⟨k, hk, he⟩
    exact h k hk ((Lemmas.sameName_iff _ _).mp he)

theorem colV_name {c : ColS} (hn : GoodName c.name) :
    (colV c).map (·.name) = if NoClauseWord (plainName c.name) then some (plainName c.name) else none := by
  rw [colV, unEscape_good hn]
  by_cases h : NoClauseWord (plainName c.name)
  · rw [if_pos h, (keyword_iff _).mpr h]; rfl
  · rw [if_neg h]
    have : Visit.columnKeywords.any (Str.eqFold (plainName c.name)) = true := by
      rw [← Bool.not_eq_false]; exact fun hh => h ((keyword_iff _).mp hh)
    rw [this]; rfl

theorem colV_names {cs : List ColS} (hn : ∀ c ∈ cs, GoodName c.name) :
    (cs.filterMap colV).map (·.name) = (cs.map (fun c => plainName c.name)).filter (fun n => NoClauseWord n) := by
  induction cs with
  | nil => rfl
  | cons c cs ih =>
    have h1 := colV_name (hn c (by simp))
    have h2 := ih fun x hx => hn x (List.mem_cons_of_mem _ hx)
    by_cases h : NoClauseWord (plainName c.name)
    · rw [if_pos h] at h1
      cases hc : colV c with
      | none => rw [hc] at h1; cases h1
      | some x =>
        rw [hc] at h1
        simp only [List.filterMap_cons, hc, List.map_cons, List.filter_cons, h, decide_true, if_true, h2]
        congr 1
        exact Option.some.inj h1
    · rw [if_neg h] at h1
      have hc : colV c = none := by
        cases hc : colV c with
        | none => rfl
        | some x => rw [hc] at h1; cases h1
      simp only [List.filterMap_cons, hc, List.map_cons, List.filter_cons, h, decide_false, h2]
      rfl

/-- C121, exactly, for every CREATE TABLE of columns with one-word types, secondary indexes and primary keys, in any layout
and letter case: the reported columns are, in the order written, the declared ones whose name is none of the words with
which a constraint or key begins; the others are lost without an error. -/
theorem C121_exact {sp : Spelling} (toUint : Str → Option Nat) (hg : sp.Good) (q : Str) (b : Bool) (t : TableS) (n : Nat)
    (h : Writes q (queryToks sp (.ddl (.createTable b t)) [] n)) (hn : ∀ c ∈ t.col :: t.cols, GoodName c.name) :
    ∃ s, parseQuery toUint q = .ok [.createTable s b] ∧
      s.columns.map (·.name) = ((t.col :: t.cols).map (fun c => plainName c.name)).filter (fun n => NoClauseWord n) :=
  ⟨tableV t, parse_writes toUint hg _ [] n h, colV_names hn⟩

/-- C121 holds of exactly these texts: those in which no column is named, in quotes, by a word with which a constraint or key
begins. -/
theorem C121_iff {sp : Spelling} (toUint : Str → Option Nat) (hg : sp.Good) (q : Str) (b : Bool) (t : TableS) (n : Nat)
    (h : Writes q (queryToks sp (.ddl (.createTable b t)) [] n)) (hn : ∀ c ∈ t.col :: t.cols, GoodName c.name) :
    (∃ s, parseQuery toUint q = .ok [.createTable s b] ∧ s.columns.map (·.name) = (t.col :: t.cols).map (fun c => plainName c.name)) ↔
      ∀ c ∈ t.col :: t.cols, NoClauseWord (plainName c.name) := by
  obtain ⟨s, h1, h2⟩ := C121_exact toUint hg q b t n h hn
  constructor
  · rintro ⟨s', h1', h2'⟩ c hc
    rw [h1] at h1'
    cases h1'
    rw [h2, List.filter_eq_self] at h2'
    simpa using h2' _ (List.mem_map_of_mem hc)
  · intro hw
    refine ⟨s, h1, ?_⟩
    rw [h2, List.filter_eq_self]
    intro x hx
    obtain ⟨c, hc, rfl⟩ := List.mem_map.mp hx
    simpa using hw c hc

/-- The first column of a name, ignoring letter case. -/
def FirstCol (cs : List Column) (n : Str) (c : Column) : Prop :=
  ∃ pre post, cs = pre ++ c :: post ∧ SameName c.name n ∧ ∀ x ∈ pre, ¬ SameName x.name n

theorem lookup_first {cs : List Column} {n : Str} {c : Column} : lookupColumn cs n = some c ↔ FirstCol cs n c := by
  rw [lookupColumn, List.find?_eq_some_iff_append]
  constructor
  · rintro ⟨h1, pre, post, h2, h3⟩
    exact ⟨pre, post, h2, (Lemmas.sameName_iff _ _).mp h1, fun x hx hs => by
      have := h3 x hx
      rw [(Lemmas.sameName_iff _ _).mpr hs] at this
      cases this⟩
  · rintro ⟨pre, post, h2, h1, h3⟩
    refine ⟨(Lemmas.sameName_iff _ _).mpr h1, pre, post, h2, fun x hx => ?_⟩
    rw [Bool.not_eq_true', ← Bool.not_eq_true]
    exact fun hh => h3 x hx ((Lemmas.sameName_iff _ _).mp hh)

/-- The indexes that are reported for written ones, given the reported columns: each on the first column of its name, and
none for an index on a column that is not reported. -/
inductive IndexesOf (cs : List Column) : List IdxS → List Index → Prop
  | nil : IndexesOf cs [] []
  | kept {i : IdxS} {c : Column} {is : List IdxS} {xs : List Index} : FirstCol cs (plainName i.col) c → IndexesOf cs is xs →
      IndexesOf cs (i :: is) ({ name := plainName i.name, typ := .secondary, columns := [c] } :: xs)
  | lost {i : IdxS} {is : List IdxS} {xs : List Index} : (∀ c ∈ cs, ¬ SameName c.name (plainName i.col)) → IndexesOf cs is xs →
      IndexesOf cs (i :: is) xs

theorem indexes_of {cs : List Column} {is : List IdxS} (hn : ∀ i ∈ is, GoodName i.name ∧ GoodName i.col) :
    IndexesOf cs is (is.filterMap (idxV cs)) := by
  induction is with
  | nil => exact .nil
  | cons i is ih =>
    have ih := ih fun x hx => hn x (List.mem_cons_of_mem _ hx)
    obtain ⟨h1, h2⟩ := hn i (by simp)
    have e : idxV cs i = (lookupColumn cs (plainName i.col)).map (fun c => newSecondaryIndexWith (plainName i.name) [c]) := by
      rw [idxV, unEscape_good_parens h2, unEscape_good h1]
    cases hl : lookupColumn cs (plainName i.col) with
    | none =>
      rw [hl] at e
      simp only [List.filterMap_cons, e, Option.map_none]
      refine .lost (fun c hc hs => ?_) ih
      rw [lookupColumn, List.find?_eq_none] at hl
      exact hl c hc ((Lemmas.sameName_iff _ _).mpr hs)
    | some c =>
      rw [hl] at e
      simp only [List.filterMap_cons, e, Option.map_some]
      exact .kept (lookup_first.mp hl) ih

/-- The key that is reported for a written PRIMARY KEY (...): its columns are the written names, with an unknown type. -/
def keyOf (k : KeyS) : Index :=
  { name := Str.join s%"_" ((k.col :: k.cols).map plainName), typ := .primary,
    columns := (k.col :: k.cols).map (fun c => { name := plainName c, def_ := some { typ := .unknown, length := 0 } }) }

/-- C122, exactly, for every such CREATE TABLE: the reported keys are, in this order, one for each PRIMARY KEY constraint of
a reported column, on that column; one for each INDEX on a reported column, on the first column of that name, and none for
the others; and one for each PRIMARY KEY (...), on the written names, whether or not the table has such columns. -/
theorem C122_exact {sp : Spelling} (toUint : Str → Option Nat) (hg : sp.Good) (q : Str) (b : Bool) (t : TableS) (n : Nat)
    (h : Writes q (queryToks sp (.ddl (.createTable b t)) [] n)) (hn : ∀ c ∈ t.col :: t.cols, GoodName c.name)
    (hi : ∀ i ∈ t.idxs, GoodName i.name ∧ GoodName i.col) (hk : ∀ k ∈ t.keys, ∀ c ∈ k.col :: k.cols, GoodName c) :
    ∃ s own is, parseQuery toUint q = .ok [.createTable s b] ∧ s.indexes = own ++ (is ++ t.keys.map keyOf) ∧ IndexesOf s.columns t.idxs is ∧
      own.map (fun i => (i.typ, i.columns.map (·.name))) =
        ((t.col :: t.cols).filter (fun c => NoClauseWord (plainName c.name))).flatMap
          (fun c => (c.cons.filter (· = .primaryKey)).map (fun _ => (.primary, [plainName c.name]))) := by
  refine ⟨tableV t, (t.col :: t.cols).flatMap colKeysV, _, parse_writes toUint hg _ [] n h, ?_, indexes_of hi, ?_⟩
  · have : t.keys.map keyV = t.keys.map keyOf := by
      refine List.map_congr_left fun k hm => ?_
      have e : ∀ c ∈ k.col :: k.cols, Util.unEscapeNameString c = plainName c := fun c hc => unEscape_good (hk k hm c hc)
      have e1 : (k.col :: k.cols).map (fun c => ({ name := Util.unEscapeNameString c, def_ := some unknownDataDef } : Column)) =
          (k.col :: k.cols).map (fun c => { name := plainName c, def_ := some { typ := .unknown, length := 0 } }) :=
        List.map_congr_left fun c hc => by rw [e c hc]; rfl
      rw [keyV, e1]
      simp only [newPrimaryIndexWith, keyOf, columnNames, List.map_map]
      rfl
    simp only [tableV, newSchemaWith, this]
  · have hcol := hn
    revert hcol
    generalize t.col :: t.cols = cs
    intro hcol
    induction cs with
    | nil => rfl
    | cons c cs ih =>
      have ih := ih fun x hx => hcol x (List.mem_cons_of_mem _ hx)
      have h1 := colV_name (hcol c (by simp))
      rw [List.flatMap_cons, List.map_append, ih]
      by_cases hw : NoClauseWord (plainName c.name)
      · rw [if_pos hw] at h1
        rw [List.filter_cons, if_pos (by simpa using hw), List.flatMap_cons]
        congr 1
        cases hc : colV c with
        | none => rw [hc] at h1; cases h1
        | some x =>
          rw [hc] at h1
          simp only [colKeysV, hc, List.map_map]
          refine List.map_congr_left fun k _ => ?_
          simp only [Function.comp, newPrimaryIndexWith, List.map_cons, List.map_nil]
          rw [show x.name = plainName c.name from Option.some.inj h1]
      · rw [if_neg hw] at h1
        rw [List.filter_cons, if_neg (by simpa using hw)]
        have hc : colV c = none := by
          cases hc : colV c with
          | none => rfl
          | some x => rw [hc] at h1; cases h1
        simp [colKeysV, hc]

/-- C122, negation for every PRIMARY KEY (...): none of the columns of the reported key is a column of the table unless that
column has an unknown type, whatever columns the table declares. -/
theorem C122_primary_fails {sp : Spelling} (toUint : Str → Option Nat) (hg : sp.Good) (q : Str) (b : Bool) (t : TableS) (n : Nat)
    (h : Writes q (queryToks sp (.ddl (.createTable b t)) [] n)) (k : KeyS) (hk : k ∈ t.keys) :
    ∃ s i, parseQuery toUint q = .ok [.createTable s b] ∧ i ∈ s.indexes ∧ i.typ = .primary ∧ i.columns.length = k.cols.length + 1 ∧
      ∀ c ∈ i.columns, ∀ x ∈ s.columns, x = c → x.dataType = .ok .unknown := by
  refine ⟨tableV t, keyV k, parse_writes toUint hg _ [] n h, ?_, rfl, by simp [keyV, newPrimaryIndexWith], ?_⟩
  · simp only [tableV, newSchemaWith, List.mem_append]
    exact .inr (.inr (List.mem_map_of_mem hk))
  · rintro c hc x _ rfl
    simp only [keyV, newPrimaryIndexWith, List.mem_map] at hc
    obtain ⟨y, _, rfl⟩ := hc
    rfl

/-- A table with a column that is not reported, an index on it, and a key on no column of the table. -/
def oddTable : TableS :=
  { name := s%"t", col := ⟨s%"a", .ident, s%"INT", none, [.primaryKey]⟩, cols := [⟨s%"`key`", .ident, s%"INT", none, []⟩],
    idxs := [⟨s%"i", s%"A"⟩, ⟨s%"j", s%"`key`"⟩], keys := [⟨s%"z", []⟩] }

set_option maxRecDepth 10000 in
example : (∀ c ∈ oddTable.col :: oddTable.cols, GoodName c.name) ∧ (∀ i ∈ oddTable.idxs, GoodName i.name ∧ GoodName i.col) ∧
    (∀ k ∈ oddTable.keys, ∀ c ∈ k.col :: k.cols, GoodName c) ∧ ¬ NoClauseWord (plainName s%"`key`") := by
  have g : GoodName s%"`key`" := Or.inr ⟨s%"key", rfl, by rw [← C03_name_roundtrip_iff]; decide⟩
  have n : ∀ x ∈ [s%"a", s%"i", s%"j", s%"A", s%"z"], GoodName x := fun x hx => Or.inl (name_of (by revert x; decide +kernel))
  refine ⟨?_, ?_, ?_, by decide⟩
  · intro c hc
    simp only [oddTable, List.mem_cons, List.not_mem_nil, or_false] at hc
    rcases hc with rfl | rfl
    · exact n _ (by simp)
    · exact g
  · intro c hc
    simp only [oddTable, List.mem_cons, List.not_mem_nil, or_false] at hc
    rcases hc with rfl | rfl
    · exact ⟨n _ (by simp), n _ (by simp)⟩
    · exact ⟨n _ (by simp), g⟩
  · intro k hk c hc
    simp only [oddTable, List.mem_cons, List.not_mem_nil, or_false] at hk
    subst hk
    simp only [List.mem_cons, List.not_mem_nil, or_false] at hc
    subst hc
    exact n _ (by simp)

set_option maxRecDepth 10000 in
example : parseQuery (fun _ => none) s%"CREATE TABLE t (a INT PRIMARY KEY, `key` INT, INDEX i (A), INDEX j (`key`), PRIMARY KEY (z))" =
    .ok [.createTable { table := { name := s%"t" }, columns := [col s%"a"],
                         indexes := [newPrimaryIndexWith [col s%"a"], newSecondaryIndexWith s%"i" [col s%"a"], newPrimaryIndexWith [col s%"z" .unknown 0]] } false] := by krfl

end Verif.Props
