import Verif.Lemmas.TableWritten
/-! CREATE TABLE is reported as it is written: C136. -/
namespace Verif.Props
open Verif Verif.Lex Verif.Gram Verif.Query Verif.Parse Verif.Spec Verif.Lemmas

/-- C136, without the part that fails: for every accepted query, the tokens of a reported CREATE TABLE divide into CREATE,
TEMP or TEMPORARY, TABLE, IF NOT EXISTS, a schema name, the table name, and the elements in parentheses or AS with a
SELECT. The flag says whether IF NOT EXISTS is written, the table has the written name without quotes, and the elements
are definitions followed by constraints, split at their own commas. The definitions are read one after the other: each
one declares at most one column, with the written name without quotes, the type named by its first word and the length
behind it, and adds a primary key for each PRIMARY KEY constraint; a definition that reads `PRIMARY KEY (c)`, `KEY i (c)`
or `INDEX i (c)` adds a key on the first column of that name declared so far. Behind these keys come those of the
constraints PRIMARY KEY with the written columns. What is missing: the schema name, the other constraints and the
options are not reported, a length behind several words or of two numbers is lost, and words that could be a constraint
can be read as words of the type, or as a column of their own. -/
theorem C136_create_table_partial (toUint : Str → Option Nat) (q : Str) (l : List Statement) (h : parseQuery toUint q = .ok l) :
    ∃ toks, Writes q toks ∧ Pieces CreateTableWritten toks l := createTable_pieces h

set_option maxRecDepth 10000 in
/-- A table with a key on a column, a key written like a definition, and a key as a constraint. -/
example : parseQuery (fun _ => none) s%"CREATE TABLE IF NOT EXISTS `t` (a INT PRIMARY KEY, `b` VARCHAR(10) NOT NULL, KEY k (b), CONSTRAINT c PRIMARY KEY (a, b))" =
    .ok [.createTable { table := { name := s%"t" }, columns := [{ name := s%"a", def_ := some { typ := .int, length := -1 } }, { name := s%"b", def_ := some { typ := .varChar, length := 10 } }], indexes := [primaryOn [{ name := s%"a", def_ := some { typ := .int, length := -1 } }], { name := s%"k", typ := .secondary, columns := [{ name := s%"b", def_ := some { typ := .varChar, length := 10 } }] },   primaryOn [{ name := s%"a", def_ := some { typ := .unknown, length := 0 } }, { name := s%"b", def_ := some { typ := .unknown, length := 0 } }]] } true] := by krfl

/-- A definition that has a type, and a name that is none of the words that begin a constraint. -/
def Ordinary (d : Def) : Prop := d.words ≠ [] ∧ ∀ n, BareName d.name n → ∀ k, k ∈ reserved → ¬ SameName n k

/-- The column is the one of the definition. -/
def ColumnOf (d : Def) (c : Column) : Prop := ∃ n t, BareName d.name n ∧ TypeWritten d.words d.sizes t ∧ c = { name := n, def_ := some t }

/-- C136: definitions that have a type and an ordinary name declare one column each, in the order in which they are
written, and the keys are one for each PRIMARY KEY constraint, on the column with the constraint. -/
theorem C136_columns (pre : List Column) (ds : List Def) (all : List Column) (is : List Index) (h : Built pre ds all is) (ho : ∀ d, d ∈ ds → Ordinary d) :
    ∃ cs, all = pre ++ cs ∧ cs.length = ds.length ∧ (∀ p, p ∈ ds.zip cs → ColumnOf p.1 p.2) ∧
      is = (ds.zip cs).flatMap (fun p => List.replicate p.1.keys (primaryOn [p.2])) := by
  induction h with
  | nil cols => exact ⟨[], by simp, rfl, by simp, rfl⟩
  | cons cols d ds o k all is hd hk _ ih =>
    obtain ⟨cs, h1, h2, h3, h4⟩ := ih fun x hx => ho x (by simp [hx])
    obtain ⟨w1, w2⟩ := ho d (by simp)
    have same : ∀ x : Str, SameName x x := fun x => (sameName_iff x x).mp ((Str.eqFold_iff x x).mpr rfl)
    have nk : d.name ∉ [s%"PRIMARY", s%"KEY", s%"INDEX"] := by
      intro hm
      have hb : BareName d.name d.name := by
        rw [bareName_iff]
        simp only [List.mem_cons, List.not_mem_nil, or_false] at hm
        rcases hm with e | e | e <;> rw [e] <;> decide +kernel
      refine w2 _ hb d.name ?_ (same _)
      simp only [List.mem_cons, List.not_mem_nil, or_false] at hm
      rcases hm with e | e | e <;> rw [e] <;> simp [reserved]
    have ek : k = none := by
      cases hk with
      | no => rfl
      | primary w ws c h => exact absurd (by simp [h]) nk
      | key n w i ws c h => exact absurd (by simp at h; rcases h with h | h <;> simp [h]) nk
      | other o h => exact absurd h nk
    cases hd with
    | untyped h => exact absurd h w1
    | word n k' hn hk' h => exact absurd h (w2 n hn k' hk')
    | col n t hn hk' ht =>
      refine ⟨{ name := n, def_ := some t } :: cs, by rw [h1]; simp, by simp [h2], ?_, ?_⟩
      · intro p hp
        rw [List.zip_cons_cons, List.mem_cons] at hp
        rcases hp with rfl | hp
        · exact ⟨n, t, hn, ht, rfl⟩
        · exact h3 p hp
      · rw [ek, h4]; simp

/-- Two definitions, the first one with PRIMARY KEY. -/
example : Built [] [⟨s%"a", [s%"INT"], [], 1⟩, ⟨s%"`b`", [s%"varchar"], [s%"10"], 0⟩]
      [{ name := s%"a", def_ := some { typ := .int, length := -1 } }, { name := s%"b", def_ := some { typ := .varChar, length := 10 } }]
      [primaryOn [{ name := s%"a", def_ := some { typ := .int, length := -1 } }]] ∧
    ∀ d, d ∈ [(⟨s%"a", [s%"INT"], [], 1⟩ : Def), ⟨s%"`b`", [s%"varchar"], [s%"10"], 0⟩] → Ordinary d := by
  have na : BareName s%"a" s%"a" := (bareName_iff _ _).mpr (by decide +kernel)
  have nb : BareName s%"`b`" s%"b" := (bareName_iff _ _).mpr (by decide +kernel)
  have ra : ∀ k, k ∈ reserved → ¬ SameName s%"a" k := by intro k hk h; rw [← sameName_iff] at h; revert k; decide +kernel
  have rb : ∀ k, k ∈ reserved → ¬ SameName s%"b" k := by intro k hk h; rw [← sameName_iff] at h; revert k; decide +kernel
  refine ⟨?_, ?_⟩
  · refine .cons [] _ _ (some { name := s%"a", def_ := some { typ := .int, length := -1 } }) none _ _ ?_ (.no (by simp)) (.cons _ _ _ (some { name := s%"b", def_ := some { typ := .varChar, length := 10 } }) none _ _ ?_ (.no (by simp)) (.nil _))
    · exact .col _ _ na ra (.plain _ _ _ .int ((typeWord_iff _ _).mpr (by decide +kernel)) (Or.inl rfl))
    · exact .col _ _ nb rb (.sized _ _ 10 .varChar ((typeWord_iff _ _).mpr (by decide +kernel)) ((atoi_iff _ _).mp (by decide +kernel)))
  · intro d hd
    simp only [List.mem_cons, List.not_mem_nil, or_false] at hd
    rcases hd with rfl | rfl
    · exact ⟨by simp, fun n hn => by rw [(bareName_iff _ _).mp hn, ← (bareName_iff _ _).mp na]; exact ra⟩
    · exact ⟨by simp, fun n hn => by rw [(bareName_iff _ _).mp hn, ← (bareName_iff _ _).mp nb]; exact rb⟩

/-- C136 fails: with AUTO_INCREMENT behind it, the primary key of a column is not reported. -/
theorem C136_fails (toUint : Str → Option Nat) : parseQuery toUint s%"CREATE TABLE t (a INT PRIMARY KEY AUTO_INCREMENT)" =
    .ok [.createTable { table := { name := s%"t" }, columns := [{ name := s%"a", def_ := some { typ := .int, length := -1 } }], indexes := [] } false] := by krfl

/-- C136 fails: a primary key in lower case with further columns behind it is not reported, and neither is a unique key. -/
theorem C136_lower_fails (toUint : Str → Option Nat) : parseQuery toUint s%"CREATE TABLE t (a INT, primary key (a), b INT, UNIQUE (b))" =
    .ok [.createTable { table := { name := s%"t" }, columns := [{ name := s%"a", def_ := some { typ := .int, length := -1 } }, { name := s%"b", def_ := some { typ := .int, length := -1 } }], indexes := [] } false] := by krfl

/-- C136 fails: a type with two numbers is reported as unknown, and a length behind two words is not reported. -/
theorem C136_type_fails (toUint : Str → Option Nat) : parseQuery toUint s%"CREATE TABLE s.t (a DECIMAL(10, 2), b CHARACTER VARYING(5))" =
    .ok [.createTable { table := { name := s%"t" }, columns := [{ name := s%"a", def_ := some { typ := .unknown, length := 0 } }, { name := s%"b", def_ := some { typ := .character, length := -1 } }], indexes := [] } false] := by krfl

end Verif.Props
