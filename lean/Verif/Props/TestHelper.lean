import Verif.Lemmas.TestHelper
import Verif.Props.RoundTrip
import Verif.Props.Helpers
/-! Properties of the query test helpers: C124 to C129. -/
namespace Verif.Props
open Verif Verif.Query Verif.Parse Verif.TestHelper Verif.Spec Verif.Spec.TestHelper

/-! ### C124 -/

/-- C124 for the strict mode: if a query passes, it is parsed to one statement whose text differs from the query only in
white space, the case of letters, and semicolons at the ends. Missing: the default mode, see `C124_fails`. -/
theorem C124_strict_partial (toUint : Str → Option Nat) (q : Str) (skip : Bool) (h : testQuery toUint ⟨skip, .strict⟩ q = .ok .pass) :
    ∃ s text, parseQuery toUint q = .ok [s] ∧ s.toStr = .ok text ∧ SameText q text := by
  unfold testQuery at h
  cases hp : parseQuery toUint q with
  | panic => rw [hp] at h; cases h
  | err => rw [hp] at h; cases h
  | ok l =>
    rw [hp] at h
    simp only [reduceCtorEq, if_false] at h
    cases l with
    | nil => cases h
    | cons s l =>
      obtain ⟨t, ht⟩ := C117_printable toUint q _ hp s (by simp)
      cases l with
      | nil =>
        simp only [firstStep, ht, Res.bind, if_true] at h
        split at h
        · rename_i he
          exact ⟨s, t, rfl, ht, sameText_of he⟩
        · unfold mismatch at h
          cases skip <;> cases h
      | cons s' l =>
        simp only [notOne] at h
        cases ha : Res.all Statement.toStr (s :: s' :: l) <;> rw [ha] at h <;> cases h

/-- C124, what passing in the default mode says: the query is parsed to one statement, and either its text is the query
or its text is parsed to one statement with the same text (up to white space, case and semicolons at the ends). -/
theorem C124_default_partial (toUint : Str → Option Nat) (q : Str) (skip : Bool) (h : testQuery toUint ⟨skip, .default⟩ q = .ok .pass) :
    ∃ s text, parseQuery toUint q = .ok [s] ∧ s.toStr = .ok text ∧
      (SameText q text ∨ ∃ p s' text', SameText text p ∧ parseQuery toUint p = .ok [s'] ∧ s'.toStr = .ok text' ∧ SameText text text') := by
  unfold testQuery at h
  cases hp : parseQuery toUint q with
  | panic => rw [hp] at h; cases h
  | err => rw [hp] at h; cases h
  | ok l =>
    rw [hp] at h
    simp only [reduceCtorEq, if_false] at h
    cases l with
    | nil => cases h
    | cons s l =>
      obtain ⟨t, ht⟩ := C117_printable toUint q _ hp s (by simp)
      cases l with
      | nil =>
        refine ⟨s, t, rfl, ht, ?_⟩
        simp only [firstStep, ht, Res.bind, reduceCtorEq, if_false] at h
        split at h
        · rename_i he
          exact Or.inl (sameText_of he)
        · refine Or.inr ⟨formalizeQuery t, ?_⟩
          unfold secondStep at h
          split at h
          · cases h
          · cases h
          · rename_i s' hs'
            obtain ⟨t', ht'⟩ := C117_printable toUint _ _ hs' s' (by simp)
            simp only [ht', Res.bind] at h
            split at h
            · rename_i he
              refine ⟨s', t', ?_, hs', ht', ?_⟩
              · have hr : SameText (formalizeQuery t) (formalizeQuery t) := ⟨nonBlank (formalizeQuery t), nonBlank (formalizeQuery t), 0, 0, 0, 0, by simp, by simp, rfl⟩
                exact sameText_formalized hr
              · have hr : SameText (formalizeQuery t) (formalizeQuery t') := by
                  rw [Str.eqFold_iff] at he
                  refine ⟨nonBlank (formalizeQuery t), nonBlank (formalizeQuery t'), 0, 0, 0, 0, by simp, by simp, ?_⟩
                  rw [upper_nonBlank, upper_nonBlank, he]
                exact sameText_formalized (formalized_sameText hr)
            · unfold mismatch at h
              cases skip <;> cases h
          · rename_i l' hl' _
            simp only [notOne] at h
            cases ha : Res.all Statement.toStr l' <;> rw [ha] at h <;> cases h
      | cons s' l =>
        simp only [notOne] at h
        cases ha : Res.all Statement.toStr (s :: s' :: l) <;> rw [ha] at h <;> cases h

theorem sameText_plain {q p : Str} (h : SameText q p) (hq : ';' ∉ q) (hp : ';' ∉ p) : Str.upper (nonBlank q) = Str.upper (nonBlank p) := by
  obtain ⟨x, y, a, b, c, d, h1, h2, h3⟩ := h
  have none : ∀ {s x : Str} {a b : Nat}, ';' ∉ s → nonBlank s = List.replicate a ';' ++ x ++ List.replicate b ';' → nonBlank s = x := by
    intro s x a b hs he
    have hn : ';' ∉ nonBlank s := fun hm => hs (List.mem_filter.mp hm).1
    rw [he] at hn
    cases a with
    | succ a => exact absurd (by simp) hn
    | zero =>
      cases b with
      | succ b => exact absurd (by simp) hn
      | zero => simpa using he
  rw [none hq h1, none hp h2, h3]

set_option maxRecDepth 10000 in
/-- C124 is false of the code in the default mode, which all the tests of the repository use: a DELETE whose condition is
lost by the parser, and which therefore deletes all rows, passes; so does a SELECT whose ORDER BY is lost. In the strict
mode both fail. -/
theorem C124_fails :
    testQueryString (fun _ => none) s%"DELETE FROM t WHERE a IS NULL" [] = .ok .pass ∧
    parseQuery (fun _ => none) s%"DELETE FROM t WHERE a IS NULL" = .ok [.delete { table := { name := s%"t" }, cond := none }] ∧
    ¬ SameText s%"DELETE FROM t WHERE a IS NULL" s%"DELETE FROM t" ∧
    testQueryString (fun _ => none) s%"SELECT a FROM t ORDER BY b" [] = .ok .pass ∧
    testQueryString (fun _ => none) s%"DELETE FROM t WHERE a IS NULL" [.mode .strict] = .ok .fail ∧
    testQueryString (fun _ => none) s%"SELECT a FROM t ORDER BY b" [.mode .strict] = .ok .fail := by
  refine ⟨by decide +kernel, by decide +kernel, fun h => ?_, by decide +kernel, by decide +kernel, by decide +kernel⟩
  exact absurd (sameText_plain h (by decide) (by decide)) (by decide)

set_option maxRecDepth 10000 in
example : testQuery (fun _ => none) ⟨false, .strict⟩ s%"\ninsert  into t ( a ) VALUES ('x')\n" = .ok .pass := by decide +kernel
set_option maxRecDepth 10000 in
example : testQuery (fun _ => none) ⟨false, .default⟩ s%"DROP TABLE `t`" = .ok .pass := by decide +kernel

/-! ### C125 -/

/-- The statement of a text that can be read back has that text. -/
theorem reread_text {q : Str} {s : Statement} (h : Reread q s) : s.toStr = .ok q := by
  cases h with
  | select h => exact congrArg Res.ok (select_asText _)
  | insert h => exact congrArg Res.ok (insert_asText _)
  | update h => exact congrArg Res.ok (update_asText _)
  | delete h => exact congrArg Res.ok (delete_asText _)
  | ddl _ h => exact h
  | alter _ h => exact h
  | createTable b h => rfl

/-- C125 for the statements of C08, C09, C10 and C105 to C107: their texts pass in every mode. Missing: the texts of the
other statements, some of which fail, see `C125_fails`. -/
theorem C125_passes_partial (toUint : Str → Option Nat) (hu : ReadsNumbers toUint) (opts : List Opt) (q : Str) (s : Statement)
    (h : Reread q s) : testQueryString toUint q opts = .ok .pass := by
  have hp : parseQuery toUint q = .ok [s] := by
    have := C88_script_partial toUint hu (q, s) [] (by intro x hx; simp at hx; subst hx; exact h)
    simpa [Str.join] using this
  have ht := reread_text h
  simp only [testQueryString, testQuery, hp, firstStep, ht, Res.bind, Str.eqFold_refl, if_true, ite_self]

example : Reread (({ table := { name := s%"t" }, columns := [{ name := s%"a", lit := some { v := .str s%"x;  y", t := .string } }], cond := none } : Update).toStr)
    (.update { table := { name := s%"t" }, columns := [{ name := s%"a", lit := some { v := .str s%"x;  y", t := .string } }], cond := none }) := by
  refine Reread.update (u := { table := { name := s%"t" }, columns := [{ name := s%"a", lit := some { v := .str s%"x;  y", t := .string } }], cond := none }) ?_
  refine ⟨⟨_, any_of (by decide +kernel), rfl⟩, by simp, ?_, fun e he => by cases he⟩
  intro c hc
  simp only [List.mem_cons, List.not_mem_nil, or_false] at hc
  subst hc
  exact .lit ⟨rfl, any_of (by decide +kernel), _, rfl, printable_str (by decide) (by decide)⟩

set_option maxRecDepth 10000 in
/-- C125 is false of the code: the text of a statement that drops a column, and that of one that renames a table and
also a column, fail. -/
theorem C125_fails :
    (∃ q, (Statement.alterTable { table := { name := s%"t" }, dropColumn := some { name := s%"a" } }).toStr = .ok q ∧
      testQueryString (fun _ => none) q [] = .ok .fail) ∧
    ∃ q, (Statement.alterTable { table := { name := s%"t" }, renameTo := some { name := s%"u" }, renameColumnFrom := some { name := s%"a" }, renameColumnTo := some { name := s%"b" } }).toStr = .ok q ∧ testQueryString (fun _ => none) q [] = .ok .fail :=
  ⟨⟨_, rfl, by decide +kernel⟩, ⟨_, rfl, by decide +kernel⟩⟩

/-! ### C126 -/

theorem notOne_verdict {l : List Statement} {v : Verdict} (h : notOne l = .ok v) : v = .fail := by
  unfold notOne at h
  cases ha : Res.all Statement.toStr l <;> rw [ha] at h <;> cases h
  rfl

/-- C126: the modes are ordered. A query that passes in the strict mode passes in the default mode, and one that passes
in the default mode passes if it is only parsed; whether errors are skipped or not. -/
theorem C126_modes (toUint : Str → Option Nat) (q : Str) (a b : Bool) :
    (testQuery toUint ⟨a, .strict⟩ q = .ok .pass → testQuery toUint ⟨b, .default⟩ q = .ok .pass) ∧
    (testQuery toUint ⟨a, .default⟩ q = .ok .pass → testQuery toUint ⟨b, .parseOnly⟩ q = .ok .pass) := by
  unfold testQuery
  cases hp : parseQuery toUint q with
  | panic => exact ⟨(fun h => by cases h), (fun h => by cases h)⟩
  | err => exact ⟨(fun h => by cases h), (fun h => by cases h)⟩
  | ok l =>
    simp only [reduceCtorEq, if_false, if_true]
    cases l with
    | nil => exact ⟨id, fun h => by cases notOne_verdict h⟩
    | cons s l =>
      obtain ⟨t, ht⟩ := C117_printable toUint q _ hp s (by simp)
      refine ⟨fun h => ?_, fun _ => by simp only [ht, Res.bind]⟩
      cases l with
      | cons s' l => cases notOne_verdict h
      | nil =>
        simp only [firstStep, ht, Res.bind, if_true, reduceCtorEq, if_false] at h ⊢
        split
        · rfl
        · rename_i hne
          rw [if_neg hne] at h
          cases a <;> cases h

/-- What skipping errors makes of a verdict. -/
def skipped : Verdict → Verdict → Prop
  | .pass, .pass => True
  | .fail, .fail => True
  | .fail, .skip => True
  | _, _ => False

/-- C126: skipping errors only turns failures into skipped tests: the verdict without and with it are the same, or fail
and skip; and if one panics so does the other. -/
theorem C126_skip (toUint : Str → Option Nat) (q : Str) (m : Mode) :
    (∃ v w, testQuery toUint ⟨false, m⟩ q = .ok v ∧ testQuery toUint ⟨true, m⟩ q = .ok w ∧ skipped v w) ∨
    (testQuery toUint ⟨false, m⟩ q = .panic ∧ testQuery toUint ⟨true, m⟩ q = .panic) := by
  have hall : ∀ l : List Statement, (∀ s ∈ l, ∃ t, s.toStr = .ok t) → notOne l = .ok .fail := by
    intro l hl
    have : ∃ ts, Res.all Statement.toStr l = .ok ts := by
      induction l with
      | nil => exact ⟨_, rfl⟩
      | cons s l ih =>
        obtain ⟨t, ht⟩ := hl s (by simp)
        obtain ⟨ts, hts⟩ := ih (fun x hx => hl x (List.mem_cons_of_mem _ hx))
        exact ⟨_, by simp only [Res.all, ht, hts, Res.bind]; rfl⟩
    obtain ⟨ts, hts⟩ := this
    rw [notOne, hts]; rfl
  unfold testQuery
  cases hp : parseQuery toUint q with
  | panic => exact Or.inr ⟨rfl, rfl⟩
  | err => exact Or.inl ⟨_, _, rfl, rfl, trivial⟩
  | ok l =>
    have hl := C117_printable toUint q l hp
    dsimp only
    split
    · cases l with
      | nil => exact Or.inr ⟨rfl, rfl⟩
      | cons s l =>
        obtain ⟨t, ht⟩ := hl s (by simp)
        exact Or.inl ⟨.pass, .pass, by simp only [ht, Res.bind], by simp only [ht, Res.bind], trivial⟩
    · split
      · rename_i s
        obtain ⟨t, ht⟩ := hl s (by simp)
        simp only [firstStep, ht, Res.bind]
        split
        · exact Or.inl ⟨_, _, rfl, rfl, trivial⟩
        · split
          · exact Or.inl ⟨_, _, rfl, rfl, trivial⟩
          · unfold secondStep
            cases hp' : parseQuery toUint (formalizeQuery t) with
            | panic => exact Or.inr ⟨rfl, rfl⟩
            | err => exact Or.inl ⟨_, _, rfl, rfl, trivial⟩
            | ok l' =>
              have hl' := C117_printable toUint _ l' hp'
              cases l' with
              | nil => exact Or.inl ⟨_, _, hall _ hl', hall _ hl', trivial⟩
              | cons s' l' =>
                cases l' with
                | cons s'' l' => exact Or.inl ⟨_, _, hall _ hl', hall _ hl', trivial⟩
                | nil =>
                  obtain ⟨t', ht'⟩ := hl' s' (by simp)
                  simp only [ht', Res.bind]
                  split
                  · exact Or.inl ⟨_, _, rfl, rfl, trivial⟩
                  · exact Or.inl ⟨_, _, rfl, rfl, trivial⟩
      · exact Or.inl ⟨_, _, hall _ hl, hall _ hl, trivial⟩

set_option maxRecDepth 10000 in
example : testQuery (fun _ => none) ⟨false, .strict⟩ s%"DROP TABLE `t`" = .ok .fail ∧ testQuery (fun _ => none) ⟨true, .strict⟩ s%"DROP TABLE `t`" = .ok .skip ∧
    testQuery (fun _ => none) ⟨true, .default⟩ s%"DROP TABLE `t`" = .ok .pass ∧ testQuery (fun _ => none) ⟨true, .default⟩ s%"BEGIN;COMMIT" = .ok .fail ∧
    testQuery (fun _ => none) ⟨true, .parseOnly⟩ s%"BEGIN;COMMIT" = .ok .pass := by decide +kernel

/-! ### C127 -/

/-- C127 for the strict mode: the helper panics exactly if the parser does. -/
theorem C127_strict_iff (toUint : Str → Option Nat) (q : Str) (skip : Bool) :
    testQuery toUint ⟨skip, .strict⟩ q = .panic ↔ parseQuery toUint q = .panic := by
  unfold testQuery
  cases hp : parseQuery toUint q with
  | panic => simp
  | err => simp
  | ok l =>
    have hl := C117_printable toUint q l hp
    simp only [reduceCtorEq, if_false, iff_false]
    have hn : ∀ l : List Statement, (∀ s ∈ l, ∃ t, s.toStr = .ok t) → notOne l ≠ .panic := by
      intro l hl h
      unfold notOne at h
      have : ∃ ts, Res.all Statement.toStr l = .ok ts := Res.Fine.all (fun s hs => hl s hs)
      obtain ⟨ts, hts⟩ := this
      rw [hts] at h; cases h
    intro h
    split at h
    · rename_i s
      obtain ⟨t, ht⟩ := hl s (by simp)
      simp only [firstStep, ht, Res.bind, if_true] at h
      split at h
      · cases h
      · cases h
    · exact hn _ hl h

/-- C127 for the mode that only parses: the helper panics exactly if the parser does, or accepts the query without
reporting a statement. -/
theorem C127_parse_only_iff (toUint : Str → Option Nat) (q : Str) (skip : Bool) :
    testQuery toUint ⟨skip, .parseOnly⟩ q = .panic ↔ parseQuery toUint q = .panic ∨ parseQuery toUint q = .ok [] := by
  unfold testQuery
  cases hp : parseQuery toUint q with
  | panic => simp
  | err => simp
  | ok l =>
    simp only [if_true]
    cases l with
    | nil => simp
    | cons s l =>
      obtain ⟨t, ht⟩ := C117_printable toUint q _ hp s (by simp)
      simp [ht, Res.bind]

/-- C127 for the default mode: if the helper panics, the parser panics on the query or on the text of the statement it is
parsed to (up to white space, case and semicolons at the ends). -/
theorem C127_default (toUint : Str → Option Nat) (q : Str) (skip : Bool) (h : testQuery toUint ⟨skip, .default⟩ q = .panic) :
    parseQuery toUint q = .panic ∨ ∃ s text p, parseQuery toUint q = .ok [s] ∧ s.toStr = .ok text ∧ SameText text p ∧
      parseQuery toUint p = .panic := by
  have hn : ∀ l : List Statement, (∀ s ∈ l, ∃ t, s.toStr = .ok t) → notOne l ≠ .panic := by
    intro l hl h
    unfold notOne at h
    have : ∃ ts, Res.all Statement.toStr l = .ok ts := Res.Fine.all (fun s hs => hl s hs)
    obtain ⟨ts, hts⟩ := this
    rw [hts] at h; cases h
  unfold testQuery at h
  cases hp : parseQuery toUint q with
  | panic => exact Or.inl rfl
  | err => rw [hp] at h; cases h
  | ok l =>
    rw [hp] at h
    have hl := C117_printable toUint q l hp
    simp only [reduceCtorEq, if_false] at h
    cases l with
    | nil => exact absurd h (hn _ hl)
    | cons s l =>
      cases l with
      | cons s' l => exact absurd h (hn _ hl)
      | nil =>
        obtain ⟨t, ht⟩ := hl s (by simp)
        simp only [firstStep, ht, Res.bind, reduceCtorEq, if_false] at h
        split at h
        · cases h
        · refine Or.inr ⟨s, t, formalizeQuery t, rfl, ht, ?_, ?_⟩
          · have hr : SameText (formalizeQuery t) (formalizeQuery t) :=
              ⟨nonBlank (formalizeQuery t), nonBlank (formalizeQuery t), 0, 0, 0, 0, by simp, by simp, rfl⟩
            exact sameText_formalized hr
          · unfold secondStep at h
            cases hp' : parseQuery toUint (formalizeQuery t) with
            | panic => rfl
            | err => rw [hp'] at h; cases h
            | ok l' =>
              rw [hp'] at h
              have hl' := C117_printable toUint _ l' hp'
              cases l' with
              | nil => exact absurd h (hn _ hl')
              | cons s' l' =>
                cases l' with
                | cons s'' l' => exact absurd h (hn _ hl')
                | nil =>
                  obtain ⟨t', ht'⟩ := hl' s' (by simp)
                  simp only [ht', Res.bind] at h
                  split at h
                  · cases h
                  · cases h

set_option maxRecDepth 10000 in
/-- C127 is false of the code: a query that is accepted without a statement, such as a PRAGMA or an empty line, makes
the helper panic if it only parses. -/
theorem C127_fails : testQueryString (fun _ => none) s%"PRAGMA x" [.mode .parseOnly] = .panic ∧
    testQueryString (fun _ => none) s%"\n" [.mode .parseOnly] = .panic := by decide +kernel

/-! ### C128 -/

/-- C128 for files of queries without semicolons in them, without white space at their ends, not starting with `#`, each
followed by a semicolon and any number of line ends: exactly these queries are tested, in their order. Missing: other
layouts, see `C128_fails`. -/
theorem C128_files_partial (l : List (Str × Nat)) (h : ∀ x ∈ l, FileQuery x.1) : queriesOf (fileOf l) = l.map (·.1) :=
  queriesOf_fileOf l h 0

example : ∀ x ∈ [(s%"SELECT a\nFROM t", 1), (s%"DROP TABLE t", 2)], FileQuery x.1 := by
  intro x hx
  simp only [List.mem_cons, List.not_mem_nil, or_false] at hx
  rcases hx with rfl | rfl
  · refine ⟨by decide, by decide, ?_, ?_⟩
    · intro c r h; cases h; decide
    · intro c r h
      have := congrArg List.getLast? h
      simp at this
      subst this; decide
  · refine ⟨by decide, by decide, ?_, ?_⟩
    · intro c r h; cases h; decide
    · intro c r h
      have := congrArg List.getLast? h
      simp at this
      subst this; decide

/-- C128 is false of the code: a query after a line with a comment is not tested, a query with a semicolon in a string
is cut in two, and the line ends of other systems are tested as a query. -/
theorem C128_fails :
    queriesOf s%"# all rows\nSELECT a FROM t;" = [] ∧
    queriesOf s%"INSERT INTO t (a) VALUES ('x;y');" = [s%"INSERT INTO t (a) VALUES ('x", s%"y')"] ∧
    queriesOf s%"BEGIN;\r\n" = [s%"BEGIN", s%"\r"] := by decide

/-! ### C129 -/

theorem configOf_from (c : Config) (opts : List Opt) : opts.foldl Opt.apply c =
    { skipErrors := (lastOf skipSet opts).getD c.skipErrors, mode := (lastOf modeSet opts).getD c.mode } := by
  induction opts generalizing c with
  | nil => rfl
  | cons o opts ih =>
    rw [List.foldl_cons, ih]
    have hs : ∀ {β : Type} (f : Opt → Option β) (d : β), (lastOf f (o :: opts)).getD d = (lastOf f opts).getD ((f o).getD d) := by
      intro β f d
      unfold lastOf
      cases ho : f o with
      | none => rw [List.filterMap_cons_none ho]; rfl
      | some x =>
        rw [List.filterMap_cons_some ho, List.getLast?_cons]
        cases (List.filterMap f opts).getLast? <;> rfl
    rw [hs, hs]
    cases o <;> rfl

/-- C129: of the arguments that set the mode (a configuration or the option for it) the last one decides, without one it
is the default mode; likewise for skipping errors; other arguments are ignored. -/
theorem C129_last_option (opts : List Opt) :
    (configOf opts).mode = (lastOf modeSet opts).getD .default ∧ (configOf opts).skipErrors = (lastOf skipSet opts).getD false := by
  rw [configOf, configOf_from]
  exact ⟨rfl, rfl⟩

example : configOf [.mode .strict, .other, .config ⟨true, .parseOnly⟩, .skipErrors false] = ⟨false, .parseOnly⟩ := by decide

end Verif.Props
