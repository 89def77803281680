import Verif.Lemmas.Files
/-! C158 to C161: listing files, and running the queries of a directory. -/
namespace Verif.Props
open Verif Verif.Files Verif.TestHelper Verif.Spec.Files Verif.Lemmas.Files

/-- A tree for the examples: two files, one of them in a directory, and a directory that cannot be listed. -/
def exTree : Node := .dir (.cons s%"a.sql" (.file (some s%"BEGIN;")) (.cons s%"d" (.dir (.cons s%"b.mysql" (.file (some s%"COMMIT;\nROLLBACK;")) .nil))
  (.cons s%"x" .closed .nil)))

theorem stat_iff (n : Node) : n.stat = some true ↔ Directory n := by
  constructor
  · intro h
    match n with
    | .dir es => exact .dir es
    | .closed => exact .closed
    | .link t => exact .link t ((stat_iff t).mp h)
    | .file _ => cases h
    | .dangling => cases h
    | .gone => cases h
  · intro h
    induction h with
    | dir => rfl
    | closed => rfl
    | link t _ ih => exact ih

theorem read_iff (n : Node) (c : Str) : n.read = some c ↔ Contents n c := by
  constructor
  · intro h
    match n with
    | .file d => rw [Node.read] at h; subst h; exact .file c
    | .link t => exact .link t c ((read_iff t c).mp h)
    | .dir _ => cases h
    | .closed => cases h
    | .dangling => cases h
    | .gone => cases h
  · intro h
    induction h with
    | file c => rfl
    | link t c _ ih => exact ih

theorem read_none_iff (n : Node) : n.read = none ↔ ∀ c, ¬ Contents n c := by
  constructor
  · intro h c hc; rw [(read_iff n c).mpr hc] at h; cases h
  · intro h
    cases hr : n.read with
    | none => rfl
    | some c => exact absurd ((read_iff n c).mp hr) (h c)

/-! ### C158 -/

/-- C158, in part: listing a directory gives exactly what is below it, is no directory and matches. Missing: a directory that
is given as a symbolic link, see `C158_link_fails`, and the contents of directories that cannot be listed, see
`C158_closed_fails`. -/
theorem C158_regexp_partial (path : Str) (es : Entries) (re : Str → Bool) (l : List (Str × Node))
    (h : listWithRegexp path (.dir es) re = .ok l) (q : Str) (m : Node) :
    (q, m) ∈ l ↔ Below path (.dir es) q m ∧ Leaf m ∧ re q = true := by
  have hw := walk_spec re path (.dir es)
  have h' : walk re path (.dir es) = .ok l := h
  rw [h'] at hw
  rcases hw with ⟨_, hh⟩ | ⟨_, l', hh, k⟩
  · cases hh
  · cases hh; exact k q m

/-- C158, in part: nothing is listed twice. -/
theorem C158_once_partial (path : Str) (n : Node) (re : Str → Bool) (hp : Proper path n) (l : List (Str × Node))
    (h : listWithRegexp path n re = .ok l) : (l.map (·.1)).Nodup := by
  unfold listWithRegexp at h
  split at h
  · exact walk_nodup re path n hp l h
  · cases h

/-- C158, in part: `ListFiles` gives all of what is below and is no directory. -/
theorem C158_all_partial (path : Str) (es : Entries) (l : List (Str × Node)) (h : listFiles path (.dir es) = .ok l) (q : Str) (m : Node) :
    (q, m) ∈ l ↔ Below path (.dir es) q m ∧ Leaf m := by
  have := C158_regexp_partial path es (hasExt []) l h q m
  rw [this]
  simp [hasExt]

/-- C158: what is not a directory is refused. -/
theorem C158_refused (path : Str) (n : Node) (re : Str → Bool) (t : Str) :
    (listWithRegexp path n re = .err ↔ ¬ Directory n) ∧ (listWithExt path n t = .err ↔ ¬ Directory n) := by
  rw [← stat_iff]
  have key : ∀ re, (if n.isDir then walk re path n else .err) = .err ↔ n.stat ≠ some true := by
    intro re
    have hd : n.isDir = true ↔ n.stat = some true := by
      unfold Node.isDir; cases n.stat with
      | none => simp
      | some b => simp
    by_cases hs : n.stat = some true
    · rw [if_pos (hd.mpr hs)]
      refine ⟨fun he => ?_, fun hne => absurd hs hne⟩
      rcases walk_spec re path n with ⟨_, hh⟩ | ⟨_, l, hh, _⟩
      · rw [hh] at he; cases he
      · rw [hh] at he; cases he
    · rw [if_neg (fun h => hs (hd.mp h))]
      simp [hs]
  exact ⟨key re, key (hasExt t)⟩

/-- C158, negation: a directory given as a symbolic link is accepted, but instead of the files in it the link itself is
listed. -/
theorem C158_link_fails : listFiles s%"res" (.link exTree) = .ok [(s%"res", .link exTree)] ∧ (Node.link exTree).isDir = true ∧
    Below s%"res" exTree s%"res/a.sql" (.file (some s%"BEGIN;")) :=
  ⟨rfl, rfl, .down _ _ s%"a.sql" _ _ _ (by simp [entries]) (.here _ _)⟩

/-- C158, negation: files in a directory that cannot be listed are left out without an error. -/
theorem C158_closed_fails : (listFiles s%"res" (.dir (.cons s%"x" .closed .nil))) = .ok [] := rfl

example : ∃ l, listWithRegexp s%"res" exTree (fun q => Str.hasSuffix q s%".sql") = .ok l ∧ l.map (·.1) = [s%"res/a.sql"] := ⟨_, rfl, by decide⟩
example : ∃ l, listFiles s%"res" exTree = .ok l ∧ l.map (·.1) = [s%"res/a.sql", s%"res/d/b.mysql"] := ⟨_, rfl, by decide⟩

/-! ### C159 -/

/-- C159, exactly: listing a directory panics if and only if something below it is gone when it is looked at; and if not, it
gives a list. -/
theorem C159_panic_iff (path : Str) (es : Entries) (re : Str → Bool) :
    (listWithRegexp path (.dir es) re = .panic ↔ ∃ q, Below path (.dir es) q .gone) ∧
    ((¬ ∃ q, Below path (.dir es) q .gone) → ∃ l, listWithRegexp path (.dir es) re = .ok l) := by
  have hw : listWithRegexp path (.dir es) re = walk re path (.dir es) := rfl
  rw [hw]
  rcases walk_spec re path (.dir es) with ⟨h1, h2⟩ | ⟨h1, l, h2, _⟩
  · exact ⟨⟨fun _ => h1, fun _ => h2⟩, fun h => absurd h1 h⟩
  · exact ⟨⟨fun h => (by rw [h2] at h; cases h), fun h => absurd h h1⟩, fun _ => ⟨l, h2⟩⟩

/-- C159, negation: a file that is removed after its directory was read makes the listing panic. -/
theorem C159_fails : listFiles s%"res" (.dir (.cons s%"a.sql" .gone .nil)) = .panic := rfl

example : ¬ ∃ q, Below s%"r" (.dir (.cons s%"a" (.file none) .nil)) q .gone := by
  rintro ⟨q, h⟩
  cases h with
  | down _ _ name n _ _ hm hb =>
    simp only [entries, List.mem_singleton, Prod.mk.injEq] at hm
    obtain ⟨rfl, rfl⟩ := hm
    cases hb

/-! ### C160 -/

/-- C160: `Ext` gives the part of the last element from the last dot on, or nothing if there is no dot. -/
theorem C160_ext (path : Str) : IsExt path (ext path) := ext_spec path

/-- C160, in part: with an extension that begins with a dot, a file is listed if and only if this is its extension. Missing:
extensions without the dot, see `C160_fails`. -/
theorem C160_listed_partial (path : Str) (es : Entries) (t : Str) (l : List (Str × Node)) (h : listWithExt path (.dir es) ('.' :: t) = .ok l)
    (q : Str) (m : Node) : (q, m) ∈ l ↔ Below path (.dir es) q m ∧ Leaf m ∧ IsExt q ('.' :: t) := by
  have := C158_regexp_partial path es (hasExt ('.' :: t)) l h q m
  rw [this]
  suffices hs : hasExt ('.' :: t) q = true ↔ IsExt q ('.' :: t) by rw [hs]
  have he := ext_spec q
  have hsuf : hasExt ('.' :: t) q = true ↔ ∃ pre, ext q = pre ++ '.' :: t := by
    unfold hasExt Str.hasSuffix
    simp only [List.length_cons, Nat.add_eq_zero_iff, Nat.succ_ne_self, and_false, beq_iff_eq, Bool.or_eq_true, false_or]
    rw [List.isPrefixOf_iff_prefix, List.reverse_prefix]
    constructor
    · rintro ⟨pre, e⟩; exact ⟨pre, e.symm⟩
    · rintro ⟨pre, e⟩; exact ⟨pre, e.symm⟩
  rw [hsuf]
  constructor
  · rintro ⟨pre, e⟩
    rcases he with ⟨pre', r, e1, e2, e3, e4⟩ | ⟨e1, _⟩
    · have hpre : pre = [] := by
        cases pre with
        | nil => rfl
        | cons c pre =>
          rw [e2] at e
          simp only [List.cons_append, List.cons.injEq] at e
          exact absurd (by rw [e.2]; simp) e3
      subst hpre
      rw [e2, List.nil_append] at e
      rw [← e]
      exact .inl ⟨pre', r, by rw [← e2]; exact e1, rfl, e3, e4⟩
    · rw [e1] at e
      exact absurd e (by simp)
  · intro hx
    refine ⟨[], ?_⟩
    rw [List.nil_append]
    exact ext_unique he hx (by simp)

/-- C160, negation: asked for the extension `sql`, files with the extension `.mysql` are listed too. -/
theorem C160_fails : ∃ l, listWithExt s%"res" exTree s%"sql" = .ok l ∧ l.map (·.1) = [s%"res/a.sql", s%"res/d/b.mysql"] ∧
    ext s%"res/d/b.mysql" = s%".mysql" := ⟨_, rfl, by decide, by decide⟩

example : ∃ l, listWithExt s%"res" exTree s%".sql" = .ok l ∧ l.map (·.1) = [s%"res/a.sql"] := ⟨_, rfl, by decide⟩

/-! ### C161 -/

/-- C161, in part: testing a directory runs the queries of all matching files, file by file, and reports an error if and only
if a matching file cannot be read. Missing: files in directories that cannot be listed are left out without an error, see
`C161_fails`. -/
theorem C161_directory_partial (path : Str) (es : Entries) (re : Str → Bool) (hg : ¬ ∃ q, Below path (.dir es) q .gone) :
    ∃ l r, listWithRegexp path (.dir es) re = .ok l ∧ testDirectory path (.dir es) (some re) = .ok r ∧
      r.run = (l.map (fun x => ((x.2.read).map queriesOf).getD [])).flatten ∧
      (∀ q m c, Below path (.dir es) q m → Leaf m → re q = true → Contents m c → ∀ s ∈ queriesOf c, s ∈ r.run) ∧
      (r.error = true ↔ ∃ q m, Below path (.dir es) q m ∧ Leaf m ∧ re q = true ∧ ∀ c, ¬ Contents m c) := by
  simp only [← read_none_iff]
  simp only [← read_iff]
  obtain ⟨l, hl⟩ := (C159_panic_iff path es re).2 hg
  have hmem := C158_regexp_partial path es re l hl
  refine ⟨l, l.foldr (fun x r => (testFile x.2).and r) {}, hl, by simp only [testDirectory, hl], ?_⟩
  have h1 : ∀ l : List (Str × Node), (l.foldr (fun x r => (testFile x.2).and r) {}).run = (l.map (fun x => ((x.2.read).map queriesOf).getD [])).flatten := by
    intro l
    induction l with
    | nil => rfl
    | cons x l ih =>
      rw [List.foldr_cons, List.map_cons, List.flatten_cons, ← ih]
      show (testFile x.2).run ++ _ = _
      congr 1
      unfold testFile
      cases x.2.read <;> rfl
  have h2 : ∀ l : List (Str × Node), (l.foldr (fun x r => (testFile x.2).and r) {}).error = true ↔ ∃ x ∈ l, x.2.read = none := by
    intro l
    induction l with
    | nil => simp
    | cons x l ih =>
      rw [List.foldr_cons]
      show ((testFile x.2).error || _) = true ↔ _
      rw [Bool.or_eq_true, ih]
      simp only [List.mem_cons, exists_eq_or_imp]
      unfold testFile
      cases x.2.read <;> simp
  refine ⟨h1 l, ?_, ?_⟩
  · intro q m c hb hle hre hc s hs
    rw [h1]
    refine List.mem_flatten.mpr ⟨queriesOf c, List.mem_map.mpr ⟨(q, m), (hmem q m).mpr ⟨hb, hle, hre⟩, ?_⟩, hs⟩
    simp [hc]
  · rw [h2]
    constructor
    · rintro ⟨⟨q, m⟩, hm, hr⟩
      obtain ⟨a, b, c⟩ := (hmem q m).mp hm
      exact ⟨q, m, a, b, c, hr⟩
    · rintro ⟨q, m, a, b, c, hr⟩
      exact ⟨(q, m), (hmem q m).mpr ⟨a, b, c⟩, hr⟩

/-- C161: testing a file, also one behind links, runs its queries; and if it cannot be read an error is reported. -/
theorem C161_file (n : Node) : (∀ c, Contents n c → testFile n = { run := queriesOf c, error := false }) ∧
    ((∀ c, ¬ Contents n c) → testFile n = { run := [], error := true }) := by
  simp only [← read_none_iff, testFile]
  simp only [← read_iff]
  exact ⟨fun c h => by rw [h], fun h => by rw [h]⟩

example : Contents (.link (.link (.file (some s%"BEGIN;")))) s%"BEGIN;" := .link _ _ (.link _ _ (.file _))

/-- C161: an expression that does not compile, or a path that is no directory, is reported and nothing is run. -/
theorem C161_refused (path : Str) (n : Node) (re : Option (Str → Bool)) (h : re = none ∨ ¬ Directory n) :
    testDirectory path n re = .ok { run := [], error := true } := by
  cases re with
  | none => rfl
  | some re =>
    have hs := h.resolve_left (by simp)
    simp only [testDirectory, (C158_refused path n re []).1.mpr hs]

/-- C161, negation: a test passes although the only directory with queries could not be listed. -/
theorem C161_fails : testDirectory s%"res" (.dir (.cons s%"x" .closed .nil)) (some fun _ => true) = .ok { run := [], error := false } := rfl

example : testDirectory s%"res" exTree (some fun _ => true) = .ok { run := [s%"BEGIN", s%"COMMIT", s%"ROLLBACK"], error := false } := by
  decide +kernel

end Verif.Props
