import Verif.Model.Errors
import Verif.Lemmas.Str
import Verif.Lemmas.Join
/-! C72, C77, C78: SQLSTATE codes and classes, error values. -/
namespace Verif.Props
open Verif Verif.Errors

private theorem switchOn_first (cases : List (Str × Str)) (d v t : Str) (hn : (cases.map (·.1)).Nodup)
    (h : (v, t) ∈ cases) : switchOn cases d v = t := by
  induction cases with
  | nil => cases h
  | cons c cs ih =>
    simp only [List.map_cons, List.nodup_cons] at hn
    rcases List.mem_cons.mp h with rfl | h
    · simp [switchOn]
    · have : v ≠ c.1 := fun e => hn.1 (e ▸ List.mem_map.mpr ⟨_, h, rfl⟩)
      simp only [switchOn, this, if_false]
      exact ih hn.2 h

private theorem switchOn_default (cases : List (Str × Str)) (d v : Str) (h : v ∉ cases.map (·.1)) :
    switchOn cases d v = d := by
  induction cases with
  | nil => rfl
  | cons c cs ih =>
    simp only [List.map_cons, List.mem_cons, not_or] at h
    simp only [switchOn, h.1, if_false]
    exact ih h.2

private theorem decls_nodup : (codeDecls.map (·.2)).Nodup := by
  have h : (codeDecls.map (fun e => e.2.foldl (fun a c => a * 2097152 + c.toNat) 0)).Nodup := by decide +kernel
  exact List.pairwise_map.mpr ((List.pairwise_map.mp h).imp (fun h e => h (by rw [e])))

private theorem cases_decls : codeCases.map (·.1) = codeDecls.map (·.2) := by decide +kernel

/-- C72: no two declared codes (and no two declared classes) have the same value. -/
theorem C72_distinct : (codeDecls.map (·.2)).Nodup ∧ (classDecls.map (·.2)).Nodup := by
  exact ⟨decls_nodup, by decide +kernel⟩

/-- C72: exactly the declared codes print a description other than the unknown one: a string that is no
declared code prints "Unknown Code". -/
theorem C72_described (c : Str) : codeString c ≠ s%"Unknown Code" ↔ c ∈ codeDecls.map (·.2) := by
  have hn : (codeCases.map (·.1)).Nodup := by rw [cases_decls]; exact decls_nodup
  have hv : ∀ e ∈ codeCases, e.2 ≠ s%"Unknown Code" := by decide +kernel
  have he := cases_decls
  rw [← he]
  constructor
  · intro h
    refine Classical.byContradiction fun hm => h (switchOn_default _ _ _ hm)
  · intro h
    obtain ⟨⟨v, t⟩, hm, rfl⟩ := List.mem_map.mp h
    rw [codeString, switchOn_first _ _ _ _ hn hm]
    exact hv _ hm

example : s%"42P01" ∈ codeDecls.map (·.2) ∧ codeString s%"42P01" = s%"Undefined Table" := by decide +kernel
example : s%"99999" ∉ codeDecls.map (·.2) := by decide +kernel

/-- C72: every declared code has five characters, the first two of which are a declared class; exactly the
declared classes print a description other than the unknown one. -/
theorem C72_class : (∀ e ∈ codeDecls, e.2.length = 5 ∧ e.2.take 2 ∈ classDecls.map (·.2)) ∧
    ∀ c : Str, classString c ≠ s%"Unknown Class" ↔ c ∈ classDecls.map (·.2) := by
  refine ⟨by decide +kernel, ?_⟩
  intro c
  have hn : (classCases.map (·.1)).Nodup := by decide +kernel
  have hv : ∀ e ∈ classCases, e.2 ≠ s%"Unknown Class" := by decide +kernel
  have he : classCases.map (·.1) = classDecls.map (·.2) := by decide +kernel
  rw [← he]
  constructor
  · intro h
    refine Classical.byContradiction fun hm => h (switchOn_default _ _ _ hm)
  · intro h
    obtain ⟨⟨v, t⟩, hm, rfl⟩ := List.mem_map.mp h
    rw [classString, switchOn_first _ _ _ _ hn hm]
    exact hv _ hm

/-- C72: the codes' descriptions are words of the constant's name: for every declared code the description is
the constant's name with spaces put in. -/
theorem C72_names : codeDecls.map (fun e => e.1.map Char.toLower) =
    codeDecls.map (fun e => ((codeString e.2).filter (fun c => c.isAlphanum)).map Char.toLower) := by
  have h1 : codeDecls.map (fun e => codeString e.2) = codeCases.map (·.2) := by
    rw [show codeDecls.map (fun e => codeString e.2) = (codeDecls.map (·.2)).map codeString by rw [List.map_map]; rfl,
      ← cases_decls, List.map_map]
    refine List.map_congr_left ?_
    intro e he
    exact switchOn_first _ _ _ _ (by rw [cases_decls]; exact decls_nodup) he
  have h2 : codeDecls.map (fun e => ((codeString e.2).filter (fun c => c.isAlphanum)).map Char.toLower) =
      (codeDecls.map (fun e => codeString e.2)).map (fun t => (t.filter (fun c => c.isAlphanum)).map Char.toLower) := by
    rw [List.map_map]; rfl
  rw [h2, h1]
  decide +kernel

/-! ### C77 -/

/-- C77 for the constructors of query.go and `NewErrNotImplemented`: whatever the argument, the error is
recognised by `errors.Is` as the condition the constructor is named for, and as no other. Missing from the full
statement: `NewErrNotExist`, `NewErrExist` and `NewErrNotSupported`, see `C77_fails`. -/
theorem C77_is_partial (v : Str) (a b : Int) (s : Sentinel) :
    ((newErrNotImplemented v).is s = true ↔ s = .notImplemented) ∧
    ((newErrDatabaseNotExist v).is s = true ↔ s = .notExist) ∧
    ((newErrTableNotExist v).is s = true ↔ s = .notExist) ∧
    ((newErrDatabaseExist v).is s = true ↔ s = .exist) ∧
    ((newErrTableExist v).is s = true ↔ s = .exist) ∧
    ((newErrColumnNotExist v).is s = true ↔ s = .notExist) ∧
    ((newErrColumnValueNotExist v).is s = true ↔ s = .notExist) ∧
    ((newErrGroupByColumnValueNotFound v).is s = true ↔ s = .notFound) ∧
    ((newErrColumnsNotEqual a b).is s = true ↔ s = .notEqual) ∧
    ((newErrPreparedStatementNotExist v).is s = true ↔ s = .notExist) ∧
    ((newErrPreparedPortalNotExist v).is s = true ↔ s = .notExist) ∧
    ((newErrMultiplePreparedStatementNotSupported v).is s = true ↔ s = .notSupported) ∧
    ((newErrMultipleTableNotSupported v).is s = true ↔ s = .notSupported) := by
  have key : ∀ (m : Str) (t : Sentinel), (Err.mk m (some t)).is s = true ↔ s = t := by
    intro m t
    simp only [Err.is, beq_iff_eq, Option.some.injEq]
    exact eq_comm
  exact ⟨key _ _, key _ _, key _ _, key _ _, key _ _, key _ _, key _ _, key _ _, key _ _, key _ _, key _ _, key _ _,
    key _ _⟩

/-- C77 fails for three constructors, for every argument: they wrap nothing. -/
theorem C77_fails (v : Str) : (newErrNotExist v).is .notExist = false ∧ (newErrExist v).is .exist = false ∧
    (newErrNotSupported v).is .notSupported = false := ⟨rfl, rfl, rfl⟩

/-- C77 fails for a query without a table: whatever the query, the error is recognised as no condition at all, so it can
be told from others by its text only; the text has the query in it. -/
theorem C77_no_table_fails (v : Str) : (∀ s, (newErrNoTable v).is s = false) ∧
    ∃ a b, (newErrNoTable v).msg = a ++ v ++ b := ⟨fun _ => rfl, _, _, rfl⟩

/-! ### C78 -/

/-- C78 fails: the error for something that exists and the error for something that does not are the same
value, for every name. -/
theorem C78_fails (v : Str) : newErrExist v = newErrNotExist v := rfl

/-- C78 for databases and tables: the four messages determine the constructor and the name, whatever the
names. Missing from the full statement: the general constructors, see `C78_fails`. -/
theorem C78_messages_partial (v w : Str) :
    ((newErrDatabaseNotExist v).msg = (newErrDatabaseNotExist w).msg → v = w) ∧
    ((newErrTableNotExist v).msg = (newErrTableNotExist w).msg → v = w) ∧
    ((newErrDatabaseExist v).msg = (newErrDatabaseExist w).msg → v = w) ∧
    ((newErrTableExist v).msg = (newErrTableExist w).msg → v = w) ∧
    (newErrDatabaseNotExist v).msg ≠ (newErrTableNotExist w).msg ∧
    (newErrDatabaseExist v).msg ≠ (newErrTableExist w).msg ∧
    (newErrDatabaseNotExist v).msg ≠ (newErrDatabaseExist w).msg ∧
    (newErrTableNotExist v).msg ≠ (newErrTableExist w).msg := by
  have pre : ∀ (p x y q r : Str), p ++ x ++ q = p ++ y ++ r → x ++ q = y ++ r := by
    intro p x y q r h
    simpa using h
  have ends : ∀ p x y : Str, p ++ s%" (" ++ x ++ s%") " ++ s%"is " ++ s%"not exist" ≠
      p ++ s%" (" ++ y ++ s%") " ++ s%"is " ++ s%"exist" := by
    intro p x y h
    have h' := congrArg List.reverse h
    have h2 := congrArg (List.take 9) h'
    simp [List.reverse_append] at h2
  simp only [newErrDatabaseNotExist, newErrTableNotExist, newErrDatabaseExist, newErrTableExist, errAbout,
    Sentinel.text]
  refine ⟨?_, ?_, ?_, ?_, ?_, ?_, ends _ _ _, ends _ _ _⟩
  · intro h; simpa using h
  · intro h; simpa using h
  · intro h; simpa using h
  · intro h; simpa using h
  · intro h; simp at h
  · intro h; simp at h

end Verif.Props
