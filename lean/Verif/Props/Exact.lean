import Verif.Props.Schema
import Verif.Props.Types
import Verif.Props.Exec
import Verif.Props.AggrMore
import Verif.Spec.Exact
import Verif.Lemmas.Join
/-! Exact forms: C16, C33, C40, C73. -/
namespace Verif.Props
open Verif Verif.Query Verif.Spec Verif.Fn Verif.Lemmas

/-! ### C16 -/

/-- C16 characterised, for every schema and every combination of clauses: an ALTER TABLE statement does what its clauses do
as separate statements, in the order add column, add index, drop column, drop index, rename, until one does not succeed.
So the effect that a failing statement leaves behind is exactly that of the clauses before the failing one. -/
theorem C16_alter_sequence (s : Schema) (a : AlterTable) :
    (s.alter a).1 = (alterAll s (singleClauses a)).1 ∧
    ((s.alter a).2 = .ok () ↔ (alterAll s (singleClauses a)).2 = true) := by
  have hren : ∀ a : AlterTable, renameError a ≠ .ok () := by
    intro a; unfold renameError; split <;> simp
  obtain ⟨tb, rt, rf, rc, ac, ai, dc, di⟩ := a
  cases ac <;> cases ai <;> cases dc <;> cases di <;> cases rt <;> cases rf <;> cases rc <;>
    simp [singleClauses, alterAll, Schema.alter, Schema.alterDropColumn, Schema.alterDropIndex, Schema.alterRename, hren] <;>
    (repeat' split) <;> simp_all

example : ∃ (s : Schema) (a : AlterTable), (s.alter a).2 ≠ .ok () ∧ (singleClauses a).length = 2 ∧ (s.alter a).1 ≠ s :=
  ⟨newSchemaWith s%"t" [{ name := s%"a" }], { table := { name := s%"t" }, addColumn := some { name := s%"b", def_ := some { typ := .int, length := 0 } }, renameTo := some { name := s%"u" } },
    by decide +kernel⟩

/-! ### C40 -/

theorem isPrefix_pair {u a b : Str} (h : Str.hasPrefix u a = true) (h' : Str.hasPrefix u b = true) :
    Str.hasPrefix a b = true ∨ Str.hasPrefix b a = true := by
  simp only [Str.hasPrefix, List.isPrefixOf_iff_prefix] at *
  rcases List.prefix_or_prefix_of_prefix h h' with h | h
  · exact .inr h
  · exact .inl h

theorem startsWith_upper (s p : Str) (hp : Str.upper p = p) : StartsWith s p ↔ Str.hasPrefix (Str.upper s) p = true := by
  have hm : (Str.upper s).take p.length = Str.upper (s.take p.length) := by simp [Str.upper]
  have h1 : StartsWith s p ↔ Str.eqFold (s.take p.length) p = true := (Str.eqFold_iff_toLower _ _).symm
  rw [h1, Str.eqFold_iff, hp, Str.hasPrefix, List.isPrefixOf_iff_prefix, List.prefix_iff_eq_take, hm]
  exact eq_comm

theorem exec_names (k : ExecId) : Str.upper k.name = k.name := by cases k <;> decide +kernel

theorem upC_low (c d : Char) (h : Str.upC c = d) (hd : d.toNat < 65) : c = d := by
  unfold Str.upC at h
  split at h
  · next hc =>
    exfalso
    have hv : Nat.isValidChar (c.toNat - 32) := Or.inl (by omega)
    have : d.toNat = c.toNat - 32 := by rw [← h]; unfold Char.ofNat; rw [dif_pos hv]; rfl
    omega
  · exact h

theorem operator_exact (k : ExecId) (hk : (k.type == .arith) = true) (s : Str) (h : Str.upper s = Str.upper k.name) : s = k.name := by
  rw [exec_names] at h
  have hl : ∀ d : Char, d.toNat < 65 → Str.upper s = [d] → s = [d] := by
    intro d hd he
    cases s with
    | nil => cases he
    | cons c s =>
      cases s with
      | cons => simp [Str.upper] at he
      | nil => rw [upC_low c d (List.cons.inj he).1 hd]
  cases k <;> first | (exact hl _ (by decide) h) | (exact absurd hk (by decide))

/-- C40 characterised: the executor of the name is found exactly for the texts that begin with the function's name in any
case, and for the operators written exactly, with one exception: LOG10 is never found. So two names are never confused
except LOG10 with LOG. -/
theorem C40_executor_iff (s : Str) (k : ExecId) :
    newExecutorForName s = some k ↔ k ≠ .log10 ∧ FindsExecutor s k.name (k.type == .arith) := by
  constructor
  · intro h
    refine ⟨fun hk => C40_log10_unreachable s (hk ▸ h), ?_⟩
    have hs := (C40_executor_lookup_partial s).2 k h
    unfold newExecutorForName at h
    obtain ⟨e, he, rfl⟩ := Option.map_eq_some_iff.mp h
    have hm := List.mem_of_find?_eq_some he
    have hp := List.find?_some he
    have ht : ∀ e ∈ execCases, e.2 = !(e.1.type == .arith) := by decide +kernel
    rw [FindsExecutor]
    cases hb : (e.1.type == .arith) with
    | false => simpa using hs
    | true =>
      rw [execCaseHit, ht e hm, hb] at hp
      simp only [Bool.not_true, Bool.false_eq_true, if_false] at hp
      simpa using operator_exact e.1 hb s ((Str.upper_upper s).symm.trans ((Str.eqFold_iff _ _).mp hp))
  · rintro ⟨hk, hf⟩
    rw [FindsExecutor] at hf
    cases hb : (k.type == .arith) with
    | true =>
      rw [hb, if_pos rfl] at hf
      rw [hf]
      revert hk
      cases k <;> decide +kernel
    | false =>
      rw [hb, if_neg (by simp), startsWith_upper _ _ (exec_names k)] at hf
      cases hn : newExecutorForName s with
      | none =>
        rw [newExecutorForName, Option.map_eq_none_iff, List.find?_eq_none] at hn
        have hm : (k, true) ∈ execCases := by revert hb; cases k <;> decide +kernel
        exact absurd hf (by simpa [execCaseHit] using hn _ hm)
      | some k' =>
        have h1 := C40_log10_unreachable s
        have h2 := (startsWith_upper _ _ (exec_names k')).mp ((C40_executor_lookup_partial s).2 k' hn)
        have h3 : k' ≠ .log10 := fun e => h1 (e ▸ hn)
        have h4 := isPrefix_pair hf h2
        congr 1
        revert h3 h4 hk
        cases k <;> cases k' <;> first | (intros; rfl) | decide

example : newExecutorForName s%"Logarithm" = some .log ∧ newExecutorForName s%"log10" = some .log ∧ newExecutorForName s%"%" = some .opMod ∧
    newExecutorForName s%"%%" = none := by decide +kernel

/-! ### C73 -/

variable {V F T : Type}

/-- C73 characterised, for every name that begins with SQRT and every list of arguments: the square root is returned exactly
when there is one argument, it converts to a number, and the number is not less than or equal to zero; in all other cases
there is an error and never a panic. So zero is the only wrong case. -/
theorem C73_sqrt_iff (env : XEnv V F T) (n : Str) (hn : StartsWith n s%"SQRT") (as : List (Option V)) :
    (∀ r, executeFunction env n (.args as) = .ok r ↔
      ∃ a x, as = [a] ∧ env.toFloat a = some x ∧ env.le x env.zero = false ∧ r = .num (env.sqrt x)) ∧
    executeFunction env n (.args as) ≠ .panic := by
  have h : executeFunction env n (.args as) = execBody env .sqrt as := by
    rw [executeFunction, (C40_executor_iff n .sqrt).mpr ⟨by decide, hn⟩]; rfl
  rw [h]
  have hb : execBody env .sqrt as = (match castAll env.toFloat as with
      | none => .err
      | some fs => one (fun x => if env.le x env.zero then .err else .ok (.num (env.sqrt x))) fs) := rfl
  rw [hb]
  match as with
  | [] => constructor <;> simp [castAll, one]
  | [a] =>
    cases hx : env.toFloat a with
    | none => constructor <;> simp [castAll, hx]
    | some x =>
      cases hz : env.le x env.zero with
      | true => constructor <;> simp [castAll, hx, one, hz]
      | false =>
        constructor
        · intro r
          simp only [castAll, hx, one, hz, Bool.false_eq_true, if_false, Res.ok.injEq]
          constructor
          · intro h; exact ⟨a, x, rfl, hx, hz, h.symm⟩
          · rintro ⟨b, y, hb, hy, _, rfl⟩
            cases hb
            rw [hx] at hy
            cases hy; rfl
        · simp [castAll, hx, one, hz]
  | a :: b :: as =>
    have : ∀ fs, castAll env.toFloat (a :: b :: as) = some fs → ∃ x y l, fs = x :: y :: l := by
      intro fs hfs
      simp only [castAll] at hfs
      split at hfs
      · cases hfs
      · split at hfs
        · cases hfs
        · next hq =>
          cases hfs
          split at hq
          · cases hq
          · split at hq
            · cases hq
            · cases hq; exact ⟨_, _, _, rfl⟩
    cases hc : castAll env.toFloat (a :: b :: as) with
    | none => constructor <;> simp
    | some fs =>
      obtain ⟨x, y, l, rfl⟩ := this fs hc
      constructor <;> simp [one]

example : StartsWith s%"sqrt" s%"SQRT" ∧ xEnv.toFloat (some 4) = some 4 ∧ xEnv.le 4 xEnv.zero = false := ⟨by unfold StartsWith; decide, by decide⟩

/-! ### C33 -/

theorem accumulate_prefix (E : Env V F) (k : AggrId) (pre : List (Option V × F)) (hp : ∀ p ∈ pre, toFloat64 E p.1 = some p.2)
    (v : Option V) (hv : toFloat64 E v = none) (post : List (Option V)) (accs : List F) (hl : pre.length < accs.length) :
    accumulate E k accs (pre.map (·.1) ++ v :: post) =
      (List.zipWith (k.step E) accs (pre.map (·.2)) ++ accs.drop pre.length, .err) := by
  induction pre generalizing accs with
  | nil =>
    cases accs with
    | nil => simp at hl
    | cons acc accs => simp [accumulate, hv]
  | cons p pre ih =>
    cases accs with
    | nil => simp at hl
    | cons acc accs =>
      simp only [List.map_cons, List.cons_append, accumulate, hp p (by simp)]
      rw [ih (fun q hq => hp q (by simp [hq])) accs (by simpa using hl)]
      simp

/-- What a row leaves behind that is rejected at a value that is no number, in every state without grouping: exactly the
values before that one are accumulated, and the row is not counted. -/
theorem C33_effect_fails (E : Env V F) (a : Aggr V F) (hg : a.groupBys = []) (hl : a.aggrs.length = a.columns.length)
    (pre : List (Option V × F)) (hp : ∀ p ∈ pre, toFloat64 E p.1 = some p.2) (v : Option V) (hv : toFloat64 E v = none)
    (post : List (Option V)) (hw : pre.length + 1 + post.length = a.columns.length) :
    a.aggregateRow E (pre.map (·.1) ++ v :: post) =
      ({ a with aggrs := List.zipWith (a.kind.step E) a.aggrs (pre.map (·.2)) ++ a.aggrs.drop pre.length }, .err) := by
  rw [aggregateRow_ungrouped hg, if_neg (by simp; omega), accumulate_prefix E a.kind pre hp v hv post a.aggrs (by omega)]

/-- C33 characterised for SUM without grouping: a row rejected at a value that is no number leaves the result of Finalize as
it was if and only if none of the numbers before that value changes its sum. -/
theorem C33_sum_iff (E : Env V F) (a : Aggr V F) (hk : a.kind = .sum) (hg : a.groupBys = []) (hl : a.aggrs.length = a.columns.length)
    (pre : List (Option V × F)) (hp : ∀ p ∈ pre, toFloat64 E p.1 = some p.2) (v : Option V) (hv : toFloat64 E v = none)
    (post : List (Option V)) (hw : pre.length + 1 + post.length = a.columns.length) (ch : Choice) (ob : OrderBy) :
    (a.aggregateRow E (pre.map (·.1) ++ v :: post)).1.finalize E ch ob = a.finalize E ch ob ↔
      ∀ (i : Nat) acc p, a.aggrs[i]? = some acc → pre[i]? = some p → E.add acc p.2 = acc := by
  rw [C33_effect_fails E a hg hl pre hp v hv post hw]
  simp only [Aggr.finalize, hg, hk, List.length_nil, ne_eq, not_true_eq_false, if_false, Option.some.injEq, ResultSet.mk.injEq,
    true_and, List.cons.injEq, and_true]
  have hinj : ∀ l m : List F, l.map (fun x => AggrId.sum.final (V := V) E x a.counts) = m.map (fun x => AggrId.sum.final E x a.counts) ↔ l = m := by
    intro l m
    constructor
    · intro h
      induction l generalizing m with
      | nil => cases m with
        | nil => rfl
        | cons => simp at h
      | cons x l ih => cases m with
        | nil => simp at h
        | cons y m =>
          simp only [List.map_cons, List.cons.injEq, AggrId.final, Cell.num.injEq] at h
          rw [h.1, ih m (by simpa [AggrId.final] using h.2)]
    · rintro rfl; rfl
  rw [hinj]
  have hlt : pre.length ≤ a.aggrs.length := by omega
  generalize a.aggrs = accs at hlt
  clear hp hw hl hinj
  induction pre generalizing accs with
  | nil => simp
  | cons p pre ih =>
    cases accs with
    | nil => simp at hlt
    | cons acc accs =>
      simp only [List.map_cons, List.zipWith_cons_cons, List.length_cons, List.drop_succ_cons, List.cons_append, List.cons.injEq]
      have hi := ih accs (by simpa using hlt)
      constructor
      · rintro ⟨h1, h2'⟩ i x q hx hq
        have h2 := hi.mp h2'
        cases i with
        | zero => simp at hx hq; subst hx; subst hq; exact h1
        | succ i => exact h2 i x q (by simpa using hx) (by simpa using hq)
      · intro h
        refine ⟨h 0 acc p rfl rfl, hi.mpr fun i x q hx hq => h (i + 1) x q (by simpa using hx) (by simpa using hq)⟩

example : (exTwo .sum).kind = .sum ∧ (exTwo .sum).groupBys = [] ∧ (exTwo .sum).aggrs.length = (exTwo .sum).columns.length ∧
    toFloat64 exEnv (some (.n 5)) = some 5 ∧ toFloat64 exEnv (some (.t s%"u")) = none := by decide

end Verif.Props
