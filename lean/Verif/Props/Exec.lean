import Verif.Lemmas.Exec
/-! C43, C44, C73–C75: executors. -/
namespace Verif.Props
open Verif Verif.Fn Verif.Spec Verif.Lemmas
variable {V F T : Type}

/-- An instance of the float operations over integers, for the examples. -/
def xEnv : XEnv Int Int Unit where
  toFloat := fun | none => some 0 | some v => if v = 99 then none else some v
  toText := fun | none => none | some v => some (Str.ofInt v)
  ofText := fun s => s.length
  zero := 0
  add := (· + ·)
  sub := (· - ·)
  mul := (· * ·)
  div := (· / ·)
  le := fun a b => decide (a ≤ b)
  lt := fun a b => decide (a < b)
  eq := fun a b => decide (a = b)
  trunc := id
  ofInt := id
  abs := fun a => a.natAbs
  floor := id
  ceil := id
  round := id
  sqrt := id
  log := id
  log10 := id
  exp := id
  pow := fun a b => a ^ b.toNat
  fmod := Int.tmod
  sin := id
  cos := id
  tan := id
  pi := 3
  random := some 0xFFFFFFFFFFFFFFFF#64
  now := ()

/-- The call that can crash: `%` with two convertible arguments, the second of which truncates to zero. -/
def ModByZero (env : XEnv V F T) (id : ExecId) (args : List (Option V)) : Prop :=
  id.name = s%"%" ∧ ∃ a b x y, args = [a, b] ∧ env.toFloat a = some x ∧ env.toFloat b = some y ∧ env.trunc y = 0

/-- C43, negation: `%` of 5 and 0 panics instead of returning an error. -/
theorem C43_fails : ∃ (env : XEnv Int Int Unit) (args : List (Option Int)),
    executeFunction env s%"%" (.args args) = .panic :=
  ⟨xEnv, [some 5, some 0], by decide⟩

/-- C43: exactly which executions panic: those of the operator `%` whose second argument truncates to zero
(so also 0.5). Every executor, arithmetic, math, string or time, every argument list, every behaviour of the
float operations. -/
theorem C43_panic_iff (env : XEnv V F T) (id : ExecId) (args : List (Option V)) :
    (newExec env id []).execute env (.args args) = .panic ↔ ModByZero env id args := by
  show execBody env id args = .panic ↔ _
  unfold ModByZero
  have hm : ∀ (i : ExecId) (fs : List F), mathBody env i fs ≠ .panic := by
    intro i fs
    cases i <;> (try (rcases fs with _ | ⟨x, _ | ⟨y, _ | ⟨z, fs⟩⟩⟩)) <;>
      simp only [mathBody, one, two, zeroArgs, randomValue, ne_eq, reduceCtorEq, not_false_eq_true] <;>
      (repeat' split) <;> simp
  have hs : ∀ (i : ExecId) (ss : List Str), (stringBody i ss : Res (XVal V F T)) ≠ .panic := by
    intro i ss; unfold stringBody; split <;> simp
  cases id
  case opMod =>
    simp only [execBody, ExecId.type, ExecId.name, true_and]
    constructor
    · intro h
      split at h
      · next a b =>
        cases ha : env.toFloat a with
        | none => simp [ha] at h
        | some x =>
          cases hb : env.toFloat b with
          | none => simp [ha, hb] at h
          | some y =>
            simp only [ha, hb, arithBody] at h
            split at h
            · next hz => exact ⟨a, b, x, y, rfl, ha, hb, hz⟩
            · cases h
      · cases h
    · rintro ⟨a, b, x, y, rfl, ha, hb, hz⟩
      simp [ha, hb, arithBody, hz]
  all_goals
    refine ⟨fun h => ?_, fun h => absurd h.1 (by decide)⟩
    simp only [execBody, ExecId.type, arithBody] at h
    first
      | (split at h <;> first | exact absurd h (hm _ _) | exact absurd h (hs _ _) | cases h)
      | (repeat' split at h) <;> cases h

/-- C43 without `%`: no math function and no other arithmetic operator ever panics. Missing from the full
statement: `%`, see `C43_fails` and `C43_panic_iff`. -/
theorem C43_no_panic_partial (env : XEnv V F T) (id : ExecId) (h : id.name ≠ s%"%") (args : List (Option V)) :
    (newExec env id []).execute env (.args args) ≠ .panic :=
  fun hp => h ((C43_panic_iff env id args).mp hp).1

example : (ExecId.opDiv).name ≠ s%"%" ∧
    (newExec xEnv .opDiv []).execute xEnv (.args [some 7, some 2]) = .ok (.num 3) := by decide

/-- C43: the argument count. A math function or operator given any other number of arguments than the
documented one returns an error. -/
theorem C43_arg_count (env : XEnv V F T) (id : ExecId) (n : Nat) (hn : (id.name, n) ∈ argCounts)
    (args : List (Option V)) (h : args.length ≠ n) :
    (newExec env id []).execute env (.args args) = .err := by
  show execBody env id args = .err
  have hm : ∀ fs, castAll env.toFloat args = some fs → fs.length ≠ n := fun fs hf => by
    rw [castAll_length hf]; exact h
  cases id <;> simp only [ExecId.name, argCounts, List.mem_cons, Prod.mk.injEq, List.cons.injEq, Char.reduceEq,
      false_and, and_false, true_and, and_true, false_or, or_false, List.not_mem_nil, reduceCtorEq] at hn <;>
    (try subst hn) <;> simp only [execBody, ExecId.type]
  all_goals first
    | (split
       · rfl
       · next fs hf =>
         have := hm fs hf
         rcases fs with _ | ⟨x, _ | ⟨y, _ | ⟨z, fs⟩⟩⟩ <;>
           simp_all [mathBody, one, two, zeroArgs])
    | (split
       · simp_all
       · rfl)

example : (ExecId.power.name, 2) ∈ argCounts ∧ ([some 3] : List (Option Int)).length ≠ 2 := by decide

/-- C43: with the documented number of arguments, all convertible to numbers, in the function's domain, and
with entropy available, a math function or operator returns a value (or `%` panics as characterised above). -/
theorem C43_value (env : XEnv V F T) (id : ExecId) (n : Nat) (hn : (id.name, n) ∈ argCounts)
    (args : List (Option V)) (fs : List F) (hl : args.length = n) (hc : args.map env.toFloat = fs.map some)
    (hd : InDomain (fun x => env.le x env.zero) (fun x => env.lt x env.zero) (fun x => env.eq x env.zero)
      (fun x => env.eq x (env.ofInt (env.trunc x))) id.name fs)
    (hr : env.random.isSome = true) (hz : ¬ ModByZero env id args) :
    ∃ v, (newExec env id []).execute env (.args args) = .ok v := by
  have hp : execBody env id args ≠ .panic := fun h => hz ((C43_panic_iff env id args).mp h)
  show ∃ v, execBody env id args = .ok v
  have hcast : castAll env.toFloat args = some fs := castAll_map.mpr hc
  have hfl : fs.length = n := by rw [castAll_length hcast, hl]
  obtain ⟨rv, hrv⟩ := Option.isSome_iff_exists.mp hr
  have hargs2 : ∀ a b, args = [a, b] → ∃ x y, fs = [x, y] ∧ env.toFloat a = some x ∧ env.toFloat b = some y := by
    rintro a b rfl
    rcases fs with _ | ⟨x, _ | ⟨y, _ | ⟨z, fs⟩⟩⟩ <;> simp at hc
    exact ⟨x, y, rfl, hc.1, hc.2⟩
  cases id <;> simp only [ExecId.name, argCounts, List.mem_cons, Prod.mk.injEq, List.cons.injEq, Char.reduceEq,
      false_and, and_false, true_and, and_true, false_or, or_false, List.not_mem_nil, reduceCtorEq] at hn <;>
    (try subst hn) <;> simp only [execBody, ExecId.type] at hp ⊢
  all_goals first
    | (rw [hcast]
       rcases fs with _ | ⟨x, _ | ⟨y, _ | ⟨z, fs⟩⟩⟩ <;>
         simp_all [mathBody, one, two, zeroArgs, InDomain, ExecId.name, randomValue] <;>
         exact ⟨_, if_neg (by rintro ⟨h1, h2⟩; rw [hd h1] at h2; cases h2)⟩)
    | (rcases args with _ | ⟨a, _ | ⟨b, _ | ⟨c, args⟩⟩⟩ <;> simp at hl
       obtain ⟨x, y, rfl, ha, hb⟩ := hargs2 a b rfl
       simp only [ha, hb, arithBody] at hp ⊢
       first
         | exact ⟨_, rfl⟩
         | (split at hp
            · exact absurd rfl hp
            · next h => rw [if_neg h]; exact ⟨_, rfl⟩))

example : (ExecId.power.name, 2) ∈ argCounts ∧ ([some 2, some 5].map xEnv.toFloat = [2, 5].map some) ∧
    xEnv.random.isSome = true ∧
    (newExec xEnv .power []).execute xEnv (.args [some 2, some 5]) = .ok (.num 32) := by decide

/-- C44: executing a function on a row object gives what executing it on the argument values gives, where
the value of an argument is the object's value under that name, or the argument text when the object has no
such key. For every executor (whatever options it was built with), object and argument list, for both
object types. -/
theorem C44_object (env : XEnv V F T) (ex : Exec V F T) (m : GoMap Str (Option V)) (hn : m.keys.Nodup)
    (vals : List (Option V)) (h : ArgsFrom env.ofText m ex.args vals) :
    ex.execute env (.map m) = ex.execute env (.args vals) ∧ ex.execute env (.obj m) = ex.execute env (.args vals) := by
  have := argsFrom_unique hn h
  constructor <;>
  · show ex.executeMap env m = ex.executeArgs vals
    rw [executeMap_eq, this]

/-- C44: such values exist for every object and argument list, so the previous theorem determines the
result of every execution on an object. -/
theorem C44_values_exist (env : XEnv V F T) (m : GoMap Str (Option V)) (args : List Str) :
    ∃ vals, ArgsFrom env.ofText m args vals := ⟨_, argsFrom_exists env args⟩

/-- C44: the executor built by name with `WithExecutorArguments args` reads exactly those arguments. -/
theorem C44_by_name (env : XEnv V F T) (id : ExecId) (args : List Str) :
    (newExec env id [.args args]).args = args ∧
    ∀ vals, (newExec env id [.args args]).execute env (.args vals) = (newExec env id []).execute env (.args vals) :=
  ⟨rfl, fun _ => rfl⟩

example : GoMap.keys [(s%"x", some (7 : Int)), (s%"y", none)] |>.Nodup := by decide
example : ArgsFrom xEnv.ofText [(s%"x", some (7 : Int)), (s%"y", none)] [s%"x", s%"abc"] [some 7, some 3] := by
  refine ⟨rfl, ?_⟩
  intro i a v ha hv
  rcases i with _ | _ | i
  · simp at ha hv; subst ha hv; left; simp
  · simp at ha hv; subst ha hv; right; refine ⟨?_, by decide⟩; intro w hw; simp at hw
  · simp at ha
example : (newExec xEnv .opAdd [.args [s%"x", s%"abc"]]).execute xEnv (.obj [(s%"x", some (7 : Int)), (s%"y", none)]) =
    .ok (.num 10) := by decide

/-- C73, negation: SQRT of zero is rejected although zero is not negative. -/
theorem C73_fails : ∃ (env : XEnv Int Int Unit) (v : Int), env.toFloat (some v) = some v ∧ ¬ v < 0 ∧
    executeFunction env s%"SQRT" (.args [some v]) = .err :=
  ⟨xEnv, 0, by decide⟩

/-- C73: SQRT of a positive number is its square root. Missing: zero, see `C73_fails`. -/
theorem C73_positive_partial (env : XEnv V F T) (a : Option V) (x : F) (h : env.toFloat a = some x)
    (hx : env.le x env.zero = false) :
    executeFunction env s%"sqrt" (.args [a]) = .ok (.num (env.sqrt x)) := by
  have : newExecutorForName s%"sqrt" = some .sqrt := by decide
  simp only [executeFunction, this]
  show execBody env .sqrt [a] = _
  simp [execBody, ExecId.type, castAll, h, mathBody, one, hx]

example : xEnv.toFloat (some 4) = some 4 ∧ xEnv.le 4 xEnv.zero = false := by decide

/-- C74, negation: RAND can return exactly one. For every float arithmetic in which dividing the largest
masked value by itself gives one, the random bytes 0xFFFFFFFFFFFFFFFF yield one, so the documented range [0,1) is
left. -/
theorem C74_fails (env : XEnv V F T) (unit : F) (hu : env.div (env.ofInt 0x7FFFFFFFFFFFFFFF) (env.ofInt 0x7FFFFFFFFFFFFFFF) = unit)
    (hr : env.random = some 0xFFFFFFFFFFFFFFFF#64) : executeFunction env s%"RAND" .nil = .ok (.num unit) := by
  have : newExecutorForName s%"RAND" = some .rand := by decide
  simp only [executeFunction, this]
  show execBody env .rand [] = _
  simp only [execBody, ExecId.type, castAll, mathBody, zeroArgs, randomValue, hr]
  have : ((0xFFFFFFFFFFFFFFFF#64 &&& 0x7FFFFFFFFFFFFFFF#64).toNat : Int) = 0x7FFFFFFFFFFFFFFF := by decide
  rw [this, hu]

/-- C74: RAND returns k / (2^63 - 1) for some 0 ≤ k ≤ 2^63 - 1, so within [0,1] before rounding. Missing: the upper
bound is not strict, see `C74_fails`. -/
theorem C74_range_partial (env : XEnv V F T) (v : XVal V F T) (h : executeFunction env s%"RAND" .nil = .ok v) :
    ∃ k : Nat, k ≤ 0x7FFFFFFFFFFFFFFF ∧ v = .num (env.div (env.ofInt k) (env.ofInt 0x7FFFFFFFFFFFFFFF)) := by
  have hn : newExecutorForName s%"RAND" = some .rand := by decide
  simp only [executeFunction, hn] at h
  change execBody env .rand [] = _ at h
  simp only [execBody, ExecId.type, castAll, mathBody, zeroArgs, randomValue] at h
  cases hr : env.random with
  | none => simp [hr] at h
  | some n =>
    simp only [hr, Res.ok.injEq] at h
    refine ⟨_, ?_, h.symm⟩
    rw [BitVec.toNat_and]
    exact Nat.and_le_right

example : xEnv.random = some 0xFFFFFFFFFFFFFFFF#64 ∧ executeFunction xEnv s%"RAND" .nil = .ok (.num 1) := by decide

/-- A call of `Executor(opts…)` on a function selector, repeated; the executors obtained, in order. -/
def getExecutors (env : XEnv V F T) (f : Func V F T) : List (List (ExecOpt V F T)) → List (Option (Exec V F T))
  | [] => []
  | o :: os => (f.getExecutor env o).2 :: getExecutors env (f.getExecutor env o).1 os

/-- C75: every executor obtained from a function selector, at any call, with any options, reads the
selector's own argument names. -/
theorem C75_own_arguments (env : XEnv V F T) (name : Str) (args : List Str) (calls : List (List (ExecOpt V F T)))
    (ex : Exec V F T) (h : some ex ∈ getExecutors env (newFunction name args) calls) : ex.args = args := by
  suffices hg : ∀ f : Func V F T, f.args = args → (∀ e, f.executor = some e → e.args = args) →
      some ex ∈ getExecutors env f calls → ex.args = args from
    hg _ rfl (fun e he => by cases he) h
  clear h
  induction calls with
  | nil => intro f _ _ h; cases h
  | cons o os ih =>
    intro f hf he h
    have key : (f.getExecutor env o).1.args = args ∧
        (∀ e, (f.getExecutor env o).1.executor = some e → e.args = args) ∧
        (∀ e, (f.getExecutor env o).2 = some e → e.args = args) := by
      unfold Func.getExecutor
      cases hx : f.executor with
      | some e => exact ⟨hf, he, fun e' h' => he e' (hx.trans h')⟩
      | none =>
        cases hn : newExecutorForName f.name with
        | none => exact ⟨hf, fun e h' => (by rw [hx] at h'; cases h'), fun e h' => (by cases h')⟩
        | some id =>
          have ha : (newExec env id (o ++ [.args f.args])).args = args := by
            unfold newExec; rw [foldl_apply_args]; exact hf
          exact ⟨hf, fun e h' => by cases h'; exact ha, fun e h' => by cases h'; exact ha⟩
    rcases List.mem_cons.mp h with h | h
    · exact key.2.2 ex h.symm
    · exact ih _ key.1 key.2.1 h

/-- C75: asking again returns the same executor, whatever the options. -/
theorem C75_cached (env : XEnv V F T) (f : Func V F T) (o o' : List (ExecOpt V F T)) (ex : Exec V F T)
    (h : (f.getExecutor env o).2 = some ex) : ((f.getExecutor env o).1.getExecutor env o').2 = some ex := by
  unfold Func.getExecutor at h ⊢
  cases hx : f.executor with
  | some e => simp only [hx] at h ⊢; exact h
  | none =>
    cases hn : newExecutorForName f.name with
    | none => rw [hx, hn] at h; cases h
    | some id => simp only [hx, hn] at h ⊢; exact h

example : ∃ ex : Exec Int Int Unit, ((newFunction s%"abs" [s%"x"]).getExecutor xEnv []).2 = some ex ∧ ex.args = [s%"x"] :=
  ⟨_, rfl, rfl⟩

end Verif.Props
