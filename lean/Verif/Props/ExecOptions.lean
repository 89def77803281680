import Verif.Props.Exec
/-! C194: options of executors. -/
namespace Verif.Props
open Verif Verif.Fn Verif.Spec
variable {V F T α : Type}

/-- The last value that some options give. -/
inductive LastGiven (get : ExecOpt V F T → Option α) (dflt : α) : List (ExecOpt V F T) → α → Prop
  | none (os : List (ExecOpt V F T)) : (∀ o ∈ os, get o = Option.none) → LastGiven get dflt os dflt
  | some (l r : List (ExecOpt V F T)) (o : ExecOpt V F T) (x : α) : get o = Option.some x → (∀ o ∈ r, get o = Option.none) → LastGiven get dflt (l ++ o :: r) x

/-- The name that an option gives. -/
def nameGiven : ExecOpt V F T → Option Str
  | .name s => some s
  | _ => none
/-- The arguments that an option gives. -/
def argsGiven : ExecOpt V F T → Option (List Str)
  | .args l => some l
  | _ => none
/-- The type that an option gives. -/
def typeGiven : ExecOpt V F T → Option FnType
  | .type t => some t
  | _ => none
/-- The function that an option gives. -/
def fnGiven : ExecOpt V F T → Option (List (Option V) → Res (XVal V F T))
  | .fn f => some f
  | _ => none

theorem last_fold {get : ExecOpt V F T → Option α} {field : Exec V F T → α} (hs : ∀ (e : Exec V F T) (o : ExecOpt V F T) (x : α), get o = some x → field (e.apply o) = x)
    (hn : ∀ (e : Exec V F T) (o : ExecOpt V F T), get o = none → field (e.apply o) = field e) (os : List (ExecOpt V F T)) (e : Exec V F T) :
    LastGiven get (field e) os (field (os.foldl Exec.apply e)) := by
  induction os generalizing e with
  | nil => exact .none [] (by simp)
  | cons o os ih =>
    rw [List.foldl_cons]
    have key : ∀ (d : α) (y : α), LastGiven get d os y → (get o = some d ∨ (get o = none ∧ d = field e)) → LastGiven get (field e) (o :: os) y := by
      intro d y h hd
      cases h with
      | none _ h =>
        rcases hd with hd | ⟨hd, rfl⟩
        · exact .some [] os o d hd h
        · refine .none _ ?_
          intro p hp
          rcases List.mem_cons.mp hp with rfl | hp
          · exact hd
          · exact h p hp
      | some l r p x h1 h2 => exact .some (o :: l) r p _ h1 h2
    refine key _ _ (ih (e.apply o)) ?_
    cases hg : get o with
    | some x => left; rw [hs e o x hg]
    | none => right; exact ⟨rfl, hn e o hg⟩

/-- C194: of the options that a new executor is made with, the last name, the last arguments, the last type and the last function
are in force, whatever other options stand before, between and after; without any, the name is empty, there are no arguments,
the type is unknown. -/
theorem C194_last (os : List (ExecOpt V F T)) : LastGiven nameGiven [] os (newExecutor os).name ∧ LastGiven argsGiven [] os (newExecutor os).args ∧
    LastGiven typeGiven .unknown os (newExecutor os).type ∧ LastGiven fnGiven (fun _ => .err) os (newExecutor os).fn := by
  let e0 : Exec V F T := { name := [], args := [], type := .unknown, fn := fun _ => .err }
  refine ⟨last_fold (get := nameGiven) (field := fun e => e.name) ?_ ?_ os e0, last_fold (get := argsGiven) (field := fun e => e.args) ?_ ?_ os e0, last_fold (get := typeGiven) (field := fun e => e.type) ?_ ?_ os e0,
    last_fold (get := fnGiven) (field := fun e => e.fn) ?_ ?_ os e0⟩
  all_goals intro e o
  all_goals cases o <;> simp [nameGiven, argsGiven, typeGiven, fnGiven, Exec.apply]

/-- C194: an executor made without a function answers every call with an error, whatever it is called with and whatever its other
options are. It neither panics nor returns a value. -/
theorem C194_bare (env : XEnv V F T) (os : List (ExecOpt V F T)) (h : ∀ o ∈ os, fnGiven o = none) (v : XInput V) :
    (newExecutor os).execute env v = .err := by
  have hf : (newExecutor os).fn = fun _ => .err := by
    have h4 := (C194_last os).2.2.2
    generalize (newExecutor os).fn = f at h4
    cases h4 with
    | none => rfl
    | some l r o x h1 h2 => rw [h o (by simp)] at h1; cases h1
  cases v <;> simp [Exec.execute, Exec.executeArgs, Exec.executeMap, hf]

/-- C194: options given to the executor of a built-in function are applied after its own, so each of them that is given replaces
the built-in one, and each that is not leaves it. In particular, a caller can give the executor of one function the name of
another without changing what it computes. -/
theorem C194_builtin (env : XEnv V F T) (id : ExecId) (os : List (ExecOpt V F T)) :
    LastGiven nameGiven id.name os (newExec env id os).name ∧ LastGiven argsGiven [] os (newExec env id os).args ∧
    LastGiven typeGiven id.type os (newExec env id os).type ∧ LastGiven fnGiven (execBody env id) os (newExec env id os).fn := by
  let e0 : Exec V F T := (newExecutor [.name id.name, .type id.type, .fn (execBody env id)])
  refine ⟨last_fold (get := nameGiven) (field := fun e => e.name) ?_ ?_ os e0, last_fold (get := argsGiven) (field := fun e => e.args) ?_ ?_ os e0, last_fold (get := typeGiven) (field := fun e => e.type) ?_ ?_ os e0,
    last_fold (get := fnGiven) (field := fun e => e.fn) ?_ ?_ os e0⟩
  all_goals intro e o
  all_goals cases o <;> simp [nameGiven, argsGiven, typeGiven, fnGiven, Exec.apply]

/-- C194: a function asks for its executor with its own arguments last, so no option of the caller changes the arguments that are
read: for every function that was not asked before and whatever options. -/
theorem C194_own_arguments (env : XEnv V F T) (f : Func V F T) (os : List (ExecOpt V F T)) (e : Exec V F T) (h0 : f.executor = none)
    (h : (f.getExecutor env os).2 = some e) : e.args = f.args := by
  rw [Func.getExecutor, h0] at h
  cases hn : newExecutorForName f.name with
  | none => rw [hn] at h; cases h
  | some id =>
    rw [hn] at h
    cases h
    simp [newExec, List.foldl_append, Exec.apply]

example : (newExecutor [.name s%"A", .args [s%"x"], .name s%"B"] : Exec Int Int Unit).name = s%"B" ∧
    (newExecutor [.name s%"A", .args [s%"x"], .name s%"B"] : Exec Int Int Unit).execute xEnv (.args [some 1]) = .err :=
  ⟨rfl, C194_bare xEnv _ (by simp [fnGiven]) _⟩
example : (newExec xEnv .abs [.name s%"SQRT"]).name = s%"SQRT" ∧ (newExec xEnv .abs [.name s%"SQRT"]).execute xEnv (.args [some (-4)]) = .ok (.num 4) := by decide
example : (newFunction s%"abs" [s%"a"] : Func Int Int Unit).executor = none ∧
    ((newFunction s%"abs" [s%"a"] : Func Int Int Unit).getExecutor xEnv [.args [s%"b"]]).2.isSome = true := by decide

end Verif.Props
