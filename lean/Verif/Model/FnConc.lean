import Verif.Model.FnState
import Verif.Model.NetConc
/-! One function object used by several goroutines: sql/fn/func_impl.go, which has no lock.

A method is a program of single accesses to the fields `executor`, `aggregator` and `typ`. Goroutines interleave step by
step. The name and the arguments are not written after the function is made, so reading them is no step. -/
namespace Verif.FnConc
open Verif Verif.Fn Verif.FnState
open Verif.Net (upd)

section
variable {V F T : Type}

/-- The methods. func_impl.go 136-168. -/
inductive Op (V F T : Type)
  | executor (os : List (ExecOpt V F T))
  | aggregator (os : List AggrOpt)
  | isAggregator

/-- What they return; `none` is an error, an aggregator is a reference. func_impl.go 136-168. -/
inductive Ret (V F T : Type)
  | exec (e : Option (Exec V F T))
  | aggr (p : Option Nat)
  | bool (b : Bool)

/-- Programs: accesses to the three fields, and making an aggregator object. func_impl.go 136-168. -/
inductive Prog (V F T : Type)
  | ret (r : Ret V F T)
  | readExec (k : Option (Exec V F T) → Prog V F T)
  | writeExec (e : Exec V F T) (k : Prog V F T)
  | readAggr (k : Option Nat → Prog V F T)
  | writeAggr (p : Nat) (k : Prog V F T)
  | readType (k : FnType → Prog V F T)
  | writeType (t : FnType) (k : Prog V F T)
  | make (a : Aggr V F) (k : Nat → Prog V F T)

/-- The methods of a function with this name and these arguments: `IsAggregator` 136-138, `Executor` 141-153,
`Aggregator` 156-168. func_impl.go 136-168. -/
def code (E : Env V F) (env : XEnv V F T) (name : Str) (args : List Str) : Op V F T → Prog V F T
  | .executor os => .readExec fun
    | some _ => .readExec fun e => .ret (.exec e)
    | none => match newExecutorForName name with
      | none => .ret (.exec none)
      | some id =>
        let ex := newExec env id (os ++ [.args args])
        .writeExec ex (.writeType ex.type (.readExec fun e => .ret (.exec e)))
  | .aggregator os => .readAggr fun
    | some _ => .readAggr fun p => .ret (.aggr p)
    | none => match newAggregatorForName name with
      | none => .ret (.aggr none)
      | some k => match newAggr E k (os ++ [.args args]) with
        | none => .ret (.aggr none)
        | some a => .make a fun p => .writeAggr p (.writeType .aggregate (.readAggr fun p => .ret (.aggr p)))
  | .isAggregator => .readType fun t => .ret (.bool (t == .aggregate))

/-- The function, the aggregators made so far, and the goroutines: the call a goroutine is in and what is left of it.
func_impl.go 22-28. -/
structure Conf (V F T : Type) where
  fn : FObj V F T
  aggrs : List (Aggr V F)
  pc : Nat → Option (Op V F T × Prog V F T)

/-- What an observer sees. func_impl.go 136-168. -/
inductive Event (V F T : Type)
  | call (t : Nat) (op : Op V F T)
  | ret (t : Nat) (op : Op V F T) (r : Ret V F T)

/-- One access. func_impl.go 136-168. -/
inductive Does : FObj V F T × List (Aggr V F) → Prog V F T → FObj V F T × List (Aggr V F) → Prog V F T → Prop
  | readExec (x k) : Does x (.readExec k) x (k x.1.executor)
  | writeExec (x e k) : Does x (.writeExec e k) ({ x.1 with executor := some e }, x.2) k
  | readAggr (x k) : Does x (.readAggr k) x (k x.1.aggregator)
  | writeAggr (x p k) : Does x (.writeAggr p k) ({ x.1 with aggregator := some p }, x.2) k
  | readType (x k) : Does x (.readType k) x (k x.1.type)
  | writeType (x t k) : Does x (.writeType t k) ({ x.1 with type := t }, x.2) k
  | make (x a k) : Does x (.make a k) (x.1, x.2 ++ [a]) (k x.2.length)

/-- One step of one goroutine, with the event it shows. func_impl.go 136-168. -/
inductive Conf.Step (E : Env V F) (env : XEnv V F T) : Conf V F T → Option (Event V F T) → Conf V F T → Prop
  | call (s : Conf V F T) (t op) (h : s.pc t = none) :
      Step E env s (some (.call t op)) { s with pc := upd s.pc t (some (op, code E env s.fn.name s.fn.args op)) }
  | does (s : Conf V F T) (t op a x b) (h : s.pc t = some (op, a)) (hd : Does (s.fn, s.aggrs) a x b) :
      Step E env s none { fn := x.1, aggrs := x.2, pc := upd s.pc t (some (op, b)) }
  | ret (s : Conf V F T) (t op r) (h : s.pc t = some (op, .ret r)) : Step E env s (some (.ret t op r)) { s with pc := upd s.pc t none }

/-- Executions with the events they show. func_impl.go 136-168. -/
inductive Conf.Run (E : Env V F) (env : XEnv V F T) : Conf V F T → List (Event V F T) → Conf V F T → Prop
  | refl (s) : Run E env s [] s
  | step {s h s1 e s2} (r : Run E env s h s1) (st : Step E env s1 e s2) : Run E env s (h ++ e.toList) s2

/-- A function and the aggregators there are, nobody inside. func_impl.go 34-45. -/
def Conf.of (f : FObj V F T) (as : List (Aggr V F)) : Conf V F T := { fn := f, aggrs := as, pc := fun _ => none }

end
end Verif.FnConc
