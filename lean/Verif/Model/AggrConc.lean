import Verif.Model.Aggr
import Verif.Model.NetConc
/-! One aggregator without GROUP BY used by several goroutines: sql/fn/aggr_impl.go, which has no lock.

`AggregateRow` is a program of single accesses to the accumulators and to the count. Goroutines interleave step by step.
The columns, the group columns and the functions are only written by `Reset`, which is left out, so reading them is no
step. Slices are shared by reference: writing `aggrs[n]` changes that accumulator only. -/
namespace Verif.AggrConc
open Verif Verif.Fn
open Verif.Net (upd)

section
variable {V F : Type}

/-- Programs: accesses to one accumulator (`none` is an index out of range) and to the count. aggr_impl.go 265-276. -/
inductive Prog (F : Type)
  | ret (r : Res Unit)
  | readAcc (n : Nat) (k : Option F → Prog F)
  | writeAcc (n : Nat) (f : F) (k : Prog F)
  | readCount (k : Nat → Prog F)
  | writeCount (c : Nat) (k : Prog F)

/-- The loop over the values from position `n` on, and the count. aggr_impl.go 265-276. -/
def rowProg (E : Env V F) (kind : AggrId) (n : Nat) : List (Option V) → Prog F
  | [] => .readCount fun c => .writeCount (c + 1) (.ret (.ok ()))
  | v :: vs => match toFloat64 E v with
    | none => .ret .err
    | some f => .readAcc n fun
      | none => .ret .panic
      | some acc => .writeAcc n (kind.step E acc f) (rowProg E kind (n + 1) vs)

/-- `AggregateRow` of an aggregator without GROUP BY. aggr_impl.go 214-217, 264-280. -/
def code (E : Env V F) (a : Aggr V F) (row : List (Option V)) : Prog F :=
  if a.columns.length ≠ row.length then .ret .err else rowProg E a.kind 0 row

/-- One access. aggr_impl.go 265-276. -/
inductive Does : Aggr V F → Prog F → Aggr V F → Prog F → Prop
  | readAcc (a n k) : Does a (.readAcc n k) a (k a.aggrs[n]?)
  | writeAcc (a n f k) : Does a (.writeAcc n f k) { a with aggrs := a.aggrs.set n f } k
  | readCount (a k) : Does a (.readCount k) a (k a.counts)
  | writeCount (a c k) : Does a (.writeCount c k) { a with counts := c } k

/-- The aggregator and the goroutines: the row a goroutine is aggregating and what is left to do. aggr_impl.go 33-47. -/
structure Conf (V F : Type) where
  aggr : Aggr V F
  pc : Nat → Option (List (Option V) × Prog F)

/-- What an observer sees. aggr_impl.go 214-280. -/
inductive Event (V : Type)
  | call (t : Nat) (row : List (Option V))
  | ret (t : Nat) (row : List (Option V)) (r : Res Unit)

/-- One step of one goroutine, with the event it shows. aggr_impl.go 214-280. -/
inductive Conf.Step (E : Env V F) : Conf V F → Option (Event V) → Conf V F → Prop
  | call (s : Conf V F) (t row) (h : s.pc t = none) :
      Step E s (some (.call t row)) { s with pc := upd s.pc t (some (row, code E s.aggr row)) }
  | does (s : Conf V F) (t row p a q) (h : s.pc t = some (row, p)) (hd : Does s.aggr p a q) :
      Step E s none { aggr := a, pc := upd s.pc t (some (row, q)) }
  | ret (s : Conf V F) (t row r) (h : s.pc t = some (row, .ret r)) :
      Step E s (some (.ret t row r)) { s with pc := upd s.pc t none }

/-- Executions with the events they show. aggr_impl.go 214-280. -/
inductive Conf.Run (E : Env V F) : Conf V F → List (Event V) → Conf V F → Prop
  | refl (s) : Run E s [] s
  | step {s h s1 e s2} (r : Run E s h s1) (st : Step E s1 e s2) : Run E s (h ++ e.toList) s2

/-- An aggregator, nobody inside. aggr_impl.go 54-70. -/
def Conf.of (a : Aggr V F) : Conf V F := { aggr := a, pc := fun _ => none }

end
end Verif.AggrConc
