import Verif.Model.Net
import Verif.Model.NetConc
/-! Concurrent use of one connection: sql/net/conn_impl.go with its `sync.Mutex`.

A method is a program of single accesses to the fields of the connection, of `Lock` and `Unlock`, and of calls on the
network connection with either result. Goroutines interleave step by step. The fields that are never written after
the connection is made (time stamp, UUID, id) are left out. -/
namespace Verif.CConn
open Verif.Net (upd)

/-- The fields. conn_impl.go 32-43. -/
inductive Field
  | user | db | schemas | closed | tracer
  deriving DecidableEq

/-- What a field holds; a tracer context is a number, `none` is nil. conn_impl.go 32-43. -/
def Val : Field → Type
  | .user => Str
  | .db => Str
  | .schemas => List Str
  | .closed => Bool
  | .tracer => Option Nat

/-- The fields of a connection. conn_impl.go 32-43. -/
abbrev Mem := (f : Field) → Val f

/-- An assignment. conn_impl.go 32-43. -/
def Mem.set (m : Mem) (f : Field) (v : Val f) : Mem := fun g => if h : f = g then h ▸ v else m g

/-- The methods. conn_impl.go 101-187. -/
inductive Op
  | setUser (u : Str)
  | user
  | setDatabase (db : Str)
  | database
  | setSchemas (ss : List Str)
  | schemas
  | close
  | setSpanContext (c : Option Nat)
  | spanContext
  deriving DecidableEq

/-- What they return. conn_impl.go 101-187. -/
inductive Ret
  | unit
  | str (s : Str)
  | strs (l : List Str)
  | ok (b : Bool)
  | ctx (c : Option Nat)
  deriving DecidableEq

/-- Programs; `net` is a call on the network connection. conn_impl.go 101-187. -/
inductive Prog
  | ret (r : Ret)
  | read (f : Field) (k : Val f → Prog)
  | write (f : Field) (v : Val f) (k : Prog)
  | net (k : Bool → Prog)
  | lock (k : Prog)
  | unlock (k : Prog)

/-- The loop of `SetSchemas` and what follows it. conn_impl.go 147-152. -/
def schemaLoop : List Str → Prog
  | [] => .unlock (.ret .unit)
  | s :: ss => .read .schemas fun v => if List.contains (α := Str) v s then schemaLoop ss
    else .read .schemas fun v' => .write .schemas (List.append (α := Str) v' [s]) (schemaLoop ss)

/-- `make([]string, n)` overwritten by `copy` from `l`. conn_impl.go 159-160. -/
def copied (n : Nat) (l : List Str) : List Str := l.take n ++ List.replicate (n - l.length) []

/-- The methods. conn_impl.go 101-192: `Close` 101-110, `SetUser` 113-117, `User` 120-125, `SetDatabase` 128-133, `Database`
136-141, `SetSchemas` 144-153, `Schemas` 156-162, `SetSpanContext` 185-187, `SpanContext` 190-192. -/
def code : Op → Prog
  | .setUser u => .lock (.write .user u (.unlock (.ret .unit)))
  | .user => .lock (.read .user fun u => .unlock (.ret (.str u)))
  | .setDatabase d => .lock (.write .db d (.write .schemas ([] : List Str) (.unlock (.ret .unit))))
  | .database => .lock (.read .db fun d => .unlock (.ret (.str d)))
  | .setSchemas ss => .lock (schemaLoop ss)
  | .schemas => .lock (.read .schemas fun v => .read .schemas fun v' => .unlock (.ret (.strs (copied (List.length (α := Str) v) v'))))
  | .close => .read .closed fun (c : Bool) => if c then .ret (.ok true) else
      .net fun ok => if ok then .write .closed true (.ret (.ok true)) else .ret (.ok false)
  | .setSpanContext c => .write .tracer c (.ret .unit)
  | .spanContext => .read .tracer fun c => .ret (.ctx c)

/-- The fields, the mutex and the goroutines: the call a goroutine is in and what is left of it. conn_impl.go 32-43. -/
structure Conf where
  mem : Mem
  holder : Option Nat
  pc : Nat → Option (Op × Prog)

/-- What an observer sees. conn_impl.go 101-187. -/
inductive Event
  | call (t : Nat) (op : Op)
  | ret (t : Nat) (op : Op) (r : Ret)
  deriving DecidableEq

/-- One step of one goroutine, with the event it shows. As with `sync.Mutex`, `Unlock` does not look at who locked.
conn_impl.go 101-187. -/
inductive Conf.Step : Conf → Option Event → Conf → Prop
  | call (s : Conf) (t op) (h : s.pc t = none) : Step s (some (.call t op)) { s with pc := upd s.pc t (some (op, code op)) }
  | read (s : Conf) (t op f k) (h : s.pc t = some (op, .read f k)) : Step s none { s with pc := upd s.pc t (some (op, k (s.mem f))) }
  | write (s : Conf) (t op f v k) (h : s.pc t = some (op, .write f v k)) :
      Step s none { s with mem := s.mem.set f v, pc := upd s.pc t (some (op, k)) }
  | net (s : Conf) (t op k b) (h : s.pc t = some (op, .net k)) : Step s none { s with pc := upd s.pc t (some (op, k b)) }
  | lock (s : Conf) (t op k) (h : s.pc t = some (op, .lock k)) (hf : s.holder = none) :
      Step s none { s with holder := some t, pc := upd s.pc t (some (op, k)) }
  | unlock (s : Conf) (t op k) (h : s.pc t = some (op, .unlock k)) :
      Step s none { s with holder := none, pc := upd s.pc t (some (op, k)) }
  | ret (s : Conf) (t op r) (h : s.pc t = some (op, .ret r)) : Step s (some (.ret t op r)) { s with pc := upd s.pc t none }

/-- Executions with the events they show. conn_impl.go 101-187. -/
inductive Conf.Run : Conf → List Event → Conf → Prop
  | refl (s) : Run s [] s
  | step {s h s1 e s2} (r : Run s h s1) (st : Step s1 e s2) : Run s (h ++ e.toList) s2

/-- The options of a new connection. conn_impl.go 66-98. -/
inductive Option_
  | database (n : Str)
  | schemas (ss : List Str)
  | tracer (c : Option Nat)
  | id (n : Nat)
  | user (u : Str)
  deriving DecidableEq

/-- One option. conn_impl.go 66-98. -/
def Option_.apply (m : Mem × Nat) : Option_ → Mem × Nat
  | .database n => (m.1.set .db n, m.2)
  | .schemas ss => (m.1.set .schemas ss, m.2)
  | .tracer c => (m.1.set .tracer c, m.2)
  | .id n => (m.1, n)
  | .user u => (m.1.set .user u, m.2)

/-- The fields before the options. conn_impl.go 47-58. -/
def Mem.zero : Mem
  | .user => ([] : Str)
  | .db => ([] : Str)
  | .schemas => ([] : List Str)
  | .closed => false
  | .tracer => (none : Option Nat)

/-- `NewConnWith`: the fields and the id. conn_impl.go 46-63. -/
def newConn (os : List Option_) : Mem × Nat := os.foldl Option_.apply (Mem.zero, 0)

/-- A new connection, nobody inside. conn_impl.go 46-63. -/
def Conf.init (os : List Option_) : Conf := { mem := (newConn os).1, holder := none, pc := fun _ => none }

/-- `Span`, `StartSpan` and `FinishSpan`: a method of the tracer context, which panics if that is nil (`none`).
conn_impl.go 195-207. -/
def spanCall (m : Mem) : Res Nat :=
  match (m .tracer : Option Nat) with
  | none => .panic
  | some c => .ok c

end Verif.CConn
