import Verif.Model.ConnConc
/-! Concurrent use of a connection: data races, and the session object whose methods take effect at once. -/
namespace Verif.Spec.ConnConc
open Verif Verif.CConn
open Verif.Net (upd)

/-- The access a program makes next: the field, and whether it is written. -/
def access : Prog → Option (Field × Bool)
  | .read f _ => some (f, false)
  | .write f _ _ => some (f, true)
  | _ => none

/-- A data race on a field: two goroutines are about to use it and one of them writes. -/
def Race (s : Conf) (f : Field) : Prop :=
  ∃ t u op op' p q w, t ≠ u ∧ s.pc t = some (op, p) ∧ s.pc u = some (op', q) ∧ access p = some (f, true) ∧ access q = some (f, w)

/-- The state of a session. -/
structure Session where
  user : Str
  db : Str
  schemas : List Str

/-- The names of a list that are not in `old`, once each, in order. -/
def newOnes (old : List Str) : List Str → List Str
  | [] => []
  | s :: ss => if s ∈ old then newOnes old ss else s :: newOnes (s :: old) ss

/-- What a method does to a session, and returns. -/
inductive Does : Op → Session → Session → Ret → Prop
  | setUser (u x) : Does (.setUser u) x { x with user := u } .unit
  | user (x) : Does .user x x (.str x.user)
  | setDatabase (d x) : Does (.setDatabase d) x { x with db := d, schemas := [] } .unit
  | database (x) : Does .database x x (.str x.db)
  | setSchemas (ss x) : Does (.setSchemas ss) x { x with schemas := x.schemas ++ newOnes x.schemas ss } .unit
  | schemas (x) : Does .schemas x x (.strs x.schemas)

/-- The methods of the session: all but `Close` and those of the tracer context. -/
def session : Op → Bool
  | .close => false
  | .setSpanContext _ => false
  | .spanContext => false
  | _ => true

/-- A call or return of such a method. -/
def evSession : Event → Bool
  | .call _ op => ConnConc.session op
  | .ret _ op _ => ConnConc.session op

/-- A goroutine of the machine whose calls take effect at once. -/
inductive APc
  | idle
  | pending (op : Op)
  | done (op : Op) (r : Ret)

/-- That machine. -/
structure AConf where
  x : Session
  pc : Nat → APc

/-- Its steps: a call, its effect, its return. -/
inductive AConf.Step : AConf → Option Event → AConf → Prop
  | call (s : AConf) (t op) (h : s.pc t = .idle) : Step s (some (.call t op)) { s with pc := upd s.pc t (.pending op) }
  | effect (s : AConf) (t op x r) (h : s.pc t = .pending op) (ha : Does op s.x x r) : Step s none { x := x, pc := upd s.pc t (.done op r) }
  | ret (s : AConf) (t op r) (h : s.pc t = .done op r) : Step s (some (.ret t op r)) { s with pc := upd s.pc t .idle }

/-- Its executions. -/
inductive AConf.Run : AConf → List Event → AConf → Prop
  | refl (s) : Run s [] s
  | step {s h s1 e s2} (r : Run s h s1) (st : Step s1 e s2) : Run s (h ++ e.toList) s2

/-- A history is linearizable, from a session. -/
def Linearizable (x : Session) (h : List Event) : Prop := ∃ s, AConf.Run { x := x, pc := fun _ => .idle } h s

/-- The session in the fields of a connection. -/
def ofMem (m : Mem) : Session := { user := m .user, db := m .db, schemas := m .schemas }

/-- A goroutine is inside no call. -/
def Idle (s : Conf) (t : Nat) : Prop := s.pc t = none

/-- No call in a list of events. -/
def NoCall (h : List Event) : Prop := ∀ t op, Event.call t op ∉ h

end Verif.Spec.ConnConc
