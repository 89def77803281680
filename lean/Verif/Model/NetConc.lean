import Verif.Model.Net
/-! Concurrent use of the connection manager: sql/net/conn_manager_impl.go with its `sync.RWMutex`.

Every method is one or more critical sections. A section is written as a program of single map accesses; a
step of a goroutine is one access, one lock acquisition, one release, a call or a return. Goroutines
interleave step by step. `sync.RWMutex` lets any number of readers or one writer hold the lock (that a waiting
writer also holds back new readers only removes interleavings). -/
namespace Verif.Net

/-- The calls on the manager, `close` excepted. conn_manager_impl.go 26-133. -/
inductive Op
  | add (c : Conn)
  | update (f t : Conn)
  | conns
  | byUID (n : Nat)
  | byUUID (u : Nat)
  | remove (c : Conn)
  | removeUID (n : Nat)
  | removeUUID (u : Nat)
  | removeFound (c : Conn)
  deriving DecidableEq

/-- What a call returns. conn_manager_impl.go 26-133. -/
inductive Ret
  | unit (ok : Bool)
  | found (c : Option Conn)
  | list (cs : List Conn)
  deriving DecidableEq

/-- Programs of single accesses to the two maps. conn_manager_impl.go 26-133. -/
inductive Prog (α : Type)
  | pure (a : α)
  | readM (u : Nat) (k : Option Conn → Prog α)
  | readU (n : Nat) (k : Option Conn → Prog α)
  | iterM (k : List Conn → Prog α)
  | writeM (u : Nat) (c : Conn) (k : Prog α)
  | writeU (n : Nat) (c : Conn) (k : Prog α)
  | delM (u : Nat) (k : Prog α)
  | delU (n : Nat) (k : Prog α)

/-- One access. Iteration over the map gives its values in any order. conn_manager_impl.go 26-133. -/
inductive Prog.Step {α : Type} : Prog α → Mgr → Prog α → Mgr → Prop
  | readM (u k cm) : Step (.readM u k) cm (k (cm.m.get? u)) cm
  | readU (n k cm) : Step (.readU n k) cm (k (cm.uidMap.get? n)) cm
  | iterM (k cm l) (h : l.Perm cm.conns) : Step (.iterM k) cm (k l) cm
  | writeM (u c k cm) : Step (.writeM u c k) cm k { cm with m := cm.m.set u c }
  | writeU (n c k cm) : Step (.writeU n c k) cm k { cm with uidMap := cm.uidMap.set n c }
  | delM (u k cm) : Step (.delM u k) cm k { cm with m := cm.m.del u }
  | delU (n k cm) : Step (.delU n k) cm k { cm with uidMap := cm.uidMap.del n }

/-- The critical sections: whether the write lock is taken, and the program; its result is the value
returned or the call that follows. conn_manager_impl.go: `AddConn` 42-59, `UpdateConn` 62-79, `Conns` 82-90,
`LookupConnByUID` 93-98, `LookupConnByUUID` 101-106, `RemoveConn` 109-115, `RemoveConnByUID` 118-124,
`RemoveConnByUUID` 127-133 (a lookup and then `RemoveConn` of what was found). conn_manager_impl.go 26-133. -/
def section_ : Op → Bool × Prog (Ret ⊕ Op)
  | .add c => (true, .readM c.uuid fun
    | some _ => .pure (.inl (.unit false))
    | none => .readU c.uid fun
      | some _ => .pure (.inl (.unit false))
      | none => .writeM c.uuid c (.writeU c.uid c (.pure (.inl (.unit true)))))
  | .update f t => (true, .readM f.uuid fun
    | none => .pure (.inl (.unit false))
    | some _ => .readU f.uid fun
      | none => .pure (.inl (.unit false))
      | some _ => .writeM f.uuid t (.writeU f.uid t (.pure (.inl (.unit true)))))
  | .conns => (false, .iterM fun l => .pure (.inl (.list l)))
  | .byUID n => (false, .readU n fun c => .pure (.inl (.found c)))
  | .byUUID u => (false, .readM u fun c => .pure (.inl (.found c)))
  | .remove c => (true, .delU c.uid (.delM c.uuid (.pure (.inl (.unit true)))))
  | .removeUID n => (false, .readU n fun
    | none => .pure (.inl (.unit true))
    | some c => .pure (.inr (.removeFound c)))
  | .removeUUID u => (false, .readM u fun
    | none => .pure (.inl (.unit true))
    | some c => .pure (.inr (.removeFound c)))
  | .removeFound c => (true, .delU c.uid (.delM c.uuid (.pure (.inl (.unit true)))))

/-- Where a goroutine is. conn_manager_impl.go 26-133. -/
inductive Pc
  | idle
  | called (op : Op)
  | crit (op : Op) (write : Bool) (p : Prog (Ret ⊕ Op))
  | finished (r : Ret)

/-- The shared maps, the lock and the goroutines. conn_manager_impl.go 26-133. -/
structure Conf where
  cm : Mgr
  writer : Option Nat
  readers : List Nat
  pc : Nat → Pc

/-- What an observer sees. conn_manager_impl.go 26-133. -/
inductive Event
  | call (t : Nat) (op : Op)
  | ret (t : Nat) (r : Ret)
  deriving DecidableEq

/-- `f` with the value at `t` replaced. conn_manager_impl.go 26-133. -/
def upd {α : Type} (f : Nat → α) (t : Nat) (x : α) : Nat → α := fun i => if i = t then x else f i

/-- What follows a critical section. conn_manager_impl.go 26-133. -/
def after : Ret ⊕ Op → Pc
  | .inl r => .finished r
  | .inr op => .called op

/-- One step of one goroutine, with the event it shows. conn_manager_impl.go 26-133. -/
inductive Conf.Step : Conf → Option Event → Conf → Prop
  | call (s : Conf) (t op) (h : s.pc t = .idle) : Step s (some (.call t op)) { s with pc := upd s.pc t (.called op) }
  | lock (s : Conf) (t op) (h : s.pc t = .called op) (hw : (section_ op).1 = true) (h1 : s.writer = none) (h2 : s.readers = []) :
      Step s none { s with writer := some t, pc := upd s.pc t (.crit op true (section_ op).2) }
  | rlock (s : Conf) (t op) (h : s.pc t = .called op) (hw : (section_ op).1 = false) (h1 : s.writer = none) :
      Step s none { s with readers := t :: s.readers, pc := upd s.pc t (.crit op false (section_ op).2) }
  | access (s : Conf) (t op w p p' cm') (h : s.pc t = .crit op w p) (hs : Prog.Step p s.cm p' cm') :
      Step s none { s with cm := cm', pc := upd s.pc t (.crit op w p') }
  | unlock (s : Conf) (t op x) (h : s.pc t = .crit op true (.pure x)) :
      Step s none { s with writer := none, pc := upd s.pc t (after x) }
  | runlock (s : Conf) (t op x) (h : s.pc t = .crit op false (.pure x)) :
      Step s none { s with readers := s.readers.erase t, pc := upd s.pc t (after x) }
  | ret (s : Conf) (t r) (h : s.pc t = .finished r) : Step s (some (.ret t r)) { s with pc := upd s.pc t .idle }

/-- The beginning: an empty manager, nobody holds the lock, all goroutines idle. conn_manager_impl.go 26-133. -/
def Conf.init : Conf := { cm := newMgr, writer := none, readers := [], pc := fun _ => .idle }

/-- Executions with the events they show. conn_manager_impl.go 26-133. -/
inductive Conf.Run : Conf → List Event → Conf → Prop
  | refl (s) : Run s [] s
  | step {s h s1 e s2} (r : Run s h s1) (st : Step s1 e s2) : Run s (h ++ e.toList) s2

/-! ### concurrent Close of one connection: conn_impl.go 98-107, which takes no lock -/

/-- Where a goroutine is inside `Close`. conn_impl.go 101-110. -/
inductive CPc
  | idle
  | entered
  | open_
  | netDone (ok : Bool)
  | finished (ok : Bool)
  deriving DecidableEq

/-- The flag of the connection, the number of successful closes of the network connection, the goroutines.
conn_impl.go 101-110. -/
structure CC where
  closed : Bool
  netOk : Nat
  pc : Nat → CPc

/-- A new connection. conn_impl.go 101-110. -/
def CC.init : CC := { closed := false, netOk := 0, pc := fun _ => .idle }

/-- The steps of `Close`: the test of the flag (102-104), the network connection's `Close` with either result
(105-107), setting the flag (108), returning. conn_impl.go 101-110. -/
inductive CC.Step : CC → CC → Prop
  | enter (s : CC) (t) (h : s.pc t = .idle) : Step s { s with pc := upd s.pc t .entered }
  | skip (s : CC) (t) (h : s.pc t = .entered) (hc : s.closed = true) : Step s { s with pc := upd s.pc t (.finished true) }
  | check (s : CC) (t) (h : s.pc t = .entered) (hc : s.closed = false) : Step s { s with pc := upd s.pc t .open_ }
  | net (s : CC) (t ok) (h : s.pc t = .open_) : Step s { s with netOk := s.netOk + (if ok then 1 else 0), pc := upd s.pc t (.netDone ok) }
  | failed (s : CC) (t) (h : s.pc t = .netDone false) : Step s { s with pc := upd s.pc t (.finished false) }
  | mark (s : CC) (t) (h : s.pc t = .netDone true) : Step s { s with closed := true, pc := upd s.pc t (.finished true) }
  | ret (s : CC) (t ok) (h : s.pc t = .finished ok) : Step s { s with pc := upd s.pc t .idle }

/-- Executions. conn_impl.go 101-110. -/
inductive CC.Run : CC → CC → Prop
  | refl (s) : Run s s
  | step {s s1 s2} (r : Run s s1) (st : Step s1 s2) : Run s s2

/-- Executions in which at most one goroutine is inside `Close` at a time. conn_impl.go 101-110. -/
inductive CC.SerialRun : CC → CC → Prop
  | refl (s) : SerialRun s s
  | step {s s1 s2} (r : SerialRun s s1) (st : Step s1 s2)
      (h : ∀ t, s2.pc t ≠ .idle → ∀ u, u ≠ t → s2.pc u = .idle) : SerialRun s s2

end Verif.Net
