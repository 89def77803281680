import Verif.Model.NetConc
/-! Linearizability: the machine in which every call takes effect at once, somewhere between its call and its
return. A history of calls and returns is linearizable when this machine shows it too. -/
namespace Verif.Net

/-- A whole run of a program. -/
inductive Prog.Runs {α : Type} : Prog α → Mgr → α → Mgr → Prop
  | pure (x cm) : Runs (.pure x) cm x cm
  | step {p cm p' cm1 x cm2} (s : Prog.Step p cm p' cm1) (r : Runs p' cm1 x cm2) : Runs p cm x cm2

end Verif.Net

namespace Verif.Spec
open Verif.Net

/-- What one call does on its own, given by the one-call functions of the manager. -/
inductive Alone : Op → Mgr → Mgr → Ret → Prop
  | add (c cm) : Alone (.add c) cm (cm.add c).1 (.unit (cm.add c).2)
  | update (f t cm) : Alone (.update f t) cm (cm.update f t).1 (.unit (cm.update f t).2)
  | conns (cm l) (h : l.Perm cm.conns) : Alone .conns cm cm (.list l)
  | byUID (n cm) : Alone (.byUID n) cm cm (.found (cm.byUID n))
  | byUUID (u cm) : Alone (.byUUID u) cm cm (.found (cm.byUUID u))
  | remove (c cm) : Alone (.remove c) cm (cm.remove c) (.unit true)
  | removeUID (n cm) : Alone (.removeUID n) cm (cm.removeUID n) (.unit true)
  | removeUUID (u cm) : Alone (.removeUUID u) cm (cm.removeUUID u) (.unit true)

/-- A goroutine of the atomic machine. -/
inductive APc
  | idle
  | pending (op : Op)
  | done (r : Ret)
  deriving DecidableEq

/-- The atomic machine. -/
structure AConf where
  cm : Mgr
  pc : Nat → APc

/-- Its steps: a call, the effect of a call, a return. -/
inductive AConf.Step : AConf → Option Event → AConf → Prop
  | call (s : AConf) (t op) (h : s.pc t = .idle) : Step s (some (.call t op)) { s with pc := upd s.pc t (.pending op) }
  | effect (s : AConf) (t op cm' r) (h : s.pc t = .pending op) (ha : Alone op s.cm cm' r) :
      Step s none { cm := cm', pc := upd s.pc t (.done r) }
  | ret (s : AConf) (t r) (h : s.pc t = .done r) : Step s (some (.ret t r)) { s with pc := upd s.pc t .idle }

/-- The beginning. -/
def AConf.init : AConf := { cm := newMgr, pc := fun _ => .idle }

/-- Executions of the atomic machine. -/
inductive AConf.Run : AConf → List Event → AConf → Prop
  | refl (s) : Run s [] s
  | step {s h s1 e s2} (r : Run s h s1) (st : Step s1 e s2) : Run s (h ++ e.toList) s2

/-- A history is linearizable. -/
def Linearizable (h : List Event) : Prop := ∃ s, AConf.Run AConf.init h s

/-- Calls that are a single critical section. -/
def OneSection : Op → Prop
  | .removeUID _ => False
  | .removeUUID _ => False
  | .removeFound _ => False
  | _ => True

/-- Only such calls are made. -/
def Simple (h : List Event) : Prop := ∀ t op, Event.call t op ∈ h → OneSection op

/-! The coarser machine in which every critical section, rather than every call, is atomic. -/

/-- What follows a section, in the atomic machines. -/
def aAfter : Ret ⊕ Op → APc
  | .inl r => .done r
  | .inr op => .pending op

/-- The machine in which every critical section is atomic. -/
inductive SStep : AConf → Option Event → AConf → Prop
  | call (s : AConf) (t op) (h : s.pc t = .idle) : SStep s (some (.call t op)) { s with pc := upd s.pc t (.pending op) }
  | sect (s : AConf) (t op cm' x) (h : s.pc t = .pending op) (ha : Prog.Runs (section_ op).2 s.cm x cm') :
      SStep s none { cm := cm', pc := upd s.pc t (aAfter x) }
  | ret (s : AConf) (t r) (h : s.pc t = .done r) : SStep s (some (.ret t r)) { s with pc := upd s.pc t .idle }

/-- Its executions. -/
inductive SRun : AConf → List Event → AConf → Prop
  | refl (s) : SRun s [] s
  | step {s h s1 e s2} (r : SRun s h s1) (st : SStep s1 e s2) : SRun s (h ++ e.toList) s2

end Verif.Spec
