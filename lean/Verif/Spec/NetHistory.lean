import Verif.Model.NetConc
/-! Which calls on the connection manager enter a connection under an id or a UUID, and which take an entry away. -/
namespace Verif.Spec
open Verif.Net

/-- The manager after a history of calls, one after the other. -/
def afterCalls (ops : List Op) : Mgr := ops.foldl (fun cm op => match op with
  | .add c => (cm.add c).1
  | .update f t => (cm.update f t).1
  | .remove c => cm.remove c
  | .removeFound c => cm.remove c
  | .removeUID n => cm.removeUID n
  | .removeUUID u => cm.removeUUID u
  | .conns => cm
  | .byUID _ => cm
  | .byUUID _ => cm) newMgr

/-- Replacing `f` is accepted: both lookups find something under its keys. -/
def Replaces (cm : Mgr) (f : Conn) : Prop := cm.byUUID f.uuid ≠ none ∧ cm.byUID f.uid ≠ none

/-- The call removes the connection `d`, given or found by a lookup. -/
def Removes (cm : Mgr) (op : Op) (d : Conn) : Prop :=
  op = .remove d ∨ op = .removeFound d ∨ (∃ k, op = .removeUID k ∧ cm.byUID k = some d) ∨ (∃ u, op = .removeUUID u ∧ cm.byUUID u = some d)

/-- The call enters `c` under a key; `key` is the id or the UUID. -/
def Enters (key : Conn → Nat) (cm : Mgr) (op : Op) (n : Nat) (c : Conn) : Prop :=
  (op = .add c ∧ key c = n ∧ cm.byUUID c.uuid = none ∧ cm.byUID c.uid = none) ∨ ∃ f, op = .update f c ∧ key f = n ∧ Replaces cm f

/-- The call takes away or replaces what is under a key. -/
def TakesAway (key : Conn → Nat) (cm : Mgr) (op : Op) (n : Nat) : Prop :=
  (∃ d, Removes cm op d ∧ key d = n) ∨ ∃ f t, op = .update f t ∧ key f = n ∧ Replaces cm f

/-- In the history there is a call that entered `c` under the key, and no later call took it away. -/
def Since (key : Conn → Nat) (ops : List Op) (n : Nat) (c : Conn) : Prop :=
  ∃ pre op post, ops = pre ++ op :: post ∧ Enters key (afterCalls pre) op n c ∧
    ∀ q o r, post = q ++ o :: r → ¬ TakesAway key (afterCalls (pre ++ op :: q)) o n

end Verif.Spec
