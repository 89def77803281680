import Verif.Model.Res
/-! Connections and the connection manager: sql/net/conn_impl.go, sql/net/conn_manager_impl.go.

A managed connection is a reference together with its id and UUID, which never change after creation
(conn_impl.go 190-197); UUIDs are numbers. Timestamps, users and tracing are not modelled. -/
namespace Verif.Net

/-- A connection as the manager sees it. conn_impl.go 32-44. -/
structure Conn where
  ref : Nat
  uid : Nat
  uuid : Nat
  deriving DecidableEq, Repr

/-- conn_manager_impl.go 26-30. -/
structure Mgr where
  uidMap : GoMap Nat Conn := []
  m : GoMap Nat Conn := []
  deriving DecidableEq

/-- conn_manager_impl.go 33-39 `NewConnManager`. -/
def newMgr : Mgr := {}

/-- conn_manager_impl.go 42-59 `AddConn`; the flag is `false` for an error. -/
def Mgr.add (cm : Mgr) (c : Conn) : Mgr × Bool :=
  match cm.m.get? c.uuid with
  | some _ => (cm, false)
  | none => match cm.uidMap.get? c.uid with
    | some _ => (cm, false)
    | none => ({ m := cm.m.set c.uuid c, uidMap := cm.uidMap.set c.uid c }, true)

/-- conn_manager_impl.go 62-79 `UpdateConn`. -/
def Mgr.update (cm : Mgr) (f t : Conn) : Mgr × Bool :=
  match cm.m.get? f.uuid with
  | none => (cm, false)
  | some _ => match cm.uidMap.get? f.uid with
    | none => (cm, false)
    | some _ => ({ m := cm.m.set f.uuid t, uidMap := cm.uidMap.set f.uid t }, true)

/-- conn_manager_impl.go 82-90 `Conns`, for the iteration order of the list. -/
def Mgr.conns (cm : Mgr) : List Conn := cm.m.map (·.2)

/-- conn_manager_impl.go 93-98 `LookupConnByUID`. -/
def Mgr.byUID (cm : Mgr) (n : Nat) : Option Conn := cm.uidMap.get? n

/-- conn_manager_impl.go 101-106 `LookupConnByUUID`. -/
def Mgr.byUUID (cm : Mgr) (u : Nat) : Option Conn := cm.m.get? u

/-- conn_manager_impl.go 109-115 `RemoveConn`. -/
def Mgr.remove (cm : Mgr) (c : Conn) : Mgr := { uidMap := cm.uidMap.del c.uid, m := cm.m.del c.uuid }

/-- conn_manager_impl.go 118-124 `RemoveConnByUID`. -/
def Mgr.removeUID (cm : Mgr) (n : Nat) : Mgr :=
  match cm.byUID n with
  | none => cm
  | some c => cm.remove c

/-- conn_manager_impl.go 127-133 `RemoveConnByUUID`. -/
def Mgr.removeUUID (cm : Mgr) (u : Nat) : Mgr :=
  match cm.byUUID u with
  | none => cm
  | some c => cm.remove c

/-- conn_manager_impl.go 141-155 `Close`, the loop over the connections in the order `Conns` gave them. `close`
is the connections' own `Close` on the outside world. The third part is the trace of the calls and their
success; the error returned is nil when all of them succeeded. -/
def Mgr.closeLoop {W : Type} (close : W → Conn → W × Bool) : W → Mgr → List Conn → W × Mgr × List (Conn × Bool)
  | w, cm, [] => (w, cm, [])
  | w, cm, c :: cs =>
    let r := close w c
    let x := closeLoop close r.1 (if r.2 then cm.remove c else cm) cs
    (x.1, x.2.1, (c, r.2) :: x.2.2)

/-- conn_manager_impl.go 141-155: whether `Close` returns nil. -/
def closeOk (trace : List (Conn × Bool)) : Bool := trace.all (·.2)

/-- The calls a client makes on the manager. conn_manager_impl.go 42, 109, 118, 127. -/
inductive MOp
  | add (c : Conn)
  | remove (c : Conn)
  | removeUID (n : Nat)
  | removeUUID (u : Nat)
  deriving DecidableEq

/-- One call. conn_manager_impl.go 42-133. -/
def Mgr.step (cm : Mgr) : MOp → Mgr
  | .add c => (cm.add c).1
  | .remove c => cm.remove c
  | .removeUID n => cm.removeUID n
  | .removeUUID u => cm.removeUUID u

/-! ### connections -/

/-- conn_impl.go 32-43, the fields used below. `netCalls` counts the calls of the network connection's
`Close`. -/
structure CState where
  isClosed : Bool := false
  netCalls : Nat := 0
  db : Str := []
  schemas : List Str := []
  deriving DecidableEq

/-- conn_impl.go 98-107 `Close`; `net` tells whether the `i`-th call of the network connection's `Close`
succeeds. The result is `true` for a nil error. -/
def CState.close (net : Nat → Bool) (c : CState) : CState × Bool :=
  if c.isClosed then (c, true)
  else if net c.netCalls then ({ c with netCalls := c.netCalls + 1, isClosed := true }, true)
  else ({ c with netCalls := c.netCalls + 1 }, false)

/-- conn_impl.go 125-130 `SetDatabase`. -/
def CState.setDatabase (c : CState) (db : Str) : CState := { c with db := db, schemas := [] }

/-- conn_impl.go 140-150 `SetSchemas`. -/
def CState.setSchemas (c : CState) (ss : List Str) : CState :=
  { c with schemas := ss.foldl (fun acc s => if acc.contains s then acc else acc ++ [s]) c.schemas }

/-- The setters, as calls. conn_impl.go 128, 144. -/
inductive COp
  | setDatabase (db : Str)
  | setSchemas (ss : List Str)
  deriving DecidableEq

/-- One setter call. conn_impl.go 128-153. -/
def CState.step (c : CState) : COp → CState
  | .setDatabase db => c.setDatabase db
  | .setSchemas ss => c.setSchemas ss

/-- A history of `Close` calls with their results. conn_impl.go 101-110. -/
def closes (net : Nat → Bool) : CState → Nat → CState × List Bool
  | c, 0 => (c, [])
  | c, n + 1 => let r := c.close net; let x := closes net r.1 n; (x.1, r.2 :: x.2)

end Verif.Net
