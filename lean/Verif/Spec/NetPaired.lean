import Verif.Spec.NetConc
/-! Histories of calls on the connection manager in which an id always goes with the same UUID. -/
namespace Verif.Spec
open Verif.Net

/-- The connection is named in a call of the history. -/
def NamedIn (h : List Event) (c : Conn) : Prop :=
  ∃ t, Event.call t (.add c) ∈ h ∨ Event.call t (.remove c) ∈ h ∨ ∃ d, Event.call t (.update c d) ∈ h ∨ Event.call t (.update d c) ∈ h

/-- Two connections named in the history share both their ids and their UUIDs or neither, connections are replaced by ones with the
same id and UUID only, and the client does not make the inner call of RemoveConnByUID and RemoveConnByUUID on its own. -/
structure PairedIds (h : List Event) : Prop where
  one : ∀ c d, NamedIn h c → NamedIn h d → (c.uid = d.uid ↔ c.uuid = d.uuid)
  same : ∀ t c d, Event.call t (.update c d) ∈ h → d.uid = c.uid ∧ d.uuid = c.uuid
  client : ∀ t c, Event.call t (.removeFound c) ∉ h

end Verif.Spec
