import Verif.Model.Net
/-! What the manager and the connections should do. -/
namespace Verif.Spec
open Verif.Net

/-- The connections added and not yet removed. -/
def liveStep (live : List Conn) : MOp → List Conn
  | .add c => if live.any (fun d => d.uuid = c.uuid ∨ d.uid = c.uid) then live else live ++ [c]
  | .remove c => live.filter (fun d => d.uuid ≠ c.uuid)
  | .removeUID n => live.filter (fun d => d.uid ≠ n)
  | .removeUUID u => live.filter (fun d => d.uuid ≠ u)

/-- A removed connection is one of the managed ones, or shares neither its id nor its UUID with any. -/
def Proper (live : List Conn) : MOp → Prop
  | .remove c => ∀ d ∈ live, d.uid = c.uid ↔ d.uuid = c.uuid
  | _ => True

/-- Histories in which every removal is proper. -/
def AllProper : List Conn → List MOp → Prop
  | _, [] => True
  | live, op :: ops => Proper live op ∧ AllProper (liveStep live op) ops

/-- The first occurrences of a list of names. -/
def firsts : List Str → List Str
  | [] => []
  | x :: xs => x :: (firsts xs).filter (· ≠ x)

/-- The names given to `SetSchemas` since the last `SetDatabase`, in the order of the calls. -/
def sinceDatabase (init : List Str) (h : List COp) : List Str :=
  h.foldl (fun acc op => match op with | .setDatabase _ => [] | .setSchemas ss => acc ++ ss) init

end Verif.Spec
