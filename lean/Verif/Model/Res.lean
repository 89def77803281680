import Verif.Model.Str
/-! Outcomes of Go calls and Go maps. -/
namespace Verif

/-- Outcome of a Go call that can return an error or panic. For instance parser_antlr.go 49-84. -/
inductive Res (α : Type) | ok (a : α) | err | panic
  deriving DecidableEq, Repr

/-- A Go map as an association list with at most one entry per key (see `Lemmas/GoMap.lean`). Go leaves
the iteration order open: code that iterates takes the order as a parameter.
For instance aggr_impl.go 41-43, conn_manager_impl.go 26-30. -/
abbrev GoMap (κ α : Type) := List (κ × α)

namespace GoMap
variable {κ α : Type} [DecidableEq κ]

/-- `v, ok := m[k]`. For instance aggr_impl.go 232-280, conn_manager_impl.go 42-133. -/
def get? : GoMap κ α → κ → Option α
  | [], _ => none
  | (k', v) :: m, k => if k' = k then some v else get? m k

/-- `m[k] = v`. For instance aggr_impl.go 232-280, conn_manager_impl.go 42-133. -/
def set : GoMap κ α → κ → α → GoMap κ α
  | [], k, v => [(k, v)]
  | (k', v') :: m, k, v => if k' = k then (k', v) :: m else (k', v') :: set m k v

/-- `delete(m, k)`. For instance aggr_impl.go 232-280, conn_manager_impl.go 42-133. -/
def del (m : GoMap κ α) (k : κ) : GoMap κ α := m.filter (fun e => e.1 ≠ k)

/-- The keys, in the order of the list. For instance aggr_impl.go 232-280, conn_manager_impl.go 42-133. -/
def keys (m : GoMap κ α) : List κ := m.map (·.1)

end GoMap
end Verif
