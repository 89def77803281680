import Verif.Model.Schema
/-! Shared memory: the slices behind the column and index lists of a schema (sql/query/schema.go), and the literals that
columns point to (sql/query/column.go, literal.go). The other models treat both as values. -/
namespace Verif.Alias
open Verif Verif.Query

section
variable {α : Type}

/-- The arrays allocated so far; a cell beyond the length of every slice is `none` (a Go zero value).
schema.go 54-59. -/
abbrev Mem (α : Type) := List (List (Option α))

/-- A Go slice that starts at the beginning of its array (all slices of schema.go do): array and length. The capacity is
the length of the array. schema.go 54-59. -/
structure Slice where
  arr : Nat
  len : Nat
  deriving DecidableEq, Repr

/-- The array of a slice. schema.go 173-206. -/
def cells (m : Mem α) (s : Slice) : List (Option α) := (m[s.arr]?).getD []

/-- The elements of a slice. schema.go 112-124. -/
def view (m : Mem α) (s : Slice) : List (Option α) := (cells m s).take s.len

/-- Go `append(s, x)`: in place if there is room, otherwise in a new array with `grow` cells to spare.
schema.go 173-176, 191-194. -/
def append (grow : Nat) (m : Mem α) (s : Slice) (x : α) : Mem α × Slice :=
  if s.len < (cells m s).length then (m.set s.arr ((cells m s).set s.len (some x)), { s with len := s.len + 1 })
  else (m ++ [(cells m s).take s.len ++ [some x] ++ List.replicate grow none], { arr := m.length, len := s.len + 1 })

/-- schema.go 185, 203: `append(s[:n], s[n+1:]...)`, which always has room and moves the elements in place. -/
def cut (m : Mem α) (s : Slice) (n : Nat) : Mem α × Slice :=
  (m.set s.arr ((cells m s).take n ++ ((cells m s).take s.len).drop (n + 1) ++ (cells m s).drop (s.len - 1)),
   { s with len := s.len - 1 })

/-- `AddColumn` (schema.go 173-176), `AddIndex` (191-194), `DropColumn` (179-188) and `DropIndex` (197-206) on a list of
things named by `nm`; `grow` is the room that the runtime leaves. -/
inductive Op (α : Type) | add (grow : Nat) (x : α) | drop (name : Str)

/-- One call. schema.go 173-206. -/
def step (nm : α → Str) (m : Mem α) (s : Slice) : Op α → Mem α × Slice
  | .add g x => append g m s x
  | .drop n => match (view m s).findIdx? (fun c => !Str.eqFold ((c.map nm).getD []) n) with
    | none => (m, s)
    | some i => cut m s i

/-- Any sequence of calls. schema.go 173-206. -/
def run (nm : α → Str) (m : Mem α) (s : Slice) : List (Op α) → Mem α × Slice
  | [] => (m, s)
  | o :: os => let r := step nm m s o; run nm r.1 r.2 os

end

/-! ### Literals -/

/-- The literals allocated so far. literal.go 36-39. -/
abbrev Lits := List Literal

/-- column.go 77-83: a column points to its literal. -/
structure PCol where
  name : Str
  lit : Option Nat := none
  def_ : Option ColumnDef := none
  deriving DecidableEq, Repr

/-- The column as a value. column.go 77-83. -/
def PCol.read (m : Lits) (c : PCol) : Column := { name := c.name, lit := c.lit.bind (m[·]?), def_ := c.def_ }

/-- column.go 239-245 `Copy`: name, definition and the pointer to the literal. -/
def PCol.copy (c : PCol) : PCol := { name := c.name, def_ := c.def_, lit := c.lit }

/-- `Literal.SetValue`, literal.go 95-98. -/
def setLit (m : Lits) (p : Nat) (v : Val) : Lits := m.modify p (fun l => { l with v := v })

/-- column.go 184-236 `SetDefinition`. -/
def PCol.setDefinition (k : Caster) (m : Lits) (c : PCol) (d : Option ColumnDef) : Lits × PCol × Bool :=
  let c1 := { c with def_ := d }
  match d, c.lit with
  | some dd, some p => match m[p]? with
    | none => (m, c1, true)
    | some l => match k.coerce dd.typ l.v with
      | some v => (setLit m p v, c1, true)
      | none => (m, c1, false)
  | _, _ => (m, c1, true)

/-- column.go 178-181 `SetValue`. -/
def PCol.setValue (k : Caster) (m : Lits) (c : PCol) (v : Val) : Lits × PCol × Res Unit :=
  match c.lit with
  | none => (m, c, .panic)
  | some p =>
    let r := c.setDefinition k (setLit m p v) c.def_
    (r.1, r.2.1, if r.2.2 then .ok () else .err)

end Verif.Alias
