import Verif.Model.Net
import Verif.Model.FnNames
/-! Slices that several owners hold: rows that are appended to (sql/fn/row.go), options that a caller passes as a slice
(sql/fn/sum.go and the other aggregators, sql/fn/func_impl.go), the schemas of connections (sql/net/conn_impl.go), and the
list of registered functions (sql/fn/names.go). The other models treat all of them as values. -/
namespace Verif.Slices
open Verif

section
variable {α : Type}

/-- The arrays allocated so far; `none` is a cell that was never assigned (a Go zero value). row.go 18. -/
abbrev Mem (α : Type) := List (List (Option α))

/-- A Go slice: array, first cell, length and capacity. row.go 18. -/
structure Slice where
  arr : Nat
  off : Nat := 0
  len : Nat
  cap : Nat
  deriving DecidableEq, Repr

/-- The cells of an array. row.go 18. -/
def cells (m : Mem α) (n : Nat) : List (Option α) := (m[n]?).getD []

/-- The elements of a slice. row.go 18. -/
def view (m : Mem α) (s : Slice) : List (Option α) := ((cells m s.arr).drop s.off).take s.len

/-- The slice is one of the memory. row.go 18. -/
def Valid (m : Mem α) (s : Slice) : Prop := s.arr < m.length ∧ s.len ≤ s.cap ∧ s.off + s.cap ≤ (cells m s.arr).length

/-- Cells with new values from a position on. row.go 27. -/
def write (a : List (Option α)) (i : Nat) (xs : List α) : List (Option α) := a.take i ++ (xs.map some ++ a.drop (i + xs.length))

/-- A new array with exactly these values: what the compiler makes of a call `f(v₁, …, vₙ)` and of a literal. row.go 21. -/
def alloc (m : Mem α) (xs : List α) : Mem α × Slice := (m ++ [xs.map some], { arr := m.length, len := xs.length, cap := xs.length })

/-- Go `append(s, xs...)`: in place if there is room, otherwise in a new array, in which the runtime leaves `grow` cells to
spare. row.go 27, sum.go 41, func_impl.go 145, 160, conn_impl.go 150. -/
def append (grow : Nat) (m : Mem α) (s : Slice) (xs : List α) : Mem α × Slice :=
  if s.len + xs.length ≤ s.cap then
    (m.set s.arr (write (cells m s.arr) (s.off + s.len) xs), { s with len := s.len + xs.length })
  else
    (m ++ [view m s ++ (xs.map some ++ List.replicate grow none)],
      { arr := m.length, len := s.len + xs.length, cap := s.len + xs.length + grow })

/-! ### Rows: row.go -/

/-- The calls a program makes on rows: `NewRow(v₁, …, vₙ)`, `NewRow(r...)` of an earlier row, `r.Append(vs...)` of an
earlier row. Rows are numbered in the order in which they were obtained. row.go 21-28. -/
inductive RowOp (α : Type)
  | new (vs : List α)
  | same (i : Nat)
  | append (i : Nat) (vs : List α) (grow : Nat)

/-- One call; a call on a row that there is not does nothing. row.go 21-28. -/
def rowStep (st : Mem α × List Slice) : RowOp α → Mem α × List Slice
  | .new vs => ((alloc st.1 vs).1, st.2 ++ [(alloc st.1 vs).2])
  | .same i => match st.2[i]? with
    | some r => (st.1, st.2 ++ [r])
    | none => st
  | .append i vs g => match st.2[i]? with
    | some r => ((append g st.1 r vs).1, st.2 ++ [(append g st.1 r vs).2])
    | none => st

/-- Any sequence of calls. row.go 21-28. -/
def rowRun (h : List (RowOp α)) : Mem α × List Slice := h.foldl rowStep ([], [])

/-! ### Options -/

/-- `NewSum`, `NewAvg`, `NewMin`, `NewMax` and `NewCount` (sum.go 36-70, avg.go 36, min.go 40-79, max.go 40, count.go 36) given
a slice of options: their own options are appended, and the result is applied. -/
def newAggrWith (own : List α) (g : Nat) (m : Mem α) (opts : Slice) : Mem α × List (Option α) :=
  let r := append g m opts own
  (r.1, view r.1 r.2)

/-- `Executor` of a function that has none yet (func_impl.go 141-153): the option for the arguments is appended. -/
def executorWith (arg : α) (g : Nat) (m : Mem α) (opts : Slice) : Mem α × List (Option α) :=
  let r := append g m opts [arg]
  (r.1, view r.1 r.2)

/-- `Aggregator` of a function that has none yet (func_impl.go 156-168): the option for the arguments is appended, and the
slice goes on to the constructor. -/
def aggregatorWith (arg : α) (own : List α) (g g' : Nat) (m : Mem α) (opts : Slice) : Mem α × List (Option α) :=
  let r := append g m opts [arg]
  newAggrWith own g' r.1 r.2

end

/-! ### Connections: conn_impl.go -/

/-- The memory and the schema slices of the connections made so far. conn_impl.go 31-41. -/
structure Sessions where
  mem : Mem Str := []
  conns : List Slice := []

/-- conn_impl.go 144-153 `SetSchemas`: the loop. The names given are a value. `grow` is the room the runtime leaves. -/
def addSchemas (grow : Nat) (m : Mem Str) (s : Slice) : List Str → Mem Str × Slice
  | [] => (m, s)
  | x :: xs =>
    if (view m s).contains (some x) then addSchemas grow m s xs
    else addSchemas grow (append grow m s [x]).1 (append grow m s [x]).2 xs

/-- The calls on connections: `NewConnWith` without schemas and `NewConnWith(WithConnSchemas(s...))` (conn_impl.go 44-62,
72-76), `SetDatabase` (128-133), `SetSchemas` (144-153), `Schemas` (156-162), and the caller's assignment `s[k] = x`. -/
inductive SessOp
  | conn
  | connWith (s : Slice)
  | setDatabase (i : Nat) (db : Str)
  | setSchemas (i : Nat) (ss : List Str) (grow : Nat)
  | schemas (i : Nat)
  | assign (s : Slice) (k : Nat) (x : Str)

/-- One call. `Schemas` (conn_impl.go 156-162) and `[]string{}` (49, 132) make new arrays. -/
def Sessions.step (st : Sessions) : SessOp → Sessions
  | .conn => { mem := (alloc st.mem []).1, conns := st.conns ++ [(alloc st.mem []).2] }
  | .connWith s => { st with conns := st.conns ++ [s] }
  | .setDatabase i _ => { mem := (alloc st.mem []).1, conns := st.conns.set i (alloc st.mem []).2 }
  | .setSchemas i ss g => match st.conns[i]? with
    | some s => { mem := (addSchemas g st.mem s ss).1, conns := st.conns.set i (addSchemas g st.mem s ss).2 }
    | none => st
  | .schemas i => match st.conns[i]? with
    | some s => { st with mem := st.mem ++ [view st.mem s] }
    | none => st
  | .assign s k x => { st with mem := st.mem.set s.arr ((cells st.mem s.arr).set (s.off + k) (some x)) }

/-- What `Schemas` returns now. conn_impl.go 156-162. -/
def Sessions.schemas (st : Sessions) (i : Nat) : List (Option Str) :=
  match st.conns[i]? with
  | some s => view st.mem s
  | none => []

/-! ### Registered functions: names.go -/

/-- names.go 103-126 `IsRegisteredFunction` with the contents that the list has now; a cell that is not assigned is the
empty text. -/
def isRegisteredIn (names : List (Option Str)) (name : Str) : Bool :=
  if name.length == 0 then false
  else (names.map (·.getD [])).any (Fn.registeredHit (Str.upper name))

end Verif.Slices
