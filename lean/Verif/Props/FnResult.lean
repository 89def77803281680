import Verif.Props.AggrMore
/-! C42: result sets of functions and aggregators. -/
namespace Verif.Props
open Verif Verif.Fn Verif.Spec Verif.Lemmas
variable {V F : Type}

/-- A call on a result set. -/
inductive RsCall | next | row | map
  deriving DecidableEq

/-- What it returns: Next's flag, or the row or map (`none` for the error). -/
inductive RsOut (V F : Type)
  | flag (b : Bool)
  | row (r : Option (List (Cell V F)))
  | map (m : Option (GoMap Str (Cell V F)))

/-- One call on the model. -/
def rsCall (rs : ResultSet V F) : RsCall → ResultSet V F × RsOut V F
  | .next => let r := rs.next; (r.1, .flag r.2)
  | .row => (rs, .row rs.row)
  | .map => (rs, .map rs.map)

/-- A sequence of calls. -/
def rsCalls (rs : ResultSet V F) : List RsCall → ResultSet V F × List (RsOut V F)
  | [] => (rs, [])
  | c :: cs => let r := rsCall rs c; let r' := rsCalls r.1 cs; (r'.1, r.2 :: r'.2)

/-- Specification: an iterator holding the rows not yet visited and the current row. -/
structure Iter (V F : Type) where
  todo : List (List (Cell V F))
  cur : Option (List (Cell V F))

/-- Specification of a call; `toMap` says what map a row is. -/
def iterCall (toMap : List (Cell V F) → GoMap Str (Cell V F)) (it : Iter V F) : RsCall → Iter V F × RsOut V F
  | .next => match it.todo with
    | [] => (it, .flag false)
    | r :: rs => (⟨rs, some r⟩, .flag true)
  | .row => (it, .row it.cur)
  | .map => (it, .map (it.cur.map toMap))

/-- Specification of a sequence of calls. -/
def iterCalls (toMap : List (Cell V F) → GoMap Str (Cell V F)) (it : Iter V F) : List RsCall → List (RsOut V F)
  | [] => []
  | c :: cs => (iterCall toMap it c).2 :: iterCalls toMap (iterCall toMap it c).1 cs

/-- The relation between the model and the specification. -/
structure RsRel (rs : ResultSet V F) (it : Iter V F) : Prop where
  low : -1 ≤ rs.index
  high : rs.index < rs.rows.length
  todo : it.todo = rs.rows.drop (rs.index + 1).toNat
  cur : it.cur = rs.row

theorem rsRel_call {rs : ResultSet V F} {it : Iter V F} (h : RsRel rs it) (c : RsCall) :
    RsRel (rsCall rs c).1 (iterCall (newMapWithRow rs.columns) it c).1 ∧
    (rsCall rs c).2 = (iterCall (newMapWithRow rs.columns) it c).2 ∧ (rsCall rs c).1.columns = rs.columns := by
  cases c with
  | row => exact ⟨h, by simp only [rsCall, iterCall]; rw [h.cur], rfl⟩
  | map => exact ⟨h, by simp only [rsCall, iterCall, ResultSet.map]; rw [h.cur], rfl⟩
  | next =>
    have h1 := h.low
    have h2 := h.high
    simp only [rsCall, iterCall, ResultSet.next]
    by_cases hlast : (rs.rows.length : Int) ≤ rs.index + 1
    · have : it.todo = [] := by
        rw [h.todo, List.drop_eq_nil_iff]; omega
      rw [if_pos hlast, this]
      exact ⟨h, rfl, rfl⟩
    · rw [if_neg hlast]
      have hi : (rs.index + 1).toNat < rs.rows.length := by omega
      have : it.todo = rs.rows[(rs.index + 1).toNat] :: rs.rows.drop ((rs.index + 1).toNat + 1) := by
        rw [h.todo]; exact List.drop_eq_getElem_cons hi
      rw [this]
      refine ⟨⟨?_, ?_, ?_, ?_⟩, rfl, rfl⟩
      · simp only; omega
      · simp only; omega
      · simp only; congr 1; omega
      · simp only [ResultSet.row]
        rw [if_neg (by omega)]
        exact (List.getElem?_eq_getElem hi).symm

/-- C42: every sequence of Next, Row and Map calls on a fresh result set returns what an iterator over its
rows returns: Next visits all rows once in order and then is false forever; Row and Map are an error before
the first Next, and afterwards give the row last visited. -/
theorem C42_iterates (columns : List Str) (rows : List (List (Cell V F))) (cs : List RsCall) :
    (rsCalls { columns := columns, rows := rows } cs).2 = iterCalls (newMapWithRow columns) ⟨rows, none⟩ cs := by
  suffices hgen : ∀ (cs : List RsCall) (rs : ResultSet V F) (it : Iter V F), RsRel rs it → rs.columns = columns →
      (rsCalls rs cs).2 = iterCalls (newMapWithRow columns) it cs by
    apply hgen
    · refine ⟨by simp, by simp; omega, by simp, by simp [ResultSet.row]⟩
    · rfl
  intro cs
  induction cs with
  | nil => intro rs it _ _; rfl
  | cons c cs ih =>
    intro rs it h hcol
    obtain ⟨h1, h2, h3⟩ := rsRel_call h c
    rw [hcol] at h1 h2 h3
    simp only [rsCalls, iterCalls]
    rw [h2, ih _ _ h1 h3]

/-- C42: the map of a row pairs each column with the value at its position (nil when the row is too short),
and has no other keys; columns are taken to have different names. -/
theorem C42_map (columns : List Str) (hnd : columns.Nodup) (row : List (Cell V F)) :
    (∀ (i : Nat) (c : Str), columns[i]? = some c →
      (newMapWithRow columns row).get? c = some (match row[i]? with | some v => v | none => .nil)) ∧
    (∀ c, c ∉ columns → (newMapWithRow columns row).get? c = none) := by
  let val : Nat → Cell V F := fun i => match row[i]? with | some v => v | none => .nil
  have hgen : ∀ (cols : List Str) (j : Nat) (m : GoMap Str (Cell V F)), cols.Nodup →
      (∀ (i : Nat) (c : Str), cols[i]? = some c → ((cols.zipIdx j).foldl (fun m c => m.set c.1 (val c.2)) m).get? c = some (val (j + i))) ∧
      (∀ c, c ∉ cols → ((cols.zipIdx j).foldl (fun m c => m.set c.1 (val c.2)) m).get? c = m.get? c) := by
    intro cols
    induction cols with
    | nil => intro j m _; simp
    | cons x cols ih =>
      intro j m hn
      rw [List.nodup_cons] at hn
      obtain ⟨h1, h2⟩ := ih (j + 1) (m.set x (val j)) hn.2
      simp only [List.zipIdx_cons, List.foldl_cons]
      constructor
      · intro i c hc
        cases i with
        | zero =>
          simp at hc; subst hc
          rw [h2 x hn.1]; simp
        | succ i =>
          rw [h1 i c (by simpa using hc)]
          congr 2; omega
      · intro c hc
        rw [List.mem_cons, not_or] at hc
        rw [h2 c hc.2, GoMap.get?_set_ne _ _ (Ne.symm hc.1)]
  obtain ⟨h1, h2⟩ := hgen columns 0 [] hnd
  constructor
  · intro i c hc
    have := h1 i c hc
    rw [Nat.zero_add] at this
    exact this
  · intro c hc; exact h2 c hc

/-- C42 is not met in one point: after Next has returned false, Row still returns the last row instead of an
error. -/
theorem C42_row_after_end_fails (columns : List Str) (rows : List (List (Cell V F))) (last : List (Cell V F)) :
    ∃ outs, (rsCalls { columns := columns, rows := rows ++ [last] }
      (List.replicate (rows.length + 1) .next ++ [.next, .row])).2 = outs ++ [.flag false, .row (some last)] := by
  rw [C42_iterates]
  have hgen : ∀ (rows : List (List (Cell V F))) (cur : Option (List (Cell V F))), ∃ outs,
      iterCalls (newMapWithRow columns) ⟨rows ++ [last], cur⟩ (List.replicate (rows.length + 1) .next ++ [.next, .row]) =
        outs ++ [.flag false, .row (some last)] := by
    intro rows
    induction rows with
    | nil => intro cur; exact ⟨[.flag true], rfl⟩
    | cons r rows ih =>
      intro cur
      obtain ⟨outs, h⟩ := ih (some r)
      refine ⟨.flag true :: outs, ?_⟩
      have : List.replicate ((r :: rows).length + 1) RsCall.next ++ [.next, .row] =
          .next :: (List.replicate (rows.length + 1) .next ++ [.next, .row]) := by
        simp [List.replicate_succ]
      rw [this]
      simp only [iterCalls, iterCall, List.cons_append]
      rw [h]
  exact hgen rows none

example : (rsCalls ({ columns := [s%"a", s%"b"], rows := [[.num 1, .num 2]] } : ResultSet ExV Nat) [.row, .next, .row, .next]).2 =
    [.row none, .flag true, .row (some [.num 1, .num 2]), .flag false] := rfl
example : [s%"a", s%"b"].Nodup := by decide

end Verif.Props
