import Verif.Model.Alias
import Verif.Lemmas.Str
/-! C118, C119: lists handed out by a schema, and copies of columns. -/
namespace Verif.Props
open Verif Verif.Query Verif.Alias

/-! ### C118 -/
section
variable {α : Type}

/-- The slice lies in its array. -/
def Inside (m : Mem α) (s : Slice) : Prop := s.arr < m.length ∧ s.len ≤ (cells m s).length

theorem cells_set (m : Mem α) (s t : Slice) (a : List (Option α)) (h : s.arr < m.length) :
    cells (m.set s.arr a) t = if t.arr = s.arr then a else cells m t := by
  unfold cells
  rw [List.getElem?_set]
  by_cases he : t.arr = s.arr
  · rw [if_pos he.symm, if_pos (by omega), if_pos he]; rfl
  · rw [if_neg (Ne.symm he), if_neg he]

theorem cells_push (m : Mem α) (t : Slice) (a : List (Option α)) (h : t.arr < m.length) : cells (m ++ [a]) t = cells m t := by
  unfold cells
  rw [List.getElem?_append_left h]

theorem append_inside (g : Nat) (m : Mem α) (s : Slice) (x : α) (h : Inside m s) :
    Inside (append g m s x).1 (append g m s x).2 ∧ view (append g m s x).1 (append g m s x).2 = view m s ++ [some x] := by
  unfold append
  split
  · rename_i hl
    have hc : cells (m.set s.arr ((cells m s).set s.len (some x))) { s with len := s.len + 1 } = (cells m s).set s.len (some x) := by
      rw [cells_set _ _ _ _ h.1, if_pos rfl]
    refine ⟨⟨by simpa using h.1, by rw [hc, List.length_set]; exact hl⟩, ?_⟩
    unfold view
    rw [hc]
    show List.take (s.len + 1) _ = _
    rw [List.take_add_one, List.take_set_of_le (Nat.le_refl _), List.getElem?_set_self hl]
    rfl
  · rename_i hl
    have hc : cells (m ++ [(cells m s).take s.len ++ [some x] ++ List.replicate g none]) { arr := m.length, len := s.len + 1 } =
        (cells m s).take s.len ++ [some x] ++ List.replicate g none := by
      simp [cells]
    have hlen : ((cells m s).take s.len ++ [some x]).length = s.len + 1 := by
      have := h.2; simp; omega
    refine ⟨⟨by simp, by rw [hc, List.length_append, hlen]; simp⟩, ?_⟩
    unfold view
    rw [hc]
    show List.take (s.len + 1) _ = _
    rw [← hlen, List.take_left]

theorem cut_cells (m : Mem α) (s : Slice) (n : Nat) (h : Inside m s) (t : Slice) :
    cells (cut m s n).1 t = if t.arr = s.arr then (cells m s).take n ++ ((cells m s).take s.len).drop (n + 1) ++ (cells m s).drop (s.len - 1)
      else cells m t := by
  unfold cut
  exact cells_set _ _ _ _ h.1

theorem cut_inside (m : Mem α) (s : Slice) (n : Nat) (h : Inside m s) (hn : n < s.len) :
    Inside (cut m s n).1 (cut m s n).2 ∧ view (cut m s n).1 (cut m s n).2 = (view m s).eraseIdx n := by
  have hc := cut_cells m s n h (cut m s n).2
  rw [if_pos (show (cut m s n).2.arr = s.arr from rfl)] at hc
  have h2 := h.2
  have hlen : ((cells m s).take n ++ ((cells m s).take s.len).drop (n + 1)).length = s.len - 1 := by
    simp; omega
  refine ⟨⟨by simpa [cut] using h.1, by rw [hc, List.length_append, hlen]; simp [cut]⟩, ?_⟩
  unfold view
  rw [hc]
  show List.take (s.len - 1) _ = _
  rw [← hlen, List.take_left, List.eraseIdx_eq_take_drop_succ, List.take_take]
  congr 2
  omega

/-- A list of a schema with the calls applied, as the schema model has it. -/
def runList (nm : α → Str) (l : List (Option α)) : List (Op α) → List (Option α)
  | [] => l
  | .add _ x :: os => runList nm (l ++ [some x]) os
  | .drop n :: os => runList nm (match l.findIdx? (fun c => !Str.eqFold ((c.map nm).getD []) n) with
    | none => l
    | some i => l.eraseIdx i) os

theorem step_inside (nm : α → Str) (m : Mem α) (s : Slice) (o : Op α) (h : Inside m s) :
    Inside (step nm m s o).1 (step nm m s o).2 ∧
    ∀ os, runList nm (view (step nm m s o).1 (step nm m s o).2) os = runList nm (view m s) (o :: os) := by
  cases o with
  | add g x =>
    have := append_inside g m s x h
    exact ⟨this.1, fun os => by rw [step, this.2]; rfl⟩
  | drop n =>
    simp only [step]
    cases hf : (view m s).findIdx? (fun c => !Str.eqFold ((c.map nm).getD []) n) with
    | none => exact ⟨h, fun os => by simp [runList, hf]⟩
    | some i =>
      have hi : i < s.len := by
        have := (List.findIdx?_eq_some_iff_getElem.mp hf).1
        rw [view, List.length_take] at this; omega
      have := cut_inside m s i h hi
      exact ⟨this.1, fun os => by simp only [runList, hf]; rw [this.2]⟩

/-- C118, first part: whatever the runtime's growth policy, the list of the schema itself is after any sequence of
additions and removals the one that the schema model (lists as values) computes. -/
theorem C118_current (nm : α → Str) (m : Mem α) (s : Slice) (h : Inside m s) (os : List (Op α)) :
    view (run nm m s os).1 (run nm m s os).2 = runList nm (view m s) os := by
  induction os generalizing m s with
  | nil => rfl
  | cons o os ih =>
    have := step_inside nm m s o h
    rw [run, ih _ _ this.1, this.2]

/-- The calls on a schema, with the schema model's own functions. -/
def runSchema (s : Schema) : List (Op Column) → Schema
  | [] => s
  | .add _ c :: os => runSchema (s.addColumn c) os
  | .drop n :: os => runSchema (s.dropColumn n).1 os

/-- C118, first part, against the schema model: the memory model of any sequence of `AddColumn` and `DropColumn` calls and
the schema model (which the other theorems are about) give the same columns. -/
theorem C118_schema (m : Mem Column) (sl : Slice) (h : Inside m sl) (s : Schema) (hv : view m sl = s.columns.map some) (os : List (Op Column)) :
    view (run (·.name) m sl os).1 (run (·.name) m sl os).2 = (runSchema s os).columns.map some := by
  rw [C118_current _ _ _ h, hv]
  clear hv h
  induction os generalizing s with
  | nil => rfl
  | cons o os ih =>
    cases o with
    | add g c =>
      rw [runList, runSchema, ← ih]
      simp [Schema.addColumn]
    | drop n =>
      rw [runList, runSchema, ← ih]
      congr 1
      rw [Schema.dropColumn, List.findIdx?_map]
      have : ((fun c : Option Column => !Str.eqFold ((c.map (·.name)).getD []) n) ∘ some) = (fun c => !Str.eqFold c.name n) := rfl
      rw [this]
      split
      · rename_i hf; rw [hf]
      · rename_i i hf
        rw [hf, List.eraseIdx_eq_take_drop_succ]
        simp

/-- C118 for additions: a list obtained from the schema at any time keeps its elements through any number of later
additions. `old` is the slice handed out, `s` the schema's slice now. Missing: removals, see `C118_fails`. -/
theorem C118_additions_partial (nm : α → Str) (m : Mem α) (old s : Slice) (ho : Inside m old) (hs : Inside m s)
    (hlen : old.arr = s.arr → old.len ≤ s.len) (os : List (Op α)) (hadd : ∀ o ∈ os, ∃ g x, o = .add g x) :
    view (run nm m s os).1 old = view m old := by
  induction os generalizing m s with
  | nil => rfl
  | cons o os ih =>
    obtain ⟨g, x, rfl⟩ := hadd o (List.mem_cons_self ..)
    have hi := append_inside g m s x hs
    have hkeep : Inside (append g m s x).1 old ∧ view (append g m s x).1 old = view m old ∧
        (old.arr = (append g m s x).2.arr → old.len ≤ (append g m s x).2.len) := by
      unfold append
      split
      · rename_i hl
        have hc := cells_set m s old ((cells m s).set s.len (some x)) hs.1
        refine ⟨⟨by simpa using ho.1, ?_⟩, ?_, fun he => ?_⟩
        · have h2 := ho.2
          rw [hc]; split
          · rename_i he
            have : cells m old = cells m s := by unfold cells; rw [he]
            simpa [← this] using h2
          · exact h2
        · unfold view
          rw [hc]; split
          · rename_i he
            have : cells m old = cells m s := by unfold cells; rw [he]
            rw [List.take_set_of_le (hlen he), this]
          · rfl
        · have := hlen he
          show old.len ≤ s.len + 1; omega
      · have hc := cells_push m old ((cells m s).take s.len ++ [some x] ++ List.replicate g none) ho.1
        refine ⟨⟨by have := ho.1; simp; omega, by rw [hc]; exact ho.2⟩, by unfold view; rw [hc], fun he => ?_⟩
        have he : old.arr = m.length := he
        have := ho.1; omega
    rw [run]
    show view (run nm (append g m s x).1 (append g m s x).2 os).1 old = _
    rw [ih _ _ hkeep.1 hi.1 hkeep.2.2 (fun o ho => hadd o (List.mem_cons_of_mem _ ho)), hkeep.2.1]

/-- C118 for one removal, exactly: the list obtained before reads afterwards as the list without the removed element,
with its last element once more at the end. -/
theorem C118_removal_exact (m : Mem α) (s : Slice) (n : Nat) (h : Inside m s) (hn : n < s.len) :
    view (cut m s n).1 s = (view m s).eraseIdx n ++ (view m s).drop (s.len - 1) := by
  have hc := cut_cells m s n h s
  rw [if_pos rfl] at hc
  have h2 := h.2
  have hlen : ((cells m s).take n ++ ((cells m s).take s.len).drop (n + 1)).length = s.len - 1 := by
    simp; omega
  unfold view
  rw [hc, List.take_append, hlen, List.take_of_length_le (by omega), List.eraseIdx_eq_take_drop_succ, List.take_take,
    show min n s.len = n by omega, List.drop_take, List.drop_take]

end

/-- C118 as stated is false: a caller holding the column list `[a, b, c]` of a schema sees `[b, c, c]` in it after
`DropColumn("c")` (which removes `a`). -/
theorem C118_fails : ∃ (m : Mem Str) (s : Slice), Inside m s ∧ view m s = [some s%"a", some s%"b", some s%"c"] ∧
    view (run id m s [.drop s%"c"]).1 s = [some s%"b", some s%"c", some s%"c"] :=
  ⟨[[some s%"a", some s%"b", some s%"c"]], ⟨0, 3⟩, ⟨by decide, by decide⟩, by decide, by decide⟩

example : ∃ (m : Mem Str) (old s : Slice), Inside m old ∧ Inside m s ∧ (old.arr = s.arr → old.len ≤ s.len) ∧
    view (run id m s [.add 1 s%"c", .add 0 s%"d", .add 2 s%"e"]).1 old = [some s%"a", some s%"b"] ∧
    view (run id m s [.add 1 s%"c", .add 0 s%"d", .add 2 s%"e"]).1 (run id m s [.add 1 s%"c", .add 0 s%"d", .add 2 s%"e"]).2 =
      [some s%"a", some s%"b", some s%"c", some s%"d", some s%"e"] :=
  ⟨[[some s%"a", some s%"b", none]], ⟨0, 2⟩, ⟨0, 2⟩, ⟨by decide, by decide⟩, ⟨by decide, by decide⟩, by decide, by decide, by decide⟩

/-! ### C119 -/

theorem read_setLit (m : Lits) (p : Nat) (v : Val) (q : Nat) :
    (setLit m p v)[q]? = if p = q then (m[q]?).map (fun l => { l with v := v }) else m[q]? := by
  rw [setLit, List.getElem?_modify]
  by_cases h : p = q
  · simp only [h, if_true]; rfl
  · simp only [h, if_false]; cases m[q]? <;> rfl

/-- The columns as values and the columns with shared literals agree: setting a value through a column whose literal is
allocated gives the column that the value model gives. -/
theorem setValue_read (k : Caster) (m : Lits) (c : PCol) (v : Val) (h : ∀ p, c.lit = some p → p < m.length) :
    (c.setValue k m v).2.1.read (c.setValue k m v).1 = ((c.read m).setValue k v).1 ∧
    (c.setValue k m v).2.2 = ((c.read m).setValue k v).2 := by
  obtain ⟨n, l, d⟩ := c
  cases l with
  | none => exact ⟨rfl, rfl⟩
  | some p =>
    have hp := h p rfl
    have hm : m[p]? = some m[p] := List.getElem?_eq_getElem hp
    cases d with
    | none =>
      simp [PCol.setValue, PCol.setDefinition, PCol.read, Column.setValue, Column.setDefinition, hm, read_setLit]
    | some d =>
      simp only [PCol.setValue, PCol.setDefinition, PCol.read, Column.setValue, Column.setDefinition, hm, read_setLit, Option.bind_some,
        if_true, Option.map_some]
      cases k.coerce d.typ v <;> simp [read_setLit, hm]

/-- C119, the exact behaviour: after `SetValue` on a copy of a column that has a literal, the original has the very value
of the copy. For every column, value and conversion. -/
theorem C119_shared (k : Caster) (m : Lits) (c : PCol) (v : Val) (h : ∀ p, c.lit = some p → p < m.length) :
    (c.read (c.copy.setValue k m v).1).lit = ((c.copy.setValue k m v).2.1.read (c.copy.setValue k m v).1).lit ∧
    (c.read (c.copy.setValue k m v).1).lit = ((c.read m).setValue k v).1.lit := by
  have hs : (c.copy.setValue k m v).2.1.lit = c.lit := by
    obtain ⟨n, l, d⟩ := c
    cases l with
    | none => rfl
    | some p =>
      have hm : (setLit m p v)[p]? = some { m[p]'(h p rfl) with v := v } := by
        rw [read_setLit, if_pos rfl, List.getElem?_eq_getElem (h p rfl)]; rfl
      cases d with
      | none => rfl
      | some d =>
        simp only [PCol.copy, PCol.setValue, PCol.setDefinition, hm]
        split <;> rfl
  have h1 : (c.read (c.copy.setValue k m v).1).lit = ((c.copy.setValue k m v).2.1.read (c.copy.setValue k m v).1).lit := by
    simp only [PCol.read, hs]
  refine ⟨h1, h1.trans ?_⟩
  have := (setValue_read k m c.copy v h).1
  rw [this]; rfl

/-- C119 for what does hold: setting the value of a copy leaves the name and the definition of the original, and a column
without a literal altogether. Missing: the value, see `C119_fails`. -/
theorem C119_partial (k : Caster) (m : Lits) (c : PCol) (v : Val) :
    (c.read (c.copy.setValue k m v).1).name = (c.read m).name ∧ (c.read (c.copy.setValue k m v).1).def_ = (c.read m).def_ ∧
    (c.lit = none → c.read (c.copy.setValue k m v).1 = c.read m) := by
  refine ⟨rfl, rfl, fun h => ?_⟩
  simp [PCol.read, h]

/-- C119 as stated is false: a column with the value 1 has the value 2 after the value of its copy is set to 2. -/
theorem C119_fails (k : Caster) : ∃ (m : Lits) (c : PCol), (c.read m).lit = some { v := .i32 1 } ∧
    (c.read (c.copy.setValue k m (.i32 2)).1).lit = some { v := .i32 2 } :=
  ⟨[{ v := .i32 1 }], { name := s%"a", lit := some 0 }, rfl, rfl⟩

end Verif.Props
