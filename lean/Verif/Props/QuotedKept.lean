import Verif.Props.Quoted
/-! C101, for every name and every statement: what SELECT, UPDATE and DELETE report of a table name in backquotes. -/
namespace Verif.Props
open Verif Verif.Lex Verif.Gram Verif.Parse Verif.Spec Verif.Query

theorem escaped_ne (v : Str) : Util.escapeNameString v ≠ v := by
  intro h
  have := congrArg List.length h
  simp [Util.escapeNameString] at this
  omega

/-- C101, negation, for every table name and every SELECT, UPDATE and DELETE of the kinds that are read back: each one
with the table name in backquotes is accepted, whatever its other clauses are, and is about a table whose name has the
backquotes in it. None is about the table of the plain name. -/
theorem C101_kept_fails (toUint : Str → Option Nat) (hu : ReadsNumbers toUint) (v : Str) :
    (∀ s, PrintableSelect s → s.tables = [{ name := Util.escapeNameString v }] →
      ∃ r, parseQuery toUint s.toStr = .ok [.select r] ∧ r.tables = [{ name := '`' :: v ++ ['`'] }] ∧
        r.tables ≠ [{ name := v }]) ∧
    (∀ u, PrintableUpdate u → u.table = { name := Util.escapeNameString v } →
      ∃ r, parseQuery toUint u.toStr = .ok [.update r] ∧ r.table = { name := '`' :: v ++ ['`'] } ∧
        r.table ≠ { name := v }) ∧
    (∀ d, PrintableDelete d → d.table = { name := Util.escapeNameString v } →
      ∃ r, parseQuery toUint d.toStr = .ok [.delete r] ∧ r.table = { name := '`' :: v ++ ['`'] } ∧
        r.table ≠ { name := v }) := by
  have e : Util.escapeNameString v = '`' :: v ++ ['`'] := by simp [Util.escapeNameString]
  have ne := escaped_ne v
  refine ⟨fun s h ht => ⟨_, C08_roundtrip_partial toUint hu s h, ?_, ?_⟩,
    fun u h ht => ⟨_, C10_update_partial toUint u h, ?_, ?_⟩, fun d h ht => ⟨_, C10_delete_partial toUint d h, ?_, ?_⟩⟩
  · simp only [selectAsText, ht, e]
  · simp only [selectAsText, ht]
    intro hh
    simp only [List.cons.injEq, and_true, Table.mk.injEq, true_and] at hh
    exact ne hh
  · simp only [updateAsText, ht, e]
  · simp only [updateAsText, ht]
    intro hh
    simp only [Table.mk.injEq, and_true, true_and] at hh
    exact ne hh
  · simp only [deleteAsText, ht, e]
  · simp only [deleteAsText, ht]
    intro hh
    simp only [Table.mk.injEq, and_true, true_and] at hh
    exact ne hh

/-- Every name whose backquotes are doubled has such statements. -/
theorem quoted_printable (v c : Str) (hv : Paired '`' v) (hc : Name c) :
    PrintableSelect { selectors := [.col { name := c }], tables := [{ name := Util.escapeNameString v }], cond := none } ∧
    PrintableDelete { table := { name := Util.escapeNameString v }, cond := none } := by
  have e : Util.escapeNameString v = '`' :: v ++ ['`'] := by simp [Util.escapeNameString]
  have q : AnyName (Util.escapeNameString v) := .inr (e ▸ .back hv)
  refine ⟨⟨by simp, ?_, by simp, ?_, ?_, ?_, ?_, ?_, .inl rfl⟩, ⟨⟨_, q, rfl⟩, ?_⟩⟩
  · intro x hx
    simp only [List.mem_singleton] at hx
    subst hx
    exact .column (.inl (.inl hc))
  · intro t ht
    simp only [List.mem_singleton] at ht
    subst ht
    exact .bare q
  all_goals first | (intro e he; cases he) | simp

example : Paired '`' s%"my table" ∧ Name s%"a" :=
  ⟨.of_not_mem (by decide), name_of (by decide +kernel)⟩

end Verif.Props
