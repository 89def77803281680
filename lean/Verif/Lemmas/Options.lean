import Verif.Model.Options
import Verif.Lemmas.FnType
import Verif.Lemmas.Join
/-! Lemmas about making things from options. -/
namespace Verif.Lemmas.Options
open Verif Verif.Spec.FnState Verif.Lemmas.FnState Verif.Query

theorem fold_field {S O α : Type} (apply : S → O → S) (get : S → α) (pick : O → Option α)
    (hp : ∀ s o, get (apply s o) = (pick o).getD (get s)) (os : List O) (s : S) :
    get (os.foldl apply s) = lastGiven pick (get s) os := by
  induction os generalizing s with
  | nil => rfl
  | cons o os ih => rw [List.foldl_cons, ih, hp, lastGiven_cons]

theorem fold_const {S O α : Type} (apply : S → O → S) (get : S → α) (hp : ∀ s o, get (apply s o) = get s) (os : List O) (s : S) :
    get (os.foldl apply s) = get s := by
  induction os generalizing s with
  | nil => rfl
  | cons o os ih => rw [List.foldl_cons, ih, hp]

/-- The column that a non-failing option gives. -/
def step (c : Column) (o : ColOption) : Column := match o.apply c with | .ok c' => c' | _ => c

theorem applyAll_ok (os : List ColOption) (h : .executor none ∉ os) (c : Column) :
    ColOption.applyAll c os = .ok (os.foldl step c) := by
  induction os generalizing c with
  | nil => rfl
  | cons o os ih =>
    have ho : o.apply c = .ok (step c o) := by
      cases o with
      | executor e => cases e with
        | none => exact absurd (by simp) h
        | some e => rfl
      | _ => rfl
    rw [ColOption.applyAll, ho, List.foldl_cons]
    exact ih (fun hm => h (by simp [hm])) _

theorem applyAll_panic (os : List ColOption) (h : .executor none ∈ os) (c : Column) : ColOption.applyAll c os = .panic := by
  induction os generalizing c with
  | nil => simp at h
  | cons o os ih =>
    by_cases ho : o = .executor none
    · subst ho; rfl
    · have hm : .executor none ∈ os := by
        rcases List.mem_cons.mp h with hh | hh
        · exact absurd hh.symm ho
        · exact hh
      have : o.apply c = .ok (step c o) := by
        cases o with
        | executor e => cases e with
          | none => exact absurd rfl ho
          | some e => rfl
        | _ => rfl
      rw [ColOption.applyAll, this]
      exact ih hm _

theorem join_infix (sep : Str) (xs ys zs : List Str) (h : ys ≠ []) : Str.join sep ys <:+: Str.join sep (xs ++ ys ++ zs) := by
  have h1 : Str.join sep ys <:+: Str.join sep (ys ++ zs) := by
    cases zs with
    | nil => rw [List.append_nil]; exact List.infix_refl _
    | cons z zs => rw [Str.join_append sep ys (z :: zs) h (by simp)]; exact ⟨[], sep ++ Str.join sep (z :: zs), by simp⟩
  rw [List.append_assoc]
  cases xs with
  | nil => exact h1
  | cons x xs =>
    refine h1.trans ?_
    rw [Str.join_append sep (x :: xs) (ys ++ zs) (by simp) (by simp [h])]
    exact ⟨Str.join sep (x :: xs) ++ sep, [], by simp⟩

theorem join_prefix (sep : Str) (ys zs : List Str) (h : ys ≠ []) : ∃ after, Str.join sep (ys ++ zs) = Str.join sep ys ++ after := by
  cases zs with
  | nil => exact ⟨[], by simp⟩
  | cons z zs => exact ⟨_, by rw [Str.join_append sep ys (z :: zs) h (by simp), List.append_assoc]⟩

theorem infix_mid {α : Type} (x y z : List α) : y <:+: x ++ y ++ z := ⟨x, z, rfl⟩

theorem toStr_words {a : AlterTable} {s : Str} (h : a.toStr = .ok s) : ∃ ws, s = Str.join s%" " ws ∧
    (([s%"ALTER", s%"TABLE", a.table.fullTableName] : List Str) <+: ws) ∧
    (∀ t, a.renamed = some t → [s%"RENAME", s%"TO", t.fullTableName] <:+: ws) ∧
    (∀ f t, a.renameColumns = some (f, t) → [s%"RENAME", s%"COLUMN", f.name, s%"TO", t.name] <:+: ws) ∧
    (∀ c, a.addColumn = some c → [s%"ADD"] <:+: ws ∧ [c.definitionString] <:+: ws) ∧
    (∀ i, a.addIndex = some i → [s%"ADD", i.definitionString] <:+: ws) ∧
    (∀ c, a.dropColumn = some c → [s%"DROP", c.name] <:+: ws) := by
  unfold AlterTable.toStr at h
  dsimp only at h
  have base : ∀ mid : List Str, (∀ c, a.addColumn = some c → [s%"ADD"] <:+: mid ∧ [c.definitionString] <:+: mid) →
      ∀ ws, ws = [s%"ALTER", s%"TABLE", a.table.fullTableName] ++
    (match a.renameTo with
     | some t => [s%"RENAME", s%"TO", t.fullTableName]
     | none => []) ++
    (match a.renameColumnFrom, a.renameColumnTo with
     | some f, some t => [s%"RENAME", s%"COLUMN", f.name, s%"TO", t.name]
     | _, _ => []) ++ mid ++ ((match a.addIndex with
     | some i => [s%"ADD", i.definitionString]
     | none => []) ++
    (match a.dropColumn with
     | some c => [s%"DROP", c.name]
     | none => [])) → 
    (([s%"ALTER", s%"TABLE", a.table.fullTableName] : List Str) <+: ws) ∧
    (∀ t, a.renamed = some t → [s%"RENAME", s%"TO", t.fullTableName] <:+: ws) ∧
    (∀ f t, a.renameColumns = some (f, t) → [s%"RENAME", s%"COLUMN", f.name, s%"TO", t.name] <:+: ws) ∧
    (∀ c, a.addColumn = some c → [s%"ADD"] <:+: ws ∧ [c.definitionString] <:+: ws) ∧
    (∀ i, a.addIndex = some i → [s%"ADD", i.definitionString] <:+: ws) ∧
    (∀ c, a.dropColumn = some c → [s%"DROP", c.name] <:+: ws) := by
    intro mid hm ws hws
    subst hws
    refine ⟨⟨_, (by simp only [List.append_assoc]; rfl)⟩, fun t ht => ?_, fun f t ht => ?_, fun c hc => ?_, fun i hi => ?_, fun c hc => ?_⟩
    · rw [AlterTable.renamed] at ht
      rw [ht]
      dsimp only
      rw [List.append_assoc, List.append_assoc]
      exact infix_mid _ _ _
    · rw [AlterTable.renameColumns] at ht
      split at ht
      · rename_i f' t' h1 h2
        cases ht
        rw [h1, h2]
        dsimp only
        rw [List.append_assoc]
        exact infix_mid _ _ _
      · cases ht
    · exact ⟨(hm c hc).1.trans (infix_mid _ _ _), (hm c hc).2.trans (infix_mid _ _ _)⟩
    · rw [hi]
      dsimp only
      rw [← List.append_assoc]
      exact infix_mid _ _ _
    · rw [hc]
      exact ⟨_, [], by rw [List.append_nil, List.append_assoc]⟩
  split at h
  · rename_i hc
    cases h
    refine ⟨_, rfl, base [] (fun c h => by rw [hc] at h; cases h) _ (by simp only [List.append_nil]; rfl)⟩
  · rename_i c hc
    split at h
    · rename_i mid hmid
      cases h
      refine ⟨_, rfl, base mid (fun c' h => ?_) _ rfl⟩
      rw [hc] at h
      cases h
      unfold addColumnClause at hmid
      split at hmid
      · cases hmid
      · cases hmid
        exact ⟨⟨[], _, (by rw [List.nil_append, List.append_assoc])⟩, ⟨_, [], by rw [List.append_nil]⟩⟩
    · cases h
    · cases h

end Verif.Lemmas.Options
