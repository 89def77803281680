import Verif.Spec.Exec
import Verif.Lemmas.GoMap
/-! Lemmas about executors. -/
namespace Verif.Lemmas
open Verif Verif.Fn Verif.Spec

theorem castAll_length {α β : Type} {f : α → Option β} {as : List α} {bs : List β}
    (h : castAll f as = some bs) : bs.length = as.length := by
  induction as generalizing bs with
  | nil => simp [castAll] at h; simp [← h]
  | cons a as ih =>
    simp only [castAll] at h
    cases hf : f a with
    | none => rw [hf] at h; cases h
    | some b =>
      rw [hf] at h
      cases hc : castAll f as with
      | none => rw [hc] at h; cases h
      | some bs' => rw [hc] at h; cases h; simp [ih hc]

theorem castAll_map {α β : Type} {f : α → Option β} {as : List α} {bs : List β} :
    castAll f as = some bs ↔ as.map f = bs.map some := by
  induction as generalizing bs with
  | nil => cases bs <;> simp [castAll]
  | cons a as ih =>
    simp only [castAll]
    cases hf : f a with
    | none => cases bs <;> simp [hf]
    | some b =>
      cases hc : castAll f as with
      | none =>
        cases bs with
        | nil => simp
        | cons b' bs' =>
          have : as.map f ≠ bs'.map some := by
            intro h; rw [ih.mpr h] at hc; cases hc
          simp [this]
      | some bs' =>
        have := ih.mp hc
        cases bs with
        | nil => simp
        | cons b' bs'' =>
          simp only [Option.some.injEq, List.cons.injEq, List.map_cons, hf, this]
          refine and_congr Iff.rfl ?_
          constructor
          · rintro rfl; rfl
          · intro h; exact (List.map_inj_right (fun x y h => by simpa using h)).mp h

theorem foldl_append_map {α β : Type} (f : α → β) (l : List α) (acc : List β) :
    l.foldl (fun r a => r ++ [f a]) acc = acc ++ l.map f := by
  induction l generalizing acc with
  | nil => simp
  | cons a l ih => simp [ih]

theorem get?_eq_some_of_mem {κ α : Type} [DecidableEq κ] {m : GoMap κ α} {k : κ} {v : α}
    (hn : m.keys.Nodup) (h : (k, v) ∈ m) : m.get? k = some v := by
  induction m with
  | nil => cases h
  | cons e m ih =>
    obtain ⟨k0, v0⟩ := e
    have hn' : (k0 :: GoMap.keys m).Nodup := hn
    rw [List.nodup_cons] at hn'
    simp only [GoMap.get?]
    rcases List.mem_cons.mp h with h | h
    · cases h; simp
    · rw [if_neg]
      · exact ih hn'.2 h
      · rintro rfl
        exact hn'.1 (List.mem_map.mpr ⟨_, h, rfl⟩)

theorem mem_of_get? {κ α : Type} [DecidableEq κ] {m : GoMap κ α} {k : κ} {v : α}
    (h : m.get? k = some v) : (k, v) ∈ m := by
  induction m with
  | nil => cases h
  | cons e m ih =>
    obtain ⟨k0, v0⟩ := e
    simp only [GoMap.get?] at h
    split at h
    · next he => cases h; subst he; simp
    · exact List.mem_cons_of_mem _ (ih h)

variable {V F T : Type}

theorem executeMap_eq (env : XEnv V F T) (ex : Exec V F T) (m : GoMap Str (Option V)) :
    ex.executeMap env m = ex.executeArgs (ex.args.map (argValue env m)) := by
  unfold Exec.executeMap
  rw [foldl_append_map]; simp

theorem argsFrom_unique {env : XEnv V F T} {m : GoMap Str (Option V)} (hn : m.keys.Nodup) {args : List Str}
    {vals : List (Option V)} (h : ArgsFrom env.ofText m args vals) : vals = args.map (argValue env m) := by
  apply List.ext_getElem?
  intro i
  obtain ⟨hl, h⟩ := h
  rw [List.getElem?_map]
  by_cases hi : i < args.length
  · have h1 := List.getElem?_eq_getElem hi
    have h2 := List.getElem?_eq_getElem (hl ▸ hi)
    rw [h1, h2, Option.map_some]
    congr 1
    unfold argValue
    rcases h i _ _ h1 h2 with h | ⟨h, hv⟩
    · rw [get?_eq_some_of_mem hn h]
    · cases hg : m.get? args[i] with
      | some v => exact absurd (mem_of_get? hg) (h v)
      | none => exact hv
  · rw [List.getElem?_eq_none (by omega), List.getElem?_eq_none (by omega)]; rfl

theorem argsFrom_exists (env : XEnv V F T) {m : GoMap Str (Option V)} (args : List Str) :
    ArgsFrom env.ofText m args (args.map (argValue env m)) := by
  refine ⟨by simp, ?_⟩
  intro i a v ha hv
  rw [List.getElem?_map, ha] at hv
  simp only [Option.map_some, Option.some.injEq] at hv
  unfold argValue at hv
  cases hg : m.get? a with
  | some w => rw [hg] at hv; subst hv; exact Or.inl (mem_of_get? hg)
  | none =>
    rw [hg] at hv
    refine Or.inr ⟨?_, hv.symm⟩
    intro w hw
    have : a ∈ m.keys := List.mem_map.mpr ⟨_, hw, rfl⟩
    rw [GoMap.mem_keys_iff, hg] at this; simp at this

/-- The argument option given last wins. -/
theorem foldl_apply_args (opts : List (ExecOpt V F T)) (ex : Exec V F T) (l : List Str) :
    ((opts ++ [ExecOpt.args l]).foldl Exec.apply ex).args = l := by
  simp [List.foldl_append, Exec.apply]

end Verif.Lemmas
