import Verif.Lemmas.Slices
import Verif.Model.FnNames
/-! C187: the list that `RegisteredFunctionNames` returns. -/
namespace Verif.Props
open Verif Verif.Slices Verif.Lemmas Verif.Fn

/-- C187 for callers that read the list and append to it: the list has no room behind its names, so that whatever is appended
to what `RegisteredFunctionNames` returned, any number of times, `IsRegisteredFunction` answers as before. Missing: callers
that assign to its elements, see `C187_fails`. -/
theorem C187_append_partial (m : Mem Str) (s : Slice) (hs : Valid m s) (hf : s.len = s.cap) (hv : view m s = registeredFunctionNames.map some)
    (calls : List (List Str × Nat)) (hc : ∀ c ∈ calls, c.1 ≠ []) (name : Str) :
    isRegisteredIn (view (calls.foldl (fun m c => (append c.2 m s c.1).1) m) s) name = isRegisteredFunction name := by
  have run : ∀ (calls : List (List Str × Nat)) (m : Mem Str), (∀ c ∈ calls, c.1 ≠ []) → Valid m s →
      view (calls.foldl (fun m c => (append c.2 m s c.1).1) m) s = view m s := by
    intro calls
    induction calls with
    | nil => intro m _ _; rfl
    | cons c calls ih =>
      intro m hc hs
      rw [List.foldl_cons, ih _ (fun d hd => hc d (List.mem_cons_of_mem _ hd)) (append_valid hs hs)]
      refine append_other hs hs (.inl ?_)
      have := List.length_pos_iff.mpr (hc c List.mem_cons_self)
      omega
  rw [run calls m hc hs, hv]
  simp only [isRegisteredIn, isRegisteredFunction, List.map_map, Function.comp_def, Option.getD_some, List.map_id']

/-- C187 is false of the code for every name: after the caller assigns the name, in upper case, to any element of what
`RegisteredFunctionNames` returned, `IsRegisteredFunction` answers that the name is registered. -/
theorem C187_fails (name : Str) (hne : name ≠ []) (k : Nat) (hk : k < registeredFunctionNames.length) :
    isRegisteredIn ((registeredFunctionNames.map some).set k (some (Str.upper name))) name = true := by
  have h0 : (name.length == 0) = false := by
    cases name with
    | nil => exact absurd rfl hne
    | cons _ _ => rfl
  simp only [isRegisteredIn, h0, Bool.false_eq_true, if_false, List.any_eq_true, List.mem_map]
  refine ⟨Str.upper name, ⟨some (Str.upper name), List.mem_iff_getElem?.mpr ⟨k, ?_⟩, rfl⟩, ?_⟩
  · rw [List.getElem?_set_self (by simpa using hk)]
  · unfold registeredHit
    split <;> simp

/-- C187 is false of the code: after an assignment to its element of what `RegisteredFunctionNames` returned, a function of
the library is not registered. -/
theorem C187_lost_fails : isRegisteredFunction s%"sqrt" = true ∧
    isRegisteredIn ((registeredFunctionNames.map some).set (registeredFunctionNames.idxOf s%"SQRT") (some s%"FOO")) s%"sqrt" = false := by
  decide

example : isRegisteredFunction s%"foo" = false ∧
    isRegisteredIn ((registeredFunctionNames.map some).set 0 (some s%"FOO")) s%"foo" = true := by decide

end Verif.Props
