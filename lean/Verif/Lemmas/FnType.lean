import Verif.Lemmas.FnState
import Verif.Spec.FnState
import Verif.Props.ExecValues
/-! Lemmas about the type of a function object and about its options. -/
namespace Verif.Lemmas.FnState
open Verif Verif.Fn Verif.Rs Verif.FnState Verif.Spec Verif.Spec.FnState Verif.Lemmas
variable {V F T : Type}

theorem exec_fold_type (os : List (ExecOpt V F T)) (ho : ∀ t, .type t ∉ os) (ex : Exec V F T) : (os.foldl Exec.apply ex).type = ex.type := by
  induction os generalizing ex with
  | nil => rfl
  | cons o os ih =>
    rw [List.foldl_cons, ih (fun t hm => ho t (by simp [hm]))]
    cases o with
    | type t => exact absurd (by simp) (ho t)
    | _ => rfl

theorem newExec_type (env : XEnv V F T) (id : ExecId) (os : List (ExecOpt V F T)) (ho : ∀ t, .type t ∉ os) :
    (newExec env id os).type = id.type := by
  unfold newExec; rw [exec_fold_type os ho]; rfl

/-- Nothing the name gives has another type than `t`. -/
def Typed (name : Str) (t : FnType) : Prop :=
  (∀ id, newExecutorForName name = some id → id.type = t) ∧ (newAggregatorForName name ≠ none → t = .aggregate)

theorem type_call (E : Env V F) (env : XEnv V F T) (h : Heap V F T) (r : Nat) (f : FObj V F T) (hf : h.fns[r]? = some f)
    (ht : Typed f.name f.type) (c : Call V F T) (hc : ∀ r os t, c = .executor r os → .type t ∉ os) :
    ∃ f', (h.call E env c).1.fns[r]? = some f' ∧ f'.name = f.name ∧ f'.type = f.type := by
  refine ⟨_, call_at E env h r f hf c, ?_⟩
  cases c with
  | new os => exact ⟨rfl, rfl⟩
  | onAggr p c => exact ⟨rfl, rfl⟩
  | executor i os =>
    dsimp only
    split
    · unfold FObj.getExecutor
      cases f.executor with
      | some ex => exact ⟨rfl, rfl⟩
      | none => cases hn : newExecutorForName f.name with
        | none => exact ⟨rfl, rfl⟩
        | some id =>
          refine ⟨rfl, ?_⟩
          dsimp only
          rw [newExec_type env id _ (fun t hm => by
            rcases List.mem_append.mp hm with hm | hm
            · exact hc i os t rfl hm
            · simp at hm), ht.1 id hn]
    · exact ⟨rfl, rfl⟩
  | aggregator i os =>
    dsimp only
    split
    · unfold FObj.getAggregator
      cases f.aggregator with
      | some p => exact ⟨rfl, rfl⟩
      | none => cases hn : newAggregatorForName f.name with
        | none => exact ⟨rfl, rfl⟩
        | some k =>
          dsimp only
          cases newAggr E k (os ++ [.args f.args]) with
          | none => exact ⟨rfl, rfl⟩
          | some a => exact ⟨rfl, (ht.2 (by rw [hn]; simp)).symm⟩
    · exact ⟨rfl, rfl⟩

theorem type_calls (E : Env V F) (env : XEnv V F T) (cs : List (Call V F T)) (hc : NoTypeOption cs) (h : Heap V F T) (r : Nat)
    (f : FObj V F T) (hf : h.fns[r]? = some f) (ht : Typed f.name f.type) :
    ∃ f', (h.calls E env cs).1.fns[r]? = some f' ∧ f'.type = f.type := by
  induction cs generalizing h f with
  | nil => exact ⟨f, hf, rfl⟩
  | cons c cs ih =>
    obtain ⟨g, hg, hn, hty⟩ := type_call E env h r f hf ht c (fun r os t he => hc r os t (by simp [he]))
    obtain ⟨f', hf', hty'⟩ := ih (fun r os t hm => hc r os t (by simp [hm])) _ g hg (by rw [hn, hty]; exact ht)
    exact ⟨f', hf', hty'.trans hty⟩

theorem execType_ne (id : ExecId) : id.type ≠ .unknown ∧ id.type ≠ .aggregate := by cases id <;> decide

theorem documented_typed (n : Str) (t : FnType) (h : newFunctionTypeForName n = some t) : Str.upper n = n ∧ Typed n t := by
  have hm := (Props.C97_known n).2 t h
  have : ∀ x ∈ Spec.documented, Str.upper x.1 = x.1 ∧ ((newExecutorForName x.1).all (fun id => id.type == x.2)) = true ∧
      ((newAggregatorForName x.1).isNone || x.2 == .aggregate) = true := by decide
  obtain ⟨h1, h2, h3⟩ := this (n, t) hm
  refine ⟨h1, fun id hid => ?_, fun hne => ?_⟩
  · simp only [hid, Option.all_some, beq_iff_eq] at h2; exact h2
  · simp only [Bool.or_eq_true, beq_iff_eq] at h3
    rcases h3 with h3 | h3
    · cases hx : newAggregatorForName n with
      | none => exact absurd hx hne
      | some k => simp only [hx, Option.isNone_some] at h3; cases h3
    · exact h3

theorem newAggr_grouped (E : Env V F) (k : AggrId) (as : List Str) : ∃ a, newAggr E k [.groupBys [s%"g"], .args as] = some a := by
  simp [newAggr, Aggr.applyOpts, Aggr.applyOpt, Aggr.setGroupBys, Aggr.resetCore]

theorem lastGiven_cons {O α : Type} (pick : O → Option α) (d : α) (o : O) (os : List O) :
    lastGiven pick d (o :: os) = lastGiven pick ((pick o).getD d) os := by
  unfold lastGiven
  rw [List.filterMap_cons]
  cases pick o with
  | none => rfl
  | some x =>
    dsimp only
    cases os.filterMap pick with
    | nil => rfl
    | cons y l => simp [List.getLast?_cons]

theorem field_fold {α : Type} (as : List (Aggr V F)) (get : FObj V F T → α) (pick : FnOption V F T → Option α)
    (hp : ∀ f o, get (FnOption.apply as f o) = (pick o).getD (get f)) (os : List (FnOption V F T)) (f : FObj V F T) :
    get (os.foldl (FnOption.apply as) f) = lastGiven pick (get f) os := by
  induction os generalizing f with
  | nil => rfl
  | cons o os ih => rw [List.foldl_cons, ih, hp, lastGiven_cons]

end Verif.Lemmas.FnState
