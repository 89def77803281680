import Verif.Spec.FnState
import Verif.Lemmas.FnHist
import Verif.Lemmas.FnType
import Verif.Props.RsAggr
/-! C153 to C157: function objects, what they remember, and selectors that are used more than once. -/
namespace Verif.Props
open Verif Verif.Fn Verif.Rs Verif.FnState Verif.Spec Verif.Spec.FnState Verif.Lemmas Verif.Lemmas.FnState
variable {V F T : Type}

/-! ### C153 -/

/-- C153: name, arguments and text of a function never change, whatever is called. -/
theorem C153_fixed (E : Env V F) (env : XEnv V F T) (h : Heap V F T) (r : Nat) (f : FObj V F T) (hf : h.fns[r]? = some f)
    (cs : List (Call V F T)) : ∃ f', (h.calls E env cs).1.fns[r]? = some f' ∧ f'.name = f.name ∧ f'.args = f.args ∧ f'.toStr = f.toStr := by
  obtain ⟨f', h1, hk⟩ := keeps_calls E env cs h r f hf
  exact ⟨f', h1, hk.name, hk.args, by simp only [FObj.toStr, hk.name, hk.args]⟩

/-- C153: every later call of `Executor` on a function, with whatever options and after whatever other calls, returns what
the earlier one returned, be it an executor or an error. -/
theorem C153_executor (E : Env V F) (env : XEnv V F T) (h : Heap V F T) (r : Nat) (f : FObj V F T) (hf : h.fns[r]? = some f)
    (os os' : List (ExecOpt V F T)) (cs : List (Call V F T)) :
    ((((h.executor env r os).1.calls E env cs).1).executor env r os').2 = (h.executor env r os).2 := by
  have h1 := executor_at env h r f hf r os
  rw [if_pos rfl] at h1
  obtain ⟨f', h2, hk⟩ := keeps_calls E env cs _ r _ h1
  have h3 : (h.executor env r os).2 = (f.getExecutor env os).2 := by simp only [Heap.executor, hf]
  rw [h3]
  generalize ((h.executor env r os).1.calls E env cs).1 = h' at h2
  simp only [Heap.executor, h2]
  exact getExecutor_again env f f' os os' hk

/-- C153: once `Aggregator` has returned an aggregator, it returns that same object at every later call, with whatever
options and after whatever other calls. -/
theorem C153_aggregator (E : Env V F) (env : XEnv V F T) (h : Heap V F T) (r p : Nat) (os os' : List AggrOpt)
    (hp : (h.aggregator E r os).2 = some p) (cs : List (Call V F T)) :
    ((((h.aggregator E r os).1.calls E env cs).1).aggregator E r os').2 = some p := by
  cases hf : h.fns[r]? with
  | none => simp [Heap.aggregator, hf] at hp
  | some f =>
    have h1 := aggregator_at E h r f hf r os
    rw [if_pos rfl] at h1
    obtain ⟨f', h2, hk⟩ := keeps_calls E env cs _ r _ h1
    have h3 : (f.getAggregator E h.aggrs os).2.2 = some p := by simpa only [Heap.aggregator, hf] using hp
    generalize ((h.aggregator E r os).1.calls E env cs).1 = h' at h2
    simp only [Heap.aggregator, h2, getAggregator_again E h.aggrs h'.aggrs f f' os os' p h3 hk]

/-- C153, in part: a failed `Aggregator` without options fails at every later call without options, as long as no other
call gives options. Missing: with options the answer may change. -/
theorem C153_refused_partial (E : Env V F) (env : XEnv V F T) (h : Heap V F T) (r : Nat) (f : FObj V F T) (hf : h.fns[r]? = some f)
    (hp : (h.aggregator E r []).2 = none) (cs : List (Call V F T)) (hc : NoAggrOptions cs) :
    (((h.calls E env cs).1).aggregator E r []).2 = none := by
  have h0 : (f.getAggregator E h.aggrs []).2.2 = none := by simpa only [Heap.aggregator, hf] using hp
  suffices hs : ∀ (cs : List (Call V F T)) (h : Heap V F T) (f : FObj V F T), NoAggrOptions cs → h.fns[r]? = some f →
      (∀ as, f.getAggregator E as [] = (f, as, none)) → (((h.calls E env cs).1).aggregator E r []).2 = none from
    hs cs h f hc hf (fun as => getAggregator_none E _ _ f h0)
  clear hp h0 hf hc cs h f
  intro cs
  induction cs with
  | nil => intro h f _ hf hn; simp only [Heap.calls, Heap.aggregator, hf, hn]
  | cons c cs ih =>
    intro h f hc hf hn
    have hc' : NoAggrOptions cs := fun r os hm => hc r os (by simp [hm])
    have h1 := call_at E env h r f hf c
    refine ih _ _ hc' h1 ?_
    intro as
    cases c with
    | new os => exact hn as
    | onAggr p c => exact hn as
    | aggregator i os =>
      have := hc i os (by simp); subst this
      dsimp only
      split
      · rw [hn]; exact hn as
      · exact hn as
    | executor i os =>
      dsimp only
      split
      · have hx := hn as
        have hk := keeps_getExecutor env f os
        have ha : (f.getExecutor env os).1.aggregator = f.aggregator := by
          unfold FObj.getExecutor
          cases f.executor with
          | some ex => rfl
          | none => cases newExecutorForName f.name <;> rfl
        unfold FObj.getAggregator at hx ⊢
        rw [ha, hk.name, hk.args]
        cases hag : f.aggregator with
        | some p => simp [hag] at hx
        | none => cases hna : newAggregatorForName f.name with
          | none => rfl
          | some k => cases hnew : newAggr E k ([] ++ [.args f.args]) with
            | none => simp only [hnew]
            | some a =>
              simp only [hag, hna, hnew] at hx
              exact absurd (congrArg (fun x => x.2.2) hx) (by simp)
      · exact hn as

/-- C153, negation of the rest: `COUNT()` has no aggregator until one was asked for with a group column. -/
theorem C153_refused_fails : ∃ (h : Heap Int Int Unit) (cs : List (Call Int Int Unit)), (h.aggregator rAggr 0 []).2 = none ∧
    (((h.calls rAggr xEnv cs).1).aggregator rAggr 0 []).2 = some 0 :=
  ⟨{ fns := [newFObj [] [.name s%"COUNT"]] }, [.aggregator 0 [.groupBys [s%"g"]]], by decide, by decide⟩

example : ((({ fns := [newFObj [] [.name s%"abs", .args [s%"x"]]] } : Heap Int Int Unit).executor xEnv 0 []).2).map (·.args) = some [s%"x"] := by
  decide
example : (({ fns := [newFObj [] [.name s%"sum", .args [s%"x"]]] } : Heap Int Int Unit).aggregator rAggr 0 []).2 = some 0 := by decide

/-! ### C154 -/

/-- C154, in part: a function made under a documented name has the documented type, and keeps it whatever is called, as
long as no executor is asked for with a type of the caller's own. Missing: names in another letter case and names that
merely begin like a documented one, see `C154_type_iff` and `C154_fails`. -/
theorem C154_type_partial (E : Env V F) (env : XEnv V F T) (h : Heap V F T) (r : Nat) (n : Str) (t : FnType) (hn : (n, t) ∈ documented)
    (as : List (Aggr V F)) (l : List Str) (hf : h.fns[r]? = some (newFObj as [.name n, .args l])) (cs : List (Call V F T)) (hc : NoTypeOption cs) :
    (newFObj as [.name n, .args l] : FObj V F T).type = t ∧ ∃ f', (h.calls E env cs).1.fns[r]? = some f' ∧ f'.type = t := by
  have ht := ((C97_known n).1 t hn).2.1
  obtain ⟨hu, hty⟩ := documented_typed n t ht
  have h1 : (newFObj as [.name n, .args l] : FObj V F T).type = t := by
    simp only [newFObj, List.foldl_cons, List.foldl_nil, FnOption.apply, ht, Option.getD_some]
  have h2 : (newFObj as [.name n, .args l] : FObj V F T).name = n := by
    simp only [newFObj, List.foldl_cons, List.foldl_nil, FnOption.apply, hu]
  obtain ⟨f', e1, e2⟩ := type_calls E env cs hc h r _ hf (by rw [h1, h2]; exact hty)
  exact ⟨h1, f', e1, e2.trans h1⟩

/-- C154, exactly: a function made under a name keeps its type whatever is called if and only if the name is documented,
or has neither an executor nor an aggregator. -/
theorem C154_type_iff (E : Env V F) (env : XEnv V F T) (h : Heap V F T) (r : Nat) (n : Str)
    (as : List (Aggr V F)) (l : List Str) (hf : h.fns[r]? = some (newFObj as [.name n, .args l])) :
    (∀ cs, NoTypeOption cs → ∃ f', (h.calls E env cs).1.fns[r]? = some f' ∧ f'.type = (newFObj as [.name n, .args l] : FObj V F T).type) ↔
    (∃ t, (n, t) ∈ documented) ∨ (newExecutorForName (Str.upper n) = none ∧ newAggregatorForName (Str.upper n) = none) := by
  constructor
  · intro hall
    cases ht : newFunctionTypeForName n with
    | some t => exact .inl ⟨t, (C97_known n).2 t ht⟩
    | none =>
      right
      have h1 : (newFObj as [.name n, .args l] : FObj V F T) = { name := Str.upper n, args := l } := by
        simp only [newFObj, List.foldl_cons, List.foldl_nil, FnOption.apply, ht, Option.getD_none]
      rw [h1] at hf hall
      constructor
      · cases hx : newExecutorForName (Str.upper n) with
        | none => rfl
        | some id =>
          obtain ⟨f', e1, e2⟩ := hall [.executor r []] (fun r' os t hm => by
            simp only [List.mem_singleton, Call.executor.injEq] at hm; rw [hm.2]; simp)
          have h2 := call_at E env h r _ hf (.executor r [])
          simp only [Heap.calls] at e1
          rw [h2] at e1
          simp only [if_true, FObj.getExecutor, hx, Option.some.injEq] at e1
          rw [← e1] at e2
          dsimp only at e2
          rw [newExec_type env id _ (by simp)] at e2
          exact absurd e2 (execType_ne id).1
      · cases hx : newAggregatorForName (Str.upper n) with
        | none => rfl
        | some k =>
          obtain ⟨a, ha⟩ := newAggr_grouped E k l
          obtain ⟨f', e1, e2⟩ := hall [.aggregator r [.groupBys [s%"g"]]] (fun r' os t hm => by simp at hm)
          have h2 := call_at E env h r _ hf (.aggregator r [.groupBys [s%"g"]])
          simp only [Heap.calls] at e1
          rw [h2] at e1
          simp only [if_true, FObj.getAggregator, hx, List.cons_append, List.nil_append, ha, Option.some.injEq] at e1
          rw [← e1] at e2
          cases e2
  · rintro (⟨t, hn⟩ | ⟨hx, ha⟩) cs hc
    · obtain ⟨e, f', e1, e2⟩ := C154_type_partial E env h r n t hn as l hf cs hc
      exact ⟨f', e1, e2.trans e.symm⟩
    · refine type_calls E env cs hc h r _ hf ?_
      have h2 : (newFObj as [.name n, .args l] : FObj V F T).name = Str.upper n := by
        simp only [newFObj, List.foldl_cons, List.foldl_nil, FnOption.apply]
      rw [h2]
      exact ⟨fun id h => (by rw [hx] at h; cases h), fun h => absurd ha h⟩

/-- C154, negation: `max(x)` is no aggregate until its aggregator is asked for, and then is one. -/
theorem C154_fails : ∃ (h : Heap Int Int Unit), (h.fns.map (·.isAggregator)) = [false] ∧
    ((h.calls rAggr xEnv [.aggregator 0 []]).1.fns.map (·.isAggregator)) = [true] :=
  ⟨{ fns := [newFObj [] [.name s%"max", .args [s%"x"]]] }, by decide, by decide⟩

example : (s%"MAX", FnType.aggregate) ∈ documented := by decide
example : ¬ (∃ t, (s%"max", t) ∈ documented) ∧ newAggregatorForName (Str.upper s%"max") = some .max :=
  ⟨fun ⟨t, h⟩ => by simp [documented] at h, by decide⟩

/-! ### C155 -/

/-- The name an option gives. -/
def givesName (as : List (Aggr V F)) : FnOption V F T → Option Str
  | .name n => some (Str.upper n)
  | .executor ex => some ex.name
  | .aggregator p => as[p]?.map (·.name)
  | _ => none

/-- The type an option gives. -/
def givesType (as : List (Aggr V F)) : FnOption V F T → Option FnType
  | .name n => newFunctionTypeForName n
  | .executor ex => some ex.type
  | .type t => some t
  | .aggregator p => as[p]?.map (fun _ => .aggregate)
  | _ => none

/-- The arguments an option gives. -/
def givesArgs : FnOption V F T → Option (List Str)
  | .args l => some l
  | _ => none

/-- The executor an option gives. -/
def givesExec : FnOption V F T → Option (Option (Exec V F T))
  | .executor ex => some (some ex)
  | _ => none

/-- C155: name, type, arguments and executor of a new function are those of the last option that gives one; without such
an option they are empty. A function never has an aggregator from the start. -/
theorem C155_options (as : List (Aggr V F)) (os : List (FnOption V F T)) :
    (newFObj as os).name = lastGiven (givesName as) [] os ∧
    (newFObj as os).type = lastGiven (givesType as) .unknown os ∧
    (newFObj as os).args = lastGiven givesArgs [] os ∧
    (newFObj as os).executor = lastGiven givesExec none os ∧
    (newFObj as os).aggregator = none := by
  refine ⟨field_fold as (·.name) (givesName as) ?_ os _, field_fold as (·.type) (givesType as) ?_ os _,
    field_fold as (·.args) givesArgs ?_ os _, field_fold as (·.executor) givesExec ?_ os _, ?_⟩
  · intro f o; cases o with
    | aggregator p => simp only [FnOption.apply, givesName]; cases as[p]? <;> rfl
    | _ => rfl
  · intro f o; cases o with
    | aggregator p => simp only [FnOption.apply, givesType]; cases as[p]? <;> rfl
    | _ => rfl
  · intro f o; cases o with
    | aggregator p => simp only [FnOption.apply, givesArgs]; cases as[p]? <;> rfl
    | _ => rfl
  · intro f o; cases o with
    | aggregator p => simp only [FnOption.apply, givesExec]; cases as[p]? <;> rfl
    | _ => rfl
  · have := field_fold as (·.aggregator) (fun _ : FnOption V F T => (none : Option (Option Nat))) (fun f o => by
      cases o with
      | aggregator p => simp only [FnOption.apply]; cases as[p]? <;> rfl
      | _ => rfl) os {}
    rw [newFObj, this]
    unfold lastGiven
    rw [List.filterMap_eq_nil_iff.mpr (fun _ _ => rfl)]; rfl

/-- C155, in part: a function made with an executor returns that executor, at every call with whatever options and after
whatever other calls. Missing: the same for the aggregator, which is false, see `C155_aggregator_fails`. -/
theorem C155_executor_partial (E : Env V F) (env : XEnv V F T) (h : Heap V F T) (r : Nat) (as : List (Aggr V F)) (pre post : List (FnOption V F T))
    (ex : Exec V F T) (hl : ∀ ex', .executor ex' ∉ post) (hf : h.fns[r]? = some (newFObj as (pre ++ .executor ex :: post)))
    (cs : List (Call V F T)) (os : List (ExecOpt V F T)) : (((h.calls E env cs).1).executor env r os).2 = some ex := by
  have he : (newFObj as (pre ++ .executor ex :: post)).executor = some ex := by
    rw [(C155_options as _).2.2.2.1]
    unfold lastGiven
    have hp : post.filterMap givesExec = [] := List.filterMap_eq_nil_iff.mpr (fun o hm => by
      cases o with
      | executor ex' => exact absurd hm (hl ex')
      | _ => rfl)
    rw [List.filterMap_append, List.filterMap_cons]
    simp only [givesExec, hp]
    simp
  obtain ⟨f', h1, hk⟩ := keeps_calls E env cs h r _ hf
  generalize (h.calls E env cs).1 = h' at h1
  simp only [Heap.executor, h1, FObj.getExecutor, hk.executor ex he]

/-- C155, negation of the rest: a function made with an aggregator `SUM(x)` and no arguments of its own has no aggregator;
made with the arguments too, it returns an aggregator, but another one than it was given. -/
theorem C155_aggregator_fails : ∃ (as : List (Aggr Int Int)), as.map (·.name) = [s%"SUM"] ∧
    (({ fns := [newFObj as [.aggregator 0]], aggrs := as } : Heap Int Int Unit).aggregator rAggr 0 []).2 = none ∧
    (({ fns := [newFObj as [.aggregator 0, .args [s%"x"]]], aggrs := as } : Heap Int Int Unit).aggregator rAggr 0 []).2 = some 1 :=
  ⟨(newAggr rAggr .sum [.args [s%"x"]]).toList, by decide, by decide, by decide⟩

example : ((newFObj [] [.name s%"abs", .args [s%"x"], .name s%"round"] : FObj Int Int Unit).name,
    (newFObj [] [.name s%"ABS", .args [s%"x"], .name s%"round"] : FObj Int Int Unit).type) = (s%"ROUND", FnType.math) := by decide
example : ∀ ex' : Exec Int Int Unit, FnOption.executor ex' ∉ [FnOption.args [s%"x"], .name s%"y"] := by simp

/-! ### C156 -/

/-- The GROUP BY in force at a use: the one given, or else the one the statement was last given before. -/
def inForce (us : List (List SelRef × Use V F T)) (ss : List SelRef) (u : Use V F T) : Option Str :=
  match u.groupBy with
  | some g => some g
  | none => lastGroup us ss

/-- The first use of a statement is what the model of values says. -/
theorem use_first (R : REnv V F T) (typed : Func V F T → Bool) {h : Heap V F T} {sts : List (List SelRef)} (hu : Unused h sts.flatten)
    {ss : List SelRef} (hs : ss ∈ sts) (u : Use V F T) (hl : ∀ ch ∈ u.chs, Lawful ch) :
    (h.use R typed ss u).2 = newAggregatedResultSet R typed u.chs u.fuel u.tblName u.tbl (ss.map (·.view h)) u.groupBy u.src := by
  have := history_use R typed (ready_of_unused hu) [] (fun x hx => by cases hx) hs u hl
  rw [show over u.groupBy (lastGroup [] ss) = u.groupBy from over_none _] at this
  exact this

/-- C156, exactly: whatever uses were made of several statements before, using one of them gives what its first use with
the GROUP BY in force would have given. -/
theorem C156_exact (R : REnv V F T) (typed : Func V F T → Bool) (h : Heap V F T) (sts : List (List SelRef)) (hu : Unused h sts.flatten)
    (us : List (List SelRef × Use V F T)) (hh : History sts us) (ss : List SelRef) (hs : ss ∈ sts) (u : Use V F T) (hl : ∀ ch ∈ u.chs, Lawful ch) :
    ((h.uses R typed us).use R typed ss u).2 = (h.use R typed ss { u with groupBy := inForce us ss u }).2 := by
  rw [history_use R typed (ready_of_unused hu) us hh hs u hl, use_first R typed hu hs { u with groupBy := inForce us ss u } hl]
  unfold inForce
  cases u.groupBy <;> rfl

/-- C156, in part: using the selectors of a statement again gives what the first use would have given, provided a GROUP BY is
given, or none was given to this statement before. Missing: a use without GROUP BY after one with, see `C156_group_fails`; and
functions whose type is not known by their names as written, see `C156_type_fails`. -/
theorem C156_again_partial (R : REnv V F T) (typed : Func V F T → Bool) (h : Heap V F T) (ss : List SelRef) (hu : Unused h ss)
    (us : List (Use V F T)) (hh : ∀ x ∈ us, x.src.schema ≠ none) (u : Use V F T) (hl : ∀ ch ∈ u.chs, Lawful ch)
    (hg : u.groupBy ≠ none ∨ ∀ x ∈ us, x.groupBy = none) :
    ((h.uses R typed (us.map (fun x => (ss, x)))).use R typed ss u).2 = (h.use R typed ss u).2 := by
  have hu' : Unused h [ss].flatten := by simpa using hu
  rw [C156_exact R typed h [ss] hu' _ (fun x hx => by
    obtain ⟨y, hy, rfl⟩ := List.mem_map.mp hx
    exact ⟨by simp, hh y hy⟩) ss (by simp) u hl]
  have : inForce (us.map (fun x => (ss, x))) ss u = u.groupBy := by
    unfold inForce
    cases hgb : u.groupBy with
    | some g => rfl
    | none =>
      have hall := hg.resolve_left (by rw [hgb]; simp)
      dsimp only
      unfold lastGroup
      rw [List.filterMap_eq_nil_iff.mpr]
      · rfl
      · intro x hx
        obtain ⟨y, hy, rfl⟩ := List.mem_map.mp (List.mem_filter.mp hx).1
        exact hall y hy
  rw [this]

/-- C156, what is different: once a statement was given a GROUP BY, using it without one is an error on every source that has
a row. -/
theorem C156_group (R : REnv V F T) (typed : Func V F T → Bool) (h : Heap V F T) (ss : List SelRef) (hu : Unused h ss)
    (us : List (Use V F T)) (hh : ∀ x ∈ us, x.src.schema ≠ none) (g : Str) (hg : g ≠ []) (hlast : (us.filterMap (·.groupBy)).getLast? = some g)
    (u : Use V F T) (hl : ∀ ch ∈ u.chs, Lawful ch) (hnone : u.groupBy = none) (hagg : hasAggregator (ss.map (·.view h)) = true)
    (hsch : u.src.schema.isSome = true) (hcur : u.src.cursor = 0) (ho : u.src.offset + 1 < 2 ^ 64)
    (hlim : u.src.offset + u.src.limit < 2 ^ 64) (hlen : u.src.rows.length < 2 ^ 63) (rows : List (Row V F T))
    (hrows : window u.src.offset u.src.limit (allRows R u.src) = rows.map .ok) (hne : rows ≠ []) (hfuel : rows.length < u.fuel) :
    ((h.uses R typed (us.map (fun x => (ss, x)))).use R typed ss u).2 = some .err := by
  have hu' : Unused h [ss].flatten := by simpa using hu
  rw [C156_exact R typed h [ss] hu' _ (fun x hx => by
    obtain ⟨y, hy, rfl⟩ := List.mem_map.mp hx
    exact ⟨by simp, hh y hy⟩) ss (by simp) u hl]
  have hif : inForce (us.map (fun x => (ss, x))) ss u = some g := by
    unfold inForce
    rw [hnone]
    dsimp only
    unfold lastGroup
    rw [← hlast]
    congr 1
    clear hlast hh
    induction us with
    | nil => rfl
    | cons x us ih => simp only [List.map_cons, List.filter_cons, beq_self_eq_true, if_true, List.filterMap_cons, ih]
  rw [hif, use_first R typed hu' (ss := ss) (by simp) { u with groupBy := some g } hl]
  exact C49_grouped_error R typed u.chs u.tblName u.tbl _ hagg g hg u.src hsch hcur ho hlim hlen rows hrows hne u.fuel hfuel

/-- A use of a source of three rows, for the examples. -/
def fsUse (g : Option Str) : Use Int Int Unit :=
  { tblName := s%"t", tbl := [{ name := s%"a" }, { name := s%"b" }], groupBy := g, src := rSet 0 0, chs := [exChoice, exChoice], fuel := 9 }

/-- The functions whose data type is known, data_type.go 147-163, for the examples. -/
def fsTyped (f : Func Int Int Unit) : Bool := [FnType.math, .aggregate, .cast, .arith].contains f.type

/-- Two functions of `a`, for the examples. -/
def fsHeap (n m : Str) : Heap Int Int Unit := { fns := [newFObj [] [.name n, .args [s%"a"]], newFObj [] [.name m, .args [s%"a"]]] }

/-- Whether a use gave a result set, and how many columns its schema has. -/
def fsShape : Option (Res (RSet Int Int Unit)) → Option Nat
  | some (.ok rs) => rs.schema.map (·.columns.length)
  | _ => none

/-- C156, negation: `SELECT SUM(a)` gives a result; after it was used with a GROUP BY, the same use is an error. -/
theorem C156_group_fails :
    fsShape ((fsHeap s%"SUM" s%"SUM").use rEnv fsTyped [.fn 0] (fsUse none)).2 = some 1 ∧
    (((fsHeap s%"SUM" s%"SUM").uses rEnv fsTyped [([.fn 0], fsUse (some s%"a"))]).use rEnv fsTyped [.fn 0] (fsUse none)).2 = some .err :=
  ⟨by decide +kernel, by rfl⟩

/-- C156, negation: `SELECT SUM(a), max(a)` gives a result set without columns when it is used for the first time, and one
with two columns when it is used for the second time. -/
theorem C156_type_fails :
    fsShape ((fsHeap s%"SUM" s%"max").use rEnv fsTyped [.fn 0, .fn 1] (fsUse none)).2 = some 0 ∧
    fsShape (((fsHeap s%"SUM" s%"max").uses rEnv fsTyped [([.fn 0, .fn 1], fsUse none)]).use rEnv fsTyped [.fn 0, .fn 1] (fsUse none)).2 = some 2 :=
  ⟨by decide +kernel, by decide +kernel⟩

/-- The selectors of `SELECT SUM(a), b, MAX(a)`, not used yet. -/
theorem fsUnused : Unused (fsHeap s%"SUM" s%"MAX") [.fn 0, .col s%"b", .fn 1] where
  distinct := by
    intro i j r hi hj
    rcases i with _ | _ | _ | i <;> rcases j with _ | _ | _ | j <;> simp at hi hj ⊢ <;> omega
  fns := by
    intro r hr
    simp only [List.mem_cons, SelRef.fn.injEq, reduceCtorEq, List.not_mem_nil, or_false, false_or] at hr
    rcases hr with rfl | rfl
    · exact ⟨_, rfl, rfl, fun _ => by decide⟩
    · exact ⟨_, rfl, rfl, fun _ => by decide⟩

example : (fsUse (some s%"a")).groupBy ≠ none ∧ ∀ x ∈ [fsUse none, fsUse (some s%"b")], x.src.schema ≠ none := by
  refine ⟨by simp [fsUse], ?_⟩
  intro x hx
  simp only [List.mem_cons, List.not_mem_nil, or_false] at hx
  rcases hx with rfl | rfl <;> simp [fsUse, rSet]

/-! ### C157 -/

/-- C157: statements that have no function object in common do not influence each other: using one of them after any uses of
all of them gives what it gives after its own uses alone. -/
theorem C157_independent (R : REnv V F T) (typed : Func V F T → Bool) (h : Heap V F T) (sts : List (List SelRef)) (hu : Unused h sts.flatten)
    (us : List (List SelRef × Use V F T)) (hh : History sts us) (ss : List SelRef) (hs : ss ∈ sts) (u : Use V F T) (hl : ∀ ch ∈ u.chs, Lawful ch) :
    ((h.uses R typed us).use R typed ss u).2 = ((h.uses R typed (us.filter (fun x => x.1 == ss))).use R typed ss u).2 := by
  rw [C156_exact R typed h sts hu us hh ss hs u hl, C156_exact R typed h sts hu _ (fun x hx => hh x (List.mem_filter.mp hx).1) ss hs u hl]
  have : inForce (us.filter (fun x => x.1 == ss)) ss u = inForce us ss u := by
    unfold inForce lastGroup
    rw [List.filter_filter]
    simp only [Bool.and_self]
  rw [this]

/-- C157, for one statement: the aggregators a statement gives are the same objects every time, so two sets of them
share what they have accumulated. -/
theorem C157_shared (E : Env V F) (env : XEnv V F T) (h : Heap V F T) (ss : List SelRef) (ps : List Nat) (hp : (h.aggregators E ss).2 = some ps)
    (cs : List (Call V F T)) : ((((h.aggregators E ss).1.calls E env cs).1).aggregators E ss).2 = some ps := by
  have key : ∀ (ss : List SelRef) (h : Heap V F T) (ps : List Nat), (h.aggregators E ss).2 = some ps →
      Pairwise2 (fun r p => ∃ f, (h.aggregators E ss).1.fns[r]? = some f ∧ f.aggregator = some p) (refs ss) ps := by
    intro ss
    induction ss with
    | nil => intro h ps hp; cases hp; exact .nil
    | cons s ss ih =>
      intro h ps hp
      cases s with
      | col n => exact ih h ps hp
      | fn r =>
        simp only [Heap.aggregators, refs] at hp ⊢
        cases hx : h.aggregator E r [] with
        | mk h1 o =>
          cases o with
          | none => simp [hx] at hp
          | some p =>
            simp only [hx] at hp ⊢
            cases hy : h1.aggregators E ss with
            | mk h2 o2 =>
              cases o2 with
              | none => simp [hy] at hp
              | some ps' =>
                simp only [hy, Option.some.injEq] at hp ⊢
                subst hp
                have hi := ih h1 ps' (by rw [hy])
                rw [hy] at hi
                refine .cons ?_ hi
                obtain ⟨f, e1, e2⟩ := aggregator_has E h r [] p (by rw [hx])
                rw [hx] at e1
                obtain ⟨f', e1', e2'⟩ := aggregators_cache E ss h1 r f p e1 e2
                rw [hy] at e1'
                exact ⟨f', e1', e2'⟩
  have hk := key ss h ps hp
  generalize (h.aggregators E ss).1 = h1 at hk
  have again : ∀ (ss : List SelRef) (h : Heap V F T) (ps : List Nat),
      Pairwise2 (fun r p => ∃ f, h.fns[r]? = some f ∧ f.aggregator = some p) (refs ss) ps → (h.aggregators E ss) = (h, some ps) := by
    intro ss
    induction ss with
    | nil => intro h ps hp; cases hp; rfl
    | cons s ss ih =>
      intro h ps hp
      cases s with
      | col n => exact ih h ps hp
      | fn r =>
        cases hp with
        | cons h1 h2 =>
          obtain ⟨f, e1, e2⟩ := h1
          simp only [Heap.aggregators, aggregator_cached E h r f _ [] e1 e2, ih h _ h2]
  have hk2 : Pairwise2 (fun r p => ∃ f, (h1.calls E env cs).1.fns[r]? = some f ∧ f.aggregator = some p) (refs ss) ps := by
    refine pairwise2_imp hk (fun r p _ _ hh => ?_)
    obtain ⟨f, e1, e2⟩ := hh
    obtain ⟨f', e1', hk'⟩ := keeps_calls E env cs h1 r f e1
    exact ⟨f', e1', hk'.aggregator p e2⟩
  rw [again ss _ ps hk2]

example : ((fsHeap s%"SUM" s%"MAX").aggregators rAggr [.fn 0, .col s%"b", .fn 1]).2 = some [0, 1] := by decide
example : ∃ h : Heap Int Int Unit, Unused h [[SelRef.fn 0, .col s%"b"], [.fn 1]].flatten := ⟨_, fsUnused⟩

end Verif.Props
