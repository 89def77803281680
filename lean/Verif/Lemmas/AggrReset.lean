import Verif.Lemmas.AggrResult
/-! Reset, rejected rows, row order. -/
namespace Verif.Lemmas
open Verif Verif.Fn Verif.Spec
variable {V F : Type}

/-! ### Reset -/

/-- Equal up to entries of the group key map that belong to no group. -/
structure Same (a c : Aggr V F) : Prop where
  kind : a.kind = c.kind
  name : a.name = c.name
  args : a.args = c.args
  columns : a.columns = c.columns
  aggrs : a.aggrs = c.aggrs
  counts : a.counts = c.counts
  groupBys : a.groupBys = c.groupBys
  groupAggrs : a.groupAggrs = c.groupAggrs
  groupCounts : a.groupCounts = c.groupCounts
  groupKeys : ∀ k, (a.groupAggrs.get? k).isSome = true → a.groupKeys.get? k = c.groupKeys.get? k

theorem same_fresh {E : Env V F} {a c : Aggr V F} (ha : Fresh E a) (hc : Fresh E c) (h1 : a.kind = c.kind)
    (h2 : a.name = c.name) (h3 : a.args = c.args) (h4 : a.groupBys = c.groupBys) : Same a c := by
  have hcol : a.columns = c.columns := by rw [ha.cols, hc.cols, h2, h3, h4]
  refine ⟨h1, h2, h3, hcol, ?_, ?_, h4, ?_, ?_, ?_⟩
  · rw [ha.aggrs, hc.aggrs, hcol, h1]
  · rw [ha.counts, hc.counts]
  · rw [ha.noAggrs, hc.noAggrs]
  · rw [ha.noCounts, hc.noCounts]
  · intro k hk; rw [ha.noAggrs] at hk; simp at hk

theorem same_ensure {E : Env V F} {a c : Aggr V F} (h : Same a c) (key : Str) (vals : List (Option V)) :
    Same (a.ensureGroup E key vals) (c.ensureGroup E key vals) := by
  unfold Aggr.ensureGroup
  rw [← h.groupAggrs]
  cases hk : a.groupAggrs.get? key with
  | some x => exact h
  | none =>
    obtain ⟨a1, a2, a3, a4, a5, a6, a7, a8, a9, a10⟩ := h
    refine ⟨a1, a2, a3, a4, a5, a6, a7, ?_, ?_, ?_⟩
    · simp only [a1, a4, a7]
    · simp only [a9]
    · intro k hs
      simp only at hs ⊢
      rw [GoMap.get?_set, GoMap.get?_set]
      split
      · rfl
      · next hne =>
        rw [GoMap.get?_set_ne _ _ hne] at hs
        exact a10 k hs

theorem same_aggregateRow {E : Env V F} {a c : Aggr V F} (h : Same a c) (row : List (Option V)) :
    Same (a.aggregateRow E row).1 (c.aggregateRow E row).1 ∧ (a.aggregateRow E row).2 = (c.aggregateRow E row).2 := by
  unfold Aggr.aggregateRow
  rw [← h.columns, ← h.groupBys]
  split
  · exact ⟨h, rfl⟩
  split
  · simp only
    split
    · exact ⟨h, rfl⟩
    cases hgk : groupKey E (row.take a.groupBys.length) with
    | none => exact ⟨h, rfl⟩
    | some key =>
      simp only
      have hs := same_ensure (E := E) h key (row.take a.groupBys.length)
      generalize a.ensureGroup E key (row.take a.groupBys.length) = a' at hs
      generalize c.ensureGroup E key (row.take a.groupBys.length) = c' at hs
      rw [← hs.groupAggrs]
      cases hga : a'.groupAggrs.get? key with
      | none => exact ⟨hs, rfl⟩
      | some accs =>
        simp only
        rw [← hs.kind]
        have hkeys : ∀ k x, ((a'.groupAggrs.set key x).get? k).isSome = true → a'.groupKeys.get? k = c'.groupKeys.get? k := by
          intro k x hk
          apply hs.groupKeys
          rw [GoMap.get?_set] at hk
          split at hk
          · next e => subst e; simp [hga]
          · exact hk
        cases (accumulate E a'.kind accs (row.drop a.groupBys.length)).2 with
        | ok u =>
          refine ⟨⟨rfl, hs.name, hs.args, hs.columns, hs.aggrs, hs.counts, hs.groupBys, rfl, ?_, fun k hk => hkeys k _ hk⟩, rfl⟩
          simp only [hs.groupCounts]
        | err => exact ⟨⟨rfl, hs.name, hs.args, hs.columns, hs.aggrs, hs.counts, hs.groupBys, rfl, hs.groupCounts, fun k hk => hkeys k _ hk⟩, rfl⟩
        | panic => exact ⟨⟨rfl, hs.name, hs.args, hs.columns, hs.aggrs, hs.counts, hs.groupBys, rfl, hs.groupCounts, fun k hk => hkeys k _ hk⟩, rfl⟩
  · simp only
    rw [← h.kind, ← h.aggrs, ← h.counts]
    cases (accumulate E a.kind a.aggrs row).2 with
    | ok u => exact ⟨⟨rfl, h.name, h.args, rfl, rfl, rfl, rfl, h.groupAggrs, h.groupCounts, h.groupKeys⟩, rfl⟩
    | err => exact ⟨⟨rfl, h.name, h.args, rfl, rfl, rfl, rfl, h.groupAggrs, h.groupCounts, h.groupKeys⟩, rfl⟩
    | panic => exact ⟨⟨rfl, h.name, h.args, rfl, rfl, rfl, rfl, h.groupAggrs, h.groupCounts, h.groupKeys⟩, rfl⟩

theorem same_aggregate {E : Env V F} {a c : Aggr V F} (h : Same a c) (v : AggrIn V) :
    Same (a.aggregate E v).1 (c.aggregate E v).1 ∧ (a.aggregate E v).2 = (c.aggregate E v).2 := by
  cases v with
  | row r => exact same_aggregateRow h r
  | map m =>
    simp only [Aggr.aggregate, Aggr.aggregateMap]
    rw [← h.args]
    split
    · exact ⟨h, rfl⟩
    · exact same_aggregateRow h _
  | other => exact ⟨h, rfl⟩

theorem same_groupRow {E : Env V F} {a c : Aggr V F} (h : Same a c) (k : Str) : a.groupRow E k = c.groupRow E k := by
  unfold Aggr.groupRow
  rw [← h.groupAggrs, ← h.groupCounts, ← h.kind]
  cases hk : a.groupAggrs.get? k with
  | none =>
    cases a.groupKeys.get? k <;> cases c.groupKeys.get? k <;> rfl
  | some x => rw [h.groupKeys k (by simp [hk])]

theorem same_finalize {E : Env V F} {a c : Aggr V F} (h : Same a c) (ch : Choice) (hch : Lawful ch) (ob : OrderBy) :
    a.finalize E ch ob = c.finalize E ch ob := by
  have hrows : ∀ ks, a.groupRows E ks = c.groupRows E ks := by
    intro ks
    induction ks with
    | nil => rfl
    | cons k ks ih => simp only [Aggr.groupRows]; rw [same_groupRow h k, ih]
  have hord : a.orderedKeys E ch ob = c.orderedKeys E ch ob := by
    have hin : ∀ k ∈ ch.enum a.groupAggrs.keys, keysOf a.groupKeys k = keysOf c.groupKeys k := by
      intro k hk
      have hk' := (hch.enum_perm _).mem_iff.mp hk
      rw [GoMap.mem_keys_iff] at hk'
      unfold keysOf; rw [h.groupKeys k hk']
    unfold Aggr.orderedKeys
    rw [← h.groupAggrs]
    cases ob with
    | none => rfl
    | asc => exact hch.sort_local _ _ _ (fun i hi j hj => by rw [hin i hi, hin j hj])
    | desc => exact hch.sort_local _ _ _ (fun i hi j hj => by rw [hin i hi, hin j hj])
  unfold Aggr.finalize
  rw [← h.groupBys, ← h.columns, ← h.aggrs, ← h.counts, ← h.kind, hord, hrows]

theorem same_applyOpt {a c : Aggr V F} (h : Same a c) (o : AggrOpt) :
    Same (a.applyOpt o).1 (c.applyOpt o).1 ∧ (a.applyOpt o).2 = (c.applyOpt o).2 := by
  obtain ⟨a1, a2, a3, a4, a5, a6, a7, a8, a9, a10⟩ := h
  have h' : Same a c := ⟨a1, a2, a3, a4, a5, a6, a7, a8, a9, a10⟩
  cases o with
  | name n => exact ⟨⟨a1, rfl, a3, a4, a5, a6, a7, a8, a9, a10⟩, rfl⟩
  | args as =>
    simp only [Aggr.applyOpt]
    rw [← a3]
    split
    · exact ⟨h', rfl⟩
    · exact ⟨⟨a1, a2, rfl, a4, a5, a6, a7, a8, a9, a10⟩, rfl⟩
  | groupBys gs => exact ⟨⟨a1, a2, a3, a4, a5, a6, rfl, a8, a9, a10⟩, rfl⟩
  | groupList gs => exact ⟨⟨a1, a2, a3, a4, a5, a6, rfl, a8, a9, a10⟩, rfl⟩
  | group g => exact ⟨⟨a1, a2, a3, a4, a5, a6, rfl, a8, a9, a10⟩, rfl⟩
  | other => exact ⟨h', rfl⟩

theorem same_applyOpts {a c : Aggr V F} (h : Same a c) (os : List AggrOpt) :
    Same (a.applyOpts os).1 (c.applyOpts os).1 ∧ (a.applyOpts os).2 = (c.applyOpts os).2 := by
  induction os generalizing a c with
  | nil => exact ⟨h, rfl⟩
  | cons o os ih =>
    obtain ⟨h1, h2⟩ := same_applyOpt h o
    simp only [Aggr.applyOpts]
    rw [← h2]
    split
    · exact ih h1
    · exact ⟨h1, rfl⟩

theorem same_reset {E : Env V F} {a c : Aggr V F} (h : Same a c) (os : List AggrOpt) :
    Same (a.reset E os).1 (c.reset E os).1 ∧ (a.reset E os).2 = (c.reset E os).2 := by
  obtain ⟨h1, h2⟩ := same_applyOpts h os
  unfold Aggr.reset
  simp only
  rw [← h2]
  split
  · unfold Aggr.resetCore
    simp only
    rw [← h1.groupBys, ← h1.args, ← h1.name, ← h1.kind]
    split
    · exact ⟨⟨rfl, rfl, rfl, rfl, h1.aggrs, h1.counts, rfl, h1.groupAggrs, h1.groupCounts, h1.groupKeys⟩, rfl⟩
    · exact ⟨⟨rfl, rfl, rfl, rfl, rfl, rfl, rfl, rfl, rfl, fun k hk => by simp at hk⟩, rfl⟩
  · exact ⟨h1, rfl⟩

theorem same_calls {E : Env V F} {a c : Aggr V F} (h : Same a c) (cs : List (AggrCall V))
    (hl : ∀ ch ob, .finalize ch ob ∈ cs → Lawful ch) : (a.calls E cs).2 = (c.calls E cs).2 := by
  induction cs generalizing a c with
  | nil => rfl
  | cons x cs ih =>
    have hl' : ∀ ch ob, .finalize ch ob ∈ cs → Lawful ch := fun ch ob hm => hl ch ob (by simp [hm])
    cases x with
    | aggregate v =>
      obtain ⟨h1, h2⟩ := same_aggregate (E := E) h v
      simp only [Aggr.calls, Aggr.call]
      rw [ih h1 hl', h2]
    | finalize ch ob =>
      simp only [Aggr.calls, Aggr.call]
      rw [ih h hl', same_finalize h ch (hl ch ob (by simp)) ob]
    | reset os =>
      obtain ⟨h1, h2⟩ := same_reset (E := E) h os
      simp only [Aggr.calls, Aggr.call]
      rw [ih h1 hl', h2]

/-! ### Rejected rows -/

theorem set_same {κ α : Type} [DecidableEq κ] (m : GoMap κ α) (k : κ) (v : α) (h : m.get? k = some v) : m.set k v = m := by
  induction m with
  | nil => simp at h
  | cons e m ih =>
    obtain ⟨k', v'⟩ := e
    simp only [GoMap.get?, GoMap.set] at h ⊢
    by_cases hk : k' = k
    · simp [hk] at h ⊢; exact h.symm
    · simp [hk] at h ⊢; exact ih h

/-- A row of at most one accumulated value that is rejected changes no accumulator. -/
theorem accumulate_single (E : Env V F) (k : AggrId) (accs : List F) (vs : List (Option V)) (hv : vs.length ≤ 1)
    (h : (accumulate E k accs vs).2 ≠ .ok ()) : (accumulate E k accs vs).1 = accs := by
  match vs, accs, hv with
  | [], accs, _ => simp [accumulate] at h
  | [v], [], _ => simp only [accumulate]; split <;> rfl
  | [v], acc :: accs, _ =>
    simp only [accumulate] at h ⊢
    cases hf : toFloat64 E v with
    | none => rfl
    | some f => rw [hf] at h; exact absurd rfl h

/-! ### Row order -/

theorem foldl_perm {α β : Type} (f : β → α → β) (hf : ∀ b x y, f (f b x) y = f (f b y) x) {l l' : List α}
    (h : l.Perm l') (b : β) : l.foldl f b = l'.foldl f b := by
  induction h generalizing b with
  | nil => rfl
  | cons x _ ih => exact ih _
  | swap x y l => simp only [List.foldl_cons]; rw [hf]
  | trans _ _ ih1 ih2 => rw [ih1, ih2]

end Verif.Lemmas
