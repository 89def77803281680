import Verif.Lemmas.FnAgain
import Verif.Spec.FnState
/-! Histories of uses of several statements. -/
namespace Verif.Lemmas.FnState
open Verif Verif.Fn Verif.Rs Verif.FnState Verif.Spec Verif.Spec.FnState Verif.Lemmas
variable {V F T : Type}

theorem refs_append (a b : List SelRef) : refs (a ++ b) = refs a ++ refs b := by
  induction a with
  | nil => rfl
  | cons s a ih => cases s <;> simp [refs, ih]

theorem refs_nodup {ss : List SelRef} (h : ∀ (i j r : Nat), ss[i]? = some (SelRef.fn r) → ss[j]? = some (SelRef.fn r) → i = j) :
    (refs ss).Nodup := by
  induction ss with
  | nil => exact .nil
  | cons s ss ih =>
    have ih' := ih (fun i j r h1 h2 => by have := h (i + 1) (j + 1) r (by simpa using h1) (by simpa using h2); omega)
    cases s with
    | col n => exact ih'
    | fn r =>
      refine List.nodup_cons.mpr ⟨fun hm => ?_, ih'⟩
      obtain ⟨j, hj⟩ := List.getElem?_of_mem (mem_refs.mp hm)
      have := h 0 (j + 1) r rfl (by simpa using hj)
      omega

theorem ready_of_unused {h : Heap V F T} {ss : List SelRef} (hu : Unused h ss) : Ready h (refs ss) :=
  ⟨refs_nodup hu.distinct, fun r hm => hu.fns r (mem_refs.mp hm)⟩

theorem refs_of_mem {sts : List (List SelRef)} {ss : List SelRef} (h : ss ∈ sts) : ∀ r ∈ refs ss, r ∈ refs sts.flatten := by
  intro r hm
  exact mem_refs.mpr (List.mem_flatten.mpr ⟨ss, h, mem_refs.mp hm⟩)

theorem nodup_of_mem {sts : List (List SelRef)} {ss : List SelRef} (h : ss ∈ sts) (hn : (refs sts.flatten).Nodup) : (refs ss).Nodup := by
  induction sts with
  | nil => cases h
  | cons s sts ih =>
    rw [List.flatten_cons, refs_append] at hn
    obtain ⟨h1, h2, _⟩ := List.nodup_append.mp hn
    rcases List.mem_cons.mp h with rfl | h
    · exact h1
    · exact ih h h2

theorem own {sts : List (List SelRef)} {ss ss' : List SelRef} (h : ss ∈ sts) (h' : ss' ∈ sts) (hn : (refs sts.flatten).Nodup) {r : Nat}
    (hr : r ∈ refs ss) (hr' : r ∈ refs ss') : ss = ss' := by
  induction sts with
  | nil => cases h
  | cons s sts ih =>
    rw [List.flatten_cons, refs_append] at hn
    obtain ⟨_, h2, h3⟩ := List.nodup_append.mp hn
    rcases List.mem_cons.mp h with rfl | k
    · rcases List.mem_cons.mp h' with rfl | k'
      · rfl
      · exact absurd rfl (h3 r hr r (refs_of_mem k' r hr'))
    · rcases List.mem_cons.mp h' with rfl | k'
      · exact absurd rfl (h3 r hr' r (refs_of_mem k r hr))
      · exact ih k k' h2

/-- The use of these selectors gets as far as setting up the aggregators. -/
def reached (E : Env V F) (ss : List (Sel V F T)) : Bool := hasAggregator ss && (selAggregators E ss).isSome

theorem reached_iff (E : Env V F) (ss : List (Sel V F T)) : reached E ss = true ↔ Reached E ss := by
  unfold reached Reached
  rw [Bool.and_eq_true, Option.isSome_iff_ne_none]

/-- The GROUP BY of a statement's aggregators. -/
def curOf (E : Env V F) (h0 : Heap V F T) (c : List SelRef → Option Str) (ss : List SelRef) : Option Str :=
  if reached E (ss.map (·.view h0)) then c ss else none

/-- After one more use. -/
def step (c : List SelRef → Option Str) (x : List SelRef × Use V F T) : List SelRef → Option Str :=
  fun ss => if x.1 == ss then over x.2.groupBy (c ss) else c ss

theorem step_last (us : List (List SelRef × Use V F T)) (c : List SelRef → Option Str) (ss : List SelRef) :
    us.foldl step c ss = over (lastGroup us ss) (c ss) := by
  induction us generalizing c with
  | nil => rfl
  | cons x us ih =>
    rw [List.foldl_cons, ih]
    unfold lastGroup step
    rw [List.filter_cons]
    by_cases hx : (x.1 == ss) = true
    · rw [if_pos hx, if_pos hx, List.filterMap_cons]
      cases hg : x.2.groupBy with
      | none => rfl
      | some g =>
        dsimp only
        generalize (us.filter (fun x => x.1 == ss)).filterMap (fun x => x.2.groupBy) = l
        cases l with
        | nil => rfl
        | cons y l => simp [List.getLast?_cons, over]
    · rw [if_neg hx, if_neg hx]

/-- Between uses. -/
def Between (E : Env V F) (h0 h : Heap V F T) (sts : List (List SelRef)) (c : List SelRef → Option Str) : Prop :=
  Inv h0 h (refs sts.flatten) (fun r gs => ∀ ss ∈ sts, r ∈ refs ss → gs = groupsOf (curOf E h0 c ss)) ∧
    ∀ ss ∈ sts, (curOf E h0 c ss).isSome = true → ∀ r ∈ refs ss, Has h r

theorem use_between (R : REnv V F T) (typed : Func V F T → Bool) {h0 h : Heap V F T} {sts : List (List SelRef)}
    (hr : Ready h0 (refs sts.flatten)) {c : List SelRef → Option Str} (hb : Between R.E h0 h sts c) {ss : List SelRef} (hs : ss ∈ sts)
    (u : Use V F T) :
    (u.src.schema ≠ none → Between R.E h0 (h.use R typed ss u).1 sts (step c (ss, u))) ∧
    ((∀ ch ∈ u.chs, Lawful ch) → (h.use R typed ss u).2 =
      newAggregatedResultSet R typed u.chs u.fuel u.tblName u.tbl (ss.map (·.view h0)) (over u.groupBy (curOf R.E h0 c ss)) u.src) := by
  obtain ⟨hi, hall⟩ := hb
  obtain ⟨k1, k2, k3, k4⟩ := use_sim R typed (P' := fun r gs => ∀ ss' ∈ sts, r ∈ refs ss' →
      gs = groupsOf (if ss = ss' then over u.groupBy (curOf R.E h0 c ss) else curOf R.E h0 c ss')) hr (refs_of_mem hs)
    (nodup_of_mem hs hr.nodup) hi u (curOf R.E h0 c ss)
    (fun r hm gs => ⟨fun h => h ss hs hm, fun h ss' hs' hm' => by rw [own hs' hs hr.nodup hm' hm]; exact h⟩)
    (hall ss hs)
    (fun r hm ss' hs' hm' => by rw [if_pos (own hs hs' hr.nodup hm hm')])
    (fun r _ hm gs h ss' hs' hm' => by
      rw [if_neg (fun e => hm (by rw [e]; exact hm'))]; exact h ss' hs' hm')
  refine ⟨fun hsch => ?_, k4⟩
  by_cases hre : Reached R.E (ss.map (·.view h0))
  · obtain ⟨i1, i2⟩ := k2 hre hsch
    have hcur : ∀ ss' : List SelRef, curOf R.E h0 (step c (ss, u)) ss' =
        if ss = ss' then over u.groupBy (curOf R.E h0 c ss) else curOf R.E h0 c ss' := by
      intro ss'
      by_cases he : ss = ss'
      · subst he
        simp only [curOf, step, (reached_iff R.E _).mpr hre, if_true, beq_self_eq_true]
      · have : (ss == ss') = false := by simpa using he
        simp only [curOf, step, this, if_neg he, Bool.false_eq_true, if_false]
    refine ⟨?_, fun ss' hs' hsome r hm => ?_⟩
    · simp only [hcur]; exact i1
    · rw [hcur] at hsome
      by_cases he : ss = ss'
      · subst he; exact i2 r hm
      · rw [if_neg he] at hsome
        exact (hall ss' hs' hsome r hm).kept k1
  · have hf : reached R.E (ss.map (·.view h0)) = false := by
      cases h : reached R.E (ss.map (·.view h0)) with
      | false => rfl
      | true => exact absurd ((reached_iff _ _).mp h) hre
    have hcur : curOf R.E h0 (step c (ss, u)) = curOf R.E h0 c := by
      funext ss'
      by_cases he : ss = ss'
      · subst he; simp only [curOf, hf, Bool.false_eq_true, if_false]
      · have : (ss == ss') = false := by simpa using he
        simp only [curOf, step, this, Bool.false_eq_true, if_false]
    refine ⟨?_, fun ss' hs' hsome r hm => ?_⟩
    · rw [hcur]; exact k3 hre
    · rw [hcur] at hsome; exact (hall ss' hs' hsome r hm).kept k1

theorem uses_between (R : REnv V F T) (typed : Func V F T → Bool) {h0 : Heap V F T} {sts : List (List SelRef)}
    (hr : Ready h0 (refs sts.flatten)) (us : List (List SelRef × Use V F T)) (hu : History sts us) (h : Heap V F T) (c : List SelRef → Option Str)
    (hb : Between R.E h0 h sts c) : Between R.E h0 (h.uses R typed us) sts (us.foldl step c) := by
  induction us generalizing h c with
  | nil => exact hb
  | cons x us ih =>
    obtain ⟨h1, h2⟩ := hu x (by simp)
    exact ih (fun y hy => hu y (by simp [hy])) _ _ ((use_between R typed hr hb h1 x.2).1 h2)

theorem between_start (E : Env V F) {h0 : Heap V F T} {sts : List (List SelRef)} (hr : Ready h0 (refs sts.flatten)) :
    Between E h0 h0 sts (fun _ => none) :=
  ⟨inv_start hr _, fun ss _ hs => by simp only [curOf] at hs; split at hs <;> cases hs⟩

/-- The GROUP BY does not matter when the aggregators are not reached. -/
theorem group_irrelevant (R : REnv V F T) (typed : Func V F T → Bool) (chs : List Choice) (fuel : Nat) (n : Str) (tbl : List (Col V F T))
    (ss : List (Sel V F T)) (g g' : Option Str) (src : RSet V F T) (hf : reached R.E ss = false) :
    newAggregatedResultSet R typed chs fuel n tbl ss g src = newAggregatedResultSet R typed chs fuel n tbl ss g' src := by
  unfold newAggregatedResultSet
  split
  · rfl
  next hna =>
  cases src.schema with
  | none => rfl
  | some s =>
    have hsel : selAggregators R.E ss = none := by
      unfold reached at hf
      have : hasAggregator ss = true := by simpa using hna
      rw [this, Bool.true_and] at hf
      cases h : selAggregators R.E ss with
      | none => rfl
      | some l => rw [h] at hf; cases hf
    dsimp only
    rw [aggregateFrom_eq, aggregateFrom_eq, hsel]

theorem history_use (R : REnv V F T) (typed : Func V F T → Bool) {h0 : Heap V F T} {sts : List (List SelRef)}
    (hr : Ready h0 (refs sts.flatten)) (us : List (List SelRef × Use V F T)) (hu : History sts us) {ss : List SelRef} (hs : ss ∈ sts)
    (u : Use V F T) (hl : ∀ ch ∈ u.chs, Lawful ch) : ((h0.uses R typed us).use R typed ss u).2 =
      newAggregatedResultSet R typed u.chs u.fuel u.tblName u.tbl (ss.map (·.view h0)) (over u.groupBy (lastGroup us ss)) u.src := by
  have hb := uses_between R typed hr us hu h0 _ (between_start R.E hr)
  rw [(use_between R typed hr hb hs u).2 hl]
  unfold curOf
  split
  · rw [step_last, over_none]
  · next hf => exact group_irrelevant R typed _ _ _ _ _ _ _ _ (by simpa using hf)

end Verif.Lemmas.FnState
