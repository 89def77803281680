import Verif.Lemmas.FnUse
/-! Selectors that are used more than once: every use gives what a first use would give. -/
namespace Verif.Lemmas.FnState
open Verif Verif.Fn Verif.Rs Verif.FnState Verif.Spec Verif.Lemmas
variable {V F T : Type}

/-- An aggregator set up for the function at `r`. -/
def Setup (h0 : Heap V F T) (P : Nat → List Str → Prop) (r : Nat) (a : Aggr V F) : Prop :=
  ∃ (f0 : FObj V F T) (k : AggrId), h0.fns[r]? = some f0 ∧ newAggregatorForName f0.name = some k ∧ a.kind = k ∧ a.name = k.name ∧
    a.args = f0.args ∧ f0.args ≠ [] ∧ P r a.groupBys

/-- The function at `r` has remembered the aggregator at `p`. -/
def Points (h : Heap V F T) (r p : Nat) : Prop := ∃ f : FObj V F T, h.fns[r]? = some f ∧ f.aggregator = some p

theorem points_at {h0 h : Heap V F T} {rs : List Nat} {P : Nat → List Str → Prop} (hr : Ready h0 rs) (hi : Inv h0 h rs P) {rs' ps : List Nat}
    (hp : Pairwise2 (Points h) rs' ps) (hs : ∀ r ∈ rs', r ∈ rs) : ∃ l, At h.aggrs ps l ∧ Pairwise2 (Setup h0 P) rs' l := by
  induction hp with
  | nil => exact ⟨[], .nil, .nil⟩
  | @cons r p rs' ps h1 _ ih =>
    obtain ⟨l, g1, g2⟩ := ih (fun r hm => hs r (by simp [hm]))
    obtain ⟨f, e1, e2⟩ := h1
    obtain ⟨f0, e3, _, _⟩ := hr.fns r (hs r (by simp))
    obtain ⟨f', e4, _, e5⟩ := hi.fns r (hs r (by simp)) f0 e3
    rw [e1] at e4; cases e4
    obtain ⟨a, k, c1, c2, c3, c4, c5, c6, c7⟩ := e5 p e2
    exact ⟨a :: l, .cons c1 g1, .cons ⟨f0, k, e3, c2, c3, c4, c5, c6, c7⟩ g2⟩

theorem points_nodup {h0 h : Heap V F T} {rs : List Nat} {P : Nat → List Str → Prop} (hi : Inv h0 h rs P) {rs' ps : List Nat}
    (hp : Pairwise2 (Points h) rs' ps) (hs : ∀ r ∈ rs', r ∈ rs) (hn : rs'.Nodup) : ps.Nodup := by
  induction hp with
  | nil => exact .nil
  | @cons r p rs' ps h1 h2 ih =>
    obtain ⟨hr, hn'⟩ := List.nodup_cons.mp hn
    refine List.nodup_cons.mpr ⟨fun hm => ?_, ih (fun r hm => hs r (by simp [hm])) hn'⟩
    obtain ⟨r', hr', f', e1', e2'⟩ := pairwise2_right h2 p hm
    obtain ⟨f, e1, e2⟩ := h1
    exact hi.inj r (hs r (by simp)) r' (hs r' (by simp [hr'])) (fun e => hr (e ▸ hr')) f f' p e1 e1' e2 e2'

theorem setup_reset (E : Env V F) (g cur : Option Str) {h0 : Heap V F T} {P P' : Nat → List Str → Prop}
    {rs : List Nat} (hc : ∀ r ∈ rs, ∀ gs, P r gs → gs = groupsOf cur) (hP' : ∀ r ∈ rs, P' r (groupsOf (over g cur)))
    {l : List (Aggr V F)} (h : Pairwise2 (Setup h0 P) rs l) : Pairwise2 (Setup h0 P') rs (setReset E (groupOpts g) l).1 ∧
      (setReset E (groupOpts g) l).2 = true := by
  induction h with
  | nil => exact ⟨.nil, rfl⟩
  | @cons r a rs l h1 _ ih =>
    obtain ⟨f0, k, c1, c2, c3, c4, c5, c6, c7⟩ := h1
    obtain ⟨a', e1, e2, e3, e4, e5, _⟩ := reset_config E g cur a (by rw [c5]; exact c6) (hc r (by simp) _ c7)
    obtain ⟨i1, i2⟩ := ih (fun r hm => hc r (by simp [hm])) (fun r hm => hP' r (by simp [hm]))
    simp only [setReset, e1, if_true]
    refine ⟨.cons ⟨f0, k, c1, c2, by rw [e2, c3], by rw [e3, c4], by rw [e4, c5], c6, ?_⟩ i1, i2⟩
    rw [e5]; exact hP' r (by simp)

theorem setup_config {h0 : Heap V F T} {P : Nat → List Str → Prop} {rs : List Nat} {l l' : List (Aggr V F)} (h : Pairwise2 (Setup h0 P) rs l)
    (hc : Pairwise2 Config l l') : Pairwise2 (Setup h0 P) rs l' := by
  induction h generalizing l' with
  | nil => cases hc; exact .nil
  | cons h1 _ ih =>
    cases hc with
    | cons hc1 hc2 =>
      obtain ⟨f0, k, c1, c2, c3, c4, c5, c6, c7⟩ := h1
      exact .cons ⟨f0, k, c1, c2, by rw [hc1.kind, c3], by rw [hc1.name, c4], by rw [hc1.args, c5], c6, by rw [hc1.groupBys]; exact c7⟩ (ih hc2)

theorem three {α β γ : Type} {R : α → β → Prop} {S : α → γ → Prop} {Q : β → γ → Prop} {xs : List α} {ys : List β} {zs : List γ}
    (h : Pairwise2 R xs ys) (h' : Pairwise2 S xs zs) (hq : ∀ a b c, R a b → S a c → Q b c) : Pairwise2 Q ys zs := by
  induction h generalizing zs with
  | nil => cases h'; exact .nil
  | cons h1 _ ih => cases h' with
    | cons h2 h3 => exact .cons (hq _ _ _ h1 h2) (ih h3)

theorem inv_update {h0 h : Heap V F T} {rs rs' : List Nat} {P P' : Nat → List Str → Prop} (hi : Inv h0 h rs P) {ps : List Nat}
    {as : List (Aggr V F)} {l : List (Aggr V F)} (hs : ∀ r ∈ rs', r ∈ rs) (hp : Pairwise2 (Points h) rs' ps) (ha : At as ps l)
    (hl : Pairwise2 (Setup h0 P') rs' l) (hfr : ∀ (q : Nat), q ∉ ps → as[q]? = h.aggrs[q]?)
    (hPP : ∀ r ∈ rs, r ∉ rs' → ∀ gs, P r gs → P' r gs) :
    Inv h0 { h with aggrs := as } rs P' where
  fns := fun r hm f0 hf0 => by
    obtain ⟨f, e1, e2, e3⟩ := hi.fns r hm f0 hf0
    refine ⟨f, e1, e2, fun p hpf => ?_⟩
    by_cases hrs : r ∈ rs'
    · have key : ∀ {rs ps : List Nat} {l : List (Aggr V F)}, Pairwise2 (Points h) rs ps → At as ps l → Pairwise2 (Setup h0 P') rs l → r ∈ rs →
          ∃ a, as[p]? = some a ∧ Setup h0 P' r a := by
        intro rs ps l h1
        induction h1 generalizing l with
        | nil => intro _ _ hm; cases hm
        | @cons r' p' rs ps q1 q2 ih =>
          intro h2 h3 hm
          cases h2 with
          | cons a1 a2 => cases h3 with
            | cons b1 b2 =>
              by_cases hr : r = r'
              · subst hr
                obtain ⟨g, g1, g2⟩ := q1
                rw [e1] at g1; cases g1
                rw [hpf] at g2; cases g2
                exact ⟨_, a1, b1⟩
              · exact ih a2 b2 (by simpa [hr] using hm)
      obtain ⟨a, ea, f0', k, c1, c2⟩ := key hp ha hl hrs
      rw [hf0] at c1; cases c1
      exact ⟨a, k, ea, c2⟩
    · obtain ⟨a, k, c1, c2, c3, c4, c5, c6, c7⟩ := e3 p hpf
      refine ⟨a, k, ?_, c2, c3, c4, c5, c6, hPP r hm hrs _ c7⟩
      show as[p]? = some a
      rw [hfr p, c1]
      intro hpm
      obtain ⟨r', hr', f', g1, g2⟩ := pairwise2_right hp p hpm
      exact hi.inj r hm r' (hs r' hr') (fun e => hrs (e ▸ hr')) f f' p e1 g1 hpf g2
  inj := hi.inj

theorem aggregateFrom_eq (R : REnv V F T) (chs : List Choice) (fuel : Nat) (schema : Schema V F T) (ss : List (Sel V F T))
    (g : Option Str) (src : RSet V F T) : aggregateFrom R chs fuel schema ss g src =
      (match selAggregators R.E ss with
      | none => some .err
      | some as => if (setReset R.E (groupOpts g) as).2 then
          match aggrLoop R fuel src (setReset R.E (groupOpts g) as).1 with
          | none => none
          | some .err => some .err
          | some .panic => some .panic
          | some (.ok as') => match setFinalize R.E (chs.zip as') with
            | .err => some .err
            | .panic => some .panic
            | .ok rs => some (.ok { schema := some schema, rows := aggrRows R schema rs })
        else some .err) := by
  cases g <;> rfl

/-- The use gets as far as setting up the aggregators. -/
def Reached (E : Env V F) (ss : List (Sel V F T)) : Prop := hasAggregator ss = true ∧ selAggregators E ss ≠ none

theorem use_sim (R : REnv V F T) (typed : Func V F T → Bool) {h0 h : Heap V F T} {rs : List Nat} {ss : List SelRef}
    {P P' : Nat → List Str → Prop} (hr : Ready h0 rs) (hs : ∀ r ∈ refs ss, r ∈ rs) (hn : (refs ss).Nodup) (hi : Inv h0 h rs P)
    (u : Use V F T) (cur : Option Str) (hc : ∀ r ∈ refs ss, ∀ gs, P r gs ↔ gs = groupsOf cur)
    (hall : cur.isSome = true → ∀ r ∈ refs ss, Has h r)
    (hP' : ∀ r ∈ refs ss, P' r (groupsOf (over u.groupBy cur))) (hPP : ∀ r ∈ rs, r ∉ refs ss → ∀ gs, P r gs → P' r gs) :
    CacheKept h (h.use R typed ss u).1 ∧
    (Reached R.E (ss.map (·.view h0)) → u.src.schema ≠ none → Inv h0 (h.use R typed ss u).1 rs P' ∧ ∀ r ∈ refs ss, Has (h.use R typed ss u).1 r) ∧
    (¬ Reached R.E (ss.map (·.view h0)) → Inv h0 (h.use R typed ss u).1 rs P) ∧
    ((∀ ch ∈ u.chs, Lawful ch) →
      (h.use R typed ss u).2 = newAggregatedResultSet R typed u.chs u.fuel u.tblName u.tbl (ss.map (·.view h0)) (over u.groupBy cur) u.src) := by
  have hv : ss.map (·.view h) = ss.map (·.view h0) := by
    apply List.map_congr_left
    intro s hss
    cases s with
    | col n => rfl
    | fn r =>
      obtain ⟨f0, e1, _⟩ := hr.fns r (hs r (mem_refs.mpr hss))
      obtain ⟨f, e2, e3, _⟩ := hi.fns r (hs r (mem_refs.mpr hss)) f0 e1
      simp only [SelRef.view, e1, e2, e3]
  have hrefl : CacheKept h h := fun i g p hg hp => ⟨g, hg, hp⟩
  unfold Heap.use newAggregatedResultSet
  rw [hv]
  split
  · next hna => exact ⟨hrefl, fun hre => absurd hre.1 (by simpa using hna), fun _ => hi, fun _ => rfl⟩
  next hna =>
  cases hsch : u.src.schema with
  | none => exact ⟨hrefl, fun _ hne => absurd rfl hne, fun _ => hi, fun _ => rfl⟩
  | some s =>
    dsimp only
    generalize aggrSchema typed s.database u.tblName u.tbl (ss.map (·.view h0)) = sch
    have hP : ∀ r, .fn r ∈ ss → Has h r ∨ P r [] := by
      intro r hm
      cases cur with
      | none => exact .inr ((hc r (mem_refs.mpr hm) []).mpr rfl)
      | some g => exact .inl (hall rfl r (mem_refs.mpr hm))
    obtain ⟨a1, _, a3, a4⟩ := aggregators_sim (E := R.E) hr ss (fun r hm => hs r (mem_refs.mpr hm)) h hP hi
    rw [aggregateFrom_eq]
    unfold aggregateOn
    generalize h.aggregators R.E ss = x at a1 a3 a4
    obtain ⟨h', o⟩ := x
    dsimp only at a1 a3 a4 ⊢
    cases hsel : selAggregators R.E (ss.map (·.view h0)) with
    | none =>
      rw [hsel] at a4
      dsimp only at a4
      subst a4
      exact ⟨a3, fun hre => absurd hsel hre.2, fun _ => a1, fun _ => rfl⟩
    | some l0 =>
      rw [hsel] at a4
      dsimp only at a4
      obtain ⟨ps, ho, q1, q2⟩ := a4
      subst ho
      have hpts : Pairwise2 (Points h') (refs ss) ps := q1
      obtain ⟨l, hat, hset⟩ := points_at hr a1 hpts hs
      have hnd := points_nodup a1 hpts hs hn
      have hhas : ∀ r ∈ refs ss, Has h' r := by
        intro r hm
        obtain ⟨p, _, f, e1, e2⟩ := pairwise2_left hpts r hm
        exact ⟨f, p, e1, e2⟩
      dsimp only
      obtain ⟨r1, r2, r3⟩ := resetAt_sim R.E (groupOpts u.groupBy) hat hnd
      obtain ⟨hset2, hok⟩ := setup_reset R.E u.groupBy cur (fun r hm gs h => (hc r hm gs).mp h) hP' hset
      obtain ⟨⟨l', t1, t2, t3, t4⟩, t5⟩ := loopAt_sim R u.fuel u.src r2 hnd
      have hset3 := setup_config hset2 t2
      rw [r1, hok]
      simp only [if_true]
      refine ⟨a3, fun _ _ => ⟨inv_update a1 hs hpts t1 hset3 (fun q hq => (t5 q hq).trans (r3 q hq)) hPP, hhas⟩, fun hre => ?_, ?_⟩
      · exact absurd ⟨by simpa using hna, by rw [hsel]; simp⟩ hre
      · intro hlaw
        have halike : Pairwise2 (Alike cur) l l0 := by
          have : ∀ {rs' : List Nat} {l l0 : List (Aggr V F)}, (∀ r ∈ rs', r ∈ refs ss) → Pairwise2 (Setup h0 P) rs' l →
              Pairwise2 (fun r a0 => ∃ (f0 : FObj V F T) (k : AggrId), h0.fns[r]? = some f0 ∧ newAggregatorForName f0.name = some k ∧
                newAggr R.E k [.args f0.args] = some a0) rs' l0 → Pairwise2 (Alike cur) l l0 := by
            intro rs' l l0 hsub h1 h2
            induction h1 generalizing l0 with
            | nil => cases h2; exact .nil
            | @cons r a rs' l hs1 _ ih => cases h2 with
              | cons hn1 hn2 =>
                refine .cons ?_ (ih (fun r hm => hsub r (by simp [hm])) hn2)
                obtain ⟨f0, k, c1, c2, c3, c4, c5, c6, c7⟩ := hs1
                obtain ⟨f0', k', d1, d2, d3⟩ := hn1
                rw [c1] at d1; cases d1
                rw [c2] at d2; cases d2
                rcases newAggr_args R.E k f0.args with ⟨e, _⟩ | ⟨_, b, e1, e2, e3, e4, e5⟩
                · exact absurd e c6
                · rw [e1] at d3; cases d3
                  exact ⟨by rw [c3, e2], by rw [c4, e3], by rw [c5, e4], by rw [c5]; exact c6, (hc r (hsub r (by simp)) _).mp c7, e5⟩
          exact this (fun _ hm => hm) hset q2
        obtain ⟨s1, s2, s3⟩ := setReset_alike R.E u.groupBy cur halike
        rw [s2]
        simp only [if_true]
        rw [t3]
        rcases same_aggrLoop R u.fuel u.src s3 with ⟨e1, e2⟩ | ⟨e1, e2⟩ | ⟨e1, e2⟩ | ⟨m, m', e1, e2, e3⟩
        · rw [e1, e2]
        · rw [e1, e2]
        · rw [e1, e2]
        · rw [e1, e2]
          dsimp only
          have := t4 m e1
          subst this
          rw [readAt_eq t1, same_setFinalize R.E u.chs hlaw e3]
          cases setFinalize R.E (u.chs.zip m') <;> rfl

end Verif.Lemmas.FnState
