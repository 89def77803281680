import Verif.Lemmas.FnReuse
/-! Selectors that are used more than once: the invariant. -/
namespace Verif.Lemmas.FnState
open Verif Verif.Fn Verif.Rs Verif.FnState Verif.Spec Verif.Lemmas
variable {V F T : Type}

/-- The functions among the selectors. -/
def refs : List SelRef → List Nat
  | [] => []
  | .col _ :: ss => refs ss
  | .fn r :: ss => r :: refs ss

theorem mem_refs {r : Nat} {ss : List SelRef} : r ∈ refs ss ↔ .fn r ∈ ss := by
  induction ss with
  | nil => simp [refs]
  | cons s ss ih => cases s <;> simp [refs, ih]

/-- The remembered aggregator of a function is set up for that function. -/
def Cached (h : Heap V F T) (f0 : FObj V F T) (P : List Str → Prop) (p : Nat) : Prop :=
  ∃ a k, h.aggrs[p]? = some a ∧ newAggregatorForName f0.name = some k ∧ a.kind = k ∧ a.name = k.name ∧ a.args = f0.args ∧
    f0.args ≠ [] ∧ P a.groupBys

/-- Between uses: the functions look as in the beginning, and have their own aggregators. -/
structure Inv (h0 h : Heap V F T) (rs : List Nat) (P : Nat → List Str → Prop) : Prop where
  fns : ∀ r ∈ rs, ∀ f0, h0.fns[r]? = some f0 → ∃ f, h.fns[r]? = some f ∧ f.view = f0.view ∧ ∀ p, f.aggregator = some p → Cached h f0 (P r) p
  inj : ∀ r ∈ rs, ∀ r' ∈ rs, r ≠ r' → ∀ f f' p, h.fns[r]? = some f → h.fns[r']? = some f' → f.aggregator = some p →
    f'.aggregator ≠ some p

/-- The functions whose aggregators are asked for know that they are aggregates. -/
structure Ready (h0 : Heap V F T) (rs : List Nat) : Prop where
  nodup : rs.Nodup
  fns : ∀ r ∈ rs, ∃ f, h0.fns[r]? = some f ∧ f.aggregator = none ∧ (newAggregatorForName f.name ≠ none → f.type = .aggregate)

theorem inv_start {h0 : Heap V F T} {rs : List Nat} (hr : Ready h0 rs) (P : Nat → List Str → Prop) : Inv h0 h0 rs P where
  fns := fun r hm f0 hf => ⟨f0, hf, rfl, fun p hp => by
    obtain ⟨f, e1, e2, _⟩ := hr.fns r hm
    rw [hf] at e1; cases e1; rw [e2] at hp; cases hp⟩
  inj := fun r hm r' _ _ f f' p e1 _ hp => by
    obtain ⟨g, e1', e2, _⟩ := hr.fns r hm
    rw [e1] at e1'; cases e1'; rw [e2] at hp; cases hp

theorem newAggr_args (E : Env V F) (k : AggrId) (as : List Str) : (as = [] ∧ newAggr E k [.args as] = none) ∨
    (as ≠ [] ∧ ∃ a, newAggr E k [.args as] = some a ∧ a.kind = k ∧ a.name = k.name ∧ a.args = as ∧ a.groupBys = []) := by
  unfold newAggr
  simp only [List.cons_append, List.nil_append, Aggr.applyOpts, Aggr.applyOpt, List.length_nil, Nat.not_lt_zero, if_false, if_true, Aggr.resetCore]
  cases as with
  | nil => exact .inl ⟨rfl, by simp⟩
  | cons x xs => exact .inr ⟨by simp, by simp⟩

/-- No aggregator is changed. -/
abbrev AggrsKept (h h' : Heap V F T) : Prop := ∀ (q : Nat) (a : Aggr V F), h.aggrs[q]? = some a → h'.aggrs[q]? = some a

/-- No function forgets its aggregator. -/
abbrev CacheKept (h h' : Heap V F T) : Prop := ∀ (i : Nat) (g : FObj V F T) (p : Nat), h.fns[i]? = some g → g.aggregator = some p →
  ∃ g' : FObj V F T, h'.fns[i]? = some g' ∧ g'.aggregator = some p

theorem set_same {α : Type} {l : List α} {r : Nat} {x : α} (h : l[r]? = some x) : l.set r x = l := by
  apply List.ext_getElem?
  intro i
  rw [List.getElem?_set]
  split
  · next e => subst e; rw [h]; simp [lt_of_some h]
  · rfl

theorem aggregator_cached (E : Env V F) (h : Heap V F T) (r : Nat) (f : FObj V F T) (p : Nat) (os : List AggrOpt) (hf : h.fns[r]? = some f)
    (hp : f.aggregator = some p) : h.aggregator E r os = (h, some p) := by
  unfold Heap.aggregator
  simp only [hf, FObj.getAggregator, hp, set_same hf]

theorem aggregator_has (E : Env V F) (h : Heap V F T) (r : Nat) (os : List AggrOpt) (p : Nat) (hp : (h.aggregator E r os).2 = some p) :
    ∃ f : FObj V F T, (h.aggregator E r os).1.fns[r]? = some f ∧ f.aggregator = some p := by
  cases hf : h.fns[r]? with
  | none => simp [Heap.aggregator, hf] at hp
  | some f =>
    have h1 := aggregator_at E h r f hf r os
    rw [if_pos rfl] at h1
    refine ⟨_, h1, ?_⟩
    simp only [Heap.aggregator, hf] at hp
    unfold FObj.getAggregator at hp ⊢
    cases hx : f.aggregator with
    | some q => simp only [hx] at hp ⊢; exact hp
    | none => cases hn : newAggregatorForName f.name with
      | none => simp [hx, hn] at hp
      | some k => cases ha : newAggr E k (os ++ [.args f.args]) with
        | none => simp [hx, hn, ha] at hp
        | some a => simp only [hx, hn, ha] at hp ⊢; exact hp

theorem aggregators_cache (E : Env V F) (ss : List SelRef) (h : Heap V F T) : CacheKept h (h.aggregators E ss).1 := by
  induction ss generalizing h with
  | nil => exact fun i g p hg hp => ⟨g, hg, hp⟩
  | cons s ss ih =>
    cases s with
    | col n => exact ih h
    | fn r =>
      have h1 : CacheKept h (h.aggregator E r []).1 := by
        intro i g p hg hp
        refine ⟨_, aggregator_at E h i g hg r [], ?_⟩
        split
        · exact (keeps_getAggregator E h.aggrs g []).aggregator p hp
        · exact hp
      simp only [Heap.aggregators]
      cases hx : h.aggregator E r [] with
      | mk h' o =>
        rw [hx] at h1
        cases o with
        | none => exact h1
        | some q =>
          have h2 := ih h'
          dsimp only
          cases hy : h'.aggregators E ss with
          | mk h'' o2 =>
            rw [hy] at h2
            have h3 : CacheKept h h'' := fun i g p hg hp => by
              obtain ⟨g', e1, e2⟩ := h1 i g p hg hp; exact h2 i g' p e1 e2
            cases o2 <;> exact h3

/-- The function at `r` has remembered an aggregator. -/
def Has (h : Heap V F T) (r : Nat) : Prop := ∃ (f : FObj V F T) (p : Nat), h.fns[r]? = some f ∧ f.aggregator = some p

theorem Has.kept {h h' : Heap V F T} (hk : CacheKept h h') {r : Nat} (hh : Has h r) : Has h' r := by
  obtain ⟨f, p, e1, e2⟩ := hh
  obtain ⟨f', e1', e2'⟩ := hk r f p e1 e2
  exact ⟨f', p, e1', e2'⟩

/-- What asking one function for its aggregator does. -/
theorem ask {E : Env V F} {h0 h : Heap V F T} {rs : List Nat} {P : Nat → List Str → Prop} (hr : Ready h0 rs) (hi : Inv h0 h rs P)
    {r : Nat} (hP : Has h r ∨ P r []) (hm : r ∈ rs) {f0 : FObj V F T} (hf0 : h0.fns[r]? = some f0) :
    Inv h0 (h.aggregator E r []).1 rs P ∧
    AggrsKept h (h.aggregator E r []).1 ∧
    CacheKept h (h.aggregator E r []).1 ∧
    (match newAggregatorForName f0.name with
      | none => (h.aggregator E r []).2 = none
      | some k => match newAggr E k [.args f0.args] with
        | none => (h.aggregator E r []).2 = none
        | some _ => ∃ (p : Nat) (f : FObj V F T), (h.aggregator E r []).2 = some p ∧ (h.aggregator E r []).1.fns[r]? = some f ∧ f.aggregator = some p) := by
  obtain ⟨f, hf, hv, hc⟩ := hi.fns r hm f0 hf0
  have hname : f.name = f0.name := congrArg Func.name hv
  have hargs : f.args = f0.args := congrArg Func.args hv
  have htype : f.type = f0.type := congrArg Func.type hv
  have hrest : CacheKept h (h.aggregator E r []).1 := by
    intro i g p hg hp
    refine ⟨_, aggregator_at E h i g hg r [], ?_⟩
    split
    · exact (keeps_getAggregator E h.aggrs g []).aggregator p hp
    · exact hp
  cases hag : f.aggregator with
  | some p =>
    have he : h.aggregator E r [] = (h, some p) := by
      unfold Heap.aggregator
      simp only [hf, FObj.getAggregator, hag]
      have : h.fns.set r f = h.fns := by
        apply List.ext_getElem?
        intro i
        rw [List.getElem?_set]
        split
        · next e => subst e; rw [hf]; simp [lt_of_some hf]
        · rfl
      rw [this]
    rw [he]
    refine ⟨hi, fun q a hq => hq, fun i g p hg hp => ⟨g, hg, hp⟩, ?_⟩
    obtain ⟨a, k, _, hk, _, _, _, hne, _⟩ := hc p hag
    rw [hk]
    dsimp only
    rcases newAggr_args E k f0.args with ⟨e, _⟩ | ⟨_, a', e, _⟩
    · exact absurd e hne
    · rw [e]; exact ⟨p, f, rfl, hf, hag⟩
  | none =>
    have hsame : (h.aggregator E r []).2 = none → newAggregatorForName f0.name = none ∨
        (∃ k, newAggregatorForName f0.name = some k ∧ newAggr E k [.args f0.args] = none) → f.getAggregator E h.aggrs [] = (f, h.aggrs, none) →
        Inv h0 (h.aggregator E r []).1 rs P ∧ AggrsKept h (h.aggregator E r []).1 := by
      intro _ _ hg
      have he : h.aggregator E r [] = (h, none) := by
        unfold Heap.aggregator
        simp only [hf, hg]
        have : h.fns.set r f = h.fns := by
          apply List.ext_getElem?
          intro i
          rw [List.getElem?_set]
          split
          · next e => subst e; rw [hf]; simp [lt_of_some hf]
          · rfl
        rw [this]
      rw [he]; exact ⟨hi, fun _ _ hq => hq⟩
    cases hk : newAggregatorForName f0.name with
    | none =>
      have hg : f.getAggregator E h.aggrs [] = (f, h.aggrs, none) := by
        simp only [FObj.getAggregator, hag, hname, hk]
      have h2 : (h.aggregator E r []).2 = none := by simp only [Heap.aggregator, hf, hg]
      obtain ⟨i1, i2⟩ := hsame h2 (.inl hk) hg
      exact ⟨i1, i2, hrest, h2⟩
    | some k =>
      rcases newAggr_args E k f0.args with ⟨e, en⟩ | ⟨ene, a, ea, ak, an, aa, ag⟩
      · have hg : f.getAggregator E h.aggrs [] = (f, h.aggrs, none) := by
          simp only [FObj.getAggregator, hag, hname, hk, hargs, List.nil_append, en]
        have h2 : (h.aggregator E r []).2 = none := by simp only [Heap.aggregator, hf, hg]
        obtain ⟨i1, i2⟩ := hsame h2 (.inr ⟨k, hk, en⟩) hg
        refine ⟨i1, i2, hrest, ?_⟩
        dsimp only; rw [en]; exact h2
      · have hg : f.getAggregator E h.aggrs [] = ({ f with aggregator := some h.aggrs.length, type := .aggregate }, h.aggrs ++ [a], some h.aggrs.length) := by
          simp only [FObj.getAggregator, hag, hname, hk, hargs, List.nil_append, ea]
        have he : h.aggregator E r [] = ({ fns := h.fns.set r { f with aggregator := some h.aggrs.length, type := .aggregate }, aggrs := h.aggrs ++ [a] },
            some h.aggrs.length) := by
          unfold Heap.aggregator
          simp only [hf, hg]
        have hta : f.type = .aggregate := by
          obtain ⟨g0, e1, _, e3⟩ := hr.fns r hm
          rw [hf0] at e1; cases e1
          rw [htype]; exact e3 (by rw [hk]; simp)
        have hkeepA : ∀ (q : Nat) (b : Aggr V F), h.aggrs[q]? = some b → (h.aggrs ++ [a])[q]? = some b := by
          intro q b hq; rw [List.getElem?_append_left (lt_of_some hq)]; exact hq
        have hnew : (h.aggrs ++ [a])[h.aggrs.length]? = some a := by simp
        have hself : (h.fns.set r { f with aggregator := some h.aggrs.length, type := .aggregate })[r]? =
            some { f with aggregator := some h.aggrs.length, type := .aggregate } := by simp [lt_of_some hf]
        have hold : ∀ i, i ∈ rs → ∀ (g : FObj V F T) (p : Nat), h.fns[i]? = some g → g.aggregator = some p → p < h.aggrs.length := by
          intro i him g p hgi hp
          obtain ⟨g0, e1, _, _⟩ := hr.fns i him
          obtain ⟨g', e2, _, e3⟩ := hi.fns i him g0 e1
          rw [hgi] at e2; cases e2
          obtain ⟨b, _, hb, _⟩ := e3 p hp
          exact lt_of_some hb
        rw [he]
        refine ⟨⟨?_, ?_⟩, hkeepA, fun i g p hg hp => by have := hrest i g p hg hp; rw [he] at this; exact this, ?_⟩
        · intro i him g0 hg0
          by_cases hir : i = r
          · subst hir
            rw [hf0] at hg0; cases hg0
            refine ⟨_, hself, ?_, ?_⟩
            · rw [← hv]; simp only [FObj.view, hta]
            · intro p hp
              simp only [Option.some.injEq] at hp; subst hp
              refine ⟨a, k, hnew, hk, ak, an, aa, ene, ?_⟩
              rw [ag]
              rcases hP with ⟨f', p', e1', e2'⟩ | hP
              · rw [hf] at e1'; cases e1'; rw [hag] at e2'; cases e2'
              · exact hP
          · obtain ⟨g, e1, e2, e3⟩ := hi.fns i him g0 hg0
            refine ⟨g, ?_, e2, fun p hp => ?_⟩
            · rw [List.getElem?_set_ne (fun e => hir e.symm)]; exact e1
            · obtain ⟨b, k', hb, rest⟩ := e3 p hp
              exact ⟨b, k', hkeepA p b hb, rest⟩
        · intro i him j hjm hij g g' p hgi hgj hp hp'
          rw [List.getElem?_set] at hgi hgj
          by_cases hir : r = i
          · subst hir
            simp only [if_true, lt_of_some hf, Option.some.injEq] at hgi
            rw [if_neg hij] at hgj
            subst hgi
            simp only [Option.some.injEq] at hp; subst hp
            exact absurd (hold j hjm g' _ hgj hp') (Nat.lt_irrefl _)
          · rw [if_neg hir] at hgi
            by_cases hjr : r = j
            · subst hjr
              simp only [if_true, lt_of_some hf, Option.some.injEq] at hgj
              subst hgj
              simp only [Option.some.injEq] at hp'; subst hp'
              exact absurd (hold i him g _ hgi hp) (Nat.lt_irrefl _)
            · rw [if_neg hjr] at hgj
              exact hi.inj i him j hjm hij g g' p hgi hgj hp hp'
        · dsimp only; rw [ea]
          exact ⟨_, _, rfl, hself, rfl⟩

/-- The aggregators of the selectors, against those of the value model. -/
theorem aggregators_sim {E : Env V F} {h0 : Heap V F T} {rs : List Nat} {P : Nat → List Str → Prop} (hr : Ready h0 rs)
    (ss : List SelRef) (hs : ∀ r, .fn r ∈ ss → r ∈ rs) (h : Heap V F T) (hP : ∀ r, .fn r ∈ ss → Has h r ∨ P r []) (hi : Inv h0 h rs P) :
    Inv h0 (h.aggregators E ss).1 rs P ∧
    AggrsKept h (h.aggregators E ss).1 ∧
    CacheKept h (h.aggregators E ss).1 ∧
    (match selAggregators E (ss.map (·.view h0)) with
      | none => (h.aggregators E ss).2 = none
      | some l0 => ∃ ps, (h.aggregators E ss).2 = some ps ∧
          Pairwise2 (fun r p => ∃ f : FObj V F T, (h.aggregators E ss).1.fns[r]? = some f ∧ f.aggregator = some p) (refs ss) ps ∧
          Pairwise2 (fun r a0 => ∃ (f0 : FObj V F T) (k : AggrId), h0.fns[r]? = some f0 ∧ newAggregatorForName f0.name = some k ∧ newAggr E k [.args f0.args] = some a0)
            (refs ss) l0) := by
  induction ss generalizing h with
  | nil => exact ⟨hi, fun _ _ hq => hq, fun i g p hg hp => ⟨g, hg, hp⟩, [], rfl, .nil, .nil⟩
  | cons s ss ih =>
    have hs' : ∀ r, .fn r ∈ ss → r ∈ rs := fun r hm => hs r (by simp [hm])
    cases s with
    | col n => exact ih hs' h (fun r hm => hP r (by simp [hm])) hi
    | fn r =>
      have hm := hs r (by simp)
      obtain ⟨f0, hf0, _, _⟩ := hr.fns r hm
      obtain ⟨a1, a2, a3, a4⟩ := ask (E := E) hr hi (hP r (by simp)) hm hf0
      have hview : (SelRef.fn r).view h0 = .fn f0.view := by simp only [SelRef.view, hf0]
      simp only [List.map_cons, hview, selAggregators, FObj.view, refs]
      generalize hx : h.aggregator E r [] = x at a1 a2 a3 a4
      obtain ⟨h', o⟩ := x
      dsimp only at a1 a2 a3 a4
      have hnone : o = none → Inv h0 (h.aggregators E (.fn r :: ss)).1 rs P ∧
          AggrsKept h (h.aggregators E (.fn r :: ss)).1 ∧
          CacheKept h (h.aggregators E (.fn r :: ss)).1 ∧
          (h.aggregators E (.fn r :: ss)).2 = none := by
        intro ho; subst ho
        simp only [Heap.aggregators, hx]
        exact ⟨a1, a2, a3, trivial⟩
      cases hk : newAggregatorForName f0.name with
      | none => rw [hk] at a4; exact hnone a4
      | some k =>
        rw [hk] at a4
        dsimp only at a4 ⊢
        cases ha : newAggr E k [.args f0.args] with
        | none => rw [ha] at a4; exact hnone a4
        | some a0 =>
          rw [ha] at a4
          dsimp only at a4 ⊢
          obtain ⟨p, f, ho, hf, hp⟩ := a4
          subst ho
          obtain ⟨b1, b2, b3, b4⟩ := ih hs' h' (fun r hm => (hP r (by simp [hm])).imp (Has.kept a3) id) a1
          simp only [Heap.aggregators, hx]
          generalize h'.aggregators E ss = y at b1 b2 b3 b4
          obtain ⟨h'', o⟩ := y
          dsimp only at b1 b2 b3 b4
          cases hsel : selAggregators E (ss.map (·.view h0)) with
          | none =>
            rw [hsel] at b4
            dsimp only at b4
            subst b4
            exact ⟨b1, fun q a hq => b2 q a (a2 q a hq), fun i g p hg hp => by
              obtain ⟨g', e1, e2⟩ := a3 i g p hg hp; exact b3 i g' p e1 e2, rfl⟩
          | some l0 =>
            rw [hsel] at b4
            dsimp only at b4
            obtain ⟨ps, ho, q1, q2⟩ := b4
            subst ho
            refine ⟨b1, fun q a hq => b2 q a (a2 q a hq), fun i g p hg hp => by
              obtain ⟨g', e1, e2⟩ := a3 i g p hg hp; exact b3 i g' p e1 e2, ?_⟩
            exact ⟨p :: ps, rfl, .cons (b3 r f p hf hp) q1, .cons ⟨f0, k, hf0, hk, ha⟩ q2⟩

end Verif.Lemmas.FnState
