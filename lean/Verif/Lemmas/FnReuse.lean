import Verif.Lemmas.FnState
import Verif.Lemmas.AggrSet
/-! Lemmas about selectors that are used more than once: aggregators of a heap against aggregators as values. -/
namespace Verif.Lemmas.FnState
open Verif Verif.Fn Verif.Rs Verif.FnState Verif.Spec Verif.Lemmas
variable {V F T : Type}

/-- The aggregators at these places are these. -/
abbrev At (as : List (Aggr V F)) : List Nat → List (Aggr V F) → Prop := Pairwise2 (fun p a => as[p]? = some a)

theorem at_set {as : List (Aggr V F)} {ps : List Nat} {l : List (Aggr V F)} (h : At as ps l) {p : Nat} (hp : p ∉ ps) (x : Aggr V F) :
    At (as.set p x) ps l := by
  induction h with
  | nil => exact .nil
  | @cons q a ps l hq _ ih =>
    refine .cons ?_ (ih (fun hm => hp (by simp [hm])))
    rw [List.getElem?_set_ne (fun he => hp (by simp [he]))]; exact hq

theorem lt_of_some {α : Type} {l : List α} {i : Nat} {x : α} (h : l[i]? = some x) : i < l.length := by
  rcases Nat.lt_or_ge i l.length with hh | hh
  · exact hh
  · rw [List.getElem?_eq_none hh] at h; cases h

theorem set_self {as : List (Aggr V F)} {p : Nat} {a x : Aggr V F} (h : as[p]? = some a) : (as.set p x)[p]? = some x := by
  simp [lt_of_some h]

theorem resetAt_sim (E : Env V F) (os : List AggrOpt) {as : List (Aggr V F)} {ps : List Nat} {l : List (Aggr V F)} (h : At as ps l)
    (hn : ps.Nodup) : (resetAt E os as ps).2 = (setReset E os l).2 ∧ At (resetAt E os as ps).1 ps (setReset E os l).1 ∧
      ∀ q, q ∉ ps → (resetAt E os as ps).1[q]? = as[q]? := by
  induction ps generalizing as l with
  | nil => cases h; exact ⟨rfl, .nil, fun _ _ => rfl⟩
  | cons p ps ih =>
    cases h with
    | @cons _ a _ l hp hr =>
      obtain ⟨hpn, hn'⟩ := List.nodup_cons.mp hn
      simp only [resetAt, hp, setReset]
      cases hf : (a.reset E os).2 with
      | false =>
        simp only [Bool.false_eq_true, ↓reduceIte]
        exact ⟨trivial, .cons (set_self hp) (at_set hr hpn _), fun q hq => by rw [List.getElem?_set_ne (fun he => hq (by simp [he]))]⟩
      | true =>
        simp only [↓reduceIte]
        obtain ⟨h1, h2, h3⟩ := ih (at_set hr hpn (a.reset E os).1) hn'
        refine ⟨h1, .cons ?_ h2, fun q hq => ?_⟩
        · rw [h3 p hpn]; exact set_self hp
        · rw [h3 q (fun hm => hq (by simp [hm])), List.getElem?_set_ne (fun he => hq (by simp [he]))]

theorem aggregateAt_sim (E : Env V F) (v : AggrIn V) {as : List (Aggr V F)} {ps : List Nat} {l : List (Aggr V F)} (h : At as ps l)
    (hn : ps.Nodup) : (aggregateAt E v as ps).2 = (setAggregate E v l).2 ∧ At (aggregateAt E v as ps).1 ps (setAggregate E v l).1 ∧
      ∀ q, q ∉ ps → (aggregateAt E v as ps).1[q]? = as[q]? := by
  induction ps generalizing as l with
  | nil => cases h; exact ⟨rfl, .nil, fun _ _ => rfl⟩
  | cons p ps ih =>
    cases h with
    | @cons _ a _ l hp hr =>
      obtain ⟨hpn, hn'⟩ := List.nodup_cons.mp hn
      have hfail : At (as.set p (a.aggregate E v).1) (p :: ps) ((a.aggregate E v).1 :: l) ∧
          ∀ q, q ∉ p :: ps → (as.set p (a.aggregate E v).1)[q]? = as[q]? :=
        ⟨.cons (set_self hp) (at_set hr hpn _), fun q hq => by rw [List.getElem?_set_ne (fun he => hq (by simp [he]))]⟩
      simp only [aggregateAt, hp, setAggregate]
      cases hf : (a.aggregate E v).2 with
      | err => exact ⟨rfl, hfail⟩
      | panic => exact ⟨rfl, hfail⟩
      | ok u =>
        obtain ⟨h1, h2, h3⟩ := ih (at_set hr hpn (a.aggregate E v).1) hn'
        refine ⟨h1, .cons ?_ h2, fun q hq => ?_⟩
        · rw [h3 p hpn]; exact set_self hp
        · rw [h3 q (fun hm => hq (by simp [hm])), List.getElem?_set_ne (fun he => hq (by simp [he]))]

theorem readAt_eq {as : List (Aggr V F)} {ps : List Nat} {l : List (Aggr V F)} (h : At as ps l) : readAt as ps = l := by
  induction h with
  | nil => rfl
  | cons hp _ ih => simp only [readAt, hp, ih]

/-- What an aggregator is set up with. -/
structure Config (a b : Aggr V F) : Prop where
  kind : b.kind = a.kind
  name : b.name = a.name
  args : b.args = a.args
  groupBys : b.groupBys = a.groupBys

theorem Config.refl (a : Aggr V F) : Config a a := ⟨rfl, rfl, rfl, rfl⟩

theorem Config.trans {a b c : Aggr V F} (h : Config a b) (h' : Config b c) : Config a c :=
  ⟨h'.kind.trans h.kind, h'.name.trans h.name, h'.args.trans h.args, h'.groupBys.trans h.groupBys⟩

theorem config_ensure (E : Env V F) (a : Aggr V F) (key : Str) (vals : List (Option V)) : Config a (a.ensureGroup E key vals) := by
  unfold Aggr.ensureGroup; split <;> exact ⟨rfl, rfl, rfl, rfl⟩

theorem config_row (E : Env V F) (a : Aggr V F) (row : List (Option V)) : Config a (a.aggregateRow E row).1 := by
  unfold Aggr.aggregateRow
  split
  · exact .refl a
  split
  · dsimp only
    split
    · exact .refl a
    split
    · exact .refl a
    · next key _ =>
      have hc := config_ensure E a key (row.take a.groupBys.length)
      split
      · exact hc
      · split <;> exact ⟨hc.kind, hc.name, hc.args, hc.groupBys⟩
  · dsimp only
    split <;> exact ⟨rfl, rfl, rfl, rfl⟩

theorem config_aggregate (E : Env V F) (a : Aggr V F) (v : AggrIn V) : Config a (a.aggregate E v).1 := by
  cases v with
  | row r => exact config_row E a r
  | map m =>
    simp only [Aggr.aggregate, Aggr.aggregateMap]
    split
    · exact .refl a
    · exact config_row E a _
  | other => exact .refl a

theorem config_setAggregate (E : Env V F) (v : AggrIn V) (l : List (Aggr V F)) : Pairwise2 Config l (setAggregate E v l).1 := by
  induction l with
  | nil => exact .nil
  | cons a l ih =>
    simp only [setAggregate]
    split
    · exact .cons (config_aggregate E a v) ih
    · exact .cons (config_aggregate E a v) (pairwise2_refl Config.refl l)

theorem config_trans {l m n : List (Aggr V F)} (h : Pairwise2 Config l m) (h' : Pairwise2 Config m n) : Pairwise2 Config l n := by
  induction h generalizing n with
  | nil => cases h'; exact .nil
  | cons h1 _ ih => cases h' with
    | cons h2 h3 => exact .cons (h1.trans h2) (ih h3)

/-- The loop on the heap against the loop on values. -/
theorem loopAt_sim (R : REnv V F T) (fuel : Nat) (src : RSet V F T) {as : List (Aggr V F)} {ps : List Nat} {l : List (Aggr V F)}
    (h : At as ps l) (hn : ps.Nodup) :
    (∃ l', At (loopAt R fuel src as ps).1 ps l' ∧ Pairwise2 Config l l' ∧
      (loopAt R fuel src as ps).2 = (match aggrLoop R fuel src l with
        | none => none | some .err => some .err | some .panic => some .panic | some (.ok _) => some (.ok ())) ∧
      (∀ l'', aggrLoop R fuel src l = some (.ok l'') → l' = l'')) ∧
    ∀ q, q ∉ ps → (loopAt R fuel src as ps).1[q]? = as[q]? := by
  induction fuel generalizing src as l with
  | zero => exact ⟨⟨l, h, pairwise2_refl Config.refl l, rfl, fun l'' h' => by cases h'⟩, fun _ _ => rfl⟩
  | succ fuel ih =>
    simp only [loopAt, aggrLoop]
    split
    · cases hr : (src.next.1.row R).2 with
      | err => exact ⟨⟨l, h, pairwise2_refl Config.refl l, rfl, fun l'' h' => by cases h'⟩, fun _ _ => rfl⟩
      | panic => exact ⟨⟨l, h, pairwise2_refl Config.refl l, rfl, fun l'' h' => by cases h'⟩, fun _ _ => rfl⟩
      | ok row =>
        dsimp only
        obtain ⟨h1, h2, h3⟩ := aggregateAt_sim R.E (.map row.getObject.2) h hn
        have hc := config_setAggregate R.E (.map row.getObject.2) l
        rw [h1]
        cases hs : (setAggregate R.E (.map row.getObject.2) l).2 with
        | err => exact ⟨⟨_, h2, hc, rfl, fun l'' h' => by cases h'⟩, h3⟩
        | panic => exact ⟨⟨_, h2, hc, rfl, fun l'' h' => by cases h'⟩, h3⟩
        | ok u =>
          dsimp only
          obtain ⟨⟨l', g1, g2, g3, g4⟩, g5⟩ := ih (src.next.1.row R).1 h2
          exact ⟨⟨l', g1, config_trans hc g2, g3, g4⟩, fun q hq => (g5 q hq).trans (h3 q hq)⟩
    · refine ⟨⟨l, h, pairwise2_refl Config.refl l, rfl, fun l'' h' => ?_⟩, fun _ _ => rfl⟩
      simp only [Option.some.injEq, Res.ok.injEq] at h'; exact h'

/-! ### Sets of aggregators that only differ in forgotten group keys -/

theorem same_setAggregate (E : Env V F) (v : AggrIn V) {l m : List (Aggr V F)} (h : Pairwise2 Same l m) :
    (setAggregate E v l).2 = (setAggregate E v m).2 ∧ Pairwise2 Same (setAggregate E v l).1 (setAggregate E v m).1 := by
  induction h with
  | nil => exact ⟨rfl, .nil⟩
  | @cons a b l m hab hlm ih =>
    obtain ⟨h1, h2⟩ := same_aggregate (E := E) hab v
    simp only [setAggregate]
    rw [← h2]
    cases (a.aggregate E v).2 with
    | ok u => exact ⟨ih.1, .cons h1 ih.2⟩
    | err => exact ⟨rfl, .cons h1 hlm⟩
    | panic => exact ⟨rfl, .cons h1 hlm⟩

theorem same_aggrLoop (R : REnv V F T) (fuel : Nat) (src : RSet V F T) {l m : List (Aggr V F)} (h : Pairwise2 Same l m) :
    (aggrLoop R fuel src l = none ∧ aggrLoop R fuel src m = none) ∨
    (aggrLoop R fuel src l = some .err ∧ aggrLoop R fuel src m = some .err) ∨
    (aggrLoop R fuel src l = some .panic ∧ aggrLoop R fuel src m = some .panic) ∨
    ∃ l' m', aggrLoop R fuel src l = some (.ok l') ∧ aggrLoop R fuel src m = some (.ok m') ∧ Pairwise2 Same l' m' := by
  induction fuel generalizing src l m with
  | zero => exact .inl ⟨rfl, rfl⟩
  | succ fuel ih =>
    simp only [aggrLoop]
    split
    · cases hr : (src.next.1.row R).2 with
      | err => exact .inr (.inl ⟨rfl, rfl⟩)
      | panic => exact .inr (.inr (.inl ⟨rfl, rfl⟩))
      | ok row =>
        dsimp only
        obtain ⟨h1, h2⟩ := same_setAggregate R.E (.map row.getObject.2) h
        rw [← h1]
        cases (setAggregate R.E (.map row.getObject.2) l).2 with
        | err => exact .inr (.inl ⟨rfl, rfl⟩)
        | panic => exact .inr (.inr (.inl ⟨rfl, rfl⟩))
        | ok u => exact ih _ h2
    · exact .inr (.inr (.inr ⟨l, m, rfl, rfl, h⟩))

theorem same_setFinalize (E : Env V F) (chs : List Choice) (hl : ∀ ch ∈ chs, Lawful ch) {l m : List (Aggr V F)} (h : Pairwise2 Same l m) :
    setFinalize E (chs.zip l) = setFinalize E (chs.zip m) := by
  have key : finalizeAll E (chs.zip l) = finalizeAll E (chs.zip m) := by
    induction h generalizing chs with
    | nil => simp
    | @cons a b l m hab _ ih =>
      cases chs with
      | nil => rfl
      | cons ch chs =>
        simp only [List.zip_cons_cons, finalizeAll]
        rw [same_finalize hab ch (hl ch (by simp)) .none, ih chs (fun c hc => hl c (by simp [hc]))]
  unfold setFinalize
  rw [key]

/-- The group columns an aggregator has when it was last given this GROUP BY. -/
def groupsOf : Option Str → List Str
  | none => []
  | some g => [g].filter (fun g => !(g.length == 0))

/-- The GROUP BY in force: the one given, or else the one given before. -/
def over : Option Str → Option Str → Option Str
  | some g, _ => some g
  | none, c => c

/-- An aggregator that was used with the GROUP BY `cur`, and a new one of the same set-up. -/
def Alike (cur : Option Str) (a b : Aggr V F) : Prop :=
  a.kind = b.kind ∧ a.name = b.name ∧ a.args = b.args ∧ a.args ≠ [] ∧ a.groupBys = groupsOf cur ∧ b.groupBys = []

theorem reset_config (E : Env V F) (g cur : Option Str) (a : Aggr V F) (h : a.args ≠ []) (hc : a.groupBys = groupsOf cur) :
    ∃ a', a.reset E (groupOpts g) = (a', true) ∧
    a'.kind = a.kind ∧ a'.name = a.name ∧ a'.args = a.args ∧ a'.groupBys = groupsOf (over g cur) ∧ Fresh E a' := by
  have ha : ∀ a : Aggr V F, a.args ≠ [] → ∃ a', a.resetCore E = (a', true) ∧ Config a a' := by
    intro a h4
    unfold Aggr.resetCore
    rw [if_neg (by cases ha : a.args with | nil => exact absurd ha h4 | cons x xs => simp)]
    exact ⟨_, rfl, rfl, rfl, rfl, rfl⟩
  cases g with
  | none =>
    obtain ⟨a', e, c⟩ := ha a h
    exact ⟨a', e, c.kind, c.name, c.args, c.groupBys.trans hc, fresh_of_resetCore e⟩
  | some g =>
    obtain ⟨a', e, c⟩ := ha (a.setGroupBys [g]) h
    exact ⟨a', e, c.kind, c.name, c.args, c.groupBys, fresh_of_resetCore e⟩

theorem over_none (c : Option Str) : over c none = c := by cases c <;> rfl

theorem reset_alike (E : Env V F) (g cur : Option Str) {a b : Aggr V F} (h : Alike cur a b) :
    ∃ a' b', a.reset E (groupOpts g) = (a', true) ∧ b.reset E (groupOpts (over g cur)) = (b', true) ∧ Same a' b' := by
  obtain ⟨h1, h2, h3, h4, h5, h6⟩ := h
  obtain ⟨a', e1, c1, c2, c3, c4, c5⟩ := reset_config E g cur a h4 h5
  obtain ⟨b', e2, d1, d2, d3, d4, d5⟩ := reset_config E (over g cur) none b (h3 ▸ h4) h6
  rw [over_none] at d4
  exact ⟨a', b', e1, e2, same_fresh c5 d5 (by rw [c1, d1, h1]) (by rw [c2, d2, h2]) (by rw [c3, d3, h3]) (by rw [c4, d4])⟩

theorem setReset_alike (E : Env V F) (g cur : Option Str) {l m : List (Aggr V F)} (h : Pairwise2 (Alike cur) l m) :
    (setReset E (groupOpts g) l).2 = true ∧ (setReset E (groupOpts (over g cur)) m).2 = true ∧
      Pairwise2 Same (setReset E (groupOpts g) l).1 (setReset E (groupOpts (over g cur)) m).1 := by
  induction h with
  | nil => exact ⟨rfl, rfl, .nil⟩
  | cons hab _ ih =>
    obtain ⟨a', b', e1, e2, hs⟩ := reset_alike E g cur hab
    simp only [setReset, e1, e2, if_true]
    exact ⟨ih.1, ih.2.1, .cons hs ih.2.2⟩

end Verif.Lemmas.FnState
