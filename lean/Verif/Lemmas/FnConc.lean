import Verif.Spec.FnConc
import Verif.Lemmas.ParserConc
/-! Invariants of function objects that several goroutines use. -/
namespace Verif.FnConc
open Verif Verif.Fn Verif.FnState Verif.Spec.FnConc
open Verif.Net (upd)
open Verif.Lemmas.ConnConc (upd_same upd_other)
open Verif.PConc (upd_upd upd_self)
variable {V F T : Type}

/-! ### Functions that calls no longer change -/

/-- The program writes nothing and ends in `r`, as long as the function is `f`. -/
def Still (f : FObj V F T) (r : Ret V F T) : Prog V F T → Prop
  | .ret r' => r' = r
  | .readExec k => Still f r (k f.executor)
  | .readAggr k => Still f r (k f.aggregator)
  | .readType k => Still f r (k f.type)
  | .writeExec .. => False
  | .writeAggr .. => False
  | .writeType .. => False
  | .make .. => False

theorem still_code (E : Env V F) (env : XEnv V F T) {f : FObj V F T} (as : List (Aggr V F)) (hs : Settled E env f) (op : Op V F T) :
    Still f (alone E env f as op) (code E env f.name f.args op) := by
  cases op with
  | executor os =>
    have h1 := hs.1 os
    simp only [code, Still, alone, FObj.getExecutor] at *
    cases he : f.executor with
    | some ex => simp [Still, he]
    | none =>
      rw [he] at h1
      cases hn : newExecutorForName f.name with
      | none => simp [Still]
      | some id =>
        rw [hn] at h1
        have := congrArg FObj.executor h1
        rw [he] at this; cases this
  | aggregator os =>
    have h1 := hs.2 as os
    simp only [code, Still, alone, FObj.getAggregator] at *
    cases he : f.aggregator with
    | some p => simp [Still, he]
    | none =>
      rw [he] at h1
      cases hn : newAggregatorForName f.name with
      | none => simp [Still]
      | some k =>
        rw [hn] at h1
        simp only at *
        cases ha : newAggr E k (os ++ [AggrOpt.args f.args]) with
        | none => simp [Still]
        | some a =>
          rw [ha] at h1
          have := congrArg FObj.aggregator h1
          rw [he] at this; cases this
  | isAggregator => simp [code, Still, alone, FObj.isAggregator]

theorem Still.does {f : FObj V F T} {r : Ret V F T} {as : List (Aggr V F)} {a b x} (h : Still f r a) (d : Does (f, as) a x b) :
    x = (f, as) ∧ Still f r b := by
  cases d with
  | readExec => exact ⟨rfl, h⟩
  | readAggr => exact ⟨rfl, h⟩
  | readType => exact ⟨rfl, h⟩
  | writeExec => exact h.elim
  | writeAggr => exact h.elim
  | writeType => exact h.elim
  | make => exact h.elim

theorem Still.access {f : FObj V F T} {r : Ret V F T} {a : Prog V F T} (h : Still f r a) (g : Field) : Spec.FnConc.access a ≠ some (g, true) := by
  cases a <;> simp [Spec.FnConc.access, Still] at *

theorem last_event {α : Type} {h pre post : List α} {x y : α} (e : h ++ [x] = pre ++ y :: post) :
    (post = [] ∧ h = pre ∧ x = y) ∨ ∃ post', h = pre ++ y :: post' := by
  rcases List.eq_nil_or_concat post with rfl | ⟨post', z, rfl⟩
  · have e1 := List.append_inj_left' (s₁ := h) (s₂ := pre) (t₁ := [x]) (t₂ := [y]) e rfl
    have e2 := List.append_inj_right' (s₁ := h) (s₂ := pre) (t₁ := [x]) (t₂ := [y]) e rfl
    cases e2
    exact .inl ⟨rfl, e1, rfl⟩
  · refine .inr ⟨post', ?_⟩
    have : h ++ [x] = (pre ++ y :: post') ++ [z] := by simpa using e
    exact List.append_inj_left' this rfl

theorem settled_run (E : Env V F) (env : XEnv V F T) {f : FObj V F T} {as : List (Aggr V F)} (hs : Settled E env f) {h : List (Event V F T)} {s : Conf V F T}
    (r : Conf.Run E env (Conf.of f as) h s) : s.fn = f ∧ s.aggrs = as ∧ (∀ t op a, s.pc t = some (op, a) → Still f (alone E env f as op) a) ∧
      ∀ t op r, Event.ret t op r ∈ h → r = alone E env f as op := by
  induction r with
  | refl => exact ⟨rfl, rfl, fun t op a e => (by cases e), fun t op r e => (by cases e)⟩
  | @step h s1 e s2 r st ih =>
    obtain ⟨h1, h2, h3, h4⟩ := ih
    cases st with
    | call t op hn =>
      refine ⟨h1, h2, ?_, ?_⟩
      · intro u op' a hu
        by_cases hut : u = t
        · subst hut; simp only [upd_same] at hu; cases hu
          rw [h1]; exact still_code E env as hs op
        · simp only at hu; rw [upd_other _ _ _ _ hut] at hu; exact h3 _ _ _ hu
      · intro t' op' r' hm
        rcases List.mem_append.1 hm with hm | hm
        · exact h4 _ _ _ hm
        · simp at hm
    | does t op a x b hpc hd =>
      rw [h1, h2] at hd
      obtain ⟨rfl, hb⟩ := (h3 _ _ _ hpc).does hd
      refine ⟨rfl, rfl, ?_, by simpa using h4⟩
      intro u op' a' hu
      by_cases hut : u = t
      · subst hut; simp only [upd_same] at hu; cases hu; exact hb
      · simp only at hu; rw [upd_other _ _ _ _ hut] at hu; exact h3 _ _ _ hu
    | ret t op r' hpc =>
      refine ⟨h1, h2, ?_, ?_⟩
      · intro u op' a hu
        by_cases hut : u = t
        · subst hut; simp at hu
        · simp only at hu; rw [upd_other _ _ _ _ hut] at hu; exact h3 _ _ _ hu
      · intro t' op' r'' hm
        rcases List.mem_append.1 hm with hm | hm
        · exact h4 _ _ _ hm
        · simp at hm
          obtain ⟨rfl, rfl, rfl⟩ := hm
          exact h3 _ _ _ hpc

/-! ### First calls -/

/-- Executors that may be seen after history `h`. -/
def IE (env : XEnv V F T) (f : FObj V F T) (h : List (Event V F T)) (x : Exec V F T) : Prop :=
  f.executor = some x ∨ (f.executor = none ∧ ∃ id os t, newExecutorForName f.name = some id ∧ Event.call t (.executor os) ∈ h ∧
    x = newExec env id (os ++ [.args f.args]))

/-- Aggregators that calls in `h` make. -/
def GA (E : Env V F) (f : FObj V F T) (h : List (Event V F T)) (a : Aggr V F) : Prop :=
  f.aggregator = none ∧ ∃ k os t, newAggregatorForName f.name = some k ∧ Event.call t (.aggregator os) ∈ h ∧ newAggr E k (os ++ [.args f.args]) = some a

/-- References that may be seen after `h`. -/
def IA (E : Env V F) (f : FObj V F T) (h : List (Event V F T)) (as : List (Aggr V F)) (p : Nat) : Prop :=
  f.aggregator = some p ∨ ∃ a, as[p]? = some a ∧ GA E f h a

/-- What a call may return. -/
def Fine (E : Env V F) (f : FObj V F T) (ie : Exec V F T → Prop) (ia : Nat → Prop) : Op V F T → Ret V F T → Prop
  | .executor _, .exec (some x) => ie x
  | .executor _, .exec none => f.executor = none ∧ newExecutorForName f.name = none
  | .aggregator _, .aggr (some p) => ia p
  | .aggregator os, .aggr none => f.aggregator = none ∧
      (newAggregatorForName f.name = none ∨ ∃ k, newAggregatorForName f.name = some k ∧ newAggr E k (os ++ [.args f.args]) = none)
  | .isAggregator, .bool _ => True
  | _, _ => False

/-- The program keeps to the executors `ie` and aggregators `ga`, `ia` if all others do, and ends well. -/
def Safe (ie : Exec V F T → Prop) (ga : Aggr V F → Prop) (ia : Nat → Prop) (R : Ret V F T → Prop) (f : FObj V F T) : Bool → Bool → Prog V F T → Prop
  | _, _, .ret r => R r
  | we, wa, .readExec k => ∀ e, (∀ x, e = some x → ie x) → (we = true → e ≠ none) → (e = none → f.executor = none) → Safe ie ga ia R f (we || e.isSome) wa (k e)
  | _, wa, .writeExec e k => ie e ∧ Safe ie ga ia R f true wa k
  | we, wa, .readAggr k => ∀ e, (∀ p, e = some p → ia p) → (wa = true → e ≠ none) → (e = none → f.aggregator = none) → Safe ie ga ia R f we (wa || e.isSome) (k e)
  | we, _, .writeAggr p k => ia p ∧ Safe ie ga ia R f we true k
  | we, wa, .readType k => ∀ t, Safe ie ga ia R f we wa (k t)
  | we, wa, .writeType _ k => Safe ie ga ia R f we wa k
  | we, wa, .make a k => ga a ∧ ∀ p, ia p → Safe ie ga ia R f we wa (k p)

/-- Safe whatever else may come. -/
def SafeAll (E : Env V F) (env : XEnv V F T) (f : FObj V F T) (h : List (Event V F T)) (as : List (Aggr V F)) (op : Op V F T) (we wa : Bool) (a : Prog V F T) : Prop :=
  ∀ ie ga ia, (∀ x, IE env f h x → ie x) → (∀ a, GA E f h a → ga a) → (∀ p, IA E f h as p → ia p) → Safe ie ga ia (Fine E f ie ia op) f we wa a

theorem safe_code (E : Env V F) (env : XEnv V F T) (f : FObj V F T) (h : List (Event V F T)) (as : List (Aggr V F)) (op : Op V F T) (t : Nat)
    (hm : Event.call t op ∈ h) : SafeAll E env f h as op false false (code E env f.name f.args op) := by
  intro ie ga ia hie hga hia
  cases op with
  | executor os =>
    simp only [code, Safe]
    intro e he _ hn
    cases e with
    | some x =>
      simp only [Safe]
      intro e' he' hw _
      cases e' with
      | some y => exact he' y rfl
      | none => exact absurd rfl (hw (by simp))
    | none =>
      simp only
      cases hx : newExecutorForName f.name with
      | none => exact ⟨hn rfl, hx⟩
      | some id =>
        simp only [Safe]
        refine ⟨hie _ (.inr ⟨hn rfl, id, os, t, hx, hm, rfl⟩), ?_⟩
        intro e' he' hw _
        cases e' with
        | some y => exact he' y rfl
        | none => exact absurd rfl (hw (by simp))
  | aggregator os =>
    simp only [code, Safe]
    intro e he _ hn
    cases e with
    | some x =>
      simp only [Safe]
      intro e' he' hw _
      cases e' with
      | some y => exact he' y rfl
      | none => exact absurd rfl (hw (by simp))
    | none =>
      simp only
      cases hx : newAggregatorForName f.name with
      | none => exact ⟨hn rfl, .inl hx⟩
      | some k =>
        simp only
        cases ha : newAggr E k (os ++ [AggrOpt.args f.args]) with
        | none => exact ⟨hn rfl, .inr ⟨k, hx, ha⟩⟩
        | some a =>
          simp only [Safe]
          refine ⟨hga _ ⟨hn rfl, k, os, t, hx, hm, ha⟩, fun p hp => ⟨hp, ?_⟩⟩
          intro e' he' hw _
          cases e' with
          | some y => exact he' y rfl
          | none => exact absurd rfl (hw (by simp))
  | isAggregator => simp only [code, Safe]; intro _; trivial

theorem IE.mono {env : XEnv V F T} {f : FObj V F T} {h h' : List (Event V F T)} (hs : ∀ e ∈ h, e ∈ h') {x} (i : IE env f h x) : IE env f h' x := by
  rcases i with i | ⟨i, id, os, t, a, b, c⟩
  · exact .inl i
  · exact .inr ⟨i, id, os, t, a, hs _ b, c⟩

theorem GA.mono {E : Env V F} {f : FObj V F T} {h h' : List (Event V F T)} (hs : ∀ e ∈ h, e ∈ h') {x} (i : GA E f h x) : GA E f h' x := by
  obtain ⟨i, id, os, t, a, b, c⟩ := i
  exact ⟨i, id, os, t, a, hs _ b, c⟩

theorem IA.mono {E : Env V F} {f : FObj V F T} {h h' : List (Event V F T)} (hs : ∀ e ∈ h, e ∈ h') {as as' : List (Aggr V F)}
    (ha : ∀ (p : Nat) (a : Aggr V F), as[p]? = some a → as'[p]? = some a) {p} (i : IA E f h as p) : IA E f h' as' p := by
  rcases i with i | ⟨a, i, g⟩
  · exact .inl i
  · exact .inr ⟨a, ha _ _ i, g.mono hs⟩

theorem SafeAll.mono {E : Env V F} {env : XEnv V F T} {f : FObj V F T} {h h' : List (Event V F T)} {as as' : List (Aggr V F)} {op we wa} {a : Prog V F T}
    (hs : ∀ e ∈ h, e ∈ h') (ha : ∀ (p : Nat) (a : Aggr V F), as[p]? = some a → as'[p]? = some a) (i : SafeAll E env f h as op we wa a) : SafeAll E env f h' as' op we wa a :=
  fun ie ga ia h1 h2 h3 => i ie ga ia (fun x hx => h1 x (hx.mono hs)) (fun x hx => h2 x (hx.mono hs)) (fun x hx => h3 x (hx.mono hs ha))

/-- The invariant of first calls. -/
structure Good (E : Env V F) (env : XEnv V F T) (f : FObj V F T) (as : List (Aggr V F)) (h : List (Event V F T)) (s : Conf V F T) : Prop where
  name : s.fn.name = f.name
  args : s.fn.args = f.args
  exec : ∀ x, s.fn.executor = some x → IE env f h x
  aggr : ∀ p, s.fn.aggregator = some p → IA E f h s.aggrs p
  execNone : s.fn.executor = none → f.executor = none
  aggrNone : s.fn.aggregator = none → f.aggregator = none
  heap : ∃ l, s.aggrs = as ++ l
  pcs : ∀ t op a, s.pc t = some (op, a) → ∃ we wa, (we = true → s.fn.executor ≠ none) ∧ (wa = true → s.fn.aggregator ≠ none) ∧
    SafeAll E env f h s.aggrs op we wa a
  rets : ∀ pre post t op r, h = pre ++ .ret t op r :: post → Fine E f (IE env f pre) (IA E f pre s.aggrs) op r

theorem Fine.mono {E : Env V F} {f : FObj V F T} {ie ie' : Exec V F T → Prop} {ia ia' : Nat → Prop} {op : Op V F T} {r : Ret V F T}
    (h1 : ∀ x, ie x → ie' x) (h2 : ∀ p, ia p → ia' p) (h : Fine E f ie ia op r) : Fine E f ie' ia' op r := by
  cases op <;> cases r with
  | exec e => cases e <;> first | exact h1 _ h | exact h
  | aggr e => cases e <;> first | exact h2 _ h | exact h
  | bool => exact h

theorem Good.of_does {E : Env V F} {env : XEnv V F T} {f : FObj V F T} {as : List (Aggr V F)} {h : List (Event V F T)} {s : Conf V F T} (g : Good E env f as h s)
    {t op a x b} (hpc : s.pc t = some (op, a)) (hd : Does (s.fn, s.aggrs) a x b) :
    Good E env f as h { fn := x.1, aggrs := x.2, pc := upd s.pc t (some (op, b)) } := by
  obtain ⟨we, wa, hwe, hwa, hsa⟩ := g.pcs _ _ _ hpc
  have rest : ∀ (fn' : FObj V F T) (as' : List (Aggr V F)), (s.fn.executor ≠ none → fn'.executor ≠ none) → (s.fn.aggregator ≠ none → fn'.aggregator ≠ none) →
      (∀ (p : Nat) (a : Aggr V F), s.aggrs[p]? = some a → as'[p]? = some a) →
      (∃ we wa, (we = true → fn'.executor ≠ none) ∧ (wa = true → fn'.aggregator ≠ none) ∧ SafeAll E env f h as' op we wa b) →
      ∀ u op' a', upd s.pc t (some (op, b)) u = some (op', a') → ∃ we wa, (we = true → fn'.executor ≠ none) ∧ (wa = true → fn'.aggregator ≠ none) ∧
        SafeAll E env f h as' op' we wa a' := by
    intro fn' as' he ha hh hb u op' a' hu
    by_cases hut : u = t
    · subst hut; rw [upd_same] at hu; cases hu; exact hb
    · rw [upd_other _ _ _ _ hut] at hu
      obtain ⟨we', wa', h1, h2, h3⟩ := g.pcs _ _ _ hu
      exact ⟨we', wa', fun e => he (h1 e), fun e => ha (h2 e), h3.mono (fun _ e => e) hh⟩
  cases hd with
  | readExec k =>
    refine { g with pcs := rest _ _ id id (fun _ _ e => e) ⟨we || s.fn.executor.isSome, wa, ?_, hwa, ?_⟩ }
    · intro e hn; rw [hn] at e; simp at e; exact hwe e hn
    · intro ie ga ia h1 h2 h3
      exact hsa ie ga ia h1 h2 h3 _ (fun x hx => h1 _ (g.exec x hx)) hwe g.execNone
  | readAggr k =>
    refine { g with pcs := rest _ _ id id (fun _ _ e => e) ⟨we, wa || s.fn.aggregator.isSome, hwe, ?_, ?_⟩ }
    · intro e hn; rw [hn] at e; simp at e; exact hwa e hn
    · intro ie ga ia h1 h2 h3
      exact hsa ie ga ia h1 h2 h3 _ (fun x hx => h3 _ (g.aggr x hx)) hwa g.aggrNone
  | readType k =>
    refine { g with pcs := rest _ _ id id (fun _ _ e => e) ⟨we, wa, hwe, hwa, ?_⟩ }
    intro ie ga ia h1 h2 h3
    exact hsa ie ga ia h1 h2 h3 _
  | writeExec e k =>
    have he : IE env f h e := (hsa (IE env f h) (GA E f h) (IA E f h s.aggrs) (fun _ e => e) (fun _ e => e) (fun _ e => e)).1
    exact { name := g.name, args := g.args, exec := fun x hx => (by cases hx; exact he), aggr := g.aggr, execNone := fun e => (by cases e), aggrNone := g.aggrNone,
            heap := g.heap, rets := g.rets,
            pcs := rest _ _ (fun _ => by simp) id (fun _ _ e => e) ⟨true, wa, fun _ => by simp, hwa, fun ie ga ia h1 h2 h3 => (hsa ie ga ia h1 h2 h3).2⟩ }
  | writeAggr p k =>
    have he : IA E f h s.aggrs p := (hsa (IE env f h) (GA E f h) (IA E f h s.aggrs) (fun _ e => e) (fun _ e => e) (fun _ e => e)).1
    exact { name := g.name, args := g.args, exec := g.exec, aggr := fun x hx => (by cases hx; exact he), execNone := g.execNone, aggrNone := fun e => (by cases e),
            heap := g.heap, rets := g.rets,
            pcs := rest _ _ id (fun _ => by simp) (fun _ _ e => e) ⟨we, true, hwe, fun _ => by simp, fun ie ga ia h1 h2 h3 => (hsa ie ga ia h1 h2 h3).2⟩ }
  | writeType ty k =>
    exact { name := g.name, args := g.args, exec := g.exec, aggr := g.aggr, execNone := g.execNone, aggrNone := g.aggrNone, heap := g.heap, rets := g.rets,
            pcs := rest _ _ id id (fun _ _ e => e) ⟨we, wa, hwe, hwa, fun ie ga ia h1 h2 h3 => hsa ie ga ia h1 h2 h3⟩ }
  | make a k =>
    have hga : GA E f h a := (hsa (IE env f h) (GA E f h) (IA E f h s.aggrs) (fun _ e => e) (fun _ e => e) (fun _ e => e)).1
    have hh : ∀ (p : Nat) (b : Aggr V F), s.aggrs[p]? = some b → (s.aggrs ++ [a])[p]? = some b := fun p b e => by
      rw [List.getElem?_append_left (List.getElem?_eq_some_iff.1 e).1]; exact e
    obtain ⟨l, hl⟩ := g.heap
    exact { name := g.name, args := g.args, exec := g.exec, aggr := fun p hp => (g.aggr p hp).mono (fun _ e => e) hh, execNone := g.execNone, aggrNone := g.aggrNone,
            heap := ⟨l ++ [a], by simp [hl]⟩,
            rets := fun pre post t op r e => (g.rets pre post t op r e).mono (fun _ e => e) (fun p hp => hp.mono (fun _ e => e) hh),
            pcs := rest _ _ id id hh ⟨we, wa, hwe, hwa, fun ie ga ia h1 h2 h3 =>
              (hsa ie ga ia h1 h2 (fun p hp => h3 p (hp.mono (fun _ e => e) hh))).2 _ (h3 _ (.inr ⟨a, by simp, hga⟩))⟩ }

theorem good_run (E : Env V F) (env : XEnv V F T) {f : FObj V F T} {as : List (Aggr V F)} {h : List (Event V F T)} {s : Conf V F T}
    (r : Conf.Run E env (Conf.of f as) h s) : Good E env f as h s := by
  induction r with
  | refl =>
    exact { name := rfl, args := rfl, exec := fun x hx => .inl hx, aggr := fun p hp => .inl hp, execNone := id, aggrNone := id, heap := ⟨[], by simp [Conf.of]⟩,
            pcs := fun t op a e => (by cases e), rets := fun pre post t op r e => absurd (congrArg List.length e) (by simp) }
  | @step h s1 e s2 r st g =>
    have hsub : ∀ x ∈ h, x ∈ h ++ e.toList := fun x hx => List.mem_append_left _ hx
    cases st with
    | call t op hn =>
      refine { name := g.name, args := g.args, exec := fun x hx => (g.exec x hx).mono hsub, aggr := fun p hp => (g.aggr p hp).mono hsub (fun _ _ e => e), execNone := g.execNone,
               aggrNone := g.aggrNone, heap := g.heap, pcs := ?_, rets := ?_ }
      · intro u op' a hu
        by_cases hut : u = t
        · subst hut; simp only [upd_same] at hu; cases hu
          refine ⟨false, false, by simp, by simp, ?_⟩
          rw [g.name, g.args]
          exact safe_code E env f _ _ _ u (by simp)
        · simp only at hu; rw [upd_other _ _ _ _ hut] at hu
          obtain ⟨we, wa, h1, h2, h3⟩ := g.pcs _ _ _ hu
          exact ⟨we, wa, h1, h2, h3.mono hsub (fun _ _ e => e)⟩
      · intro pre post t' op' r' e
        rcases last_event e with ⟨-, -, e⟩ | ⟨post', e⟩
        · cases e
        · exact g.rets _ _ _ _ _ e
    | does t op a x b hpc hd => simpa using g.of_does hpc hd
    | ret t op r' hpc =>
      refine { name := g.name, args := g.args, exec := fun x hx => (g.exec x hx).mono hsub, aggr := fun p hp => (g.aggr p hp).mono hsub (fun _ _ e => e), execNone := g.execNone,
               aggrNone := g.aggrNone, heap := g.heap, pcs := ?_, rets := ?_ }
      · intro u op' a hu
        by_cases hut : u = t
        · subst hut; simp at hu
        · simp only at hu; rw [upd_other _ _ _ _ hut] at hu
          obtain ⟨we, wa, h1, h2, h3⟩ := g.pcs _ _ _ hu
          exact ⟨we, wa, h1, h2, h3.mono hsub (fun _ _ e => e)⟩
      · intro pre post t' op' r'' e
        rcases last_event e with ⟨-, rfl, e'⟩ | ⟨post', e⟩
        · cases e'
          obtain ⟨we, wa, -, -, h3⟩ := g.pcs _ _ _ hpc
          exact h3 _ (GA E f h) _ (fun _ e => e) (fun _ e => e) (fun _ e => e)
        · exact g.rets _ _ _ _ _ e

/-! ### Running one goroutine -/

/-- Several accesses of one call. -/
inductive Steps : FObj V F T × List (Aggr V F) → Prog V F T → FObj V F T × List (Aggr V F) → Prog V F T → Prop
  | refl (x a) : Steps x a x a
  | head {x a y b z c} (d : Does x a y b) (r : Steps y b z c) : Steps x a z c

theorem Steps.run {E : Env V F} {env : XEnv V F T} {x y : FObj V F T × List (Aggr V F)} {a b} (hs : Steps x a y b) : ∀ {s0 : Conf V F T} {h : List (Event V F T)}
    {s : Conf V F T} {t op}, Conf.Run E env s0 h s → (s.fn, s.aggrs) = x → s.pc t = some (op, a) →
    Conf.Run E env s0 h { fn := y.1, aggrs := y.2, pc := upd s.pc t (some (op, b)) } := by
  induction hs with
  | refl x a =>
    intro s0 h s t op r hx ha
    rw [← hx, ← ha, upd_self]; exact r
  | head d _ ih =>
    intro s0 h s t op r hx ha
    subst hx
    have := ih (t := t) (op := op) (.step r (.does s t op _ _ _ ha d)) rfl (by simp)
    simpa [upd_upd] using this

end Verif.FnConc
