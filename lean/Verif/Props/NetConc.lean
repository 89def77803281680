import Verif.Lemmas.NetConc
import Verif.Props.Net
/-! C58: concurrent use of the connection manager. -/
namespace Verif.Props
open Verif Verif.Net Verif.Spec Verif.Lemmas

/-- C58 for AddConn, UpdateConn, RemoveConn, Conns and the two lookups: whatever the interleaving of any number of
goroutines, down to single map accesses, the history of calls and returns is one in which every call takes
effect at once between its call and its return; and when no writer is inside, the shared maps are those of that
execution. Missing: RemoveConnByUID and RemoveConnByUUID (`C58_fails`, `C58_sections`), and Close. -/
theorem C58_linearizable_partial {h : List Event} {s : Conf} (r : Conf.Run Conf.init h s) (hs : Simple h) :
    Linearizable h ∧ ∃ a, AConf.Run AConf.init h a ∧ (s.writer = none → a.cm = s.cm) := by
  obtain ⟨a, ha, hsim⟩ := sim_run r
  have := (srun_simple ha hs).1
  exact ⟨⟨a, this⟩, a, this, hsim.free⟩

/-- C58 for all calls: every history is one of the machine in which each critical section is atomic.
RemoveConnByUID and RemoveConnByUUID are two such sections. -/
theorem C58_sections {h : List Event} {s : Conf} (r : Conf.Run Conf.init h s) : ∃ a, SRun AConf.init h a ∧ (s.writer = none → a.cm = s.cm) := by
  obtain ⟨a, ha, hsim⟩ := sim_run r
  exact ⟨a, ha, hsim.free⟩

/-- C58: at no point of any execution are two goroutines inside when one of them may write. -/
theorem C58_exclusion {h : List Event} {s : Conf} (r : Conf.Run Conf.init h s) (t u : Nat) (op op' : Op) (w : Bool)
    (p p' : Prog (Ret ⊕ Op)) (ht : s.pc t = .crit op true p) (hu : s.pc u = .crit op' w p') : u = t := by
  obtain ⟨a, _, hsim⟩ := sim_run r
  have h1 := hsim.owner _ _ _ ht
  cases w with
  | true => have := hsim.owner _ _ _ hu; rw [h1] at this; cases this; rfl
  | false => have := hsim.reader _ _ _ hu; rw [hsim.excl _ h1] at this; cases this

/-! ### a concrete interleaving -/

/-- Commands to a scheduler. -/
inductive Cmd
  | call (t : Nat) (op : Op)
  | go (t : Nat)

/-- The step a goroutine takes when scheduled. -/
def goStep (s : Conf) (t : Nat) : Option (Option Event × Conf) :=
  match s.pc t with
  | .idle => none
  | .called op =>
    if (section_ op).1 then
      if s.writer = none ∧ s.readers = [] then
        some (none, { s with writer := some t, pc := upd s.pc t (.crit op true (section_ op).2) })
      else none
    else if s.writer = none then
      some (none, { s with readers := t :: s.readers, pc := upd s.pc t (.crit op false (section_ op).2) })
    else none
  | .crit op w (.readM u k) => some (none, { s with pc := upd s.pc t (.crit op w (k (s.cm.m.get? u))) })
  | .crit op w (.readU u k) => some (none, { s with pc := upd s.pc t (.crit op w (k (s.cm.uidMap.get? u))) })
  | .crit op w (.iterM k) => some (none, { s with pc := upd s.pc t (.crit op w (k s.cm.conns)) })
  | .crit op w (.writeM u c k) => some (none, { s with cm := { s.cm with m := s.cm.m.set u c }, pc := upd s.pc t (.crit op w k) })
  | .crit op w (.writeU u c k) => some (none, { s with cm := { s.cm with uidMap := s.cm.uidMap.set u c }, pc := upd s.pc t (.crit op w k) })
  | .crit op w (.delM u k) => some (none, { s with cm := { s.cm with m := s.cm.m.del u }, pc := upd s.pc t (.crit op w k) })
  | .crit op w (.delU u k) => some (none, { s with cm := { s.cm with uidMap := s.cm.uidMap.del u }, pc := upd s.pc t (.crit op w k) })
  | .crit _ true (.pure x) => some (none, { s with writer := none, pc := upd s.pc t (after x) })
  | .crit _ false (.pure x) => some (none, { s with readers := s.readers.erase t, pc := upd s.pc t (after x) })
  | .finished r => some (some (.ret t r), { s with pc := upd s.pc t .idle })

theorem goStep_sound {s s' : Conf} {t : Nat} {e : Option Event} (h : goStep s t = some (e, s')) : Conf.Step s e s' := by
  unfold goStep at h
  split at h
  · cases h
  · next op hp =>
    split at h
    · next hw =>
      split at h
      · next hf => cases h; exact .lock s t op hp hw hf.1 hf.2
      · cases h
    · next hw =>
      split at h
      · next hf => cases h; exact .rlock s t op hp (by simpa using hw) hf
      · cases h
  · next hp => cases h; exact .access s t _ _ _ _ _ hp (.readM _ _ _)
  · next hp => cases h; exact .access s t _ _ _ _ _ hp (.readU _ _ _)
  · next hp => cases h; exact .access s t _ _ _ _ _ hp (.iterM _ _ _ (List.Perm.refl _))
  · next hp => cases h; exact .access s t _ _ _ _ _ hp (.writeM _ _ _ _)
  · next hp => cases h; exact .access s t _ _ _ _ _ hp (.writeU _ _ _ _)
  · next hp => cases h; exact .access s t _ _ _ _ _ hp (.delM _ _ _)
  · next hp => cases h; exact .access s t _ _ _ _ _ hp (.delU _ _ _)
  · next hp => cases h; exact .unlock s t _ _ hp
  · next hp => cases h; exact .runlock s t _ _ hp
  · next hp => cases h; exact .ret s t _ hp

/-- Running a schedule; the events so far are kept. -/
def play : List Cmd → Conf → List Event → Option (Conf × List Event)
  | [], s, h => some (s, h)
  | .call t op :: cs, s, h => match s.pc t with
    | .idle => play cs { s with pc := upd s.pc t (.called op) } (h ++ [.call t op])
    | _ => none
  | .go t :: cs, s, h => match goStep s t with
    | some (e, s') => play cs s' (h ++ e.toList)
    | none => none

theorem play_sound (cs : List Cmd) (s : Conf) (h : List Event) (s' : Conf) (h' : List Event) (hr : Conf.Run Conf.init h s)
    (hp : play cs s h = some (s', h')) : Conf.Run Conf.init h' s' := by
  induction cs generalizing s h with
  | nil => simp only [play, Option.some.injEq, Prod.mk.injEq] at hp; obtain ⟨rfl, rfl⟩ := hp; exact hr
  | cons c cs ih =>
    cases c with
    | call t op =>
      simp only [play] at hp
      cases hi : s.pc t with
      | idle => rw [hi] at hp; exact ih _ _ (.step hr (.call s t op hi)) hp
      | called _ => rw [hi] at hp; cases hp
      | crit _ _ _ => rw [hi] at hp; cases hp
      | finished _ => rw [hi] at hp; cases hp
    | go t =>
      simp only [play] at hp
      cases hg : goStep s t with
      | none => rw [hg] at hp; cases hp
      | some x =>
        obtain ⟨e, s1⟩ := x
        rw [hg] at hp
        exact ih _ _ (.step hr (goStep_sound hg)) hp

/-- A goroutine scheduled `n` times. -/
def times (n t : Nat) : List Cmd := List.replicate n (.go t)

/-- Goroutine 0 removes by id 7 and is interrupted between finding the connection and removing it; meanwhile
goroutine 1 removes that connection and adds another one with the same id. -/
def badSchedule : List Cmd :=
  [.call 1 (.add cnA)] ++ times 7 1 ++
  [.call 0 (.removeUID 7)] ++ times 3 0 ++
  [.call 1 (.removeUID 7)] ++ times 8 1 ++
  [.call 1 (.add cnC)] ++ times 7 1 ++
  times 5 0 ++
  [.call 1 (.byUID 7)] ++ times 4 1 ++
  [.call 1 (.byUUID 300)] ++ times 4 1

/-- The history that shows. -/
def badHistory : List Event :=
  [.call 1 (.add cnA), .ret 1 (.unit true), .call 0 (.removeUID 7), .call 1 (.removeUID 7), .ret 1 (.unit true),
   .call 1 (.add cnC), .ret 1 (.unit true), .ret 0 (.unit true), .call 1 (.byUID 7), .ret 1 (.found none),
   .call 1 (.byUUID 300), .ret 1 (.found (some cnC))]

theorem bad_run : ∃ s, Conf.Run Conf.init badHistory s := by
  have h : (play badSchedule Conf.init []).map (·.2) = some badHistory := by decide +kernel
  cases hp : play badSchedule Conf.init [] with
  | none => rw [hp] at h; cases h
  | some x =>
    rw [hp] at h
    simp only [Option.map_some, Option.some.injEq] at h
    exact ⟨x.1, play_sound badSchedule _ _ x.1 badHistory (.refl _) (by rw [hp, ← h])⟩

/-! ### that history is not linearizable -/

/-- States of the atomic machine with two goroutines. -/
structure Fin2 where
  cm : Mgr
  p0 : APc
  p1 : APc
  deriving DecidableEq

/-- The effect of a call, for the calls of the history. -/
def aloneFn : Op → Mgr → Option (Mgr × Ret)
  | .add c, cm => some ((cm.add c).1, .unit (cm.add c).2)
  | .update f t, cm => some ((cm.update f t).1, .unit (cm.update f t).2)
  | .byUID n, cm => some (cm, .found (cm.byUID n))
  | .byUUID u, cm => some (cm, .found (cm.byUUID u))
  | .remove c, cm => some (cm.remove c, .unit true)
  | .removeUID n, cm => some (cm.removeUID n, .unit true)
  | .removeUUID u, cm => some (cm.removeUUID u, .unit true)
  | .conns, _ => none
  | .removeFound _, _ => none

theorem aloneFn_complete {op : Op} {cm cm' : Mgr} {r : Ret} (h : Alone op cm cm' r) (hc : op ≠ .conns) : aloneFn op cm = some (cm', r) := by
  cases h <;> first | rfl | exact absurd rfl hc

/-- The effects possible in a state. -/
def taus (f : Fin2) : List Fin2 :=
  (match f.p0 with
    | .pending op => (aloneFn op f.cm).toList.map (fun x => { f with cm := x.1, p0 := .done x.2 })
    | _ => []) ++
  (match f.p1 with
    | .pending op => (aloneFn op f.cm).toList.map (fun x => { f with cm := x.1, p1 := .done x.2 })
    | _ => [])

/-- The states after an event. -/
def evs (f : Fin2) : Event → List Fin2
  | .call 0 op => if f.p0 = .idle then [{ f with p0 := .pending op }] else []
  | .call 1 op => if f.p1 = .idle then [{ f with p1 := .pending op }] else []
  | .ret 0 r => if f.p0 = .done r then [{ f with p0 := .idle }] else []
  | .ret 1 r => if f.p1 = .done r then [{ f with p1 := .idle }] else []
  | _ => []

/-- Up to two effects. -/
def close2 (l : List Fin2) : List Fin2 :=
  let l1 := l ++ l.flatMap taus
  l1 ++ l1.flatMap taus

/-- The states in which the atomic machine can be after the first events of the history. -/
def reach : List Event → List Fin2 → List Fin2
  | [], l => l
  | e :: h, l => reach h (close2 (l.flatMap (fun f => evs f e)))

/-- The states after `n` events of the history. -/
def reachN (n : Nat) : List Fin2 := reach (badHistory.take n) [{ cm := newMgr, p0 := .idle, p1 := .idle }]

theorem reach_append (h : List Event) (e : Event) (l : List Fin2) :
    reach (h ++ [e]) l = close2 ((reach h l).flatMap (fun f => evs f e)) := by
  induction h generalizing l with
  | nil => rfl
  | cons x h ih => simp [reach, ih]

theorem reachN_closed : ∀ n ≤ 12, ∀ f ∈ reachN n, ∀ g ∈ taus f, g ∈ reachN n := by decide +kernel

theorem reachN_ops : ∀ n ≤ 12, ∀ f ∈ reachN n, f.p0 ≠ .pending .conns ∧ f.p1 ≠ .pending .conns := by decide +kernel

/-- The finite states cover all executions of the atomic machine with a beginning of the history. -/
theorem reach_complete {h : List Event} {a : AConf} (r : AConf.Run AConf.init h a) (hp : h <+: badHistory) :
    (∃ f ∈ reachN h.length, f.cm = a.cm ∧ f.p0 = a.pc 0 ∧ f.p1 = a.pc 1) ∧ ∀ t, 2 ≤ t → a.pc t = .idle := by
  induction r with
  | refl => exact ⟨⟨_, List.mem_singleton.mpr rfl, rfl, rfl, rfl⟩, fun t _ => rfl⟩
  | @step h s1 e s2 r st ih =>
    have hp1 : h <+: badHistory := List.IsPrefix.trans (List.prefix_append _ _) hp
    obtain ⟨⟨f, hf, h1, h2, h3⟩, h4⟩ := ih hp1
    have hlen : (h ++ e.toList).length ≤ 12 := hp.length_le
    cases st with
    | effect t op cm' r hpc ha =>
      simp only [Option.toList_none, List.append_nil] at hp hlen ⊢
      have ht : t = 0 ∨ t = 1 := by
        rcases Nat.lt_or_ge t 2 with h | h
        · omega
        · rw [h4 t h] at hpc; cases hpc
      have hops := reachN_ops h.length hlen f hf
      rcases ht with rfl | rfl
      · have hc : op ≠ .conns := by rintro rfl; exact hops.1 (h2.trans hpc)
        refine ⟨⟨{ f with cm := cm', p0 := .done r }, reachN_closed _ hlen f hf _ ?_, rfl, by simp [upd], by simp [upd, h3]⟩, ?_⟩
        · refine List.mem_append_left _ ?_
          rw [h2, hpc, h1]
          simp only []
          rw [aloneFn_complete ha hc]
          simp
        · intro t ht; show upd _ _ _ _ = _; rw [upd_ne _ _ _ _ (by omega)]; exact h4 t ht
      · have hc : op ≠ .conns := by rintro rfl; exact hops.2 (h3.trans hpc)
        refine ⟨⟨{ f with cm := cm', p1 := .done r }, reachN_closed _ hlen f hf _ ?_, rfl, by simp [upd, h2], by simp [upd]⟩, ?_⟩
        · refine List.mem_append_right _ ?_
          rw [h3, hpc, h1]
          simp only []
          rw [aloneFn_complete ha hc]
          simp
        · intro t ht; show upd _ _ _ _ = _; rw [upd_ne _ _ _ _ (by omega)]; exact h4 t ht
    | call t op hpc =>
      have hmem : Event.call t op ∈ badHistory := hp.subset (by simp)
      have ht : t = 0 ∨ t = 1 := by
        have : ∀ e ∈ badHistory, ∀ t op, e = Event.call t op → t = 0 ∨ t = 1 := by
          intro e he; simp only [badHistory, List.mem_cons, List.not_mem_nil, or_false] at he
          rcases he with rfl | rfl | rfl | rfl | rfl | rfl | rfl | rfl | rfl | rfl | rfl | rfl <;> intro t op h <;> cases h <;> simp
        exact this _ hmem _ _ rfl
      have hr : ∀ g, g ∈ evs f (.call t op) → g ∈ reachN (h ++ [Event.call t op]).length := by
        intro g hg
        have e1 : badHistory.take (h ++ [Event.call t op]).length = h ++ [Event.call t op] := (List.prefix_iff_eq_take.mp hp).symm
        have e2 : badHistory.take h.length = h := (List.prefix_iff_eq_take.mp hp1).symm
        unfold reachN at hf ⊢
        rw [e1, reach_append]
        rw [e2] at hf
        exact List.mem_append_left _ (List.mem_append_left _ (List.mem_flatMap.mpr ⟨f, hf, hg⟩))
      rcases ht with rfl | rfl
      · refine ⟨⟨{ f with p0 := .pending op }, hr _ (by simp [evs, h2, hpc]), h1, by simp [upd], by simp [upd, h3]⟩, ?_⟩
        intro t ht; show upd _ _ _ _ = _; rw [upd_ne _ _ _ _ (by omega)]; exact h4 t ht
      · refine ⟨⟨{ f with p1 := .pending op }, hr _ (by simp [evs, h3, hpc]), h1, by simp [upd, h2], by simp [upd]⟩, ?_⟩
        intro t ht; show upd _ _ _ _ = _; rw [upd_ne _ _ _ _ (by omega)]; exact h4 t ht
    | ret t r hpc =>
      have ht : t = 0 ∨ t = 1 := by
        rcases Nat.lt_or_ge t 2 with h | h
        · omega
        · rw [h4 t h] at hpc; cases hpc
      have hr : ∀ g, g ∈ evs f (.ret t r) → g ∈ reachN (h ++ [Event.ret t r]).length := by
        intro g hg
        have e1 : badHistory.take (h ++ [Event.ret t r]).length = h ++ [Event.ret t r] := (List.prefix_iff_eq_take.mp hp).symm
        have e2 : badHistory.take h.length = h := (List.prefix_iff_eq_take.mp hp1).symm
        unfold reachN at hf ⊢
        rw [e1, reach_append]
        rw [e2] at hf
        exact List.mem_append_left _ (List.mem_append_left _ (List.mem_flatMap.mpr ⟨f, hf, hg⟩))
      rcases ht with rfl | rfl
      · refine ⟨⟨{ f with p0 := .idle }, hr _ (by simp [evs, h2, hpc]), h1, by simp [upd], by simp [upd, h3]⟩, ?_⟩
        intro t ht; show upd _ _ _ _ = _; rw [upd_ne _ _ _ _ (by omega)]; exact h4 t ht
      · refine ⟨⟨{ f with p1 := .idle }, hr _ (by simp [evs, h3, hpc]), h1, by simp [upd, h2], by simp [upd]⟩, ?_⟩
        intro t ht; show upd _ _ _ _ = _; rw [upd_ne _ _ _ _ (by omega)]; exact h4 t ht

/-- C58, negation: two goroutines removing by id while a connection with that id is added again can leave the new
connection found by UUID but not by id, a history that no order of atomic calls explains. -/
theorem C58_fails : ∃ h s, Conf.Run Conf.init h s ∧ ¬ Linearizable h := by
  obtain ⟨s, hs⟩ := bad_run
  refine ⟨badHistory, s, hs, ?_⟩
  rintro ⟨a, ha⟩
  obtain ⟨⟨f, hf, _⟩, _⟩ := reach_complete ha (List.prefix_refl _)
  have : reachN badHistory.length = [] := by decide +kernel
  rw [this] at hf; cases hf

/-- A small concurrent history of one-section calls. -/
def goodHistory : List Event :=
  [.call 0 (.add cnA), .call 1 (.byUID 7), .ret 1 (.found none), .ret 0 (.unit true)]

example : ∃ s, Conf.Run Conf.init goodHistory s := by
  have h : (play ([.call 0 (.add cnA), .call 1 (.byUID 7)] ++ times 4 1 ++ times 7 0) Conf.init []).map (·.2) = some goodHistory := by
    decide +kernel
  cases hp : play ([.call 0 (.add cnA), .call 1 (.byUID 7)] ++ times 4 1 ++ times 7 0) Conf.init [] with
  | none => rw [hp] at h; cases h
  | some x =>
    rw [hp] at h
    simp only [Option.map_some, Option.some.injEq] at h
    exact ⟨x.1, play_sound _ _ _ x.1 goodHistory (.refl _) (by rw [hp, ← h])⟩
example : Simple goodHistory := by
  intro t op h
  simp only [goodHistory, List.mem_cons, List.not_mem_nil, or_false, Event.call.injEq, reduceCtorEq] at h
  rcases h with ⟨_, rfl⟩ | ⟨_, rfl⟩ <;> trivial

/-! ### C76: concurrent Close of one connection -/

/-- C76 when the calls do not overlap: the network connection is closed successfully at most once, and exactly
when the connection counts as closed between calls. Missing: overlapping calls (`C76_fails`). -/
theorem C76_serial_partial {s : CC} (r : CC.SerialRun CC.init s) :
    s.netOk ≤ 1 ∧ ((∀ u, s.pc u = .idle) → (s.netOk = 1 ↔ s.closed = true)) := by
  have key : (∃ t, (∀ u, u ≠ t → s.pc u = .idle) ∧
      match s.pc t with
      | .idle => s.netOk = if s.closed then 1 else 0
      | .entered => s.netOk = if s.closed then 1 else 0
      | .open_ => s.netOk = 0 ∧ s.closed = false
      | .netDone ok => s.netOk = (if ok then 1 else 0) ∧ s.closed = false
      | .finished _ => s.netOk = if s.closed then 1 else 0) := by
    induction r with
    | refl => exact ⟨0, fun _ _ => rfl, rfl⟩
    | step r st hser ih =>
      obtain ⟨t, hid, ht⟩ := ih
      cases st with
      | enter t' h =>
        refine ⟨t', fun u hu => ?_, ?_⟩
        · show upd _ _ _ _ = _; rw [upd_ne _ _ _ _ hu]; exact by
            have := hser t' (by simp [upd]) u hu
            simpa [upd, hu] using this
        · simp only [upd_same]
          by_cases htt : t' = t
          · subst htt; rw [h] at ht; exact ht
          · have hti := hser t' (by simp [upd]) t (fun e => htt e.symm)
            simp only [upd_ne _ _ _ _ (fun e => htt e.symm : t ≠ t')] at hti
            rw [hti] at ht; exact ht
      | skip t' h hc =>
        have htt : t' = t := Classical.byContradiction fun hne => by have := hid t' hne; rw [h] at this; cases this
        subst htt
        rw [h] at ht
        refine ⟨t', fun u hu => by show upd _ _ _ _ = _; rw [upd_ne _ _ _ _ hu]; exact hid u hu, ?_⟩
        simp only [upd_same]; exact ht
      | check t' h hc =>
        have htt : t' = t := Classical.byContradiction fun hne => by have := hid t' hne; rw [h] at this; cases this
        subst htt
        rw [h] at ht
        refine ⟨t', fun u hu => by show upd _ _ _ _ = _; rw [upd_ne _ _ _ _ hu]; exact hid u hu, ?_⟩
        simp only [upd_same]
        rw [hc] at ht; exact ⟨by simpa using ht, hc⟩
      | net t' ok h =>
        have htt : t' = t := Classical.byContradiction fun hne => by have := hid t' hne; rw [h] at this; cases this
        subst htt
        rw [h] at ht
        refine ⟨t', fun u hu => by show upd _ _ _ _ = _; rw [upd_ne _ _ _ _ hu]; exact hid u hu, ?_⟩
        simp only [upd_same]
        exact ⟨by rw [ht.1]; simp, ht.2⟩
      | failed t' h =>
        have htt : t' = t := Classical.byContradiction fun hne => by have := hid t' hne; rw [h] at this; cases this
        subst htt
        rw [h] at ht
        refine ⟨t', fun u hu => by show upd _ _ _ _ = _; rw [upd_ne _ _ _ _ hu]; exact hid u hu, ?_⟩
        simp only [upd_same]
        rw [ht.2]; simpa using ht.1
      | mark t' h =>
        have htt : t' = t := Classical.byContradiction fun hne => by have := hid t' hne; rw [h] at this; cases this
        subst htt
        rw [h] at ht
        refine ⟨t', fun u hu => by show upd _ _ _ _ = _; rw [upd_ne _ _ _ _ hu]; exact hid u hu, ?_⟩
        simp only [upd_same]
        simpa using ht.1
      | ret t' ok h =>
        have htt : t' = t := Classical.byContradiction fun hne => by have := hid t' hne; rw [h] at this; cases this
        subst htt
        rw [h] at ht
        refine ⟨t', fun u hu => by show upd _ _ _ _ = _; rw [upd_ne _ _ _ _ hu]; exact hid u hu, ?_⟩
        simp only [upd_same]; exact ht
  obtain ⟨t, hid, ht⟩ := key
  constructor
  · revert ht
    cases s.pc t <;> simp only [] <;> intro ht
    · rw [ht]; split <;> omega
    · rw [ht]; split <;> omega
    · omega
    · rw [ht.1]; split <;> omega
    · rw [ht]; split <;> omega
  · intro hall
    rw [hall t] at ht
    simp only [] at ht
    rw [ht]
    cases s.closed <;> simp

/-- C76, negation: two goroutines that both look at the flag before either has closed the network connection
both close it. -/
theorem C76_fails : ∃ s, CC.Run CC.init s ∧ s.netOk = 2 := by
  refine ⟨_, .step (.step (.step (.step (.step (.step (.refl _) (.enter _ 0 rfl)) (.enter _ 1 rfl)) (.check _ 0 rfl rfl))
    (.check _ 1 rfl rfl)) (.net _ 0 true rfl)) (.net _ 1 true rfl), rfl⟩

example : ∃ s, CC.SerialRun CC.init s ∧ s.netOk = 1 := by
  refine ⟨_, .step (.step (.step (.refl _) (.enter _ 0 rfl) ?_) (.check _ 0 rfl rfl) ?_) (.net _ 0 true rfl) ?_, rfl⟩ <;>
    (intro t ht u hu; by_cases h0 : u = 0
     · subst h0
       have : t ≠ 0 := fun h => hu h.symm
       simp [CC.init, upd, this] at ht
     · simp [CC.init, upd, h0])

end Verif.Props
