import Verif.Spec.NetConc
/-! Lemmas about concurrent use of the manager. -/
namespace Verif.Net

/-- Programs without writes. -/
def Prog.ReadOnly {α : Type} : Prog α → Prop
  | .pure _ => True
  | .readM _ k => ∀ c, (k c).ReadOnly
  | .readU _ k => ∀ c, (k c).ReadOnly
  | .iterM k => ∀ c, (k c).ReadOnly
  | .writeM _ _ _ => False
  | .writeU _ _ _ => False
  | .delM _ _ => False
  | .delU _ _ => False

theorem Prog.ReadOnly.step {α : Type} {p p' : Prog α} {cm cm' : Mgr} (h : p.ReadOnly) (s : Prog.Step p cm p' cm') :
    cm' = cm ∧ p'.ReadOnly := by
  cases s <;> simp only [Prog.ReadOnly] at h
  · exact ⟨rfl, h _⟩
  · exact ⟨rfl, h _⟩
  · exact ⟨rfl, h _⟩

end Verif.Net

namespace Verif.Lemmas
open Verif Verif.Net Verif.Spec

theorem section_readOnly (op : Op) (h : (section_ op).1 = false) : (section_ op).2.ReadOnly := by
  cases op <;> simp only [section_, Bool.true_eq_false] at h <;> first
    | (intro c; trivial)
    | (intro c; cases c <;> trivial)

/-- One section on its own is what the one-call function does. -/
theorem section_alone (op : Op) (h : OneSection op) {cm cm' : Mgr} {x : Ret ⊕ Op} (hr : Prog.Runs (section_ op).2 cm x cm') :
    ∃ r, x = .inl r ∧ Alone op cm cm' r := by
  cases op with
  | add c =>
    simp only [section_] at hr
    have ha := Alone.add c cm
    cases hr with
    | step s1 hr =>
      cases s1
      cases h1 : cm.m.get? c.uuid with
      | some d =>
        rw [h1] at hr
        cases hr with
        | pure => exact ⟨_, rfl, by simpa [Mgr.add, h1] using ha⟩
        | step s _ => cases s
      | none =>
        rw [h1] at hr
        cases hr with
        | step s2 hr =>
          cases s2
          cases h2 : cm.uidMap.get? c.uid with
          | some d =>
            rw [h2] at hr
            cases hr with
            | pure => exact ⟨_, rfl, by simpa [Mgr.add, h1, h2] using ha⟩
            | step s _ => cases s
          | none =>
            rw [h2] at hr
            cases hr with
            | step s3 hr =>
              cases s3
              cases hr with
              | step s4 hr =>
                cases s4
                cases hr with
                | pure => exact ⟨_, rfl, by simpa [Mgr.add, h1, h2] using ha⟩
                | step s _ => cases s
  | update f t =>
    simp only [section_] at hr
    have ha := Alone.update f t cm
    cases hr with
    | step s1 hr =>
      cases s1
      cases h1 : cm.m.get? f.uuid with
      | none =>
        rw [h1] at hr
        cases hr with
        | pure => exact ⟨_, rfl, by simpa [Mgr.update, h1] using ha⟩
        | step s _ => cases s
      | some d =>
        rw [h1] at hr
        cases hr with
        | step s2 hr =>
          cases s2
          cases h2 : cm.uidMap.get? f.uid with
          | none =>
            rw [h2] at hr
            cases hr with
            | pure => exact ⟨_, rfl, by simpa [Mgr.update, h1, h2] using ha⟩
            | step s _ => cases s
          | some d =>
            rw [h2] at hr
            cases hr with
            | step s3 hr =>
              cases s3
              cases hr with
              | step s4 hr =>
                cases s4
                cases hr with
                | pure => exact ⟨_, rfl, by simpa [Mgr.update, h1, h2] using ha⟩
                | step s _ => cases s
  | conns =>
    cases hr with
    | step s hr =>
      cases s with
      | iterM _ _ l hl =>
        cases hr with
        | pure => exact ⟨_, rfl, .conns _ _ hl⟩
        | step s _ => cases s
  | byUID n =>
    cases hr with
    | step s hr =>
      cases s
      cases hr with
      | pure => exact ⟨_, rfl, .byUID _ _⟩
      | step s _ => cases s
  | byUUID n =>
    cases hr with
    | step s hr =>
      cases s
      cases hr with
      | pure => exact ⟨_, rfl, .byUUID _ _⟩
      | step s _ => cases s
  | remove c =>
    cases hr with
    | step s hr =>
      cases s
      cases hr with
      | step s hr =>
        cases s
        cases hr with
        | pure => exact ⟨_, rfl, .remove _ _⟩
        | step s _ => cases s
  | removeUID n => cases h
  | removeUUID n => cases h
  | removeFound n => cases h

/-! ### sections are atomic -/

/-- A goroutine of the real machine as one of the atomic machine: a section takes effect when it is left. -/
def absPc : Pc → APc
  | .idle => .idle
  | .called op => .pending op
  | .crit op _ _ => .pending op
  | .finished r => .done r

/-- The simulation. -/
structure Sim (s : Conf) (a : AConf) : Prop where
  pc : ∀ t, a.pc t = absPc (s.pc t)
  free : s.writer = none → a.cm = s.cm
  excl : ∀ t, s.writer = some t → s.readers = []
  owner : ∀ t op p, s.pc t = .crit op true p → s.writer = some t
  reader : ∀ t op p, s.pc t = .crit op false p → t ∈ s.readers
  wr : ∀ t op p, s.pc t = .crit op true p → ∀ x cm', Prog.Runs p s.cm x cm' → Prog.Runs (section_ op).2 a.cm x cm'
  rd : ∀ t op p, s.pc t = .crit op false p → p.ReadOnly ∧ ∀ x cm', Prog.Runs p s.cm x cm' → Prog.Runs (section_ op).2 s.cm x cm'

theorem upd_same {α : Type} (f : Nat → α) (t : Nat) (x : α) : upd f t x t = x := by simp [upd]
theorem upd_ne {α : Type} (f : Nat → α) (t u : Nat) (x : α) (h : u ≠ t) : upd f t x u = f u := by simp [upd, h]

theorem sim_init : Sim Conf.init AConf.init where
  pc _ := rfl
  free _ := rfl
  excl _ h := by cases h
  owner _ _ _ h := by cases h
  reader _ _ _ h := by cases h
  wr _ _ _ h := by cases h
  rd _ _ _ h := by cases h

theorem absPc_after (x : Ret ⊕ Op) : absPc (after x) = aAfter x := by cases x <;> rfl

theorem after_not_crit (x : Ret ⊕ Op) (op : Op) (w : Bool) (p : Prog (Ret ⊕ Op)) : after x ≠ .crit op w p := by
  cases x <;> simp [after]

/-- The abstraction of an updated goroutine table. -/
theorem abs_upd {s : Conf} {a : AConf} (hpc : ∀ t, a.pc t = absPc (s.pc t)) (t : Nat) (q : Pc) (u : Nat) :
    upd a.pc t (absPc q) u = absPc (upd s.pc t q u) := by
  by_cases h : u = t
  · simp [upd, h]
  · simp [upd, h, hpc]

/-- One step of the real machine is at most one step of the machine with atomic sections. -/
theorem sim_step {s s' : Conf} {e : Option Event} (st : Conf.Step s e s') {a : AConf} (h : Sim s a) :
    (∃ a', SStep a e a' ∧ Sim s' a') ∨ (e = none ∧ Sim s' a) := by
  cases st with
  | call t op hp =>
    refine Or.inl ⟨{ a with pc := upd a.pc t (.pending op) }, .call a t op (by rw [h.pc, hp]; rfl), ?_⟩
    have hn : ∀ u op' w p, upd s.pc t (Pc.called op) u = .crit op' w p → s.pc u = .crit op' w p := by
      intro u op' w p hu
      by_cases hut : u = t
      · subst hut; rw [upd_same] at hu; cases hu
      · rwa [upd_ne _ _ _ _ hut] at hu
    exact ⟨fun u => abs_upd h.pc t (.called op) u, h.free, h.excl, fun u o p hu => h.owner u o p (hn _ _ _ _ hu),
      fun u o p hu => h.reader u o p (hn _ _ _ _ hu), fun u o p hu => h.wr u o p (hn _ _ _ _ hu),
      fun u o p hu => h.rd u o p (hn _ _ _ _ hu)⟩
  | ret t r hp =>
    refine Or.inl ⟨{ a with pc := upd a.pc t .idle }, .ret a t r (by rw [h.pc, hp]; rfl), ?_⟩
    have hn : ∀ u op' w p, upd s.pc t Pc.idle u = .crit op' w p → s.pc u = .crit op' w p := by
      intro u op' w p hu
      by_cases hut : u = t
      · subst hut; rw [upd_same] at hu; cases hu
      · rwa [upd_ne _ _ _ _ hut] at hu
    exact ⟨fun u => abs_upd h.pc t .idle u, h.free, h.excl, fun u o p hu => h.owner u o p (hn _ _ _ _ hu),
      fun u o p hu => h.reader u o p (hn _ _ _ _ hu), fun u o p hu => h.wr u o p (hn _ _ _ _ hu),
      fun u o p hu => h.rd u o p (hn _ _ _ _ hu)⟩
  | lock t op hp hw h1 h2 =>
    refine Or.inr ⟨rfl, ?_⟩
    have hnone : ∀ u op' w p, s.pc u = .crit op' w p → False := by
      intro u op' w p hu
      cases w with
      | true => have := h.owner u _ _ hu; rw [h1] at this; cases this
      | false => have := h.reader u _ _ hu; rw [h2] at this; cases this
    have hn : ∀ u op' w p, upd s.pc t (Pc.crit op true (section_ op).2) u = .crit op' w p →
        u = t ∧ op' = op ∧ w = true ∧ p = (section_ op).2 := by
      intro u op' w p hu
      by_cases hut : u = t
      · subst hut; rw [upd_same] at hu; cases hu; exact ⟨rfl, rfl, rfl, rfl⟩
      · rw [upd_ne _ _ _ _ hut] at hu; exact (hnone _ _ _ _ hu).elim
    refine ⟨?_, fun hc => (by cases hc), fun u _ => h2, ?_, ?_, ?_, ?_⟩
    · intro u
      by_cases hut : u = t
      · subst hut; show a.pc u = absPc (upd s.pc u _ u); rw [upd_same, h.pc, hp]; rfl
      · show a.pc u = absPc (upd s.pc t _ u); rw [upd_ne _ _ _ _ hut, h.pc]
    · intro u o p hu; obtain ⟨rfl, _⟩ := hn _ _ _ _ hu; rfl
    · intro u o p hu; obtain ⟨_, _, hc, _⟩ := hn _ _ _ _ hu; cases hc
    · intro u o p hu x cm' hr
      obtain ⟨rfl, rfl, _, rfl⟩ := hn _ _ _ _ hu
      rw [h.free h1]; exact hr
    · intro u o p hu; obtain ⟨_, _, hc, _⟩ := hn _ _ _ _ hu; cases hc
  | rlock t op hp hw h1 =>
    refine Or.inr ⟨rfl, ?_⟩
    have hn : ∀ u op' w p, upd s.pc t (Pc.crit op false (section_ op).2) u = .crit op' w p →
        (u = t ∧ op' = op ∧ w = false ∧ p = (section_ op).2) ∨ s.pc u = .crit op' w p := by
      intro u op' w p hu
      by_cases hut : u = t
      · subst hut; rw [upd_same] at hu; cases hu; exact Or.inl ⟨rfl, rfl, rfl, rfl⟩
      · rw [upd_ne _ _ _ _ hut] at hu; exact Or.inr hu
    refine ⟨?_, h.free, fun u hu => ?_, ?_, ?_, ?_, ?_⟩
    · intro u
      by_cases hut : u = t
      · subst hut; show a.pc u = absPc (upd s.pc u _ u); rw [upd_same, h.pc, hp]; rfl
      · show a.pc u = absPc (upd s.pc t _ u); rw [upd_ne _ _ _ _ hut, h.pc]
    · rw [h1] at hu; cases hu
    · intro u o p hu
      rcases hn _ _ _ _ hu with ⟨_, _, hc, _⟩ | hu
      · cases hc
      · exact h.owner _ _ _ hu
    · intro u o p hu
      rcases hn _ _ _ _ hu with ⟨rfl, _⟩ | hu
      · exact List.mem_cons_self
      · exact List.mem_cons_of_mem _ (h.reader _ _ _ hu)
    · intro u o p hu
      rcases hn _ _ _ _ hu with ⟨_, _, hc, _⟩ | hu
      · cases hc
      · exact h.wr _ _ _ hu
    · intro u o p hu
      rcases hn _ _ _ _ hu with ⟨rfl, rfl, _, rfl⟩ | hu
      · exact ⟨section_readOnly _ hw, fun x cm' hr => hr⟩
      · exact h.rd _ _ _ hu
  | access t op w p p' cm' hp hs =>
    refine Or.inr ⟨rfl, ?_⟩
    have hn : ∀ u op' w' q, upd s.pc t (Pc.crit op w p') u = .crit op' w' q →
        (u = t ∧ op' = op ∧ w' = w ∧ q = p') ∨ (u ≠ t ∧ s.pc u = .crit op' w' q) := by
      intro u op' w' q hu
      by_cases hut : u = t
      · subst hut; rw [upd_same] at hu; cases hu; exact Or.inl ⟨rfl, rfl, rfl, rfl⟩
      · rw [upd_ne _ _ _ _ hut] at hu; exact Or.inr ⟨hut, hu⟩
    have hpcs : ∀ u, a.pc u = absPc (upd s.pc t (Pc.crit op w p') u) := by
      intro u
      by_cases hut : u = t
      · subst hut; rw [upd_same, h.pc, hp]; rfl
      · rw [upd_ne _ _ _ _ hut, h.pc]
    cases w with
    | true =>
      have hwr := h.owner _ _ _ hp
      have hrd := h.excl _ hwr
      refine ⟨hpcs, fun hc => ?_, h.excl, ?_, ?_, ?_, ?_⟩
      · exact absurd (hwr.symm.trans hc) (by simp)
      · intro u o q hu
        rcases hn _ _ _ _ hu with ⟨rfl, _⟩ | ⟨_, hu⟩
        · exact hwr
        · exact h.owner _ _ _ hu
      · intro u o q hu
        rcases hn _ _ _ _ hu with ⟨_, _, hc, _⟩ | ⟨_, hu⟩
        · cases hc
        · exact h.reader _ _ _ hu
      · intro u o q hu x cm2 hr
        rcases hn _ _ _ _ hu with ⟨rfl, rfl, _, rfl⟩ | ⟨hne, hu⟩
        · exact h.wr _ _ _ hp x cm2 (.step hs hr)
        · have := h.owner _ _ _ hu
          rw [hwr] at this; cases this; exact absurd rfl hne
      · intro u o q hu
        rcases hn _ _ _ _ hu with ⟨_, _, hc, _⟩ | ⟨_, hu⟩
        · cases hc
        · have := h.reader _ _ _ hu; rw [hrd] at this; cases this
    | false =>
      obtain ⟨hro, hrun⟩ := h.rd _ _ _ hp
      obtain ⟨rfl, hro'⟩ := hro.step hs
      refine ⟨hpcs, h.free, h.excl, ?_, ?_, ?_, ?_⟩
      · intro u o q hu
        rcases hn _ _ _ _ hu with ⟨_, _, hc, _⟩ | ⟨_, hu⟩
        · cases hc
        · exact h.owner _ _ _ hu
      · intro u o q hu
        rcases hn _ _ _ _ hu with ⟨rfl, rfl, _, rfl⟩ | ⟨_, hu⟩
        · exact h.reader _ _ _ hp
        · exact h.reader _ _ _ hu
      · intro u o q hu
        rcases hn _ _ _ _ hu with ⟨_, _, hc, _⟩ | ⟨_, hu⟩
        · cases hc
        · exact h.wr _ _ _ hu
      · intro u o q hu
        rcases hn _ _ _ _ hu with ⟨rfl, rfl, _, rfl⟩ | ⟨_, hu⟩
        · exact ⟨hro', fun x cm2 hr => hrun x cm2 (.step hs hr)⟩
        · exact h.rd _ _ _ hu
  | unlock t op x hp =>
    have hwr := h.owner _ _ _ hp
    have hrd := h.excl _ hwr
    have hrun := h.wr _ _ _ hp x s.cm (.pure x s.cm)
    refine Or.inl ⟨{ cm := s.cm, pc := upd a.pc t (aAfter x) }, .sect a t op s.cm x (by rw [h.pc, hp]; rfl) hrun, ?_⟩
    have hnone : ∀ u op' w p, upd s.pc t (after x) u = .crit op' w p → False := by
      intro u op' w p hu
      by_cases hut : u = t
      · subst hut; rw [upd_same] at hu; exact after_not_crit _ _ _ _ hu
      · rw [upd_ne _ _ _ _ hut] at hu
        cases w with
        | true => have := h.owner _ _ _ hu; rw [hwr] at this; cases this; exact hut rfl
        | false => have := h.reader _ _ _ hu; rw [hrd] at this; cases this
    refine ⟨fun u => ?_, fun _ => rfl, fun u hu => (by cases hu), fun u o p hu => (hnone _ _ _ _ hu).elim,
      fun u o p hu => (hnone _ _ _ _ hu).elim, fun u o p hu => (hnone _ _ _ _ hu).elim, fun u o p hu => (hnone _ _ _ _ hu).elim⟩
    have := abs_upd h.pc t (after x) u
    rw [absPc_after] at this; exact this
  | runlock t op x hp =>
    have hmem := h.reader _ _ _ hp
    have hfree : s.writer = none := by
      cases hw : s.writer with
      | none => rfl
      | some u => have := h.excl u hw; rw [this] at hmem; cases hmem
    have hrun := (h.rd _ _ _ hp).2 x s.cm (.pure x s.cm)
    refine Or.inl ⟨{ cm := s.cm, pc := upd a.pc t (aAfter x) }, .sect a t op s.cm x (by rw [h.pc, hp]; rfl) ?_, ?_⟩
    · rw [h.free hfree]; exact hrun
    · have hn : ∀ u op' w p, upd s.pc t (after x) u = .crit op' w p → u ≠ t ∧ s.pc u = .crit op' w p := by
        intro u op' w p hu
        by_cases hut : u = t
        · subst hut; rw [upd_same] at hu; exact (after_not_crit _ _ _ _ hu).elim
        · rw [upd_ne _ _ _ _ hut] at hu; exact ⟨hut, hu⟩
      refine ⟨fun u => ?_, fun _ => rfl, fun u hu => ?_, fun u o p hu => h.owner _ _ _ (hn _ _ _ _ hu).2,
        fun u o p hu => ?_, fun u o p hu => ?_, fun u o p hu => h.rd _ _ _ (hn _ _ _ _ hu).2⟩
      · have := abs_upd h.pc t (after x) u
        rw [absPc_after] at this; exact this
      · rw [hfree] at hu; cases hu
      · have := h.reader _ _ _ (hn _ _ _ _ hu).2
        exact (List.mem_erase_of_ne (hn _ _ _ _ hu).1).mpr this
      · have := h.owner _ _ _ (hn _ _ _ _ hu).2
        rw [hfree] at this; cases this

theorem sim_run {s : Conf} {h : List Event} (r : Conf.Run Conf.init h s) : ∃ a, SRun AConf.init h a ∧ Sim s a := by
  induction r with
  | refl => exact ⟨_, .refl _, sim_init⟩
  | step r st ih =>
    obtain ⟨a, ha, hs⟩ := ih
    rcases sim_step st hs with ⟨a', hst, hs'⟩ | ⟨rfl, hs'⟩
    · exact ⟨a', .step ha hst, hs'⟩
    · exact ⟨a, by simpa using ha, hs'⟩

/-- With one-section calls only, the machine with atomic sections is the atomic machine. -/
theorem srun_simple {h : List Event} {a : AConf} (r : SRun AConf.init h a) (hs : Simple h) :
    AConf.Run AConf.init h a ∧ ∀ t op, a.pc t = .pending op → OneSection op := by
  induction r with
  | refl => exact ⟨.refl _, fun t op h => by cases h⟩
  | @step h s1 e s2 r st ih =>
    obtain ⟨hr, hp⟩ := ih (fun t op hm => hs t op (List.mem_append_left _ hm))
    cases st with
    | call t op hpc =>
      refine ⟨.step hr (.call _ t op hpc), fun u o hu => ?_⟩
      by_cases hut : u = t
      · subst hut
        have hu' : upd s1.pc u (APc.pending op) u = .pending o := hu
        rw [upd_same] at hu'; cases hu'
        exact hs u _ (List.mem_append_right _ (by simp))
      · have hu' : upd s1.pc t (APc.pending op) u = .pending o := hu
        rw [upd_ne _ _ _ _ hut] at hu'; exact hp _ _ hu'
    | sect t op cm' x hpc ha =>
      obtain ⟨r, rfl, hal⟩ := section_alone op (hp t op hpc) ha
      refine ⟨.step hr (.effect _ t op cm' r hpc hal), fun u o hu => ?_⟩
      by_cases hut : u = t
      · subst hut
        have hu' : upd s1.pc u (APc.done r) u = .pending o := hu
        rw [upd_same] at hu'; cases hu'
      · have hu' : upd s1.pc t (APc.done r) u = .pending o := hu
        rw [upd_ne _ _ _ _ hut] at hu'; exact hp _ _ hu'
    | ret t r hpc =>
      refine ⟨.step hr (.ret _ t r hpc), fun u o hu => ?_⟩
      by_cases hut : u = t
      · subst hut
        have hu' : upd s1.pc u APc.idle u = .pending o := hu
        rw [upd_same] at hu'; cases hu'
      · have hu' : upd s1.pc t APc.idle u = .pending o := hu
        rw [upd_ne _ _ _ _ hut] at hu'; exact hp _ _ hu'

end Verif.Lemmas
