import Verif.Model.NetConc
/-! Every call on the connection manager can return. -/
namespace Verif.Lemmas.NetProgress
open Verif Verif.Net

@[simp] theorem upd_same {α : Type} (f : Nat → α) (t : Nat) (x : α) : upd f t x t = x := by simp [upd]
theorem upd_other {α : Type} (f : Nat → α) (t u : Nat) (x : α) (h : u ≠ t) : upd f t x u = f u := by simp [upd, h]

/-- The lock is held by exactly those inside. -/
structure Held (s : Conf) : Prop where
  w : ∀ t, s.writer = some t ↔ ∃ op p, s.pc t = .crit op true p
  r : ∀ t, t ∈ s.readers ↔ ∃ op p, s.pc t = .crit op false p
  nodup : s.readers.Nodup

theorem held_init : Held Conf.init :=
  ⟨fun _ => ⟨fun h => (nomatch h), fun ⟨_, _, h⟩ => (nomatch h)⟩, fun _ => ⟨fun h => (nomatch h), fun ⟨_, _, h⟩ => (nomatch h)⟩, .nil⟩

/-- A step between places outside. -/
theorem held_out {s : Conf} (g : Held s) {t : Nat} {q : Pc} (h1 : ∀ op w p, s.pc t ≠ .crit op w p) (h2 : ∀ op w p, q ≠ .crit op w p) :
    Held { s with pc := upd s.pc t q } := by
  refine ⟨fun u => ?_, fun u => ?_, g.nodup⟩
  · rw [g.w u]
    by_cases hu : u = t
    · subst hu; simp [h1, h2]
    · simp only [upd_other _ _ _ _ hu]
  · rw [g.r u]
    by_cases hu : u = t
    · subst hu; simp [h1, h2]
    · simp only [upd_other _ _ _ _ hu]

theorem after_out (x : Ret ⊕ Op) : ∀ op w p, after x ≠ .crit op w p := by
  intro op w p; cases x <;> simp [after]

theorem held_step {s s' : Conf} {e} (g : Held s) (st : Conf.Step s e s') : Held s' := by
  cases st with
  | call t op h => exact held_out g (by simp [h]) (by simp)
  | ret t r h => exact held_out g (by simp [h]) (by simp)
  | lock t op h hw h1 h2 =>
    refine ⟨fun u => ?_, fun u => ?_, g.nodup⟩
    · by_cases hu : u = t
      · subst hu; simp
      · have := g.w u
        simp only [upd_other _ _ _ _ hu, ← this, h1]
        simp only [Option.some.injEq, reduceCtorEq, iff_false]
        exact fun h => hu h.symm
    · by_cases hu : u = t
      · subst hu; simp [h2]
      · have := g.r u
        simp only [upd_other _ _ _ _ hu, ← this]
  | rlock t op h hw h1 =>
    have hn : t ∉ s.readers := fun hm => by obtain ⟨_, _, h'⟩ := (g.r t).mp hm; rw [h] at h'; cases h'
    refine ⟨fun u => ?_, fun u => ?_, List.nodup_cons.mpr ⟨hn, g.nodup⟩⟩
    · by_cases hu : u = t
      · subst hu; simp [h1]
      · have := g.w u
        simp only [upd_other _ _ _ _ hu, ← this]
    · by_cases hu : u = t
      · subst hu; simp
      · have := g.r u
        simp only [upd_other _ _ _ _ hu, ← this, List.mem_cons, hu, false_or]
  | access t op w p p' cm' h hs =>
    refine ⟨fun u => ?_, fun u => ?_, g.nodup⟩
    · by_cases hu : u = t
      · subst hu
        have := g.w u
        simp only [this, h, upd_same, Pc.crit.injEq]
        exact ⟨fun ⟨_, _, _, hw, _⟩ => ⟨_, _, rfl, hw, rfl⟩, fun ⟨_, _, _, hw, _⟩ => ⟨_, _, rfl, hw, rfl⟩⟩
      · have := g.w u
        simp only [upd_other _ _ _ _ hu, ← this]
    · by_cases hu : u = t
      · subst hu
        have := g.r u
        simp only [this, h, upd_same, Pc.crit.injEq]
        exact ⟨fun ⟨_, _, _, hw, _⟩ => ⟨_, _, rfl, hw, rfl⟩, fun ⟨_, _, _, hw, _⟩ => ⟨_, _, rfl, hw, rfl⟩⟩
      · have := g.r u
        simp only [upd_other _ _ _ _ hu, ← this]
  | unlock t op x h =>
    have hw := (g.w t).mpr ⟨_, _, h⟩
    refine ⟨fun u => ?_, fun u => ?_, g.nodup⟩
    · by_cases hu : u = t
      · subst hu; simp [after_out]
      · have := g.w u
        simp only [upd_other _ _ _ _ hu, ← this, hw]
        simp only [Option.some.injEq, reduceCtorEq, false_iff]
        exact fun h => hu h.symm
    · by_cases hu : u = t
      · subst hu
        have := g.r u
        simp only [upd_same, after_out, this, h, Pc.crit.injEq]
        simp
      · have := g.r u
        simp only [upd_other _ _ _ _ hu, ← this]
  | runlock t op x h =>
    refine ⟨fun u => ?_, fun u => ?_, g.nodup.erase t⟩
    · by_cases hu : u = t
      · subst hu
        have := g.w u
        simp only [upd_same, after_out, this, h, Pc.crit.injEq]
        simp
      · have := g.w u
        simp only [upd_other _ _ _ _ hu, ← this]
    · rw [g.nodup.mem_erase_iff]
      by_cases hu : u = t
      · subst hu; simp [after_out]
      · have := g.r u
        simp only [upd_other _ _ _ _ hu, ← this, ne_eq, hu, not_false_iff, true_and]

theorem held_run {s s' : Conf} {h} (g : Held s) (r : Conf.Run s h s') : Held s' := by
  induction r with
  | refl => exact g
  | step _ st ih => exact held_step ih st

theorem run_trans {s1 s2 s3 : Conf} {h h'} (r : Conf.Run s1 h s2) (r' : Conf.Run s2 h' s3) : Conf.Run s1 (h ++ h') s3 := by
  induction r' with
  | refl => simpa using r
  | step _ st ih => rw [← List.append_assoc]; exact .step ih st

theorem run_one {s s' : Conf} {e} (st : Conf.Step s e s') : Conf.Run s e.toList s' := by
  have := Conf.Run.step (.refl s) st
  simpa using this

/-- All results of a program are of a kind. -/
inductive Results (P : Ret ⊕ Op → Prop) : Prog (Ret ⊕ Op) → Prop
  | pure (x) (h : P x) : Results P (.pure x)
  | readM (u k) (h : ∀ v, Results P (k v)) : Results P (.readM u k)
  | readU (u k) (h : ∀ v, Results P (k v)) : Results P (.readU u k)
  | iterM (k) (h : ∀ v, Results P (k v)) : Results P (.iterM k)
  | writeM (u c k) (h : Results P k) : Results P (.writeM u c k)
  | writeU (u c k) (h : Results P k) : Results P (.writeU u c k)
  | delM (u k) (h : Results P k) : Results P (.delM u k)
  | delU (u k) (h : Results P k) : Results P (.delU u k)

theorem results_found (c : Conn) : Results (fun x => ∃ r, x = .inl r) (section_ (.removeFound c)).2 :=
  .delU _ _ (.delM _ _ (.pure _ ⟨_, rfl⟩))

theorem results_section (op : Op) : Results (fun x => (∃ r, x = .inl r) ∨ ∃ c, x = .inr (.removeFound c)) (section_ op).2 := by
  cases op with
  | add c =>
    refine .readM _ _ fun v => ?_
    cases v with
    | some _ => exact .pure _ (.inl ⟨_, rfl⟩)
    | none =>
      refine .readU _ _ fun v => ?_
      cases v with
      | some _ => exact .pure _ (.inl ⟨_, rfl⟩)
      | none => exact .writeM _ _ _ (.writeU _ _ _ (.pure _ (.inl ⟨_, rfl⟩)))
  | update f t =>
    refine .readM _ _ fun v => ?_
    cases v with
    | none => exact .pure _ (.inl ⟨_, rfl⟩)
    | some _ =>
      refine .readU _ _ fun v => ?_
      cases v with
      | none => exact .pure _ (.inl ⟨_, rfl⟩)
      | some _ => exact .writeM _ _ _ (.writeU _ _ _ (.pure _ (.inl ⟨_, rfl⟩)))
  | conns => exact .iterM _ fun _ => .pure _ (.inl ⟨_, rfl⟩)
  | byUID n => exact .readU _ _ fun _ => .pure _ (.inl ⟨_, rfl⟩)
  | byUUID u => exact .readM _ _ fun _ => .pure _ (.inl ⟨_, rfl⟩)
  | remove c => exact .delU _ _ (.delM _ _ (.pure _ (.inl ⟨_, rfl⟩)))
  | removeFound c => exact .delU _ _ (.delM _ _ (.pure _ (.inl ⟨_, rfl⟩)))
  | removeUID n =>
    refine .readU _ _ fun v => ?_
    cases v with
    | none => exact .pure _ (.inl ⟨_, rfl⟩)
    | some c => exact .pure _ (.inr ⟨_, rfl⟩)
  | removeUUID n =>
    refine .readM _ _ fun v => ?_
    cases v with
    | none => exact .pure _ (.inl ⟨_, rfl⟩)
    | some c => exact .pure _ (.inr ⟨_, rfl⟩)

/-- Inside, a goroutine can come to the end of its section by itself. -/
theorem to_end (p : Prog (Ret ⊕ Op)) : ∀ (s : Conf) (t op w), s.pc t = .crit op w p →
    ∃ x s', Conf.Run s [] s' ∧ s'.pc t = .crit op w (.pure x) ∧ s'.writer = s.writer ∧ s'.readers = s.readers ∧ (∀ u, u ≠ t → s'.pc u = s.pc u) ∧ ∀ P, Results P p → P x := by
  have next : ∀ (s : Conf) (t op w p q cm'), s.pc t = .crit op w p → Prog.Step p s.cm q cm' →
      (∀ P, Results P p → Results P q) → (∀ (s : Conf) (t op w), s.pc t = .crit op w q →
        ∃ x s', Conf.Run s [] s' ∧ s'.pc t = .crit op w (.pure x) ∧ s'.writer = s.writer ∧ s'.readers = s.readers ∧ (∀ u, u ≠ t → s'.pc u = s.pc u) ∧ ∀ P, Results P q → P x) →
      ∃ x s', Conf.Run s [] s' ∧ s'.pc t = .crit op w (.pure x) ∧ s'.writer = s.writer ∧ s'.readers = s.readers ∧ (∀ u, u ≠ t → s'.pc u = s.pc u) ∧ ∀ P, Results P p → P x := by
    intro s t op w p q cm' h hs hres ih
    obtain ⟨x, s', hr, a1, a2, a3, a4, a5⟩ := ih { s with cm := cm', pc := upd s.pc t (.crit op w q) } t op w (by simp)
    exact ⟨x, s', run_trans (run_one (.access s t op w p q cm' h hs)) hr, a1, a2, a3, fun u hu => (a4 u hu).trans (upd_other _ _ _ _ hu), fun P hp => a5 P (hres P hp)⟩
  induction p with
  | pure x => intro s t op w h; exact ⟨x, s, .refl s, h, rfl, rfl, fun _ _ => rfl, fun P hp => by cases hp; assumption⟩
  | readM u k ih => intro s t op w h; exact next s t op w _ _ _ h (.readM u k s.cm) (fun P hp => by cases hp; rename_i h1; exact h1 _) (ih _)
  | readU u k ih => intro s t op w h; exact next s t op w _ _ _ h (.readU u k s.cm) (fun P hp => by cases hp; rename_i h1; exact h1 _) (ih _)
  | iterM k ih => intro s t op w h; exact next s t op w _ _ _ h (.iterM k s.cm _ (List.Perm.refl _)) (fun P hp => by cases hp; rename_i h1; exact h1 _) (ih _)
  | writeM u c k ih => intro s t op w h; exact next s t op w _ _ _ h (.writeM u c k s.cm) (fun P hp => by cases hp; assumption) ih
  | writeU u c k ih => intro s t op w h; exact next s t op w _ _ _ h (.writeU u c k s.cm) (fun P hp => by cases hp; assumption) ih
  | delM u k ih => intro s t op w h; exact next s t op w _ _ _ h (.delM u k s.cm) (fun P hp => by cases hp; assumption) ih
  | delU u k ih => intro s t op w h; exact next s t op w _ _ _ h (.delU u k s.cm) (fun P hp => by cases hp; assumption) ih

/-- A goroutine that is inside can leave, by itself. -/
theorem leave {s : Conf} {t op w p} (h : s.pc t = .crit op w p) :
    ∃ x s', Conf.Run s [] s' ∧ s'.pc t = after x ∧ (∀ u, u ≠ t → s'.pc u = s.pc u) ∧
      s'.writer = (if w then none else s.writer) ∧ s'.readers = (if w then s.readers else s.readers.erase t) ∧ ∀ P, Results P p → P x := by
  obtain ⟨x, s1, hr, a1, a2, a3, a4, a5⟩ := to_end p s t op w h
  cases w with
  | true =>
    exact ⟨x, _, run_trans hr (run_one (.unlock s1 t op x a1)), by simp, fun u hu => (upd_other _ _ _ _ hu).trans (a4 u hu), rfl, a3, a5⟩
  | false =>
    refine ⟨x, _, run_trans hr (run_one (.runlock s1 t op x a1)), by simp, fun u hu => (upd_other _ _ _ _ hu).trans (a4 u hu), ?_, ?_, a5⟩
    · simpa using a2
    · simp [a3]

/-- All that are inside can leave. -/
theorem drain (s : Conf) (g : Held s) :
    ∃ s', Conf.Run s [] s' ∧ s'.writer = none ∧ s'.readers = [] ∧
      ∀ t, s'.pc t = s.pc t ∨ ∃ op w p x, s.pc t = .crit op w p ∧ s'.pc t = after x := by
  have wr : ∃ s1, Conf.Run s [] s1 ∧ s1.writer = none ∧ s1.readers = s.readers ∧
      ∀ t, s1.pc t = s.pc t ∨ ∃ op w p x, s.pc t = .crit op w p ∧ s1.pc t = after x := by
    cases hw : s.writer with
    | none => exact ⟨s, .refl s, hw, rfl, fun _ => .inl rfl⟩
    | some t =>
      obtain ⟨op, p, hp⟩ := (g.w t).mp hw
      obtain ⟨x, s', hr, b1, b2, b3, b4, -⟩ := leave hp
      refine ⟨s', hr, by simpa using b3, by simpa using b4, fun u => ?_⟩
      by_cases hu : u = t
      · subst hu; exact .inr ⟨_, _, _, _, hp, b1⟩
      · exact .inl (b2 u hu)
  obtain ⟨s1, r1, w1, -, p1⟩ := wr
  have key : ∀ (n : Nat) (s : Conf), Held s → s.writer = none → s.readers.length ≤ n → ∃ s', Conf.Run s [] s' ∧ s'.writer = none ∧ s'.readers = [] ∧
      ∀ t, s'.pc t = s.pc t ∨ ∃ op w p x, s.pc t = .crit op w p ∧ s'.pc t = after x := by
    intro n
    induction n with
    | zero => intro s _ hw hl; exact ⟨s, .refl s, hw, List.eq_nil_of_length_eq_zero (Nat.le_zero.mp hl), fun _ => .inl rfl⟩
    | succ n ih =>
      intro s g hw hl
      cases hrd : s.readers with
      | nil => exact ⟨s, .refl s, hw, hrd, fun _ => .inl rfl⟩
      | cons t ts =>
        obtain ⟨op, p, hp⟩ := (g.r t).mp (by rw [hrd]; simp)
        obtain ⟨x, s', hr, b1, b2, b3, b4, -⟩ := leave hp
        have hl' : s'.readers.length ≤ n := by
          rw [b4]; simp [hrd] at hl ⊢; exact hl
        obtain ⟨s2, r2, c1, c2, c3⟩ := ih s' (held_run g hr) (by simpa [hw] using b3) hl'
        refine ⟨s2, run_trans hr r2, c1, c2, fun u => ?_⟩
        by_cases hu : u = t
        · subst hu
          rcases c3 u with h | ⟨op', w', p', x', h, _⟩
          · exact .inr ⟨_, _, _, _, hp, h.trans b1⟩
          · rw [b1] at h; exact absurd h (after_out _ _ _ _)
        · have := b2 u hu
          have h3 := c3 u
          rw [this] at h3
          exact h3
  obtain ⟨s2, r2, c1, c2, c3⟩ := key _ s1 (held_run g r1) w1 (Nat.le_refl _)
  refine ⟨s2, run_trans r1 r2, c1, c2, fun t => ?_⟩
  rcases p1 t with h | ⟨op, w, p, x, h, h'⟩
  · have := c3 t; rw [h] at this; exact this
  · rcases c3 t with h2 | ⟨_, _, _, _, h2, _⟩
    · exact .inr ⟨_, _, _, _, h, h2.trans h'⟩
    · rw [h'] at h2; exact absurd h2 (after_out _ _ _ _)

/-- With nobody inside, a goroutine can go through its next section. -/
theorem through {s : Conf} (hw : s.writer = none) (hr : s.readers = []) {t op} (h : s.pc t = .called op) :
    ∃ x s', Conf.Run s [] s' ∧ s'.pc t = after x ∧ s'.writer = none ∧ s'.readers = [] ∧ ∀ P, Results P (section_ op).2 → P x := by
  cases hb : (section_ op).1 with
  | true =>
    have st := Conf.Step.lock s t op h hb hw hr
    obtain ⟨x, s', r, a1, a2, a3, a4, a5⟩ := leave (s := { s with writer := some t, pc := upd s.pc t (.crit op true (section_ op).2) }) (t := t) (upd_same _ _ _)
    exact ⟨x, s', run_trans (run_one st) r, a1, by simpa using a3, by simpa [hr] using a4, a5⟩
  | false =>
    have st := Conf.Step.rlock s t op h hb hw
    obtain ⟨x, s', r, a1, a2, a3, a4, a5⟩ := leave (s := { s with readers := t :: s.readers, pc := upd s.pc t (.crit op false (section_ op).2) }) (t := t) (upd_same _ _ _)
    exact ⟨x, s', run_trans (run_one st) r, a1, by simpa [hw] using a3, by simpa [hr] using a4, a5⟩

theorem can_return {s : Conf} (g : Held s) {t : Nat} (h : s.pc t ≠ .idle) :
    ∃ r s', Conf.Run s [.ret t r] s' ∧ s'.pc t = .idle := by
  obtain ⟨s1, r1, w1, e1, p1⟩ := drain s g
  have fin : ∀ s2 r, Conf.Run s [] s2 → s2.pc t = .finished r → ∃ r s', Conf.Run s [.ret t r] s' ∧ s'.pc t = .idle := by
    intro s2 r hr hp
    exact ⟨r, _, run_trans hr (run_one (.ret s2 t r hp)), by simp⟩
  have sec : ∀ s2 op, Conf.Run s [] s2 → s2.writer = none → s2.readers = [] → s2.pc t = .called op →
      ∃ r s', Conf.Run s [.ret t r] s' ∧ s'.pc t = .idle := by
    intro s2 op hr hw hrd hp
    obtain ⟨x, s3, r3, q3, w3, e3, res⟩ := through hw hrd hp
    rcases res _ (results_section op) with ⟨r, rfl⟩ | ⟨c, rfl⟩
    · exact fin s3 r (run_trans hr r3) q3
    · obtain ⟨x, s4, r4, q4, -, -, res4⟩ := through w3 e3 q3
      obtain ⟨r, rfl⟩ := res4 _ (results_found c)
      exact fin s4 r (run_trans (run_trans hr r3) r4) q4
  have g1 := held_run g r1
  cases hp : s1.pc t with
  | idle =>
    rcases p1 t with h1 | ⟨op, w, p, x, -, h2⟩
    · exact absurd (h1.symm.trans hp) h
    · rw [hp] at h2; cases x <;> cases h2
  | called op => exact sec s1 op r1 w1 e1 hp
  | crit op w p =>
    cases w with
    | true => have := (g1.w t).mpr ⟨_, _, hp⟩; rw [w1] at this; cases this
    | false => have := (g1.r t).mpr ⟨_, _, hp⟩; rw [e1] at this; cases this
  | finished r => exact fin s1 r r1 hp

end Verif.Lemmas.NetProgress
