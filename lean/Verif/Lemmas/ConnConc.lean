import Verif.Spec.ConnConc
namespace Verif.Lemmas.ConnConc
open Verif Verif.CConn Verif.Spec.ConnConc
open Verif.Net (upd)

/-- Fields guarded by the mutex. -/
def guarded : Field → Bool
  | .closed => false
  | .tracer => false
  | _ => true

/-- The lock discipline; `b`: the mutex is held. -/
inductive Disc : Bool → Prog → Prop
  | ret (r) : Disc false (.ret r)
  | read (b f k) (hg : guarded f = true → b = true) (h : ∀ v, Disc b (k v)) : Disc b (.read f k)
  | write (b f v k) (hg : guarded f = true → b = true) (h : Disc b k) : Disc b (.write f v k)
  | net (b k) (h : ∀ v, Disc b (k v)) : Disc b (.net k)
  | lock (k) (h : Disc true k) : Disc false (.lock k)
  | unlock (k) (h : Disc false k) : Disc true (.unlock k)

theorem disc_loop : ∀ ss, Disc true (schemaLoop ss)
  | [] => .unlock _ (.ret _)
  | s :: ss => by
    refine .read _ _ _ (fun _ => rfl) fun v => ?_
    split
    · exact disc_loop ss
    · exact .read _ _ _ (fun _ => rfl) fun v' => .write _ _ _ _ (fun _ => rfl) (disc_loop ss)

theorem disc_code (op : Op) : Disc false (code op) := by
  cases op with
  | setUser u => exact .lock _ (.write _ _ _ _ (fun _ => rfl) (.unlock _ (.ret _)))
  | user => exact .lock _ (.read _ _ _ (fun _ => rfl) fun _ => .unlock _ (.ret _))
  | setDatabase d => exact .lock _ (.write _ _ _ _ (fun _ => rfl) (.write _ _ _ _ (fun _ => rfl) (.unlock _ (.ret _))))
  | database => exact .lock _ (.read _ _ _ (fun _ => rfl) fun _ => .unlock _ (.ret _))
  | setSchemas ss => exact .lock _ (disc_loop ss)
  | schemas => exact .lock _ (.read _ _ _ (fun _ => rfl) fun _ => .read _ _ _ (fun _ => rfl) fun _ => .unlock _ (.ret _))
  | close =>
    refine .read _ _ _ (fun h => by cases h) fun c => ?_
    cases (show Bool from c) with
    | true => exact .ret _
    | false =>
      refine .net _ _ fun ok => ?_
      cases ok with
      | true => exact .write _ _ _ _ (fun h => by cases h) (.ret _)
      | false => exact .ret _
  | setSpanContext c => exact .write _ _ _ _ (fun h => by cases h) (.ret _)
  | spanContext => exact .read _ _ _ (fun h => by cases h) fun _ => .ret _

@[simp] theorem upd_same {α : Type} (f : Nat → α) (t : Nat) (x : α) : upd f t x t = x := by simp [upd]
theorem upd_other {α : Type} (f : Nat → α) (t u : Nat) (x : α) (h : u ≠ t) : upd f t x u = f u := by simp [upd, h]

/-- The goroutines keep the discipline, and the one that holds the mutex is inside a call. -/
structure Good (s : Conf) : Prop where
  disc : ∀ t op p, s.pc t = some (op, p) → Disc (decide (s.holder = some t)) p
  inside : ∀ t, s.holder = some t → s.pc t ≠ none

theorem good_init (os) : Good (Conf.init os) := ⟨fun _ _ _ h => (nomatch h), fun _ h => (nomatch h)⟩

theorem good_same {s : Conf} {t : Nat} {op : Op} {p q : Prog} {m : Mem} (g : Good s) (hp : s.pc t = some (op, p))
    (hd : ∀ b, Disc b p → Disc b q) : Good { s with mem := m, pc := upd s.pc t (some (op, q)) } := by
  refine ⟨fun u op' p' h => ?_, fun u h => ?_⟩
  · by_cases hu : u = t
    · subst hu
      simp only [upd_same, Option.some.injEq, Prod.mk.injEq] at h
      rw [← h.2]
      exact hd _ (g.disc _ _ _ hp)
    · simp only [upd_other _ _ _ _ hu] at h
      exact g.disc _ _ _ h
  · by_cases hu : u = t
    · subst hu; simp
    · simp only [upd_other _ _ _ _ hu]; exact g.inside u h

theorem good_step {s s' : Conf} {e} (g : Good s) (st : Conf.Step s e s') : Good s' := by
  cases st with
  | call t op h =>
    refine ⟨fun u op' p' hu' => ?_, fun u h' => ?_⟩
    · by_cases hu : u = t
      · subst hu
        simp only [upd_same, Option.some.injEq, Prod.mk.injEq] at hu'
        have : s.holder ≠ some u := fun hh => g.inside u hh h
        simp only [this, decide_false]
        rw [← hu'.2]; exact disc_code _
      · simp only [upd_other _ _ _ _ hu] at hu'
        exact g.disc _ _ _ hu'
    · by_cases hu : u = t
      · subst hu; simp
      · simp only [upd_other _ _ _ _ hu]; exact g.inside u h'
  | read t op f k h => exact good_same (m := s.mem) g h fun b hd => by cases hd; rename_i h1; exact h1 _
  | write t op f v k h => exact good_same g h fun b hd => by cases hd; assumption
  | net t op k b h => exact good_same (m := s.mem) g h fun b hd => by cases hd; rename_i h1; exact h1 _
  | lock t op k h hf =>
    refine ⟨fun u op' p' hu' => ?_, fun u h' => ?_⟩
    · by_cases hu : u = t
      · subst hu
        simp only [upd_same, Option.some.injEq, Prod.mk.injEq] at hu'
        have hd := g.disc _ _ _ h
        simp only [hf, reduceCtorEq, decide_false] at hd
        cases hd with
        | lock _ h1 => rw [← hu'.2]; simpa using h1
      · simp only [upd_other _ _ _ _ hu] at hu'
        have hd := g.disc _ _ _ hu'
        have h2 : ¬ some t = some u := fun h => hu (Option.some.inj h).symm
        simpa [hf, h2] using hd
    · cases h'; simp
  | unlock t op k h =>
    have hd := g.disc _ _ _ h
    have hh : s.holder = some t := by
      cases hd' : decide (s.holder = some t) with
      | true => exact of_decide_eq_true hd'
      | false => rw [hd'] at hd; cases hd
    refine ⟨fun u op' p' hu' => ?_, fun u h' => by cases h'⟩
    by_cases hu : u = t
    · subst hu
      simp only [upd_same, Option.some.injEq, Prod.mk.injEq] at hu'
      simp only [hh, decide_true] at hd
      cases hd with
      | unlock _ h1 => rw [← hu'.2]; simpa using h1
    · simp only [upd_other _ _ _ _ hu] at hu'
      have hd' := g.disc _ _ _ hu'
      have h2 : ¬ some t = some u := fun h => hu (Option.some.inj h).symm
      rw [hh] at hd'
      simpa [h2] using hd'
  | ret t op r h =>
    have hd := g.disc _ _ _ h
    have hn : s.holder ≠ some t := by
      intro hh
      rw [hh, decide_eq_true rfl] at hd
      cases hd
    refine ⟨fun u op' p' hu' => ?_, fun u h' => ?_⟩
    · by_cases hu : u = t
      · subst hu; simp at hu'
      · simp only [upd_other _ _ _ _ hu] at hu'
        exact g.disc _ _ _ hu'
    · have hu : u ≠ t := fun hu => hn (hu ▸ h')
      simp only [upd_other _ _ _ _ hu]; exact g.inside u h'

theorem good_run {s s' : Conf} {h} (g : Good s) (r : Conf.Run s h s') : Good s' := by
  induction r with
  | refl => exact g
  | step _ st ih => exact good_step ih st

theorem access_held {b : Bool} {p : Prog} {f w} (hd : Disc b p) (ha : access p = some (f, w)) (hg : guarded f = true) : b = true := by
  cases hd <;> simp only [access, Option.some.injEq, Prod.mk.injEq, reduceCtorEq] at ha
  all_goals (obtain ⟨rfl, -⟩ := ha; rename_i hh _; exact hh hg)

theorem no_race {s : Conf} (g : Good s) {f : Field} (hg : guarded f = true) : ¬ Race s f := by
  rintro ⟨t, u, op, op', p, q, w, hne, ht, hu, ha, hb⟩
  have h1 := of_decide_eq_true (access_held (g.disc _ _ _ ht) ha hg)
  have h2 := of_decide_eq_true (access_held (g.disc _ _ _ hu) hb hg)
  exact hne (Option.some.inj (h1.symm.trans h2))

/-! ### progress -/

theorem run_trans {s1 s2 s3 : Conf} {h h'} (r : Conf.Run s1 h s2) (r' : Conf.Run s2 h' s3) : Conf.Run s1 (h ++ h') s3 := by
  induction r' with
  | refl => simpa using r
  | step _ st ih => rw [← List.append_assoc]; exact .step ih st

theorem run_one {s s' : Conf} {e} (st : Conf.Step s e s') : Conf.Run s e.toList s' := by
  have := Conf.Run.step (.refl s) st
  simpa using this

/-- Alone, a goroutine can finish its call if the mutex is its own or free. -/
theorem finish (p : Prog) : ∀ (s : Conf) (t op b), s.pc t = some (op, p) → Disc b p → (b = true → s.holder = some t) → (b = false → s.holder = none) →
    ∃ r s', Conf.Run s [.ret t op r] s' ∧ s'.pc t = none ∧ s'.holder = none ∧ ∀ u, u ≠ t → s'.pc u = s.pc u := by
  induction p with
  | ret r =>
    intro s t op b h hd h1 h2
    cases hd
    exact ⟨r, _, run_one (.ret s t op r h), by simp, h2 rfl, fun u hu => upd_other _ _ _ _ hu⟩
  | read f k ih =>
    intro s t op b h hd h1 h2
    cases hd with
    | read _ _ _ hg hk =>
      obtain ⟨r, s', hr, a1, a2, a3⟩ := ih (s.mem f) { s with pc := upd s.pc t (some (op, k (s.mem f))) } t op b (by simp) (hk _) h1 h2
      exact ⟨r, s', run_trans (run_one (.read s t op f k h)) hr, a1, a2, fun u hu => (a3 u hu).trans (upd_other _ _ _ _ hu)⟩
  | write f v k ih =>
    intro s t op b h hd h1 h2
    cases hd with
    | write _ _ _ _ hg hk =>
      obtain ⟨r, s', hr, a1, a2, a3⟩ := ih { s with mem := s.mem.set f v, pc := upd s.pc t (some (op, k)) } t op b (by simp) hk h1 h2
      exact ⟨r, s', run_trans (run_one (.write s t op f v k h)) hr, a1, a2, fun u hu => (a3 u hu).trans (upd_other _ _ _ _ hu)⟩
  | net k ih =>
    intro s t op b h hd h1 h2
    cases hd with
    | net _ _ hk =>
      obtain ⟨r, s', hr, a1, a2, a3⟩ := ih true { s with pc := upd s.pc t (some (op, k true)) } t op b (by simp) (hk _) h1 h2
      exact ⟨r, s', run_trans (run_one (.net s t op k true h)) hr, a1, a2, fun u hu => (a3 u hu).trans (upd_other _ _ _ _ hu)⟩
  | lock k ih =>
    intro s t op b h hd h1 h2
    cases hd with
    | lock _ hk =>
      obtain ⟨r, s', hr, a1, a2, a3⟩ := ih { s with holder := some t, pc := upd s.pc t (some (op, k)) } t op true (by simp) hk (fun _ => rfl) (fun h => by cases h)
      exact ⟨r, s', run_trans (run_one (.lock s t op k h (h2 rfl))) hr, a1, a2, fun u hu => (a3 u hu).trans (upd_other _ _ _ _ hu)⟩
  | unlock k ih =>
    intro s t op b h hd h1 h2
    cases hd with
    | unlock _ hk =>
      obtain ⟨r, s', hr, a1, a2, a3⟩ := ih { s with holder := none, pc := upd s.pc t (some (op, k)) } t op false (by simp) hk (fun h => by cases h) (fun _ => rfl)
      exact ⟨r, s', run_trans (run_one (.unlock s t op k h)) hr, a1, a2, fun u hu => (a3 u hu).trans (upd_other _ _ _ _ hu)⟩

theorem can_return {s : Conf} (g : Good s) {t op p} (h : s.pc t = some (op, p)) :
    ∃ es r s', Conf.Run s (es ++ [.ret t op r]) s' ∧ s'.pc t = none ∧ NoCall es := by
  cases hh : s.holder with
  | none =>
    have hd := g.disc _ _ _ h
    simp only [hh, reduceCtorEq, decide_false] at hd
    obtain ⟨r, s', hr, a1, -, -⟩ := finish p s t op false h hd (fun h => by cases h) (fun _ => hh)
    exact ⟨[], r, s', hr, a1, fun _ _ h => by cases h⟩
  | some u =>
    by_cases hu : u = t
    · subst hu
      have hd := g.disc _ _ _ h
      simp only [hh, decide_true] at hd
      obtain ⟨r, s', hr, a1, -, -⟩ := finish p s u op true h hd (fun _ => hh) (fun h => by cases h)
      exact ⟨[], r, s', hr, a1, fun _ _ h => by cases h⟩
    · cases hq : s.pc u with
      | none => exact absurd hq (g.inside u hh)
      | some x =>
        obtain ⟨op', q⟩ := x
        have hd := g.disc _ _ _ hq
        simp only [hh, decide_true] at hd
        obtain ⟨r1, s1, hr1, a1, a2, a3⟩ := finish q s u op' true hq hd (fun _ => hh) (fun h => by cases h)
        have h1 : s1.pc t = some (op, p) := (a3 t (fun h => hu h.symm)).trans h
        have hd1 := (good_run g hr1).disc _ _ _ h1
        simp only [a2, reduceCtorEq, decide_false] at hd1
        obtain ⟨r, s', hr, b1, -, -⟩ := finish p s1 t op false h1 hd1 (fun h => by cases h) (fun _ => a2)
        exact ⟨_, r, s', run_trans hr1 hr, b1, fun _ _ h => by simp at h⟩

/-! ### linearizability -/

/-- A program that leaves the guarded fields and the mutex alone. -/
inductive Quiet : Prog → Prop
  | ret (r) : Quiet (.ret r)
  | read (f k) (h : ∀ v, Quiet (k v)) : Quiet (.read f k)
  | write (f v k) (hg : guarded f = false) (h : Quiet k) : Quiet (.write f v k)
  | net (k) (h : ∀ v, Quiet (k v)) : Quiet (.net k)

theorem quiet_code (op : Op) (h : session op = false) : Quiet (code op) := by
  cases op <;> simp [session] at h
  · refine .read _ _ fun c => ?_
    cases (show Bool from c) with
    | true => exact .ret _
    | false =>
      refine .net _ fun ok => ?_
      cases ok with
      | true => exact .write _ _ _ rfl (.ret _)
      | false => exact .ret _
  · exact .write _ _ _ rfl (.ret _)
  · exact .read _ _ fun _ => .ret _

/-- Run alone up to its `Unlock`, which is its last action, a program leaves the session `x` and returns `r`. -/
inductive Ends : Prog → Mem → Session → Ret → Prop
  | unlock (r m) : Ends (.unlock (.ret r)) m (ofMem m) r
  | read (f k m x r) (hg : guarded f = true) (h : Ends (k (m f)) m x r) : Ends (.read f k) m x r
  | write (f v k m x r) (hg : guarded f = true) (h : Ends k (m.set f v) x r) : Ends (.write f v k) m x r

theorem set_self (m : Mem) (f v) : (m.set f v) f = v := by simp [Mem.set]
theorem set_other (m : Mem) (f g v) (h : f ≠ g) : (m.set f v) g = m g := by simp [Mem.set, h]

theorem ofMem_congr {m m' : Mem} (h : ∀ f, guarded f = true → m f = m' f) : ofMem m = ofMem m' := by
  simp only [ofMem, h .user rfl, h .db rfl, h .schemas rfl]

theorem Ends.congr {p m x r} (h : Ends p m x r) : ∀ {m'}, (∀ f, guarded f = true → m f = m' f) → Ends p m' x r := by
  induction h with
  | unlock r m => intro m' hm; rw [ofMem_congr hm]; exact .unlock r m'
  | read f k m x r hg _ ih => intro m' hm; refine .read _ _ _ _ _ hg ?_; rw [← hm f hg]; exact ih hm
  | write f v k m x r hg _ ih =>
    intro m' hm
    refine .write _ _ _ _ _ _ hg (ih fun g hg' => ?_)
    by_cases hf : f = g
    · subst hf; rw [set_self, set_self]
    · rw [set_other _ _ _ _ hf, set_other _ _ _ _ hf]; exact hm g hg'

theorem newOnes_congr : ∀ (ss : List Str) (a b : List Str), (∀ s, s ∈ a ↔ s ∈ b) → newOnes a ss = newOnes b ss
  | [], _, _, _ => rfl
  | s :: ss, a, b, h => by
    simp only [newOnes, h s]
    rw [newOnes_congr ss a b h, newOnes_congr ss (s :: a) (s :: b) (fun x => by simp [h x])]

theorem ends_loop : ∀ (ss : List Str) (m : Mem),
    Ends (schemaLoop ss) m { ofMem m with schemas := (ofMem m).schemas ++ newOnes (ofMem m).schemas ss } .unit
  | [], m => by
    have := Ends.unlock .unit m
    simpa [newOnes, schemaLoop] using this
  | s :: ss, m => by
    refine .read _ _ _ _ _ rfl ?_
    by_cases hc : s ∈ (ofMem m).schemas
    · have h1 : List.contains (α := Str) (m .schemas) s = true := by
        exact List.contains_iff_mem (as := (ofMem m).schemas).mpr hc
      simp only [h1, if_true, newOnes, hc]
      exact ends_loop ss m
    · have h1 : List.contains (α := Str) (m .schemas) s = false := by
        rw [← Bool.not_eq_true]; exact fun h => hc (List.contains_iff_mem (as := (ofMem m).schemas).mp h)
      simp only [h1, Bool.false_eq_true, if_false, newOnes, hc]
      refine .read _ _ _ _ _ rfl (.write _ _ _ _ _ _ rfl ?_)
      have := ends_loop ss (m.set .schemas (List.append (α := Str) (m .schemas) [s]))
      have e : ofMem (m.set .schemas (List.append (α := Str) (m .schemas) [s])) = { ofMem m with schemas := (ofMem m).schemas ++ [s] } := rfl
      rw [e] at this
      simp only at this
      rw [newOnes_congr ss ((ofMem m).schemas ++ [s]) (s :: (ofMem m).schemas) (fun x => by simp [or_comm])] at this
      simpa using this

theorem copied_self (l : List Str) : copied l.length l = l := by simp [copied]

theorem ends_code (op : Op) (h : session op = true) (m : Mem) :
    ∃ k, code op = .lock k ∧ ∃ x r, Ends k m x r ∧ Does op (ofMem m) x r := by
  cases op <;> simp [session] at h
  case setUser u => exact ⟨_, rfl, _, _, .write _ _ _ _ _ _ rfl (.unlock _ _), .setUser u _⟩
  case user => exact ⟨_, rfl, _, _, .read _ _ _ _ _ rfl (.unlock _ _), .user _⟩
  case setDatabase d => exact ⟨_, rfl, _, _, .write _ _ _ _ _ _ rfl (.write _ _ _ _ _ _ rfl (.unlock _ _)), .setDatabase d _⟩
  case database => exact ⟨_, rfl, _, _, .read _ _ _ _ _ rfl (.unlock _ _), .database _⟩
  case setSchemas ss => exact ⟨_, rfl, _, _, ends_loop ss m, .setSchemas ss _⟩
  case schemas =>
    refine ⟨_, rfl, _, _, .read _ _ _ _ _ rfl (.read _ _ _ _ _ rfl (.unlock _ _)), ?_⟩
    have := copied_self (m .schemas)
    rw [this]
    exact .schemas _

/-- How one goroutine is simulated. -/
inductive SimAt (s : Conf) (x : Session) (t : Nat) : APc → Prop
  | idle (h : s.pc t = none) : SimAt s x t .idle
  | other (op p) (h : s.pc t = some (op, p)) (hs : session op = false) (hq : Quiet p) : SimAt s x t .idle
  | before (op) (h : s.pc t = some (op, code op)) (hs : session op = true) : SimAt s x t (.pending op)
  | inside (op p x' r) (h : s.pc t = some (op, p)) (hs : session op = true) (hh : s.holder = some t) (he : Ends p s.mem x' r)
      (hd : Does op x x' r) : SimAt s x t (.pending op)
  | after (op r) (h : s.pc t = some (op, .ret r)) (hs : session op = true) : SimAt s x t (.done op r)

/-- The simulation. -/
structure Sim (s : Conf) (a : AConf) : Prop where
  good : Good s
  free : s.holder = none → a.x = ofMem s.mem
  all : ∀ t, SimAt s a.x t (a.pc t)

/-- What another goroutine does leaves the simulation of this one. -/
theorem simAt_other {s s' : Conf} {x t p} (h : SimAt s x t p) (hp : s'.pc t = s.pc t) (hh : s.holder = some t → s'.holder = some t)
    (hm : s.holder = some t → ∀ f, guarded f = true → s.mem f = s'.mem f) : SimAt s' x t p := by
  cases h with
  | idle h => exact .idle (hp.trans h)
  | other op p h hs hq => exact .other op p (hp.trans h) hs hq
  | before op h hs => exact .before op (hp.trans h) hs
  | inside op p x' r h hs h1 he hd => exact .inside op p x' r (hp.trans h) hs (hh h1) (he.congr (hm h1)) hd
  | after op r h hs => exact .after op r (hp.trans h) hs

/-- The effect of another goroutine's call leaves it too. -/
theorem simAt_effect {s : Conf} {x x' t p} (h : SimAt s x t p) (hn : s.holder ≠ some t) : SimAt s x' t p := by
  cases h with
  | idle h => exact .idle h
  | other op p h hs hq => exact .other op p h hs hq
  | before op h hs => exact .before op h hs
  | inside op p x' r h hs h1 he hd => exact absurd h1 hn
  | after op r h hs => exact .after op r h hs

theorem arun_one {a a' : AConf} {h e} (r : AConf.Run a h a') : ∀ {a''}, AConf.Step a' e a'' → AConf.Run a (h ++ e.toList) a'' :=
  fun st => .step r st

theorem code_lock {op : Op} {p : Prog} (hs : session op = true) (h : p = code op) : ∃ k, p = .lock k := by
  obtain ⟨k, hk, -⟩ := ends_code op hs Mem.zero
  exact ⟨k, h.trans hk⟩

theorem sim_step {s s' : Conf} {e} {a0 a : AConf} {h : List Event} (st : Conf.Step s e s') (sim : Sim s a) (ra : AConf.Run a0 h a) :
    ∃ a', AConf.Run a0 (h ++ e.toList.filter evSession) a' ∧ Sim s' a' := by
  have g' := good_step sim.good st
  cases st with
  | call t op hp =>
    cases hs : session op with
    | true =>
      refine ⟨{ a with pc := upd a.pc t (.pending op) }, ?_, g', sim.free, fun u => ?_⟩
      · have hi : a.pc t = .idle := by
          have := sim.all t
          revert this; generalize a.pc t = q; intro this
          cases this <;> simp_all
        have := AConf.Run.step ra (.call a t op hi)
        simpa [evSession, hs] using this
      · by_cases hu : u = t
        · subst hu
          simp only [upd_same]
          exact .before op (by simp) hs
        · simp only [upd_other _ _ _ _ hu]
          exact simAt_other (sim.all u) (upd_other _ _ _ _ hu) id (fun _ _ _ => rfl)
    | false =>
      refine ⟨a, by simpa [evSession, hs] using ra, g', sim.free, fun u => ?_⟩
      by_cases hu : u = t
      · subst hu
        have hi : a.pc u = .idle := by
          have := sim.all u
          revert this; generalize a.pc u = q; intro this
          cases this <;> simp_all
        rw [hi]
        exact .other op _ (by simp) hs (quiet_code op hs)
      · exact simAt_other (sim.all u) (upd_other _ _ _ _ hu) id (fun _ _ _ => rfl)
  | read t op f k hp =>
    refine ⟨a, by simpa using ra, g', sim.free, fun u => ?_⟩
    by_cases hu : u = t
    · subst hu
      have h1 := sim.all u
      revert h1; generalize a.pc u = q; intro h1
      cases h1 with
      | idle h => rw [hp] at h; cases h
      | other op' p h hs hq =>
        rw [hp] at h; cases h
        cases hq with
        | read _ _ hk => exact .other op (k (s.mem f)) (by simp) hs (hk _)
      | before op' h hs =>
        rw [hp] at h
        simp only [Option.some.injEq, Prod.mk.injEq] at h
        obtain ⟨rfl, h2⟩ := h
        obtain ⟨k', hk'⟩ := code_lock hs h2
        cases hk'
      | inside op' p x' r h hs hh he hd =>
        rw [hp] at h; cases h
        cases he with
        | read _ _ _ _ _ hg he => exact .inside op _ x' r (by simp) hs hh he hd
      | after op' r h hs => rw [hp] at h; cases h
    · exact simAt_other (sim.all u) (upd_other _ _ _ _ hu) id (fun _ _ _ => rfl)
  | write t op f v k hp =>
    have held : guarded f = true → s.holder = some t := by
      intro hg
      have := access_held (w := true) (sim.good.disc _ _ _ hp) rfl hg
      exact of_decide_eq_true this
    have others : ∀ u, u ≠ t → SimAt { s with mem := s.mem.set f v, pc := upd s.pc t (some (op, k)) } a.x u (a.pc u) := by
      intro u hu
      refine simAt_other (sim.all u) (upd_other _ _ _ _ hu) id fun hh g hg => ?_
      by_cases hf : f = g
      · subst hf
        rw [held hg] at hh
        exact absurd (Option.some.inj hh).symm hu
      · exact (set_other _ _ _ _ hf).symm
    refine ⟨a, by simpa using ra, g', fun hh => ?_, fun u => ?_⟩
    · rw [sim.free hh]
      refine ofMem_congr fun g hg => ?_
      by_cases hf : f = g
      · subst hf
        simp only at hh
        rw [held hg] at hh; cases hh
      · exact (set_other _ _ _ _ hf).symm
    · by_cases hu : u = t
      · subst hu
        have h1 := sim.all u
        revert h1; generalize a.pc u = q; intro h1
        cases h1 with
        | idle h => rw [hp] at h; cases h
        | other op' p h hs hq =>
          rw [hp] at h; cases h
          cases hq with
          | write _ _ _ _ hk => exact .other op _ (by simp) hs hk
        | before op' h hs =>
          rw [hp] at h
          simp only [Option.some.injEq, Prod.mk.injEq] at h
          obtain ⟨rfl, h2⟩ := h
          obtain ⟨k', hk'⟩ := code_lock hs h2
          cases hk'
        | inside op' p x' r h hs hh he hd =>
          rw [hp] at h; cases h
          cases he with
          | write _ _ _ _ _ _ hg he => exact .inside op _ x' r (by simp) hs hh he hd
        | after op' r h hs => rw [hp] at h; cases h
      · exact others u hu
  | net t op k b hp =>
    refine ⟨a, by simpa using ra, g', sim.free, fun u => ?_⟩
    by_cases hu : u = t
    · subst hu
      have h1 := sim.all u
      revert h1; generalize a.pc u = q; intro h1
      cases h1 with
      | idle h => rw [hp] at h; cases h
      | other op' p h hs hq =>
        rw [hp] at h; cases h
        cases hq with
        | net _ hk => exact .other op (k b) (by simp) hs (hk _)
      | before op' h hs =>
        rw [hp] at h
        simp only [Option.some.injEq, Prod.mk.injEq] at h
        obtain ⟨rfl, h2⟩ := h
        obtain ⟨k', hk'⟩ := code_lock hs h2
        cases hk'
      | inside op' p x' r h hs hh he hd => rw [hp] at h; cases h; cases he
      | after op' r h hs => rw [hp] at h; cases h
    · exact simAt_other (sim.all u) (upd_other _ _ _ _ hu) id (fun _ _ _ => rfl)
  | lock t op k hp hf =>
    refine ⟨a, by simpa using ra, g', fun hh => (by cases hh), fun u => ?_⟩
    by_cases hu : u = t
    · subst hu
      have h1 := sim.all u
      revert h1; generalize a.pc u = q; intro h1
      cases h1 with
      | idle h => rw [hp] at h; cases h
      | other op' p h hs hq => rw [hp] at h; cases h; cases hq
      | before op' h hs =>
        rw [hp] at h
        simp only [Option.some.injEq, Prod.mk.injEq] at h
        obtain ⟨rfl, h2⟩ := h
        obtain ⟨k', hk', x, r, he, hd⟩ := ends_code op hs s.mem
        rw [hk'] at h2
        cases h2
        exact .inside op _ x r (by simp) hs rfl he (by rw [sim.free hf]; exact hd)
      | inside op' p x' r h hs hh he hd => rw [hf] at hh; cases hh
      | after op' r h hs => rw [hp] at h; cases h
    · exact simAt_other (sim.all u) (upd_other _ _ _ _ hu) (fun hh => by rw [hf] at hh; cases hh) (fun _ _ _ => rfl)
  | unlock t op k hp =>
    have h1 := sim.all t
    generalize hq : a.pc t = q at h1
    cases h1 with
    | idle h => rw [hp] at h; cases h
    | other op' p h hs hq => rw [hp] at h; cases h; cases hq
    | before op' h hs =>
      rw [hp] at h
      simp only [Option.some.injEq, Prod.mk.injEq] at h
      obtain ⟨rfl, h2⟩ := h
      obtain ⟨k', hk'⟩ := code_lock hs h2
      cases hk'
    | inside op' p x' r h hs hh he hd =>
      rw [hp] at h; cases h
      cases he
      refine ⟨{ x := ofMem s.mem, pc := upd a.pc t (.done op r) }, ?_, g', fun _ => rfl, fun u => ?_⟩
      · have := AConf.Run.step ra (.effect a t op _ r hq hd)
        simpa using this
      · by_cases hu : u = t
        · subst hu
          simp only [upd_same]
          exact .after op r (by simp) hs
        · simp only [upd_other _ _ _ _ hu]
          have hn : s.holder ≠ some u := by rw [hh]; exact fun h => hu (Option.some.inj h).symm
          exact simAt_other (simAt_effect (sim.all u) hn) (upd_other _ _ _ _ hu) (fun hh => absurd hh hn) (fun _ _ _ => rfl)
    | after op' r h hs => rw [hp] at h; cases h
  | ret t op r hp =>
    have h1 := sim.all t
    generalize hq : a.pc t = q at h1
    cases h1 with
    | idle h => rw [hp] at h; cases h
    | other op' p h hs _ =>
      rw [hp] at h; cases h
      refine ⟨a, by simpa [evSession, hs] using ra, g', sim.free, fun u => ?_⟩
      by_cases hu : u = t
      · subst hu; rw [hq]; exact .idle (by simp)
      · exact simAt_other (sim.all u) (upd_other _ _ _ _ hu) id (fun _ _ _ => rfl)
    | before op' h hs =>
      rw [hp] at h
      simp only [Option.some.injEq, Prod.mk.injEq] at h
      obtain ⟨rfl, h2⟩ := h
      obtain ⟨k', hk'⟩ := code_lock hs h2
      cases hk'
    | inside op' p x' r h hs hh he hd => rw [hp] at h; cases h; cases he
    | after op' r h hs =>
      rw [hp] at h; cases h
      refine ⟨{ a with pc := upd a.pc t .idle }, ?_, g', sim.free, fun u => ?_⟩
      · have := AConf.Run.step ra (.ret a t op r hq)
        simpa [evSession, hs] using this
      · by_cases hu : u = t
        · subst hu
          simp only [upd_same]
          exact .idle (by simp)
        · simp only [upd_other _ _ _ _ hu]
          exact simAt_other (sim.all u) (upd_other _ _ _ _ hu) id (fun _ _ _ => rfl)

theorem sim_run {s0 s : Conf} {a0 : AConf} {h} (r : Conf.Run s0 h s) (sim : Sim s0 a0) :
    ∃ a, AConf.Run a0 (h.filter evSession) a ∧ Sim s a := by
  induction r with
  | refl => exact ⟨a0, .refl _, sim⟩
  | step _ st ih =>
    obtain ⟨a, ra, sa⟩ := ih
    obtain ⟨a', ra', sa'⟩ := sim_step st sa ra
    exact ⟨a', by rw [List.filter_append]; exact ra', sa'⟩

theorem sim_init (os) : Sim (Conf.init os) { x := ofMem (newConn os).1, pc := fun _ => .idle } :=
  ⟨good_init os, fun _ => rfl, fun _ => .idle rfl⟩

end Verif.Lemmas.ConnConc
