import Verif.Spec.NetPaired
import Verif.Props.NetConc
/-! C58: RemoveConnByUID and RemoveConnByUUID take effect at once as long as an id always goes with the same UUID. -/
namespace Verif.Props
open Verif Verif.Net Verif.Spec Verif.Lemmas

theorem namedIn_mono {h h' : List Event} {c : Conn} (hs : ∀ e, e ∈ h → e ∈ h') (hn : NamedIn h c) : NamedIn h' c := by
  obtain ⟨t, hn | hn | ⟨d, hn | hn⟩⟩ := hn
  · exact ⟨t, .inl (hs _ hn)⟩
  · exact ⟨t, .inr (.inl (hs _ hn))⟩
  · exact ⟨t, .inr (.inr ⟨d, .inl (hs _ hn)⟩)⟩
  · exact ⟨t, .inr (.inr ⟨d, .inr (hs _ hn)⟩)⟩

theorem pairedIds_mono {h h' : List Event} (hs : ∀ e, e ∈ h → e ∈ h') (hp : PairedIds h') : PairedIds h where
  one c d hc hd := hp.one c d (namedIn_mono hs hc) (namedIn_mono hs hd)
  same t c d hm := hp.same t c d (hs _ hm)
  client t c hm := hp.client t c (hs _ hm)

/-- The two maps hold the same connections, each under its own keys, all named in the history. -/
structure MapsPaired (h : List Event) (cm : Mgr) : Prop where
  uid : ∀ n d, cm.uidMap.get? n = some d → d.uid = n ∧ NamedIn h d ∧ cm.m.get? d.uuid = some d
  uuid : ∀ u d, cm.m.get? u = some d → d.uuid = u ∧ NamedIn h d ∧ cm.uidMap.get? d.uid = some d

theorem mapsPaired_mono {h h' : List Event} {cm : Mgr} (hs : ∀ e, e ∈ h → e ∈ h') (hm : MapsPaired h cm) : MapsPaired h' cm where
  uid n d hd := ⟨(hm.uid n d hd).1, namedIn_mono hs (hm.uid n d hd).2.1, (hm.uid n d hd).2.2⟩
  uuid n d hd := ⟨(hm.uuid n d hd).1, namedIn_mono hs (hm.uuid n d hd).2.1, (hm.uuid n d hd).2.2⟩

theorem del_absent {α : Type} (m : GoMap Nat α) (k : Nat) (h : m.get? k = none) : m.del k = m := by
  unfold GoMap.del
  induction m with
  | nil => rfl
  | cons e m ih =>
    obtain ⟨k', v⟩ := e
    simp only [GoMap.get?] at h
    by_cases hk : k' = k
    · simp [hk] at h
    · simp only [hk, if_false] at h
      rw [List.filter_cons_of_pos (by simp [hk]), ih h]

theorem maps_set {h : List Event} {cm : Mgr} (hp : PairedIds h) (hm : MapsPaired h cm) (f c : Conn) (hu : c.uid = f.uid) (huu : c.uuid = f.uuid)
    (hc : NamedIn h c) : MapsPaired h { m := cm.m.set f.uuid c, uidMap := cm.uidMap.set f.uid c } where
  uid n d hd := by
    simp only [GoMap.get?_set] at hd ⊢
    by_cases hn : f.uid = n
    · simp only [hn, if_true, Option.some.injEq] at hd
      subst hd
      exact ⟨hu.trans hn, hc, by simp [huu]⟩
    · simp only [hn, if_false] at hd
      obtain ⟨h1, h2, h3⟩ := hm.uid n d hd
      refine ⟨h1, h2, ?_⟩
      have : ¬ f.uuid = d.uuid := fun e => by
        have := (hp.one c d hc h2).mpr (huu.trans e)
        exact hn (by rw [← hu, this, h1])
      simp only [this, if_false]
      exact h3
  uuid n d hd := by
    simp only [GoMap.get?_set] at hd ⊢
    by_cases hn : f.uuid = n
    · simp only [hn, if_true, Option.some.injEq] at hd
      subst hd
      exact ⟨huu.trans hn, hc, by simp [hu]⟩
    · simp only [hn, if_false] at hd
      obtain ⟨h1, h2, h3⟩ := hm.uuid n d hd
      refine ⟨h1, h2, ?_⟩
      have : ¬ f.uid = d.uid := fun e => by
        have := (hp.one c d hc h2).mp (hu.trans e)
        exact hn (by rw [← huu, this, h1])
      simp only [this, if_false]
      exact h3

theorem maps_remove {h : List Event} {cm : Mgr} (hp : PairedIds h) (hm : MapsPaired h cm) (c : Conn) (hc : NamedIn h c) :
    MapsPaired h (cm.remove c) where
  uid n d hd := by
    simp only [Mgr.remove, GoMap.get?_del] at hd ⊢
    by_cases hn : c.uid = n
    · simp [hn] at hd
    · simp only [hn, if_false] at hd
      obtain ⟨h1, h2, h3⟩ := hm.uid n d hd
      have : ¬ c.uuid = d.uuid := fun e => hn (((hp.one c d hc h2).mpr e).trans h1)
      exact ⟨h1, h2, by simp only [this, if_false]; exact h3⟩
  uuid n d hd := by
    simp only [Mgr.remove, GoMap.get?_del] at hd ⊢
    by_cases hn : c.uuid = n
    · simp [hn] at hd
    · simp only [hn, if_false] at hd
      obtain ⟨h1, h2, h3⟩ := hm.uuid n d hd
      have : ¬ c.uid = d.uid := fun e => hn (((hp.one c d hc h2).mp e).trans h1)
      exact ⟨h1, h2, by simp only [this, if_false]; exact h3⟩

theorem maps_alone {h : List Event} {cm cm' : Mgr} {op : Op} {r : Ret} {t : Nat} (hp : PairedIds h) (hm : MapsPaired h cm) (ho : OneSection op)
    (hc : Event.call t op ∈ h) (ha : Alone op cm cm' r) : MapsPaired h cm' := by
  cases ha with
  | add c =>
    unfold Mgr.add
    split
    · exact hm
    · split
      · exact hm
      · exact maps_set hp hm c c rfl rfl ⟨t, .inl hc⟩
  | update f c =>
    obtain ⟨h1, h2⟩ := hp.same t f c hc
    unfold Mgr.update
    split
    · exact hm
    · split
      · exact hm
      · exact maps_set hp hm f c h1 h2 ⟨t, .inr (.inr ⟨f, .inr hc⟩)⟩
  | remove c => exact maps_remove hp hm c ⟨t, .inr (.inl hc)⟩
  | removeUID => cases ho
  | removeUUID => cases ho
  | conns => exact hm
  | byUID => exact hm
  | byUUID => exact hm

/-- Removing what was found earlier under a key is removing what is now found under it. -/
theorem remove_found {h : List Event} {cm : Mgr} (hp : PairedIds h) (hm : MapsPaired h cm) (c : Conn) (hc : NamedIn h c) :
    cm.removeUID c.uid = cm.remove c ∧ cm.removeUUID c.uuid = cm.remove c := by
  constructor
  · unfold Mgr.removeUID
    cases hd : cm.byUID c.uid with
    | some d =>
      obtain ⟨h1, h2, _⟩ := hm.uid _ d hd
      simp [Mgr.remove, h1, (hp.one c d hc h2).mp h1.symm]
    | none =>
      have hn : cm.m.get? c.uuid = none := by
        cases hx : cm.m.get? c.uuid with
        | none => rfl
        | some d =>
          obtain ⟨h1, h2, h3⟩ := hm.uuid _ d hx
          have := (hp.one d c h2 hc).mpr h1
          rw [this] at h3
          have hd' : cm.uidMap.get? c.uid = none := hd
          rw [hd'] at h3; cases h3
      show cm = { uidMap := cm.uidMap.del c.uid, m := cm.m.del c.uuid }
      rw [del_absent _ _ hn, del_absent _ _ hd]
  · unfold Mgr.removeUUID
    cases hd : cm.byUUID c.uuid with
    | some d =>
      obtain ⟨h1, h2, _⟩ := hm.uuid _ d hd
      simp [Mgr.remove, h1, (hp.one c d hc h2).mpr h1.symm]
    | none =>
      have hn : cm.uidMap.get? c.uid = none := by
        cases hx : cm.uidMap.get? c.uid with
        | none => rfl
        | some d =>
          obtain ⟨h1, h2, h3⟩ := hm.uid _ d hx
          have := (hp.one d c h2 hc).mp h1
          rw [this] at h3
          have hd' : cm.m.get? c.uuid = none := hd
          rw [hd'] at h3; cases h3
      show cm = { uidMap := cm.uidMap.del c.uid, m := cm.m.del c.uuid }
      rw [del_absent _ _ hn, del_absent _ _ hd]

/-- A goroutine of the machine with atomic sections beside one of the atomic machine. -/
def PcSim (h : List Event) (t : Nat) (x y : APc) : Prop :=
  (∃ c, x = .pending (.removeFound c) ∧ NamedIn h c ∧ (y = .pending (.removeUID c.uid) ∨ y = .pending (.removeUUID c.uuid))) ∨
  (x = y ∧ ∀ op, x = .pending op → Event.call t op ∈ h)

theorem pcSim_mono {h h' : List Event} {t : Nat} {x y : APc} (hs : ∀ e, e ∈ h → e ∈ h') (hm : PcSim h t x y) : PcSim h' t x y := by
  rcases hm with ⟨c, h1, h2, h3⟩ | ⟨h1, h2⟩
  · exact .inl ⟨c, h1, namedIn_mono hs h2, h3⟩
  · exact .inr ⟨h1, fun op ho => hs _ (h2 op ho)⟩

theorem srun_paired {h : List Event} {s : AConf} (r : SRun AConf.init h s) (hp : PairedIds h) :
    ∃ a, AConf.Run AConf.init h a ∧ a.cm = s.cm ∧ MapsPaired h s.cm ∧ ∀ t, PcSim h t (s.pc t) (a.pc t) := by
  induction r with
  | refl =>
    exact ⟨_, .refl _, rfl, ⟨fun _ _ hd => (by cases hd), fun _ _ hd => (by cases hd)⟩, fun t => .inr ⟨rfl, fun op ho => (by cases ho)⟩⟩
  | @step h s1 e s2 r st ih =>
    have hs : ∀ x, x ∈ h → x ∈ h ++ e.toList := fun x hx => List.mem_append_left _ hx
    obtain ⟨a, hr, hcm, hmp, hpc⟩ := ih (pairedIds_mono hs hp)
    cases st with
    | call t op hi =>
      have hai : a.pc t = .idle := by
        rcases hpc t with ⟨c, h1, _⟩ | ⟨h1, _⟩
        · rw [hi] at h1; cases h1
        · rw [← h1, hi]
      refine ⟨_, .step hr (.call a t op hai), hcm, mapsPaired_mono hs hmp, fun u => ?_⟩
      by_cases hu : u = t
      · subst hu
        refine .inr ⟨by simp [upd], fun o ho => ?_⟩
        have : op = o := by simpa [upd] using ho
        subst this
        exact List.mem_append_right _ (by simp)
      · simpa [upd, hu] using pcSim_mono hs (hpc u)
    | ret t x hi =>
      have hai : a.pc t = .done x := by
        rcases hpc t with ⟨c, h1, _⟩ | ⟨h1, _⟩
        · rw [hi] at h1; cases h1
        · rw [← h1, hi]
      refine ⟨_, .step hr (.ret a t x hai), hcm, mapsPaired_mono hs hmp, fun u => ?_⟩
      by_cases hu : u = t
      · subst hu
        exact .inr ⟨by simp [upd], fun o ho => by simp [upd] at ho⟩
      · simpa [upd, hu] using pcSim_mono hs (hpc u)
    | sect t op cm' x hi ha =>
      simp only [Option.toList_none, List.append_nil] at hp ⊢
      have hother : ∀ (cm'' : Mgr) (y : APc) (u : Nat), u ≠ t → PcSim h u (upd s1.pc t (aAfter x) u) (upd a.pc t y u) := by
        intro _ y u hu
        simpa [upd, hu] using hpc u
      have hdone : ∀ (o : Op) (rt : Ret), a.pc t = .pending o → x = .inl rt → Alone o s1.cm cm' rt → MapsPaired h cm' →
          ∃ a, AConf.Run AConf.init h a ∧ a.cm = cm' ∧ MapsPaired h cm' ∧ ∀ u, PcSim h u (upd s1.pc t (aAfter x) u) (a.pc u) := by
        intro o rt hpo hx hal hmm
        refine ⟨_, by simpa using AConf.Run.step hr (.effect a t o cm' rt hpo (hcm ▸ hal)), rfl, hmm, fun u => ?_⟩
        by_cases hu : u = t
        · subst hu
          subst hx
          exact .inr ⟨by simp [upd, aAfter], fun o ho => by simp [upd, aAfter] at ho⟩
        · exact hother cm' _ u hu
      rcases hpc t with ⟨c, h1, hn, h3⟩ | ⟨h1, h2⟩
      · -- the second section of a removal
        rw [hi] at h1
        cases h1
        have hx : x = .inl (.unit true) ∧ cm' = s1.cm.remove c := by
          cases ha with
          | step s hr =>
            cases s
            cases hr with
            | step s hr =>
              cases s
              cases hr with
              | pure => exact ⟨rfl, rfl⟩
              | step s _ => cases s
        obtain ⟨hx, rfl⟩ := hx
        obtain ⟨e1, e2⟩ := remove_found hp hmp c hn
        rcases h3 with h3 | h3
        · exact hdone _ _ h3 hx (by rw [← e1]; exact .removeUID _ _) (maps_remove hp hmp c hn)
        · exact hdone _ _ h3 hx (by rw [← e2]; exact .removeUUID _ _) (maps_remove hp hmp c hn)
      · have hap : a.pc t = .pending op := by rw [← h1, hi]
        have hcall := h2 op hi
        by_cases ho : OneSection op
        · obtain ⟨rt, rfl, hal⟩ := section_alone op ho ha
          exact hdone op rt hap rfl hal (maps_alone hp hmp ho hcall hal)
        · cases op with
          | removeUID n =>
            cases ha with
            | step s hr2 =>
              cases s
              cases hf : s1.cm.uidMap.get? n with
              | none =>
                rw [hf] at hr2
                cases hr2 with
                | pure =>
                  refine hdone _ _ hap rfl ?_ hmp
                  have := Alone.removeUID n s1.cm
                  have e : s1.cm.removeUID n = s1.cm := by simp [Mgr.removeUID, Mgr.byUID, hf]
                  rw [e] at this; exact this
                | step s _ => cases s
              | some c =>
                rw [hf] at hr2
                cases hr2 with
                | pure =>
                  obtain ⟨k1, k2, _⟩ := hmp.uid n c hf
                  refine ⟨a, hr, hcm, hmp, fun u => ?_⟩
                  by_cases hu : u = t
                  · subst hu
                    exact .inl ⟨c, by simp [upd, aAfter], k2, .inl (by rw [hap, k1])⟩
                  · simpa [upd, hu] using hpc u
                | step s _ => cases s
          | removeUUID n =>
            cases ha with
            | step s hr2 =>
              cases s
              cases hf : s1.cm.m.get? n with
              | none =>
                rw [hf] at hr2
                cases hr2 with
                | pure =>
                  refine hdone _ _ hap rfl ?_ hmp
                  have := Alone.removeUUID n s1.cm
                  have e : s1.cm.removeUUID n = s1.cm := by simp [Mgr.removeUUID, Mgr.byUUID, hf]
                  rw [e] at this; exact this
                | step s _ => cases s
              | some c =>
                rw [hf] at hr2
                cases hr2 with
                | pure =>
                  obtain ⟨k1, k2, _⟩ := hmp.uuid n c hf
                  refine ⟨a, hr, hcm, hmp, fun u => ?_⟩
                  by_cases hu : u = t
                  · subst hu
                    exact .inl ⟨c, by simp [upd, aAfter], k2, .inr (by rw [hap, k1])⟩
                  · simpa [upd, hu] using hpc u
                | step s _ => cases s
          | removeFound c => exact absurd hcall (hp.client t c)
          | _ => exact absurd trivial ho

/-- C58 for all calls but Close, RemoveConnByUID and RemoveConnByUUID among them, as long as an id always goes with the same UUID:
whatever the interleaving of any number of goroutines, down to single map accesses, the history is one in which every call takes
effect at once between its call and its return, and when no writer is inside, the shared maps are those of that execution.
Connections may be removed and added again. Missing: histories in which an id comes with two UUIDs, see `C58_fails`. -/
theorem C58_paired_partial {h : List Event} {s : Conf} (r : Conf.Run Conf.init h s) (hp : PairedIds h) :
    Linearizable h ∧ ∃ a, AConf.Run AConf.init h a ∧ (s.writer = none → a.cm = s.cm) := by
  obtain ⟨b, hb, hsim⟩ := sim_run r
  obtain ⟨a, ha, hcm, _⟩ := srun_paired hb hp
  exact ⟨⟨a, ha⟩, a, ha, fun hw => hcm.trans (hsim.free hw)⟩

/-- C54 under concurrency: under the same condition the two lookups agree whenever no writer is inside. -/
theorem C54_concurrent_partial {h : List Event} {s : Conf} (r : Conf.Run Conf.init h s) (hp : PairedIds h) (hw : s.writer = none) (c : Conn) :
    s.cm.byUID c.uid = some c ↔ s.cm.byUUID c.uuid = some c := by
  obtain ⟨b, hb, hsim⟩ := sim_run r
  obtain ⟨a, _, _, hm, _⟩ := srun_paired hb hp
  rw [hsim.free hw] at hm
  exact ⟨fun hc => (hm.uid _ c hc).2.2, fun hc => (hm.uuid _ c hc).2.2⟩

/-- Two goroutines remove by id and by UUID what a third adds. -/
def pairedHistory : List Event :=
  [.call 0 (.add cnA), .ret 0 (.unit true), .call 0 (.removeUID cnA.uid), .call 1 (.removeUUID cnA.uuid), .ret 1 (.unit true), .ret 0 (.unit true)]

example : (∃ s, Conf.Run Conf.init pairedHistory s) ∧ PairedIds pairedHistory := by
  constructor
  · let cmds := [Cmd.call 0 (.add cnA)] ++ times 7 0 ++ [.call 0 (.removeUID cnA.uid)] ++ times 3 0 ++ [.call 1 (.removeUUID cnA.uuid)] ++ times 8 1 ++ times 5 0
    have h : (play cmds Conf.init []).map (·.2) = some pairedHistory := by
      decide +kernel
    cases hp : play cmds Conf.init [] with
    | none => rw [hp] at h; cases h
    | some x =>
      rw [hp] at h
      simp only [Option.map_some, Option.some.injEq] at h
      exact ⟨x.1, play_sound _ _ _ x.1 pairedHistory (.refl _) (by rw [hp, ← h])⟩
  · have hn : ∀ c, NamedIn pairedHistory c → c = cnA := by
      rintro c ⟨t, h⟩
      simp [pairedHistory] at h
      exact h.2
    exact ⟨fun c d hc hd => by rw [hn c hc, hn d hd]; simp, fun t c d h => by simp [pairedHistory] at h, fun t c h => by simp [pairedHistory] at h⟩

end Verif.Props
