import Verif.Model.Net
import Verif.Spec.Net
import Verif.Lemmas.GoMap
/-! Lemmas about the connection manager. -/
namespace Verif.Lemmas
open Verif Verif.Net Verif.Spec

/-- The manager's maps hold exactly the connections of a list. -/
structure Holds (cm : Mgr) (live : List Conn) : Prop where
  uids : (live.map (·.uid)).Nodup
  uuids : (live.map (·.uuid)).Nodup
  byUID : ∀ n c, cm.uidMap.get? n = some c ↔ c ∈ live ∧ c.uid = n
  byUUID : ∀ u c, cm.m.get? u = some c ↔ c ∈ live ∧ c.uuid = u
  keys : cm.m.keys.Nodup

theorem mem_unique {α : Type} (f : α → Nat) (l : List α) (h : (l.map f).Nodup) {a b : α} (ha : a ∈ l) (hb : b ∈ l)
    (hab : f a = f b) : a = b := by
  induction l with
  | nil => cases ha
  | cons x l ih =>
    simp only [List.map_cons, List.nodup_cons, List.mem_map, not_exists, not_and] at h
    rcases List.mem_cons.mp ha with rfl | ha' <;> rcases List.mem_cons.mp hb with rfl | hb'
    · rfl
    · exact absurd hab.symm (h.1 b hb')
    · exact absurd hab (h.1 a ha')
    · exact ih h.2 ha' hb'

theorem nodup_map_filter {α β : Type} (f : α → β) (p : α → Bool) (l : List α) (h : (l.map f).Nodup) : ((l.filter p).map f).Nodup :=
  h.sublist (List.filter_sublist.map _)

theorem holds_new : Holds newMgr [] where
  uids := by simp
  uuids := by simp
  byUID := by intro n c; simp [newMgr]
  byUUID := by intro n c; simp [newMgr]
  keys := by simp [newMgr, GoMap.keys]

theorem byUID_none {cm : Mgr} {live : List Conn} (h : Holds cm live) (n : Nat) :
    cm.uidMap.get? n = none ↔ ∀ d ∈ live, d.uid ≠ n := by
  constructor
  · intro hn d hd hu
    have := (h.byUID n d).mpr ⟨hd, hu⟩
    rw [hn] at this; cases this
  · intro hn
    cases hg : cm.uidMap.get? n with
    | none => rfl
    | some c => exact absurd ((h.byUID n c).mp hg).2 (hn c ((h.byUID n c).mp hg).1)

theorem byUUID_none {cm : Mgr} {live : List Conn} (h : Holds cm live) (n : Nat) :
    cm.m.get? n = none ↔ ∀ d ∈ live, d.uuid ≠ n := by
  constructor
  · intro hn d hd hu
    have := (h.byUUID n d).mpr ⟨hd, hu⟩
    rw [hn] at this; cases this
  · intro hn
    cases hg : cm.m.get? n with
    | none => rfl
    | some c => exact absurd ((h.byUUID n c).mp hg).2 (hn c ((h.byUUID n c).mp hg).1)

theorem holds_add {cm : Mgr} {live : List Conn} (h : Holds cm live) (c : Conn) :
    Holds (cm.add c).1 (liveStep live (.add c)) := by
  simp only [Mgr.add, liveStep]
  cases hu : cm.m.get? c.uuid with
  | some d =>
    have := (h.byUUID _ _).mp hu
    rw [if_pos (List.any_eq_true.mpr ⟨d, this.1, by simp [this.2]⟩)]
    exact h
  | none =>
    simp only []
    cases hi : cm.uidMap.get? c.uid with
    | some d =>
      have := (h.byUID _ _).mp hi
      rw [if_pos (List.any_eq_true.mpr ⟨d, this.1, by simp [this.2]⟩)]
      exact h
    | none =>
      have h1 := (byUUID_none h _).mp hu
      have h2 := (byUID_none h _).mp hi
      rw [if_neg (by simp only [List.any_eq_true, decide_eq_true_eq, not_exists, not_and, not_or]; exact fun d hd => ⟨h1 d hd, h2 d hd⟩)]
      refine ⟨?_, ?_, ?_, ?_, GoMap.nodup_keys_set _ _ _ h.keys⟩
      · rw [List.map_append, List.nodup_append]
        refine ⟨h.uids, by simp, ?_⟩
        intro a ha b hb hab
        obtain ⟨d, hd, rfl⟩ := List.mem_map.mp ha
        simp only [List.map_cons, List.map_nil, List.mem_singleton] at hb
        exact h2 d hd (hab.trans hb)
      · rw [List.map_append, List.nodup_append]
        refine ⟨h.uuids, by simp, ?_⟩
        intro a ha b hb hab
        obtain ⟨d, hd, rfl⟩ := List.mem_map.mp ha
        simp only [List.map_cons, List.map_nil, List.mem_singleton] at hb
        exact h1 d hd (hab.trans hb)
      · intro n d
        rw [GoMap.get?_set]
        by_cases hn : c.uid = n
        · rw [if_pos hn]
          constructor
          · intro he; cases he; exact ⟨by simp, hn⟩
          · rintro ⟨hd, hdn⟩
            rcases List.mem_append.mp hd with hd | hd
            · exact absurd (hdn.trans hn.symm) (h2 d hd)
            · simp only [List.mem_singleton] at hd; rw [hd]
        · rw [if_neg hn, h.byUID]
          constructor
          · rintro ⟨hd, hdn⟩; exact ⟨by simp [hd], hdn⟩
          · rintro ⟨hd, hdn⟩
            rcases List.mem_append.mp hd with hd | hd
            · exact ⟨hd, hdn⟩
            · simp only [List.mem_singleton] at hd; exact absurd (hd ▸ hdn) hn
      · intro n d
        rw [GoMap.get?_set]
        by_cases hn : c.uuid = n
        · rw [if_pos hn]
          constructor
          · intro he; cases he; exact ⟨by simp, hn⟩
          · rintro ⟨hd, hdn⟩
            rcases List.mem_append.mp hd with hd | hd
            · exact absurd (hdn.trans hn.symm) (h1 d hd)
            · simp only [List.mem_singleton] at hd; rw [hd]
        · rw [if_neg hn, h.byUUID]
          constructor
          · rintro ⟨hd, hdn⟩; exact ⟨by simp [hd], hdn⟩
          · rintro ⟨hd, hdn⟩
            rcases List.mem_append.mp hd with hd | hd
            · exact ⟨hd, hdn⟩
            · simp only [List.mem_singleton] at hd; exact absurd (hd ▸ hdn) hn

theorem holds_remove {cm : Mgr} {live : List Conn} (h : Holds cm live) (c : Conn)
    (hp : ∀ d ∈ live, d.uid = c.uid ↔ d.uuid = c.uuid) : Holds (cm.remove c) (live.filter (fun d => d.uuid ≠ c.uuid)) := by
  refine ⟨nodup_map_filter _ _ _ h.uids, nodup_map_filter _ _ _ h.uuids, ?_, ?_, GoMap.nodup_keys_del _ _ h.keys⟩
  · intro n d
    simp only [Mgr.remove, GoMap.get?_del, List.mem_filter, decide_eq_true_eq]
    by_cases hn : c.uid = n
    · rw [if_pos hn]
      constructor
      · intro he; cases he
      · rintro ⟨⟨hd, hne⟩, hdn⟩; exact absurd ((hp d hd).mp (hdn.trans hn.symm)) hne
    · rw [if_neg hn, h.byUID]
      constructor
      · rintro ⟨hd, hdn⟩; exact ⟨⟨hd, fun he => hn (((hp d hd).mpr he).symm.trans hdn)⟩, hdn⟩
      · rintro ⟨⟨hd, _⟩, hdn⟩; exact ⟨hd, hdn⟩
  · intro n d
    simp only [Mgr.remove, GoMap.get?_del, List.mem_filter, decide_eq_true_eq]
    by_cases hn : c.uuid = n
    · rw [if_pos hn]
      constructor
      · intro he; cases he
      · rintro ⟨⟨hd, hne⟩, hdn⟩; exact absurd (hdn.trans hn.symm) hne
    · rw [if_neg hn, h.byUUID]
      constructor
      · rintro ⟨hd, hdn⟩; exact ⟨⟨hd, fun he => hn (he.symm.trans hdn)⟩, hdn⟩
      · rintro ⟨⟨hd, _⟩, hdn⟩; exact ⟨hd, hdn⟩

theorem proper_of_mem {cm : Mgr} {live : List Conn} (h : Holds cm live) {c : Conn} (hc : c ∈ live) :
    ∀ d ∈ live, d.uid = c.uid ↔ d.uuid = c.uuid := by
  intro d hd
  constructor
  · intro he; rw [mem_unique _ live h.uids hd hc he]
  · intro he; rw [mem_unique _ live h.uuids hd hc he]

theorem holds_step {cm : Mgr} {live : List Conn} (h : Holds cm live) (op : MOp) (hp : Proper live op) :
    Holds (cm.step op) (liveStep live op) := by
  cases op with
  | add c => exact holds_add h c
  | remove c => exact holds_remove h c hp
  | removeUID n =>
    simp only [Mgr.step, Mgr.removeUID, Mgr.byUID, liveStep]
    cases hg : cm.uidMap.get? n with
    | none =>
      have := (byUID_none h n).mp hg
      rw [List.filter_eq_self.mpr (fun d hd => by simpa using this d hd)]
      exact h
    | some c =>
      obtain ⟨hc, hcn⟩ := (h.byUID n c).mp hg
      have hpc := proper_of_mem h hc
      have := holds_remove h c hpc
      rw [List.filter_congr (q := fun d => decide (d.uid ≠ n))] at this
      · exact this
      · intro d hd
        have := hpc d hd
        simp only [decide_eq_decide, ne_eq]
        rw [← this, hcn]
  | removeUUID u =>
    simp only [Mgr.step, Mgr.removeUUID, Mgr.byUUID, liveStep]
    cases hg : cm.m.get? u with
    | none =>
      have := (byUUID_none h u).mp hg
      rw [List.filter_eq_self.mpr (fun d hd => by simpa using this d hd)]
      exact h
    | some c =>
      obtain ⟨hc, hcn⟩ := (h.byUUID u c).mp hg
      have := holds_remove h c (proper_of_mem h hc)
      rw [hcn] at this
      exact this

theorem holds_history (ops : List MOp) {cm : Mgr} {live : List Conn} (h : Holds cm live) (hp : AllProper live ops) :
    Holds (ops.foldl Mgr.step cm) (ops.foldl liveStep live) := by
  induction ops generalizing cm live with
  | nil => exact h
  | cons op ops ih => exact ih (holds_step h op hp.1) hp.2

theorem get?_of_mem {α : Type} (m : GoMap Nat α) (h : m.keys.Nodup) {e : Nat × α} (he : e ∈ m) : m.get? e.1 = some e.2 := by
  induction m with
  | nil => cases he
  | cons x m ih =>
    obtain ⟨k, v⟩ := x
    simp only [GoMap.keys, List.map_cons, List.nodup_cons] at h
    simp only [GoMap.get?]
    rcases List.mem_cons.mp he with rfl | he'
    · simp
    · by_cases hk : k = e.1
      · exact absurd (List.mem_map.mpr ⟨e, he', hk.symm⟩) h.1
      · rw [if_neg hk]; exact ih h.2 he'

theorem mem_of_get?' {α : Type} (m : GoMap Nat α) (k : Nat) (v : α) (h : m.get? k = some v) : (k, v) ∈ m := by
  induction m with
  | nil => cases h
  | cons x m ih =>
    obtain ⟨k', v'⟩ := x
    simp only [GoMap.get?] at h
    by_cases hk : k' = k
    · rw [if_pos hk] at h; cases h; simp [hk]
    · rw [if_neg hk] at h; simp [ih h]

theorem conns_perm {cm : Mgr} {live : List Conn} (h : Holds cm live) : cm.conns.Perm live := by
  have hl : live.Nodup := by
    exact (List.pairwise_map.mp h.uuids).imp (fun h he => h (by rw [he]))
  have hc : cm.conns.Nodup := by
    have hk := h.keys
    have : ∀ (m : GoMap Nat Conn), (∀ e ∈ m, e.2.uuid = e.1) → m.keys.Nodup → (m.map (·.2)).Nodup := by
      intro m
      induction m with
      | nil => intro _ _; simp
      | cons e m ih =>
        intro he hk
        simp only [GoMap.keys, List.map_cons, List.nodup_cons] at hk ⊢
        refine ⟨?_, ih (fun x hx => he x (by simp [hx])) hk.2⟩
        intro hm
        obtain ⟨x, hx, hxe⟩ := List.mem_map.mp hm
        apply hk.1
        refine List.mem_map.mpr ⟨x, hx, ?_⟩
        rw [← he x (by simp [hx]), ← he e (by simp), hxe]
    refine this cm.m ?_ hk
    intro e he
    exact ((h.byUUID e.1 e.2).mp (get?_of_mem _ hk he)).2
  refine (List.perm_ext_iff_of_nodup hc hl).mpr ?_
  intro c
  constructor
  · intro hc
    obtain ⟨e, he, rfl⟩ := List.mem_map.mp hc
    exact ((h.byUUID e.1 e.2).mp (get?_of_mem _ h.keys he)).1
  · intro hc
    have := (h.byUUID c.uuid c).mpr ⟨hc, rfl⟩
    exact List.mem_map.mpr ⟨_, mem_of_get?' _ _ _ this, rfl⟩

theorem closeLoop_trace {W : Type} (close : W → Conn → W × Bool) (w : W) (cm : Mgr) (cs : List Conn) :
    (Mgr.closeLoop close w cm cs).2.2.map (·.1) = cs := by
  induction cs generalizing w cm with
  | nil => rfl
  | cons c cs ih => simp [Mgr.closeLoop, ih]

theorem closeLoop_holds {W : Type} (close : W → Conn → W × Bool) (w : W) (cm : Mgr) (live cs : List Conn)
    (h : Holds cm live) (hcs : ∀ c ∈ cs, c ∈ live) (hnd : cs.Nodup) :
    Holds (Mgr.closeLoop close w cm cs).2.1
      (live.filter (fun d => !(Mgr.closeLoop close w cm cs).2.2.contains (d, true))) := by
  induction cs generalizing w cm live with
  | nil =>
    rw [List.filter_eq_self.mpr (by simp [Mgr.closeLoop])]
    exact h
  | cons c cs ih =>
    simp only [List.nodup_cons] at hnd
    simp only [Mgr.closeLoop]
    cases hr : (close w c).2 with
    | false =>
      simp only [Bool.false_eq_true, if_false]
      have := ih (close w c).1 cm live h (fun d hd => hcs d (by simp [hd])) hnd.2
      rw [List.filter_congr (q := fun d => !(Mgr.closeLoop close (close w c).1 cm cs).2.2.contains (d, true))]
      · exact this
      · intro d _; simp
    | true =>
      simp only [if_true]
      have hc : c ∈ live := hcs c (by simp)
      have h' := holds_remove h c (proper_of_mem h hc)
      have := ih (close w c).1 (cm.remove c) _ h' (fun d hd => by
        have hd' := hcs d (by simp [hd])
        simp only [List.mem_filter, decide_eq_true_eq]
        refine ⟨hd', fun he => hnd.1 ?_⟩
        rw [← mem_unique _ live h.uuids hd' hc he]; exact hd) hnd.2
      rw [List.filter_filter] at this
      rw [List.filter_congr (q := fun d => !(Mgr.closeLoop close (close w c).1 (cm.remove c) cs).2.2.contains (d, true) && decide (d.uuid ≠ c.uuid))]
      · exact this
      · intro d hd
        by_cases hdc : d = c
        · subst hdc; simp
        · have : d.uuid ≠ c.uuid := fun he => hdc (mem_unique _ live h.uuids hd hc he)
          simp [hdc, this]

/-! ### session schemas -/

theorem setSchemas_eq (acc ss : List Str) :
    ss.foldl (fun acc s => if acc.contains s then acc else acc ++ [s]) acc = acc ++ (firsts ss).filter (fun x => !acc.contains x) := by
  induction ss generalizing acc with
  | nil => simp [firsts]
  | cons s ss ih =>
    simp only [List.foldl_cons, firsts]
    by_cases h : acc.contains s = true
    · rw [if_pos h, ih acc]
      congr 1
      rw [List.filter_cons, if_neg (by rw [h]; simp : ¬ ((!acc.contains s) = true)), List.filter_filter]
      apply List.filter_congr
      intro x _
      by_cases hx : x = s
      · subst hx; simp at h; simp [h]
      · simp [hx]
    · rw [if_neg h, ih (acc ++ [s])]
      rw [List.filter_cons, if_pos (by simpa using h), List.append_assoc, List.filter_filter]
      congr 1
      simp only [List.singleton_append, List.cons.injEq, true_and]
      apply List.filter_congr
      intro x _
      by_cases hx : x = s
      · simp [hx]
      · simp [hx]

theorem firsts_append (a b : List Str) : firsts (a ++ b) = firsts a ++ (firsts b).filter (fun x => !(firsts a).contains x) := by
  induction a with
  | nil => simp only [List.nil_append, firsts]; rw [List.filter_eq_self.mpr (by simp)]
  | cons x a ih =>
    simp only [List.cons_append, firsts, ih, List.filter_append, List.filter_filter]
    congr 2
    apply List.filter_congr
    intro y _
    by_cases hy : y = x
    · subst hy; simp
    · simp [hy]

theorem firsts_mem (a : List Str) (x : Str) : x ∈ firsts a ↔ x ∈ a := by
  induction a with
  | nil => simp [firsts]
  | cons y a ih =>
    simp only [firsts, List.mem_cons, List.mem_filter, decide_eq_true_eq, ih]
    by_cases h : x = y <;> simp [h]

theorem firsts_nodup (a : List Str) : (firsts a).Nodup := by
  induction a with
  | nil => simp [firsts]
  | cons y a ih =>
    simp only [firsts, List.nodup_cons, List.mem_filter]
    exact ⟨by simp, ih.sublist List.filter_sublist⟩

theorem firsts_of_nodup (a : List Str) (h : a.Nodup) : firsts a = a := by
  induction a with
  | nil => rfl
  | cons y a ih =>
    simp only [List.nodup_cons] at h
    simp only [firsts, ih h.2]
    rw [List.filter_eq_self.mpr]
    intro x hx
    simp only [decide_eq_true_eq]
    rintro rfl; exact h.1 hx

end Verif.Lemmas
