import Verif.Lemmas.NetProgress
import Verif.Lemmas.GoMap
import Verif.Spec.NetClose
/-! Closing the manager while others use it. -/
namespace Verif.Lemmas.NetClose
open Verif Verif.Net Verif.Spec.NetClose Verif.Lemmas.NetProgress

/-- A program whose entries are stored under their own UUID. -/
inductive WKeyed : Prog (Ret ⊕ Op) → Prop
  | pure (x) : WKeyed (.pure x)
  | readM (u k) (h : ∀ v, WKeyed (k v)) : WKeyed (.readM u k)
  | readU (u k) (h : ∀ v, WKeyed (k v)) : WKeyed (.readU u k)
  | iterM (k) (h : ∀ v, WKeyed (k v)) : WKeyed (.iterM k)
  | writeM (u c k) (hc : c.uuid = u) (h : WKeyed k) : WKeyed (.writeM u c k)
  | writeU (u c k) (h : WKeyed k) : WKeyed (.writeU u c k)
  | delM (u k) (h : WKeyed k) : WKeyed (.delM u k)
  | delU (u k) (h : WKeyed k) : WKeyed (.delU u k)

/-- A program that stores nothing. -/
inductive NoWrite : Prog (Ret ⊕ Op) → Prop
  | pure (x) : NoWrite (.pure x)
  | readM (u k) (h : ∀ v, NoWrite (k v)) : NoWrite (.readM u k)
  | readU (u k) (h : ∀ v, NoWrite (k v)) : NoWrite (.readU u k)
  | iterM (k) (h : ∀ v, NoWrite (k v)) : NoWrite (.iterM k)
  | delM (u k) (h : NoWrite k) : NoWrite (.delM u k)
  | delU (u k) (h : NoWrite k) : NoWrite (.delU u k)

theorem wkeyed_section (op : Op) (h : ∀ f t, op = .update f t → t.uuid = f.uuid) : WKeyed (section_ op).2 := by
  cases op with
  | add c =>
    refine .readM _ _ fun v => ?_
    cases v with
    | some _ => exact .pure _
    | none =>
      refine .readU _ _ fun v => ?_
      cases v with
      | some _ => exact .pure _
      | none => exact .writeM _ _ _ rfl (.writeU _ _ _ (.pure _))
  | update f t =>
    refine .readM _ _ fun v => ?_
    cases v with
    | none => exact .pure _
    | some _ =>
      refine .readU _ _ fun v => ?_
      cases v with
      | none => exact .pure _
      | some _ => exact .writeM _ _ _ (h f t rfl) (.writeU _ _ _ (.pure _))
  | conns => exact .iterM _ fun _ => .pure _
  | byUID n => exact .readU _ _ fun _ => .pure _
  | byUUID u => exact .readM _ _ fun _ => .pure _
  | remove c => exact .delU _ _ (.delM _ _ (.pure _))
  | removeFound c => exact .delU _ _ (.delM _ _ (.pure _))
  | removeUID n => refine .readU _ _ fun v => ?_; cases v <;> exact .pure _
  | removeUUID n => refine .readM _ _ fun v => ?_; cases v <;> exact .pure _

theorem noWrite_section (op : Op) (h : ¬ Adds op) : NoWrite (section_ op).2 := by
  cases op with
  | add c => exact absurd trivial h
  | update f t => exact absurd trivial h
  | conns => exact .iterM _ fun _ => .pure _
  | byUID n => exact .readU _ _ fun _ => .pure _
  | byUUID u => exact .readM _ _ fun _ => .pure _
  | remove c => exact .delU _ _ (.delM _ _ (.pure _))
  | removeFound c => exact .delU _ _ (.delM _ _ (.pure _))
  | removeUID n => refine .readU _ _ fun v => ?_; cases v <;> exact .pure _
  | removeUUID n => refine .readM _ _ fun v => ?_; cases v <;> exact .pure _

/-- The UUID map is keyed by UUIDs. -/
def Keyed (cm : Mgr) : Prop := ∀ u c, cm.m.get? u = some c → c.uuid = u

theorem wkeyed_step {p cm q cm'} (h : WKeyed p) (hk : Keyed cm) (st : Prog.Step p cm q cm') : WKeyed q ∧ Keyed cm' := by
  cases st with
  | readM u k => cases h with | readM _ _ h => exact ⟨h _, hk⟩
  | readU u k => cases h with | readU _ _ h => exact ⟨h _, hk⟩
  | iterM k _ l hl => cases h with | iterM _ h => exact ⟨h _, hk⟩
  | writeM u c k =>
    cases h with
    | writeM _ _ _ hc h =>
      refine ⟨h, fun u' c' h' => ?_⟩
      rw [GoMap.get?_set] at h'
      split at h'
      · cases h'; rename_i e; exact hc.trans e
      · exact hk _ _ h'
  | writeU u c k => cases h with | writeU _ _ _ h => exact ⟨h, hk⟩
  | delM u k =>
    cases h with
    | delM _ _ h =>
      refine ⟨h, fun u' c' h' => ?_⟩
      simp only [GoMap.get?_del] at h'
      split at h'
      · cases h'
      · exact hk _ _ h'
  | delU u k => cases h with | delU _ _ h => exact ⟨h, hk⟩

theorem noWrite_step {p cm q cm'} (h : NoWrite p) (st : Prog.Step p cm q cm') :
    NoWrite q ∧ ∀ u c, cm'.m.get? u = some c → cm.m.get? u = some c := by
  cases st with
  | readM u k => cases h with | readM _ _ h => exact ⟨h _, fun _ _ => id⟩
  | readU u k => cases h with | readU _ _ h => exact ⟨h _, fun _ _ => id⟩
  | iterM k _ l hl => cases h with | iterM _ h => exact ⟨h _, fun _ _ => id⟩
  | writeM u c k => cases h
  | writeU u c k => cases h
  | delM u k =>
    cases h with
    | delM _ _ h =>
      refine ⟨h, fun u' c' h' => ?_⟩
      simp only [GoMap.get?_del] at h'
      split at h'
      · cases h'
      · exact h'
  | delU u k => cases h with | delU _ _ h => exact ⟨h, fun _ _ => id⟩

/-- What holds after a history in which a connection is replaced by one of the same UUID only. -/
structure KInv (s : Conf) : Prop where
  keyed : Keyed s.cm
  called : ∀ u f t, s.pc u = .called (.update f t) → t.uuid = f.uuid
  crit : ∀ u op w p, s.pc u = .crit op w p → WKeyed p ∧ (¬ Adds op → NoWrite p)
  found : ∀ u op w p, s.pc u = .crit op w p → Results (fun x => (∃ r, x = .inl r) ∨ ∃ c, x = .inr (.removeFound c)) p

theorem results_step {P p cm q cm'} (h : Results P p) (st : Prog.Step p cm q cm') : Results P q := by
  cases st <;> cases h <;> first | assumption | (rename_i h; exact h _)

theorem kinv_pc {s : Conf} (k : KInv s) {t : Nat} {q : Pc} (h1 : ∀ f t, q = .called (.update f t) → t.uuid = f.uuid)
    (h2 : ∀ op w p, q = .crit op w p → (WKeyed p ∧ (¬ Adds op → NoWrite p)) ∧
      Results (fun x => (∃ r, x = .inl r) ∨ ∃ c, x = .inr (.removeFound c)) p) (cm : Mgr) (hk : Keyed cm) (w : Option Nat) (r : List Nat) :
    KInv { cm := cm, writer := w, readers := r, pc := upd s.pc t q } := by
  refine ⟨hk, fun u f t' h => ?_, fun u op w p h => ?_, fun u op w p h => ?_⟩
  · by_cases hu : u = t
    · subst hu; simp only [upd_same] at h; exact h1 _ _ h
    · simp only [upd_other _ _ _ _ hu] at h; exact k.called _ _ _ h
  · by_cases hu : u = t
    · subst hu; simp only [upd_same] at h; exact (h2 _ _ _ h).1
    · simp only [upd_other _ _ _ _ hu] at h; exact k.crit _ _ _ _ h
  · by_cases hu : u = t
    · subst hu; simp only [upd_same] at h; exact (h2 _ _ _ h).2
    · simp only [upd_other _ _ _ _ hu] at h; exact k.found _ _ _ _ h

theorem kinv_after {s : Conf} (k : KInv s) {t : Nat} {x op w} (h : s.pc t = .crit op w (.pure x)) (wr : Option Nat) (r : List Nat) :
    KInv { s with writer := wr, readers := r, pc := upd s.pc t (after x) } := by
  have hr := k.found _ _ _ _ h
  cases hr with
  | pure _ hx =>
    refine kinv_pc k ?_ (fun op w p h => absurd h (after_out _ _ _ _)) _ k.keyed _ _
    rcases hx with ⟨r, rfl⟩ | ⟨c, rfl⟩ <;> (intro f t h; simp [after] at h)

theorem kinv_step {s s' : Conf} {e} (k : KInv s) (st : Conf.Step s e s')
    (hu : ∀ u f t, e = some (.call u (.update f t)) → t.uuid = f.uuid) : KInv s' := by
  have sec : ∀ t op, s.pc t = .called op → (WKeyed (section_ op).2 ∧ (¬ Adds op → NoWrite (section_ op).2)) ∧
      Results (fun x => (∃ r, x = .inl r) ∨ ∃ c, x = .inr (.removeFound c)) (section_ op).2 := fun t op h =>
    ⟨⟨wkeyed_section op (fun f t' he => k.called t f t' (by rw [h, he])), noWrite_section op⟩, results_section op⟩
  cases st with
  | call t op h =>
    exact kinv_pc k (fun f t' he => hu t f t' (by cases he; rfl)) (fun _ _ _ h => by cases h) _ k.keyed _ _
  | lock t op h hw h1 h2 =>
    exact kinv_pc k (fun f t' he => by cases he) (fun _ _ _ he => by cases he; exact sec t op h) _ k.keyed _ _
  | rlock t op h hw h1 =>
    exact kinv_pc k (fun f t' he => by cases he) (fun _ _ _ he => by cases he; exact sec t op h) _ k.keyed _ _
  | access t op w p p' cm' h hs =>
    have h1 := wkeyed_step (k.crit _ _ _ _ h).1 k.keyed hs
    refine kinv_pc k (fun f t' he => by cases he) (fun _ _ _ he => ?_) _ h1.2 _ _
    cases he
    exact ⟨⟨h1.1, fun ha => (noWrite_step ((k.crit _ _ _ _ h).2 ha) hs).1⟩, results_step (k.found _ _ _ _ h) hs⟩
  | unlock t op x h => exact kinv_after k h _ _
  | runlock t op x h => exact kinv_after k h _ _
  | ret t r h => exact kinv_pc k (fun f t' he => by cases he) (fun _ _ _ h => by cases h) _ k.keyed _ _

theorem kinv_run {s s' : Conf} {h} (k : KInv s) (r : Conf.Run s h s') (hu : ∀ u f t, Event.call u (.update f t) ∈ h → t.uuid = f.uuid) : KInv s' := by
  induction r with
  | refl => exact k
  | step r st ih =>
    refine kinv_step (ih fun u f t hm => hu u f t (List.mem_append_left _ hm)) st fun u f t he => hu u f t (List.mem_append_right _ ?_)
    rw [he]; simp

theorem kinv_init : KInv Conf.init :=
  ⟨fun _ _ h => (by cases h), fun _ _ _ h => (by cases h), fun _ _ _ _ h => (by cases h), fun _ _ _ _ h => (by cases h)⟩

/-- Nobody adds or replaces a connection, and none comes in. -/
theorem calm_step {s s' : Conf} {e} (k : KInv s) (hc : NoAdder s) (st : Conf.Step s e s') (he : ∀ u op, e = some (.call u op) → ¬ Adds op) :
    NoAdder s' ∧ ∀ u c, s'.cm.m.get? u = some c → s.cm.m.get? u = some c := by
  have pcs : ∀ (t : Nat) (q : Pc), (∀ op, (q = .called op ∨ ∃ w p, q = .crit op w p) → ¬ Adds op) → ∀ cm w r,
      NoAdder { cm := cm, writer := w, readers := r, pc := upd s.pc t q } := by
    intro t q hq cm w r u op h
    by_cases hu : u = t
    · subst hu; simp only [upd_same] at h; exact hq op h
    · simp only [upd_other _ _ _ _ hu] at h; exact hc u op h
  have aft : ∀ t op w x, s.pc t = .crit op w (.pure x) → ∀ op', (after x = .called op' ∨ ∃ w p, after x = .crit op' w p) → ¬ Adds op' := by
    intro t op w x h op' ho
    have hr := k.found _ _ _ _ h
    cases hr with
    | pure _ hx =>
      rcases hx with ⟨r, rfl⟩ | ⟨c, rfl⟩
      · simp [after] at ho
      · simp only [after, Pc.called.injEq, reduceCtorEq, exists_const] at ho
        rcases ho with rfl | ⟨_, h⟩
        · exact id
        · exact h.elim
  cases st with
  | call t op h => exact ⟨pcs t _ (fun op' h => by rcases h with h | ⟨_, _, h⟩ <;> cases h; exact he t op rfl) _ _ _, fun _ _ => id⟩
  | lock t op h hw h1 h2 =>
    exact ⟨pcs t _ (fun op' h' => by rcases h' with h' | ⟨_, _, h'⟩ <;> cases h'; exact hc t op (.inl h)) _ _ _, fun _ _ => id⟩
  | rlock t op h hw h1 =>
    exact ⟨pcs t _ (fun op' h' => by rcases h' with h' | ⟨_, _, h'⟩ <;> cases h'; exact hc t op (.inl h)) _ _ _, fun _ _ => id⟩
  | access t op w p p' cm' h hs =>
    have ha := hc t op (.inr ⟨_, _, h⟩)
    exact ⟨pcs t _ (fun op' h' => by rcases h' with h' | ⟨_, _, h'⟩ <;> cases h'; exact ha) _ _ _, (noWrite_step ((k.crit _ _ _ _ h).2 ha) hs).2⟩
  | unlock t op x h => exact ⟨pcs t _ (aft t op true x h) _ _ _, fun _ _ => id⟩
  | runlock t op x h => exact ⟨pcs t _ (aft t op false x h) _ _ _, fun _ _ => id⟩
  | ret t r h => exact ⟨pcs t _ (fun op' h' => by rcases h' with h' | ⟨_, _, h'⟩ <;> cases h') _ _ _, fun _ _ => id⟩

theorem kinv_calm {s s' : Conf} {e} (k : KInv s) (st : Conf.Step s e s') (he : ∀ u op, e = some (.call u op) → ¬ Adds op) : KInv s' :=
  kinv_step k st fun u f t h => absurd trivial (he u _ h)

theorem get?_mem {α : Type} : ∀ (m : GoMap Nat α) (k : Nat) (v : α), m.get? k = some v → v ∈ m.map (·.2)
  | [], _, _, h => by cases h
  | (k', v') :: m, k, v, h => by
    simp only [GoMap.get?] at h
    split at h
    · cases h; simp
    · simp only [List.map_cons, List.mem_cons]; exact .inr (get?_mem m k v h)

/-- Where the goroutine is that has called `Conns`; `l` its list. -/
inductive Listing (t : Nat) (h : List Event) (s : Conf) : Prop
  | wait (hr : ∀ r, Event.ret t r ∉ h) (hp : s.pc t = .called .conns ∨ ∃ w, s.pc t = .crit .conns w (section_ .conns).2)
  | have_ (l : List Conn) (hr : ∀ r, Event.ret t r ∉ h) (hp : (∃ w, s.pc t = .crit .conns w (.pure (.inl (.list l)))) ∨ s.pc t = .finished (.list l))
      (hl : ∀ u c, s.cm.m.get? u = some c → c ∈ l)
  | done (l : List Conn) (hr : ∀ r, Event.ret t r ∈ h → r = .list l) (hp : s.pc t = .idle) (hl : ∀ u c, s.cm.m.get? u = some c → c ∈ l)

theorem listing_other {t : Nat} {h : List Event} {s s' : Conf} {es : List Event} (hL : Listing t h s) (hp : s'.pc t = s.pc t)
    (hm : ∀ u c, s'.cm.m.get? u = some c → s.cm.m.get? u = some c) (he : ∀ r, Event.ret t r ∉ es) : Listing t (h ++ es) s' := by
  have hr' : ∀ r, Event.ret t r ∈ h ++ es → Event.ret t r ∈ h := fun r hm => by
    rcases List.mem_append.mp hm with h | h
    · exact h
    · exact absurd h (he r)
  cases hL with
  | wait hr hq => exact .wait (fun r hm => hr r (hr' r hm)) (by rw [hp]; exact hq)
  | have_ l hr hq hl => exact .have_ l (fun r hm => hr r (hr' r hm)) (by rw [hp]; exact hq) fun u c h => hl u c (hm u c h)
  | done l hr hq hl => exact .done l (fun r hm => hr r (hr' r hm)) (hp.trans hq) fun u c h => hl u c (hm u c h)

theorem listing_step {t : Nat} {h : List Event} {s s' : Conf} {e} (k : KInv s) (hc : NoAdder s) (hL : Listing t h s) (st : Conf.Step s e s')
    (he : ∀ u op, e = some (.call u op) → ¬ Adds op) (hn : ∀ op, e ≠ some (.call t op)) : Listing t (h ++ e.toList) s' := by
  have hm := (calm_step k hc st he).2
  have nomem : ∀ {r : Ret}, Event.ret t r ∉ (none : Option Event).toList := by simp
  cases st with
  | call u op hp =>
    have hu : t ≠ u := fun h => hn op (by rw [h])
    exact listing_other hL (upd_other _ _ _ _ hu) hm (by simp)
  | lock u op hp hw h1 h2 =>
    by_cases hu : t = u
    · subst hu
      cases hL with
      | wait hr hq =>
        refine .wait (by simpa using hr) (.inr ⟨true, ?_⟩)
        rcases hq with hq | ⟨w, hq⟩ <;> rw [hp] at hq <;> cases hq
        simp
      | have_ l hr hq hl => rcases hq with ⟨w, hq⟩ | hq <;> rw [hp] at hq <;> cases hq
      | done l hr hq hl => rw [hp] at hq; cases hq
    · exact listing_other hL (upd_other _ _ _ _ hu) hm (by simp)
  | rlock u op hp hw h1 =>
    by_cases hu : t = u
    · subst hu
      cases hL with
      | wait hr hq =>
        refine .wait (by simpa using hr) (.inr ⟨false, ?_⟩)
        rcases hq with hq | ⟨w, hq⟩ <;> rw [hp] at hq <;> cases hq
        simp
      | have_ l hr hq hl => rcases hq with ⟨w, hq⟩ | hq <;> rw [hp] at hq <;> cases hq
      | done l hr hq hl => rw [hp] at hq; cases hq
    · exact listing_other hL (upd_other _ _ _ _ hu) hm (by simp)
  | access u op w p p' cm' hp hs =>
    by_cases hu : t = u
    · subst hu
      cases hL with
      | wait hr hq =>
        rcases hq with hq | ⟨w', hq⟩ <;> rw [hp] at hq <;> cases hq
        cases hs with
        | iterM _ _ l hl =>
          refine .have_ l (by simpa using hr) (.inl ⟨w, by simp⟩) fun u c hg => ?_
          exact hl.mem_iff.mpr (get?_mem _ _ _ hg)
      | have_ l hr hq hl =>
        rcases hq with ⟨w', hq⟩ | hq <;> rw [hp] at hq <;> cases hq
        cases hs
      | done l hr hq hl => rw [hp] at hq; cases hq
    · exact listing_other hL (upd_other _ _ _ _ hu) hm (by simp)
  | unlock u op x hp =>
    by_cases hu : t = u
    · subst hu
      cases hL with
      | wait hr hq => rcases hq with hq | ⟨w', hq⟩ <;> rw [hp] at hq <;> cases hq
      | have_ l hr hq hl =>
        rcases hq with ⟨w', hq⟩ | hq <;> rw [hp] at hq <;> cases hq
        exact .have_ l (by simpa using hr) (.inr (by simp [after])) hl
      | done l hr hq hl => rw [hp] at hq; cases hq
    · exact listing_other hL (upd_other _ _ _ _ hu) hm (by simp)
  | runlock u op x hp =>
    by_cases hu : t = u
    · subst hu
      cases hL with
      | wait hr hq => rcases hq with hq | ⟨w', hq⟩ <;> rw [hp] at hq <;> cases hq
      | have_ l hr hq hl =>
        rcases hq with ⟨w', hq⟩ | hq <;> rw [hp] at hq <;> cases hq
        exact .have_ l (by simpa using hr) (.inr (by simp [after])) hl
      | done l hr hq hl => rw [hp] at hq; cases hq
    · exact listing_other hL (upd_other _ _ _ _ hu) hm (by simp)
  | ret u r hp =>
    by_cases hu : t = u
    · subst hu
      cases hL with
      | wait hr hq => rcases hq with hq | ⟨w', hq⟩ <;> rw [hp] at hq <;> cases hq
      | have_ l hr hq hl =>
        rcases hq with ⟨w', hq⟩ | hq <;> rw [hp] at hq <;> cases hq
        refine .done l (fun r' hm' => ?_) (by simp) hl
        rcases List.mem_append.mp hm' with h | h
        · exact absurd h (hr r')
        · simpa using h
      | done l hr hq hl => rw [hp] at hq; cases hq
    · exact listing_other hL (upd_other _ _ _ _ hu) hm (by simp; intro h; exact absurd h hu)

/-- A goroutine is in a `RemoveConn` that has not yet deleted the entry by UUID. -/
inductive Removing (t : Nat) (c : Conn) (s : Conf) : Prop
  | called (h : s.pc t = .called (.remove c))
  | first (w) (h : s.pc t = .crit (.remove c) w (section_ (.remove c)).2)
  | second (w) (h : s.pc t = .crit (.remove c) w (.delM c.uuid (.pure (.inl (.unit true)))))

theorem removing_step {t : Nat} {c : Conn} {s s' : Conf} {e} (h : Removing t c s) (st : Conf.Step s e s') :
    Removing t c s' ∨ s'.cm.m.get? c.uuid = none := by
  have other : s'.pc t = s.pc t → Removing t c s' := by
    intro hp
    cases h with
    | called h => exact .called (hp.trans h)
    | first w h => exact .first w (hp.trans h)
    | second w h => exact .second w (hp.trans h)
  cases st with
  | call u op hp =>
    by_cases hu : t = u
    · subst hu
      cases h with
      | called h => rw [hp] at h; cases h
      | first w h => rw [hp] at h; cases h
      | second w h => rw [hp] at h; cases h
    · exact .inl (other (upd_other _ _ _ _ hu))
  | lock u op hp hw h1 h2 =>
    by_cases hu : t = u
    · subst hu
      cases h with
      | called h => rw [hp] at h; cases h; exact .inl (.first true (by simp))
      | first w h => rw [hp] at h; cases h
      | second w h => rw [hp] at h; cases h
    · exact .inl (other (upd_other _ _ _ _ hu))
  | rlock u op hp hw h1 =>
    by_cases hu : t = u
    · subst hu
      cases h with
      | called h => rw [hp] at h; cases h; exact .inl (.first false (by simp))
      | first w h => rw [hp] at h; cases h
      | second w h => rw [hp] at h; cases h
    · exact .inl (other (upd_other _ _ _ _ hu))
  | access u op w p p' cm' hp hs =>
    by_cases hu : t = u
    · subst hu
      cases h with
      | called h => rw [hp] at h; cases h
      | first w h =>
        rw [hp] at h; cases h
        cases hs
        exact .inl (.second w (by simp))
      | second w h =>
        rw [hp] at h; cases h
        cases hs
        exact .inr (by simp [GoMap.get?_del])
    · exact .inl (other (upd_other _ _ _ _ hu))
  | unlock u op x hp =>
    by_cases hu : t = u
    · subst hu
      cases h with
      | called h => rw [hp] at h; cases h
      | first w h => rw [hp] at h; cases h
      | second w h => rw [hp] at h; cases h
    · exact .inl (other (upd_other _ _ _ _ hu))
  | runlock u op x hp =>
    by_cases hu : t = u
    · subst hu
      cases h with
      | called h => rw [hp] at h; cases h
      | first w h => rw [hp] at h; cases h
      | second w h => rw [hp] at h; cases h
    · exact .inl (other (upd_other _ _ _ _ hu))
  | ret u r hp =>
    by_cases hu : t = u
    · subst hu
      cases h with
      | called h => rw [hp] at h; cases h
      | first w h => rw [hp] at h; cases h
      | second w h => rw [hp] at h; cases h
    · exact .inl (other (upd_other _ _ _ _ hu))

theorem listing_run {t : Nat} {s s' : Conf} {h} (k : KInv s) (hc : NoAdder s) (hp : s.pc t = .called .conns) (r : Conf.Run s h s')
    (he : NoAdds h) (hn : ∀ op, Event.call t op ∉ h) : KInv s' ∧ NoAdder s' ∧ Listing t h s' := by
  induction r with
  | refl => exact ⟨k, hc, .wait (fun _ h => by cases h) (.inl hp)⟩
  | @step h s1 e s2 r st ih =>
    obtain ⟨k1, c1, l1⟩ := ih (fun u op hm => he u op (List.mem_append_left _ hm)) (fun op hm => hn op (List.mem_append_left _ hm))
    have he' : ∀ u op, e = some (.call u op) → ¬ Adds op := fun u op h => he u op (List.mem_append_right _ (by simp [h]))
    exact ⟨kinv_calm k1 st he', (calm_step k1 c1 st he').1, listing_step k1 c1 l1 st he' fun op h => hn op (List.mem_append_right _ (by simp [h]))⟩

theorem removing_run {t : Nat} {s s' : Conf} {h} (k : KInv s) (hc : NoAdder s) (r : Conf.Run s h s') (he : NoAdds h) :
    KInv s' ∧ NoAdder s' ∧ (∀ u c, s'.cm.m.get? u = some c → s.cm.m.get? u = some c) ∧
    ∀ c, Event.call t (.remove c) ∈ h → Removing t c s' ∨ s'.cm.m.get? c.uuid = none := by
  induction r with
  | refl => exact ⟨k, hc, fun _ _ => id, fun _ h => by cases h⟩
  | @step h s1 e s2 r st ih =>
    obtain ⟨k1, c1, m1, l1⟩ := ih (fun u op hm => he u op (List.mem_append_left _ hm))
    have he' : ∀ u op, e = some (.call u op) → ¬ Adds op := fun u op h => he u op (List.mem_append_right _ (by simp [h]))
    have cs := calm_step k1 c1 st he'
    refine ⟨kinv_calm k1 st he', cs.1, fun u c h => m1 u c (cs.2 u c h), fun c hm => ?_⟩
    rcases List.mem_append.mp hm with hm | hm
    · rcases l1 c hm with h | h
      · exact removing_step h st
      · refine .inr ?_
        cases hg : s2.cm.m.get? c.uuid with
        | none => rfl
        | some d => have := cs.2 _ _ hg; rw [h] at this; cases this
    · cases st with
      | call u op hp =>
        simp at hm
        obtain ⟨rfl, rfl⟩ := hm
        exact .inl (.called (by simp))
      | ret u r hp => simp at hm
      | _ => simp at hm

end Verif.Lemmas.NetClose
