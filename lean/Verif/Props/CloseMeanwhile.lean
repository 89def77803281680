import Verif.Props.ConnConc
import Verif.Lemmas.NetProgress
import Verif.Lemmas.NetConc
/-! C152: any connection that is added while the others are closed stays. -/
namespace Verif.Props
open Verif Verif.Net Verif.Spec Verif.Lemmas.NetProgress Verif.Lemmas.NetClose

/-- The configuration is one where the lock is free, the maps are these and every goroutine is where it was. -/
structure Quietly (s : Net.Conf) (cm : Mgr) (s' : Net.Conf) : Prop where
  maps : s'.cm = cm
  writer : s'.writer = none
  readers : s'.readers = []
  pc : ∀ v, s'.pc v = s.pc v

theorem alone_add {s : Net.Conf} {t : Nat} (hw : s.writer = none) (hr : s.readers = []) (hi : s.pc t = .idle) (c : Conn)
    (h1 : s.cm.m.get? c.uuid = none) (h2 : s.cm.uidMap.get? c.uid = none) :
    ∃ s', Net.Conf.Run s [.call t (.add c), .ret t (.unit true)] s' ∧
      Quietly s { m := s.cm.m.set c.uuid c, uidMap := s.cm.uidMap.set c.uid c } s' := by
  have a1 := Net.Conf.Run.step (.refl s) (.call _ t (.add c) hi)
  have a2 := a1.step (.lock _ t (.add c) (upd_same _ t _) rfl hw hr)
  have a3 := a2.step (.access _ t _ _ _ _ _ (upd_same _ t _) (.readM _ _ _))
  simp only [h1] at a3
  have a4 := a3.step (.access _ t _ _ _ _ _ (upd_same _ t _) (.readU _ _ _))
  simp only [h2] at a4
  have a5 := a4.step (.access _ t _ _ _ _ _ (upd_same _ t _) (.writeM _ _ _ _))
  have a6 := a5.step (.access _ t _ _ _ _ _ (upd_same _ t _) (.writeU _ _ _ _))
  have a7 := a6.step (.unlock _ t _ _ (upd_same _ t _))
  have a8 := a7.step (.ret _ t (.unit true) (upd_same _ t _))
  refine ⟨_, a8, rfl, rfl, hr, fun v => ?_⟩
  by_cases hv : v = t
  · subst hv; simp [upd, hi]
  · simp [upd, hv]

theorem alone_remove {s : Net.Conf} {t : Nat} (hw : s.writer = none) (hr : s.readers = []) (hi : s.pc t = .idle) (c : Conn) :
    ∃ s', Net.Conf.Run s [.call t (.remove c), .ret t (.unit true)] s' ∧
      Quietly s { m := s.cm.m.del c.uuid, uidMap := s.cm.uidMap.del c.uid } s' := by
  have a1 := Net.Conf.Run.step (.refl s) (.call _ t (.remove c) hi)
  have a2 := a1.step (.lock _ t (.remove c) (upd_same _ t _) rfl hw hr)
  have a3 := a2.step (.access _ t _ _ _ _ _ (upd_same _ t _) (.delU _ _ _))
  have a4 := a3.step (.access _ t _ _ _ _ _ (upd_same _ t _) (.delM _ _ _))
  have a5 := a4.step (.unlock _ t _ _ (upd_same _ t _))
  have a6 := a5.step (.ret _ t (.unit true) (upd_same _ t _))
  refine ⟨_, a6, rfl, rfl, hr, fun v => ?_⟩
  by_cases hv : v = t
  · subst hv; simp [upd, hi]
  · simp [upd, hv]

theorem alone_conns {s : Net.Conf} {t : Nat} (hw : s.writer = none) (hr : s.readers = []) (hi : s.pc t = .idle) {l : List Conn}
    (hl : l.Perm s.cm.conns) : ∃ s', Net.Conf.Run s [.call t .conns, .ret t (.list l)] s' ∧ Quietly s s.cm s' := by
  have a1 := Net.Conf.Run.step (.refl s) (.call _ t .conns hi)
  have a2 := a1.step (.rlock _ t .conns (upd_same _ t _) rfl hw)
  have a3 := a2.step (.access _ t _ _ _ _ _ (upd_same _ t _) (.iterM _ _ l hl))
  have a4 := a3.step (.runlock _ t _ _ (upd_same _ t _))
  have a5 := a4.step (.ret _ t (.list l) (upd_same _ t _))
  refine ⟨_, a5, rfl, hw, by simp [hr], fun v => ?_⟩
  by_cases hv : v = t
  · subst hv; simp [upd, hi]
  · simp [upd, hv]

/-- The calls that remove the connections of a list one after the other, and their returns. -/
def removals (t : Nat) (l : List Conn) : List Net.Event := l.flatMap (fun c => [.call t (.remove c), .ret t (.unit true)])

theorem alone_removals {t : Nat} (l : List Conn) : ∀ {s : Net.Conf}, s.writer = none → s.readers = [] → s.pc t = .idle →
    ∃ s', Net.Conf.Run s (removals t l) s' ∧ Quietly s s'.cm s' ∧
      ∀ u, (∀ d ∈ l, d.uuid ≠ u) → s'.cm.m.get? u = s.cm.m.get? u := by
  induction l with
  | nil => intro s hw hr _; exact ⟨s, .refl s, ⟨rfl, hw, hr, fun _ => rfl⟩, fun _ _ => rfl⟩
  | cons c l ih =>
    intro s hw hr hi
    obtain ⟨s1, r1, q1⟩ := alone_remove hw hr hi c
    obtain ⟨s2, r2, q2, h2⟩ := ih q1.writer q1.readers ((q1.pc t).trans hi)
    refine ⟨s2, run_trans r1 r2, ⟨rfl, q2.writer, q2.readers, fun v => (q2.pc v).trans (q1.pc v)⟩, fun u hu => ?_⟩
    rw [h2 u (fun d hd => hu d (List.mem_cons_of_mem _ hd)), q1.maps]
    rw [GoMap.get?_del, if_neg (hu c (by simp))]

/-- C152 fails for every connection: after any history, when the lock is free, one goroutine may ask for the connections,
get all of them in any order, and remove each of them, and yet a connection that another goroutine has added meanwhile,
whichever it is, is there at the end. Both goroutines have finished, and every call has succeeded. -/
theorem C152_any_fails {s0 : Net.Conf} (hw : s0.writer = none) (hr : s0.readers = []) {t u : Nat} (ht : s0.pc t = .idle) (hu : s0.pc u = .idle)
    (c : Conn) (h1 : s0.cm.m.get? c.uuid = none) (h2 : s0.cm.uidMap.get? c.uid = none) (h3 : ∀ d ∈ s0.cm.conns, d.uuid ≠ c.uuid)
    (l : List Conn) (hl : l.Perm s0.cm.conns) :
    ∃ s, Net.Conf.Run s0 ([.call t .conns, .ret t (.list l)] ++ ([.call u (.add c), .ret u (.unit true)] ++ removals t l)) s ∧
      s.cm.byUUID c.uuid = some c ∧ c ∈ s.cm.conns ∧ s.pc t = .idle ∧ s.pc u = .idle := by
  obtain ⟨s1, r1, q1⟩ := alone_conns hw hr ht hl
  obtain ⟨s2, r2, q2⟩ := alone_add q1.writer q1.readers ((q1.pc u).trans hu) c (by rw [q1.maps]; exact h1) (by rw [q1.maps]; exact h2)
  obtain ⟨s3, r3, q3, h⟩ := alone_removals (t := t) l q2.writer q2.readers ((q2.pc t).trans ((q1.pc t).trans ht))
  have hc : s3.cm.m.get? c.uuid = some c := by
    rw [h c.uuid (fun d hd => h3 d (hl.mem_iff.mp hd)), q2.maps]
    exact GoMap.get?_set_self _ _ _
  refine ⟨s3, run_trans r1 (run_trans r2 r3), hc, get?_mem _ _ _ hc, ?_, ?_⟩
  · rw [q3.pc, q2.pc, q1.pc, ht]
  · rw [q3.pc, q2.pc, q1.pc, hu]

example : ∃ h s, Net.Conf.Run Net.Conf.init h s ∧ Net.Event.ret 0 (.list [⟨1, 7, 100⟩]) ∈ h ∧ Net.Event.call 0 (.remove ⟨1, 7, 100⟩) ∈ h ∧
    s.cm.byUUID 200 = some ⟨2, 8, 200⟩ := by
  obtain ⟨s1, r1, q1⟩ := alone_add (s := Net.Conf.init) (t := 0) rfl rfl rfl ⟨1, 7, 100⟩ rfl rfl
  have hc : s1.cm.conns = [⟨1, 7, 100⟩] := by rw [q1.maps]; rfl
  obtain ⟨s2, r2, h, -⟩ := C152_any_fails q1.writer q1.readers (t := 0) (u := 1) (q1.pc 0) (q1.pc 1) ⟨2, 8, 200⟩
    (by rw [q1.maps]; rfl) (by rw [q1.maps]; rfl) (by rw [hc]; decide) [⟨1, 7, 100⟩] (by rw [hc])
  exact ⟨_, s2, run_trans r1 r2, by simp, by simp [removals], h⟩

end Verif.Props
