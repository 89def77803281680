import Verif.Spec.NetHistory
import Verif.Lemmas.GoMap
import Verif.Lemmas.Net
import Verif.Props.Net
/-! C54, C56: what the lookups find after any history of calls, without any condition on it. -/
namespace Verif.Props
open Verif Verif.Net Verif.Spec

theorem since_snoc {key : Conn → Nat} (ops : List Op) (op : Op) (n : Nat) (c : Conn) :
    Since key (ops ++ [op]) n c ↔ Enters key (afterCalls ops) op n c ∨ (Since key ops n c ∧ ¬ TakesAway key (afterCalls ops) op n) := by
  constructor
  · rintro ⟨pre, o, post, he, hi, hn⟩
    rcases List.eq_nil_or_concat post with rfl | ⟨post', x, rfl⟩
    · obtain ⟨rfl, e⟩ := List.append_inj' he rfl
      cases e
      exact .inl hi
    · have he' : ops ++ [op] = (pre ++ o :: post') ++ [x] := by simpa using he
      obtain ⟨rfl, e⟩ := List.append_inj' he' rfl
      cases e
      refine .inr ⟨⟨pre, o, post', rfl, hi, fun q y r hq => hn q y (r ++ [op]) (by simp [hq])⟩, hn post' op [] (by simp)⟩
  · rintro (hi | ⟨⟨pre, o, post, rfl, hi, hn⟩, hx⟩)
    · exact ⟨ops, op, [], rfl, hi, fun q y r hq => by cases q <;> cases hq⟩
    · refine ⟨pre, o, post ++ [op], by simp, hi, fun q y r hq => ?_⟩
      rcases List.eq_nil_or_concat r with rfl | ⟨r', z, rfl⟩
      · obtain ⟨rfl, e⟩ := List.append_inj' hq rfl
        cases e
        exact hx
      · have hq' : post ++ [op] = (q ++ y :: r') ++ [z] := by simpa using hq
        obtain ⟨e1, _⟩ := List.append_inj' hq' rfl
        exact hn q y r' e1

theorem afterCalls_snoc (ops : List Op) (op : Op) : afterCalls (ops ++ [op]) = (match op with
  | .add c => ((afterCalls ops).add c).1
  | .update f t => ((afterCalls ops).update f t).1
  | .remove c => (afterCalls ops).remove c
  | .removeFound c => (afterCalls ops).remove c
  | .removeUID n => (afterCalls ops).removeUID n
  | .removeUUID u => (afterCalls ops).removeUUID u
  | .conns => afterCalls ops
  | .byUID _ => afterCalls ops
  | .byUUID _ => afterCalls ops) := by
  unfold afterCalls
  rw [List.foldl_append]
  rfl

theorem snoc_ind {α : Type} {P : List α → Prop} (h0 : P []) (hs : ∀ l x, P l → P (l ++ [x])) (l : List α) : P l := by
  rw [← l.reverse_reverse]
  induction l.reverse with
  | nil => exact h0
  | cons x xs ih => simpa using hs _ x ih

theorem since_nil {key : Conn → Nat} (n : Nat) (c : Conn) : ¬ Since key [] n c := by
  rintro ⟨pre, op, post, h, _⟩
  cases pre <;> cases h

theorem removes_iff (cm : Mgr) (op : Op) (d : Conn) : Removes cm op d ↔ (match op with
    | .remove c => c = d
    | .removeFound c => c = d
    | .removeUID k => cm.byUID k = some d
    | .removeUUID u => cm.byUUID u = some d
    | _ => False) := by
  cases op <;> simp [Removes]

theorem replaces_iff (cm : Mgr) (f t : Conn) : Replaces cm f ↔ cm.update f t = ({ m := cm.m.set f.uuid t, uidMap := cm.uidMap.set f.uid t }, true) := by
  unfold Replaces Mgr.update Mgr.byUID Mgr.byUUID
  cases cm.m.get? f.uuid <;> cases cm.uidMap.get? f.uid <;> simp

theorem not_replaces (cm : Mgr) (f t : Conn) (h : ¬ Replaces cm f) : cm.update f t = (cm, false) := by
  unfold Replaces Mgr.byUID Mgr.byUUID at h
  unfold Mgr.update
  cases h1 : cm.m.get? f.uuid <;> cases h2 : cm.uidMap.get? f.uid <;> simp_all

/-- C54, exactly, for every history of all the calls there are: `LookupConnByUID` finds a connection under an id if and only if some
call entered it there — an accepted `AddConn`, or an accepted `UpdateConn` of a connection with that id — and since then no
connection with that id was removed or replaced. -/
theorem C54_uid_exact (ops : List Op) (n : Nat) (c : Conn) : (afterCalls ops).byUID n = some c ↔ Since (·.uid) ops n c := by
  induction ops using snoc_ind with
  | h0 => exact ⟨fun h => (by cases h), fun h => absurd h (since_nil n c)⟩
  | hs ops op ih =>
    rw [since_snoc, afterCalls_snoc, ← ih]
    generalize afterCalls ops = cm
    have hrem : ∀ d, (cm.remove d).byUID n = some c ↔ (cm.byUID n = some c ∧ ¬ d.uid = n) := by
      intro d
      show GoMap.get? (GoMap.del _ _) _ = _ ↔ _
      rw [GoMap.get?_del]
      split <;> simp_all [Mgr.byUID]
    cases op with
    | add x =>
      have he : ¬ TakesAway (·.uid) cm (.add x) n := by simp [TakesAway, removes_iff]
      simp only [he, not_false_eq_true, and_true]
      show (cm.add x).1.byUID n = _ ↔ _
      simp only [Enters, Op.add.injEq, reduceCtorEq, false_and, exists_false, or_false]
      unfold Mgr.add Mgr.byUID Mgr.byUUID
      cases h1 : cm.m.get? x.uuid with
      | some y =>
        constructor
        · exact .inr
        · rintro (⟨rfl, _, h, _⟩ | h)
          · rw [h1] at h; cases h
          · exact h
      | none =>
        cases h2 : cm.uidMap.get? x.uid with
        | some y =>
          constructor
          · exact .inr
          · rintro (⟨rfl, _, _, h⟩ | h)
            · rw [h2] at h; cases h
            · exact h
        | none =>
          simp only [GoMap.get?_set]
          by_cases hx : x.uid = n
          · subst hx
            simp only [if_true, Option.some.injEq]
            constructor
            · rintro rfl; exact .inl ⟨rfl, rfl, h1, h2⟩
            · rintro (⟨rfl, _⟩ | h)
              · rfl
              · simp [h1, h2] at h
          · simp only [hx, if_false]
            constructor
            · exact .inr
            · rintro (⟨rfl, h, _⟩ | h)
              · exact absurd h hx
              · exact h
    | update f t =>
      show (cm.update f t).1.byUID n = _ ↔ _
      by_cases hr : Replaces cm f
      · rw [(replaces_iff cm f t).mp hr]
        simp only [Enters, TakesAway, removes_iff, false_and, exists_false, false_or, Op.update.injEq, reduceCtorEq]
        show GoMap.get? (GoMap.set _ _ _) _ = _ ↔ _
        rw [GoMap.get?_set]
        by_cases hx : f.uid = n
        · subst hx
          simp only [if_true, Option.some.injEq]
          constructor
          · rintro rfl; exact .inl ⟨f, ⟨rfl, rfl⟩, rfl, hr⟩
          · rintro (⟨_, ⟨_, h⟩, _⟩ | ⟨_, h⟩)
            · exact h
            · exact absurd ⟨f, t, ⟨rfl, rfl⟩, rfl, hr⟩ h
        · simp only [hx, if_false]
          constructor
          · exact fun h => .inr ⟨h, fun ⟨_, _, ⟨e, _⟩, e', _⟩ => hx (e ▸ e')⟩
          · rintro (⟨_, ⟨e, _⟩, e', _⟩ | ⟨h, _⟩)
            · exact absurd (e ▸ e') hx
            · exact h
      · rw [not_replaces cm f t hr]
        simp only [Enters, TakesAway, removes_iff, false_and, exists_false, false_or, Op.update.injEq, reduceCtorEq]
        constructor
        · exact fun h => .inr ⟨h, fun ⟨_, _, ⟨e, _⟩, _, h'⟩ => hr (e ▸ h')⟩
        · rintro (⟨_, ⟨e, _⟩, _, h'⟩ | ⟨h, _⟩)
          · exact absurd (e ▸ h') hr
          · exact h
    | remove x => simpa [Enters, TakesAway, removes_iff] using hrem x
    | removeFound x => simpa [Enters, TakesAway, removes_iff] using hrem x
    | removeUID k =>
      simp only [Enters, TakesAway, removes_iff, false_and, exists_false, false_or, or_false, reduceCtorEq]
      show (cm.removeUID k).byUID n = _ ↔ _
      unfold Mgr.removeUID
      cases hk : cm.byUID k with
      | none => simp
      | some d => simpa using hrem d
    | removeUUID k =>
      simp only [Enters, TakesAway, removes_iff, false_and, exists_false, false_or, or_false, reduceCtorEq]
      show (cm.removeUUID k).byUID n = _ ↔ _
      unfold Mgr.removeUUID
      cases hk : cm.byUUID k with
      | none => simp
      | some d => simpa using hrem d
    | conns => simp [Enters, TakesAway, removes_iff]
    | byUID _ => simp [Enters, TakesAway, removes_iff]
    | byUUID _ => simp [Enters, TakesAway, removes_iff]

/-- C54, exactly, the same for `LookupConnByUUID`: the connection was entered under the UUID, and since then no connection with
that UUID was removed or replaced. -/
theorem C54_uuid_exact (ops : List Op) (n : Nat) (c : Conn) : (afterCalls ops).byUUID n = some c ↔ Since (·.uuid) ops n c := by
  induction ops using snoc_ind with
  | h0 => exact ⟨fun h => (by cases h), fun h => absurd h (since_nil n c)⟩
  | hs ops op ih =>
    rw [since_snoc, afterCalls_snoc, ← ih]
    generalize afterCalls ops = cm
    have hrem : ∀ d, (cm.remove d).byUUID n = some c ↔ (cm.byUUID n = some c ∧ ¬ d.uuid = n) := by
      intro d
      show GoMap.get? (GoMap.del _ _) _ = _ ↔ _
      rw [GoMap.get?_del]
      split <;> simp_all [Mgr.byUUID]
    cases op with
    | add x =>
      have he : ¬ TakesAway (·.uuid) cm (.add x) n := by simp [TakesAway, removes_iff]
      simp only [he, not_false_eq_true, and_true]
      show (cm.add x).1.byUUID n = _ ↔ _
      simp only [Enters, Op.add.injEq, reduceCtorEq, false_and, exists_false, or_false]
      unfold Mgr.add Mgr.byUID Mgr.byUUID
      cases h1 : cm.m.get? x.uuid with
      | some y =>
        constructor
        · exact .inr
        · rintro (⟨rfl, _, h, _⟩ | h)
          · rw [h1] at h; cases h
          · exact h
      | none =>
        cases h2 : cm.uidMap.get? x.uid with
        | some y =>
          constructor
          · exact .inr
          · rintro (⟨rfl, _, _, h⟩ | h)
            · rw [h2] at h; cases h
            · exact h
        | none =>
          simp only [GoMap.get?_set]
          by_cases hx : x.uuid = n
          · subst hx
            simp only [if_true, Option.some.injEq]
            constructor
            · rintro rfl; exact .inl ⟨rfl, rfl, h1, h2⟩
            · rintro (⟨rfl, _⟩ | h)
              · rfl
              · simp [h1, h2] at h
          · simp only [hx, if_false]
            constructor
            · exact .inr
            · rintro (⟨rfl, h, _⟩ | h)
              · exact absurd h hx
              · exact h
    | update f t =>
      show (cm.update f t).1.byUUID n = _ ↔ _
      by_cases hr : Replaces cm f
      · rw [(replaces_iff cm f t).mp hr]
        simp only [Enters, TakesAway, removes_iff, false_and, exists_false, false_or, Op.update.injEq, reduceCtorEq]
        show GoMap.get? (GoMap.set _ _ _) _ = _ ↔ _
        rw [GoMap.get?_set]
        by_cases hx : f.uuid = n
        · subst hx
          simp only [if_true, Option.some.injEq]
          constructor
          · rintro rfl; exact .inl ⟨f, ⟨rfl, rfl⟩, rfl, hr⟩
          · rintro (⟨_, ⟨_, h⟩, _⟩ | ⟨_, h⟩)
            · exact h
            · exact absurd ⟨f, t, ⟨rfl, rfl⟩, rfl, hr⟩ h
        · simp only [hx, if_false]
          constructor
          · exact fun h => .inr ⟨h, fun ⟨_, _, ⟨e, _⟩, e', _⟩ => hx (e ▸ e')⟩
          · rintro (⟨_, ⟨e, _⟩, e', _⟩ | ⟨h, _⟩)
            · exact absurd (e ▸ e') hx
            · exact h
      · rw [not_replaces cm f t hr]
        simp only [Enters, TakesAway, removes_iff, false_and, exists_false, false_or, Op.update.injEq, reduceCtorEq]
        constructor
        · exact fun h => .inr ⟨h, fun ⟨_, _, ⟨e, _⟩, _, h'⟩ => hr (e ▸ h')⟩
        · rintro (⟨_, ⟨e, _⟩, _, h'⟩ | ⟨h, _⟩)
          · exact absurd (e ▸ h') hr
          · exact h
    | remove x => simpa [Enters, TakesAway, removes_iff] using hrem x
    | removeFound x => simpa [Enters, TakesAway, removes_iff] using hrem x
    | removeUID k =>
      simp only [Enters, TakesAway, removes_iff, false_and, exists_false, false_or, or_false, reduceCtorEq]
      show (cm.removeUID k).byUUID n = _ ↔ _
      unfold Mgr.removeUID
      cases hk : cm.byUID k with
      | none => simp
      | some d => simpa using hrem d
    | removeUUID k =>
      simp only [Enters, TakesAway, removes_iff, false_and, exists_false, false_or, or_false, reduceCtorEq]
      show (cm.removeUUID k).byUUID n = _ ↔ _
      unfold Mgr.removeUUID
      cases hk : cm.byUUID k with
      | none => simp
      | some d => simpa using hrem d
    | conns => simp [Enters, TakesAway, removes_iff]
    | byUID _ => simp [Enters, TakesAway, removes_iff]
    | byUUID _ => simp [Enters, TakesAway, removes_iff]


theorem allProper_snoc (live : List Conn) (ops : List MOp) (op : MOp) :
    AllProper live (ops ++ [op]) ↔ AllProper live ops ∧ Proper (ops.foldl liveStep live) op := by
  induction ops generalizing live with
  | nil => simp [AllProper]
  | cons o ops ih => simp only [List.cons_append, AllProper, ih, List.foldl_cons, and_assoc]

/-- The two lookups find the same connections. -/
def LookupsAgree (cm : Mgr) : Prop := ∀ d : Conn, cm.byUID d.uid = some d ↔ cm.byUUID d.uuid = some d

/-- C54, exactly, for every history of adding and removing: the two lookups agree at every point of it if and only if every
connection given to `RemoveConn` shares both its id and its UUID with a managed one or neither. -/
theorem C54_history_iff (ops : List MOp) :
    (∀ pre post, ops = pre ++ post → LookupsAgree (pre.foldl Mgr.step newMgr)) ↔ AllProper [] ops := by
  induction ops using snoc_ind with
  | h0 =>
    refine ⟨fun _ => trivial, fun _ pre post h d => ?_⟩
    obtain ⟨rfl, _⟩ := List.append_eq_nil_iff.mp h.symm
    exact (C54_lookup_partial [] trivial d 0 0).2.2.1
  | hs ops op ih =>
    rw [allProper_snoc]
    constructor
    · intro h
      have hp := ih.mp fun pre post e => h pre (post ++ [op]) (by simp [e])
      refine ⟨hp, ?_⟩
      cases op with
      | remove c =>
        have := h (ops ++ [.remove c]) [] (by simp)
        rw [List.foldl_append] at this
        exact (C54_remove_iff ops hp c).mp this
      | _ => trivial
    · rintro ⟨h1, h2⟩ pre post e d
      rcases List.eq_nil_or_concat post with rfl | ⟨post', x, rfl⟩
      · rw [List.append_nil] at e
        rw [← e]
        exact (C54_lookup_partial _ ((allProper_snoc _ _ _).mpr ⟨h1, h2⟩) d 0 0).2.2.1
      · have e' : ops ++ [op] = (pre ++ post') ++ [x] := by simpa using e
        obtain ⟨e1, _⟩ := List.append_inj' e' rfl
        exact ih.mpr h1 pre post' e1 d

example : ¬ AllProper [] [.add ⟨1, 7, 100⟩, .remove ⟨2, 7, 200⟩] := by
  simp [AllProper, liveStep, Proper]
example : Since (·.uid) [.add ⟨1, 7, 100⟩, .add ⟨2, 7, 200⟩, .remove ⟨2, 8, 200⟩] 7 ⟨1, 7, 100⟩ := (C54_uid_exact _ _ _).mp rfl
example : ¬ ∃ c, Since (·.uid) [.add ⟨1, 7, 100⟩, .add ⟨2, 7, 200⟩, .remove ⟨2, 7, 200⟩] 7 c := fun ⟨c, h⟩ => by
  have := (C54_uid_exact _ _ _).mpr h
  cases this

end Verif.Props
