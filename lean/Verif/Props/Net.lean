import Verif.Lemmas.Net
/-! C54–C57, C59, C60: connections and the connection manager, one call at a time. -/
namespace Verif.Props
open Verif Verif.Net Verif.Spec Verif.Lemmas

/-- Example connections. -/
def cnA : Conn := { ref := 1, uid := 7, uuid := 100 }
/-- Example connections. -/
def cnB : Conn := { ref := 2, uid := 8, uuid := 200 }
/-- Example connections: another connection with the id of the first. -/
def cnC : Conn := { ref := 3, uid := 7, uuid := 300 }

/-- C54 for histories in which RemoveConn is called with a managed connection, or with one that shares neither
its id nor its UUID with a managed one: both lookups find exactly the connections added and not yet removed,
`Conns` lists each of them once, and the two lookups agree. Missing: RemoveConn with a foreign connection
that shares only its id, or only its UUID, with a managed one (`C54_fails`, `C54_remove_iff`). -/
theorem C54_lookup_partial (ops : List MOp) (hp : AllProper [] ops) (c : Conn) (n u : Nat) :
    ((ops.foldl Mgr.step newMgr).byUID n = some c ↔ c ∈ ops.foldl liveStep [] ∧ c.uid = n) ∧
    ((ops.foldl Mgr.step newMgr).byUUID u = some c ↔ c ∈ ops.foldl liveStep [] ∧ c.uuid = u) ∧
    ((ops.foldl Mgr.step newMgr).byUID c.uid = some c ↔ (ops.foldl Mgr.step newMgr).byUUID c.uuid = some c) ∧
    (ops.foldl Mgr.step newMgr).conns.Perm (ops.foldl liveStep []) := by
  have h := holds_history ops holds_new hp
  refine ⟨h.byUID n c, h.byUUID u c, ?_, conns_perm h⟩
  rw [Mgr.byUID, Mgr.byUUID, h.byUID, h.byUUID]
  simp

example : AllProper [] [.add cnA, .add cnB, .add cnC, .remove cnA, .removeUID 7, .add cnC, .removeUUID 200] := by
  refine ⟨trivial, trivial, trivial, ?_, trivial, trivial, trivial, trivial⟩
  show ∀ d ∈ [cnA, cnB], _
  decide

/-- C54: in a state where the lookups agree, RemoveConn keeps them agreeing exactly when every managed
connection shares both its id and its UUID with the removed one or neither. -/
theorem C54_remove_iff (ops : List MOp) (hp : AllProper [] ops) (c : Conn) :
    (∀ d : Conn, ((ops.foldl Mgr.step newMgr).remove c).byUID d.uid = some d ↔
        ((ops.foldl Mgr.step newMgr).remove c).byUUID d.uuid = some d) ↔
      Proper (ops.foldl liveStep []) (.remove c) := by
  have h := holds_history ops holds_new hp
  constructor
  · intro ha d hd
    have := ha d
    simp only [Mgr.byUID, Mgr.byUUID, Mgr.remove, GoMap.get?_del] at this
    rw [(h.byUID d.uid d).mpr ⟨hd, rfl⟩, (h.byUUID d.uuid d).mpr ⟨hd, rfl⟩] at this
    constructor
    · intro he
      refine Classical.byContradiction fun hne => ?_
      rw [if_pos he.symm, if_neg (fun h => hne h.symm)] at this
      simp at this
    · intro he
      refine Classical.byContradiction fun hne => ?_
      rw [if_pos he.symm, if_neg (fun h => hne h.symm)] at this
      simp at this
  · intro hpr d
    have h' := holds_remove h c hpr
    rw [Mgr.byUID, Mgr.byUUID, h'.byUID, h'.byUUID]
    simp

/-- C54, negation: removing a connection whose AddConn was refused because of its id takes the id entry of the
managed connection away; that one is then found by UUID but not by id. -/
theorem C54_fails :
    (newMgr.add cnA).2 = true ∧ ((newMgr.add cnA).1.add cnC).2 = false ∧
    ((newMgr.add cnA).1.remove cnC).byUID cnA.uid = none ∧ ((newMgr.add cnA).1.remove cnC).byUUID cnA.uuid = some cnA := by
  decide

/-- C55: on every manager state, AddConn fails exactly when one of the two lookups finds a connection with the
UUID or the id of the new one, and then the state is as before. -/
theorem C55_duplicate (cm : Mgr) (c : Conn) :
    ((cm.add c).2 = false ↔ (∃ d, cm.byUUID c.uuid = some d) ∨ ∃ d, cm.byUID c.uid = some d) ∧
    ((cm.add c).2 = false → (cm.add c).1 = cm) := by
  unfold Mgr.add Mgr.byUUID Mgr.byUID
  cases cm.m.get? c.uuid <;> cases cm.uidMap.get? c.uid <;> simp

/-- C55: when it succeeds, the new connection is found under its id and its UUID and all other lookups are as
before. -/
theorem C55_added (cm : Mgr) (c : Conn) (h : (cm.add c).2 = true) (n u : Nat) :
    (cm.add c).1.byUID n = (if n = c.uid then some c else cm.byUID n) ∧
    (cm.add c).1.byUUID u = (if u = c.uuid then some c else cm.byUUID u) := by
  unfold Mgr.add at h ⊢
  cases h1 : cm.m.get? c.uuid with
  | some d => rw [h1] at h; cases h
  | none =>
    cases h2 : cm.uidMap.get? c.uid with
    | some d => rw [h1, h2] at h; cases h
    | none =>
      simp only [Mgr.byUID, Mgr.byUUID, GoMap.get?_set, eq_comm (a := n), eq_comm (a := u)]
      exact ⟨trivial, trivial⟩

/-- C55 over histories: AddConn fails exactly when a managed connection has the same UUID or the same id. -/
theorem C55_history (ops : List MOp) (hp : AllProper [] ops) (c : Conn) :
    ((ops.foldl Mgr.step newMgr).add c).2 = false ↔ ∃ d ∈ ops.foldl liveStep [], d.uuid = c.uuid ∨ d.uid = c.uid := by
  have h := holds_history ops holds_new hp
  rw [(C55_duplicate _ c).1]
  simp only [Mgr.byUUID, Mgr.byUID, h.byUUID, h.byUID]
  constructor
  · rintro (⟨d, hd, he⟩ | ⟨d, hd, he⟩)
    · exact ⟨d, hd, Or.inl he⟩
    · exact ⟨d, hd, Or.inr he⟩
  · rintro ⟨d, hd, he | he⟩
    · exact Or.inl ⟨d, hd, he⟩
    · exact Or.inr ⟨d, hd, he⟩

example : (newMgr.add cnA).2 = true := by decide
example : ((newMgr.add cnA).1.add cnC).2 = false := by decide

/-- C56, when the replacement has the id and the UUID of the replaced connection: lookups find the new one and
no longer the old one, and removing the new one leaves no trace. Missing: other replacements (`C56_fails`). -/
theorem C56_update_partial (ops : List MOp) (hp : AllProper [] ops) (f t : Conn) (hf : f ∈ ops.foldl liveStep [])
    (hid : t.uid = f.uid) (huu : t.uuid = f.uuid) :
    ((ops.foldl Mgr.step newMgr).update f t).2 = true ∧
    ((ops.foldl Mgr.step newMgr).update f t).1.byUID t.uid = some t ∧
    ((ops.foldl Mgr.step newMgr).update f t).1.byUUID t.uuid = some t ∧
    (f ≠ t → ((ops.foldl Mgr.step newMgr).update f t).1.byUID f.uid ≠ some f ∧
      ((ops.foldl Mgr.step newMgr).update f t).1.byUUID f.uuid ≠ some f) ∧
    (((ops.foldl Mgr.step newMgr).update f t).1.remove t).byUID t.uid = none ∧
    (((ops.foldl Mgr.step newMgr).update f t).1.remove t).byUUID t.uuid = none := by
  have h := holds_history ops holds_new hp
  have h1 := (h.byUID f.uid f).mpr ⟨hf, rfl⟩
  have h2 := (h.byUUID f.uuid f).mpr ⟨hf, rfl⟩
  simp only [Mgr.update, h1, h2, Mgr.byUID, Mgr.byUUID, Mgr.remove, GoMap.get?_set, GoMap.get?_del, hid, huu, if_true]
  refine ⟨trivial, trivial, trivial, fun hne => ⟨?_, ?_⟩, trivial, trivial⟩ <;> (intro he; cases he; exact hne rfl)

/-- C56: UpdateConn fails exactly when the old connection's UUID or id is not managed, and then nothing changes. -/
theorem C56_error_iff (cm : Mgr) (f t : Conn) :
    ((cm.update f t).2 = false ↔ cm.byUUID f.uuid = none ∨ cm.byUID f.uid = none) ∧
    ((cm.update f t).2 = false → (cm.update f t).1 = cm) := by
  unfold Mgr.update Mgr.byUUID Mgr.byUID
  cases cm.m.get? f.uuid <;> cases cm.uidMap.get? f.uid <;> simp

/-- C56: replacing a managed connection by one that is not managed makes the new one found under its own id and
UUID exactly when it has the id and the UUID of the old one. -/
theorem C56_iff (ops : List MOp) (hp : AllProper [] ops) (f t : Conn) (hf : f ∈ ops.foldl liveStep [])
    (ht : t ∉ ops.foldl liveStep []) :
    (((ops.foldl Mgr.step newMgr).update f t).1.byUID t.uid = some t ∧
      ((ops.foldl Mgr.step newMgr).update f t).1.byUUID t.uuid = some t) ↔ t.uid = f.uid ∧ t.uuid = f.uuid := by
  have h := holds_history ops holds_new hp
  have h1 := (h.byUID f.uid f).mpr ⟨hf, rfl⟩
  have h2 := (h.byUUID f.uuid f).mpr ⟨hf, rfl⟩
  have n1 : (ops.foldl Mgr.step newMgr).uidMap.get? t.uid ≠ some t := fun he => ht ((h.byUID _ _).mp he).1
  have n2 : (ops.foldl Mgr.step newMgr).m.get? t.uuid ≠ some t := fun he => ht ((h.byUUID _ _).mp he).1
  simp only [Mgr.update, h1, h2, Mgr.byUID, Mgr.byUUID, GoMap.get?_set]
  by_cases e1 : f.uid = t.uid <;> by_cases e2 : f.uuid = t.uuid <;>
    simp [e1, e2, n1, n2, eq_comm (a := t.uid), eq_comm (a := t.uuid)]

/-- C56, negation: after replacing a connection by one with another id and UUID, the new one is not found under
its own keys but under the old ones, and removing it leaves it managed. -/
theorem C56_fails :
    ((newMgr.add cnA).1.update cnA cnB).2 = true ∧
    ((newMgr.add cnA).1.update cnA cnB).1.byUID cnB.uid = none ∧
    ((newMgr.add cnA).1.update cnA cnB).1.byUID cnA.uid = some cnB ∧
    (((newMgr.add cnA).1.update cnA cnB).1.remove cnB).conns = [cnB] := by decide

example : cnA ∈ [MOp.add cnA].foldl liveStep [] := by decide

/-- C57: closing the manager calls Close once on each managed connection, keeps exactly those whose Close
failed, finds no other connection afterwards, and returns an error exactly when some Close failed; in any
enumeration order of the connections and whatever their Close does to the outside world. -/
theorem C57_close {W : Type} (close : W → Conn → W × Bool) (w : W) (ops : List MOp) (hp : AllProper [] ops) (order : List Conn)
    (ho : order.Perm (ops.foldl Mgr.step newMgr).conns) :
    let r := Mgr.closeLoop close w (ops.foldl Mgr.step newMgr) order
    (r.2.2.map (·.1)).Perm (ops.foldl liveStep []) ∧
    (∀ c n, r.2.1.byUID n = some c ↔ (c, false) ∈ r.2.2 ∧ c.uid = n) ∧
    (∀ c u, r.2.1.byUUID u = some c ↔ (c, false) ∈ r.2.2 ∧ c.uuid = u) ∧
    (closeOk r.2.2 = false ↔ ∃ c ∈ ops.foldl liveStep [], (c, false) ∈ r.2.2) := by
  have h := holds_history ops holds_new hp
  have hperm := ho.trans (conns_perm h)
  have hnd : (ops.foldl liveStep []).Nodup := (List.pairwise_map.mp h.uuids).imp (fun h he => h (by rw [he]))
  have hnd' : order.Nodup := hperm.nodup_iff.mpr hnd
  have ht := closeLoop_trace close w (ops.foldl Mgr.step newMgr) order
  have hh := closeLoop_holds close w _ _ order h (fun c hc => hperm.mem_iff.mp hc) hnd'
  intro r
  have htr : r.2.2.map (·.1) = order := ht
  have hmem : ∀ c, (c ∈ ops.foldl liveStep [] ∧ (!r.2.2.contains (c, true)) = true) ↔ (c, false) ∈ r.2.2 := by
    intro c
    have hnd2 : (r.2.2.map (·.1)).Nodup := htr ▸ hnd'
    constructor
    · rintro ⟨hc, hn⟩
      have : c ∈ r.2.2.map (·.1) := by rw [htr]; exact hperm.mem_iff.mpr hc
      obtain ⟨⟨c', b⟩, he, rfl⟩ := List.mem_map.mp this
      cases b with
      | false => exact he
      | true => simp [he] at hn
    · intro he
      have hc : c ∈ r.2.2.map (·.1) := List.mem_map.mpr ⟨_, he, rfl⟩
      refine ⟨hperm.mem_iff.mp (htr ▸ hc), ?_⟩
      simp only [List.contains_iff_mem, Bool.not_eq_true', Bool.eq_false_iff, ne_eq]
      intro htrue
      have hp2 := List.pairwise_map.mp hnd2
      have : ∀ (l : List (Conn × Bool)), l.Pairwise (fun a b => a.1 ≠ b.1) → (c, true) ∈ l → (c, false) ∈ l → False := by
        intro l
        induction l with
        | nil => intro _ h; cases h
        | cons x l ih =>
          intro hp h1 h2
          rw [List.pairwise_cons] at hp
          rcases List.mem_cons.mp h1 with e1 | e1 <;> rcases List.mem_cons.mp h2 with e2 | e2
          · rw [← e1] at e2; cases e2
          · exact hp.1 _ e2 (by rw [← e1])
          · exact hp.1 _ e1 (by rw [← e2])
          · exact ih hp.2 e1 e2
      exact this _ hp2 htrue he
  refine ⟨htr ▸ hperm, ?_, ?_, ?_⟩
  · intro c n
    rw [Mgr.byUID, hh.byUID, List.mem_filter, hmem]
  · intro c u
    rw [Mgr.byUUID, hh.byUUID, List.mem_filter, hmem]
  · constructor
    · intro hc
      rw [closeOk, List.all_eq_false] at hc
      obtain ⟨⟨c, b⟩, he, hb⟩ := hc
      cases b with
      | true => exact absurd rfl hb
      | false => exact ⟨c, hperm.mem_iff.mp (htr ▸ List.mem_map.mpr ⟨_, he, rfl⟩), he⟩
    · rintro ⟨c, _, he⟩
      rw [closeOk, List.all_eq_false]
      exact ⟨_, he, by simp⟩

example : (Mgr.closeLoop (fun (w : Nat) c => (w + 1, c.uid != 7)) 0 ([MOp.add cnA, .add cnB].foldl Mgr.step newMgr) [cnB, cnA]).2 =
    ({ uidMap := [(7, cnA)], m := [(100, cnA)] }, [(cnB, true), (cnA, false)]) := by decide

/-- C59: once a Close succeeded, every further Close succeeds and does not touch the network connection; before
that each Close is passed on to it, so a failed one can be retried. The whole history of `n` calls: with
`k` the number of network calls until the first success, the first `k` results are the network's and the rest
are successes. -/
theorem C59_close (net : Nat → Bool) (c : CState) (hc : c.isClosed = false) (n : Nat) :
    ((∀ i, i < n → net (c.netCalls + i) = false) →
      (closes net c n).1.netCalls = c.netCalls + n ∧ (closes net c n).1.isClosed = false ∧ (closes net c n).2 = List.replicate n false) ∧
    (∀ k, k < n → (∀ i, i < k → net (c.netCalls + i) = false) → net (c.netCalls + k) = true →
      (closes net c n).1.netCalls = c.netCalls + k + 1 ∧ (closes net c n).1.isClosed = true ∧
        (closes net c n).2 = List.replicate k false ++ List.replicate (n - k) true) := by
  have hclosed : ∀ (n : Nat) (c : CState), c.isClosed = true → closes net c n = (c, List.replicate n true) := by
    intro n
    induction n with
    | zero => intro c _; rfl
    | succ n ih => intro c h; simp [closes, CState.close, h, ih c h, List.replicate_succ]
  induction n generalizing c with
  | zero => exact ⟨fun _ => ⟨rfl, hc, rfl⟩, fun k hk => by omega⟩
  | succ n ih =>
    constructor
    · intro h
      have h0 := h 0 (by omega)
      simp only [Nat.add_zero] at h0
      have := (ih { c with netCalls := c.netCalls + 1 } hc).1 (fun i hi => by
        have := h (i + 1) (by omega)
        simp only []
        rw [show c.netCalls + 1 + i = c.netCalls + (i + 1) by omega]; exact this)
      simp only [closes, CState.close, hc, h0, Bool.false_eq_true, if_false]
      simp only [hc] at this
      refine ⟨by rw [this.1]; omega, this.2.1, by rw [this.2.2, List.replicate_succ]⟩
    · intro k hk h hk1
      cases k with
      | zero =>
        simp only [Nat.add_zero] at hk1
        simp only [closes, CState.close, hc, hk1, Bool.false_eq_true, if_false, if_true]
        rw [hclosed n _ rfl]
        refine ⟨rfl, rfl, by simp [List.replicate_succ]⟩
      | succ k =>
        have h0 := h 0 (by omega)
        simp only [Nat.add_zero] at h0
        have := (ih { c with netCalls := c.netCalls + 1 } hc).2 k (by omega) (fun i hi => by
          have := h (i + 1) (by omega)
          simp only []
          rw [show c.netCalls + 1 + i = c.netCalls + (i + 1) by omega]; exact this)
          (by simp only []; rw [show c.netCalls + 1 + k = c.netCalls + (k + 1) by omega]; exact hk1)
        simp only [closes, CState.close, hc, h0, Bool.false_eq_true, if_false]
        simp only [hc] at this
        refine ⟨by rw [this.1]; omega, this.2.1, ?_⟩
        rw [this.2.2, show n + 1 - (k + 1) = n - k by omega, List.replicate_succ, List.cons_append]

/-- C59: a Close on a closed connection changes nothing and succeeds. -/
theorem C59_closed (net : Nat → Bool) (c : CState) (hc : c.isClosed = true) : c.close net = (c, true) := by
  simp [CState.close, hc]

example : closes (fun i => i == 1) {} 4 = ({ isClosed := true, netCalls := 2 }, [false, true, true, true]) := by decide

/-- C60: after any history of SetDatabase and SetSchemas calls on a connection created with the schemas `init`
without duplicates (none by default), Schemas lists the first occurrences of the names set since the last
SetDatabase, in order and without duplicates. -/
theorem C60_schemas_partial (init : List Str) (hi : init.Nodup) (h : List COp) :
    (h.foldl CState.step { schemas := init }).schemas = firsts (sinceDatabase init h) ∧
    (h.foldl CState.step { schemas := init }).schemas.Nodup ∧
    ∀ x, x ∈ (h.foldl CState.step { schemas := init }).schemas ↔ x ∈ sinceDatabase init h := by
  have key : (h.foldl CState.step { schemas := init }).schemas = firsts (sinceDatabase init h) := by
    have : ∀ (h : List COp) (c : CState) (acc : List Str), c.schemas = firsts acc →
        (h.foldl CState.step c).schemas = firsts (sinceDatabase acc h) := by
      intro h
      induction h with
      | nil => intro c acc hc; exact hc
      | cons op h ih =>
        intro c acc hc
        simp only [List.foldl_cons, sinceDatabase]
        cases op with
        | setDatabase db => exact ih _ [] rfl
        | setSchemas ss =>
          refine ih _ (acc ++ ss) ?_
          simp only [CState.step, CState.setSchemas, setSchemas_eq, hc, firsts_append]
    exact this h _ init (by simp [firsts_of_nodup init hi])
  refine ⟨key, by rw [key]; exact firsts_nodup _, fun x => by rw [key]; exact firsts_mem _ x⟩

/-- C60: after SetDatabase the database is the new one and no schema is left. -/
theorem C60_database (c : CState) (db : Str) : (c.setDatabase db).db = db ∧ (c.setDatabase db).schemas = [] := ⟨rfl, rfl⟩

/-- C60, negation for connections created with repeated schema names: they stay repeated. -/
theorem C60_fails : ((({ schemas := [s%"a", s%"a"] } : CState)).setSchemas [s%"b"]).schemas = [s%"a", s%"a", s%"b"] := by decide

example : ([COp.setSchemas [s%"a", s%"b"], .setDatabase s%"d", .setSchemas [s%"c", s%"c"], .setSchemas [s%"a", s%"c"]].foldl
    CState.step {}).schemas = [s%"c", s%"a"] := by decide

end Verif.Props
