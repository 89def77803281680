import Verif.Lemmas.ConnConc
import Verif.Lemmas.NetClose
/-! Concurrent use of a connection and of the manager: C147 to C152. -/
namespace Verif.Props
open Verif Verif.CConn Verif.Spec.ConnConc Verif.Lemmas.ConnConc
open Verif.Net (upd)

/-! ### C147 -/

/-- C147, without the part that fails: whatever calls any number of goroutines make on a connection, two of them are
never about to use the user, the database or the schemas when one of the two writes. Missing: the flag that `Close`
keeps and the tracer context are used without the mutex. -/
theorem C147_race_partial {os : List Option_} {h : List Event} {s : Conf} (r : Conf.Run (Conf.init os) h s) (f : Field)
    (hf : f = .user ∨ f = .db ∨ f = .schemas) : ¬ Race s f := by
  refine no_race (good_run (good_init os) r) ?_
  rcases hf with rfl | rfl | rfl <;> rfl

/-! ### C148 -/

/-- C148: whatever calls any number of goroutines make, and however they interleave, the calls and returns of the methods
of the session (user, database, schemas) are those of a machine in which each takes effect at once between its call and
its return, on the session the connection was made with. When nobody is inside, the fields are the session of that
machine. -/
theorem C148_linearizable {os : List Option_} {h : List Event} {s : Conf} (r : Conf.Run (Conf.init os) h s) :
    Linearizable (ofMem (newConn os).1) (h.filter evSession) ∧
    ∃ a, AConf.Run { x := ofMem (newConn os).1, pc := fun _ => .idle } (h.filter evSession) a ∧ (s.holder = none → a.x = ofMem s.mem) := by
  obtain ⟨a, ra, sa⟩ := sim_run r (sim_init os)
  exact ⟨⟨a, ra⟩, a, ra, sa.free⟩

/-- Two goroutines set the schemas and the database at once. -/
example : ∃ s, Conf.Run (Conf.init []) [.call 0 (.setSchemas [s%"a"]), .call 1 (.setDatabase s%"d")] s ∧ s.holder = some 1 ∧
    s.pc 0 = some (.setSchemas [s%"a"], .lock (schemaLoop [s%"a"])) :=
  ⟨_, .step (.step (.step (.refl _) (.call _ 0 (.setSchemas [s%"a"]) rfl)) (.call _ 1 (.setDatabase s%"d") rfl)) (.lock _ 1 (.setDatabase s%"d") _ rfl rfl), rfl, rfl⟩

/-! ### C149 -/

/-- C149 for connections: at every point of every execution each goroutine that is in a call can come to its return
without any new call being made, whichever method it is in. -/
theorem C149_connection {os : List Option_} {h : List Event} {s : Conf} (r : Conf.Run (Conf.init os) h s) {t : Nat} {op : Op} {p : Prog}
    (hp : s.pc t = some (op, p)) : ∃ es res s', Conf.Run s (es ++ [.ret t op res]) s' ∧ Idle s' t ∧ NoCall es :=
  can_return (good_run (good_init os) r) hp

/-- C149 for the manager. -/
theorem C149_manager {h : List Net.Event} {s : Net.Conf} (r : Net.Conf.Run Net.Conf.init h s) {t : Nat} (hp : s.pc t ≠ .idle) :
    ∃ res s', Net.Conf.Run s [.ret t res] s' ∧ s'.pc t = .idle :=
  Lemmas.NetProgress.can_return (Lemmas.NetProgress.held_run Lemmas.NetProgress.held_init r) hp

example : ∃ s, Net.Conf.Run Net.Conf.init [.call 0 (.removeUID 3)] s ∧ s.pc 0 ≠ .idle :=
  ⟨_, .step (.refl _) (.call _ 0 (.removeUID 3) rfl), by simp [upd]⟩

/-! ### C150 -/

/-- The value of the last option of a kind. -/
def lastOf {α : Type} (pick : Option_ → Option α) (dflt : α) (os : List Option_) : α := (os.filterMap pick).getLast?.getD dflt

/-- C150: the database, schemas, tracer context, user and id of a new connection are those of the last option given for
each, or empty, nil and zero; it is not closed. -/
theorem C150_options (os : List Option_) :
    (newConn os).1 .db = lastOf (fun | .database n => some n | _ => none) ([] : Str) os ∧
    (newConn os).1 .schemas = lastOf (fun | .schemas n => some n | _ => none) ([] : List Str) os ∧
    (newConn os).1 .tracer = lastOf (fun | .tracer n => some n | _ => none) (none : Option Nat) os ∧
    (newConn os).1 .user = lastOf (fun | .user n => some n | _ => none) ([] : Str) os ∧
    (newConn os).2 = lastOf (fun | .id n => some n | _ => none) 0 os ∧ (newConn os).1 .closed = false := by
  have key : ∀ (os : List Option_) (m : Mem × Nat),
      (os.foldl Option_.apply m).1 .db = lastOf (fun | .database n => some n | _ => none) (m.1 .db : Str) os ∧
      (os.foldl Option_.apply m).1 .schemas = lastOf (fun | .schemas n => some n | _ => none) (m.1 .schemas : List Str) os ∧
      (os.foldl Option_.apply m).1 .tracer = lastOf (fun | .tracer n => some n | _ => none) (m.1 .tracer : Option Nat) os ∧
      (os.foldl Option_.apply m).1 .user = lastOf (fun | .user n => some n | _ => none) (m.1 .user : Str) os ∧
      (os.foldl Option_.apply m).2 = lastOf (fun | .id n => some n | _ => none) m.2 os ∧ (os.foldl Option_.apply m).1 .closed = m.1 .closed := by
    intro os
    induction os with
    | nil => intro m; exact ⟨rfl, rfl, rfl, rfl, rfl, rfl⟩
    | cons o os ih =>
      intro m
      obtain ⟨h1, h2, h3, h4, h5, h6⟩ := ih (o.apply m)
      simp only [List.foldl_cons]
      cases o <;>
        (refine ⟨h1.trans ?_, h2.trans ?_, h3.trans ?_, h4.trans ?_, h5.trans ?_, h6⟩ <;>
          first
          | rfl
          | (simp only [lastOf, List.filterMap_cons, List.getLast?_cons, Option.getD_some]; rfl))
  exact key os (Mem.zero, 0)

example : (newConn [.user s%"a", .id 3, .user s%"b"]).1 .user = (s%"b" : Str) ∧ (newConn [.user s%"a", .id 3, .user s%"b"]).2 = 3 := ⟨rfl, rfl⟩

/-! ### C147, the part that fails -/

/-- C147 fails: one goroutine closes the connection and sets the flag while another, closing it as well, looks at it;
and two goroutines may use the tracer context at once. -/
theorem C147_fails (os : List Option_) :
    (∃ h s, Conf.Run (Conf.init os) h s ∧ Race s .tracer) ∧ ∃ h s, Conf.Run (Conf.init os) h s ∧ Race s .closed := by
  constructor
  · refine ⟨_, _, .step (.step (.refl _) (.call _ 0 (.setSpanContext none) rfl)) (.call _ 1 .spanContext rfl), ?_⟩
    exact ⟨0, 1, _, _, _, _, _, by decide, rfl, rfl, rfl, rfl⟩
  · have hc := (C150_options os).2.2.2.2.2
    have r1 := Conf.Run.step (.refl (Conf.init os)) (.call _ 0 .close rfl)
    have r2 := Conf.Run.step r1 (.read _ 0 .close .closed _ rfl)
    have r3 := Conf.Run.step r2 (.net _ 0 .close (fun ok => if ok then .write .closed true (.ret (.ok true)) else .ret (.ok false)) true (by
      simp only [upd_same, Option.some.injEq, Prod.mk.injEq, true_and]
      show (if (show Bool from (newConn os).1 .closed) then Prog.ret (.ok true) else _) = _
      rw [show (show Bool from (newConn os).1 .closed) = false from hc]
      rfl))
    have r4 := Conf.Run.step r3 (.call _ 1 .close rfl)
    exact ⟨_, _, r4, 0, 1, _, _, _, _, _, by decide, rfl, rfl, rfl, rfl⟩

/-! ### C151 -/

/-- C151, exactly: `Span`, `StartSpan` and `FinishSpan` panic if and only if the tracer context of the connection is nil. -/
theorem C151_span_partial (m : Mem) : spanCall m = .panic ↔ m .tracer = (none : Option Nat) := by
  unfold spanCall
  generalize hm : (m .tracer : Option Nat) = c
  cases c with
  | none => exact ⟨fun _ => rfl, fun _ => rfl⟩
  | some c => simp

/-- C151 fails: on every connection made without a tracer context, whatever else it is made with, they panic until one
is set. -/
theorem C151_fails (os : List Option_) (h : ∀ c, Option_.tracer c ∉ os) : spanCall (newConn os).1 = .panic := by
  rw [C151_span_partial, (C150_options os).2.2.1]
  have : os.filterMap (fun | .tracer n => some n | _ => none) = [] := by
    rw [List.filterMap_eq_nil_iff]
    intro o ho
    cases o <;> first | rfl | exact absurd ho (h _)
  simp only [lastOf, this]
  rfl

example : spanCall (newConn [.tracer (some 4), .user s%"u"]).1 = .ok 4 := rfl

/-! ### C152 -/

open Verif.Spec.NetClose in
/-- C152, without the part that fails: a goroutine asks the manager for its connections, gets the list `l`, and then
removes each of them, as Close does after each connection it could close. If meanwhile others only look up and remove,
no connection is left when it has finished. Before, connections may have been added, removed and replaced in any
interleaving, each replaced by one of the same UUID. Missing: connections added or replaced meanwhile. -/
theorem C152_close_partial {h0 h1 h2 : List Net.Event} {s0 s1 s2 : Net.Conf} {t : Nat} {l : List Net.Conn}
    (r0 : Net.Conf.Run Net.Conf.init h0 s0) (hu : ∀ u f t, Net.Event.call u (.update f t) ∈ h0 → t.uuid = f.uuid)
    (ht : s0.pc t = .called .conns) (hq : NoAdder s0)
    (r1 : Net.Conf.Run s0 h1 s1) (n1 : NoAdds h1) (c1 : ∀ op, Net.Event.call t op ∉ h1) (hl : Net.Event.ret t (.list l) ∈ h1)
    (r2 : Net.Conf.Run s1 h2 s2) (n2 : NoAdds h2) (hr : ∀ c, c ∈ l → Net.Event.call t (.remove c) ∈ h2) (hi : s2.pc t = .idle) :
    s2.cm.conns = [] := by
  have k0 := Lemmas.NetClose.kinv_run Lemmas.NetClose.kinv_init r0 hu
  obtain ⟨k1, a1, L1⟩ := Lemmas.NetClose.listing_run k0 hq ht r1 n1 c1
  obtain ⟨k2, -, m2, R2⟩ := Lemmas.NetClose.removing_run (t := t) k1 a1 r2 n2
  cases L1 with
  | wait hn _ => exact absurd hl (hn _)
  | have_ _ hn _ _ => exact absurd hl (hn _)
  | done l' hn _ hm =>
    have e := hn _ hl
    cases e
    have none_ : ∀ u, s2.cm.m.get? u = none := by
      intro u
      cases hg : s2.cm.m.get? u with
      | none => rfl
      | some c =>
        have hk := k2.keyed _ _ hg
        have hin := hm _ _ (m2 _ _ hg)
        rcases R2 c (hr c hin) with h | h
        · cases h with
          | called h => rw [hi] at h; cases h
          | first w h => rw [hi] at h; cases h
          | second w h => rw [hi] at h; cases h
        · rw [hk, hg] at h; cases h
    unfold Net.Mgr.conns
    cases hc : s2.cm.m with
    | nil => rfl
    | cons e es =>
      have := none_ e.1
      rw [hc] at this
      simp [GoMap.get?] at this

/-- A goroutine that closes the manager in which another has put a connection. -/
example : ∃ s0 s1 s2 : Net.Conf, Net.Conf.Run Net.Conf.init [.call 1 (.add ⟨1, 7, 100⟩), .ret 1 (.unit true), .call 0 .conns] s0 ∧ s0.pc 0 = .called .conns ∧
    Spec.NetClose.NoAdder s0 ∧ Net.Conf.Run s0 [.ret 0 (.list [⟨1, 7, 100⟩])] s1 ∧ Net.Conf.Run s1 [.call 0 (.remove ⟨1, 7, 100⟩), .ret 0 (.unit true)] s2 ∧ s2.pc 0 = .idle := by
  have a1 := Net.Conf.Run.step (.refl Net.Conf.init) (.call _ 1 (.add ⟨1, 7, 100⟩) rfl)
  have a2 := a1.step (.lock _ 1 _ rfl rfl rfl rfl)
  have a3 := a2.step (.access _ 1 _ _ _ _ _ rfl (.readM _ _ _))
  have a4 := a3.step (.access _ 1 _ _ _ _ _ rfl (.readU _ _ _))
  have a5 := a4.step (.access _ 1 _ _ _ _ _ rfl (.writeM _ _ _ _))
  have a6 := a5.step (.access _ 1 _ _ _ _ _ rfl (.writeU _ _ _ _))
  have a7 := a6.step (.unlock _ 1 _ _ rfl)
  have a8 := a7.step (.ret _ 1 _ rfl)
  have a9 := a8.step (.call _ 0 .conns rfl)
  have key : ∀ {h s s'}, Net.Conf.Run s' h s → Net.Conf.Run s [] s := fun {_ s _} _ => .refl s
  have b1 := Net.Conf.Run.step (key a9) (.rlock _ 0 _ rfl rfl rfl)
  have b2 := b1.step (.access _ 0 _ _ _ _ _ rfl (.iterM _ _ [⟨1, 7, 100⟩] (.refl _)))
  have b3 := b2.step (.runlock _ 0 _ _ rfl)
  have b4 := b3.step (.ret _ 0 _ rfl)
  have c1 := Net.Conf.Run.step (key b4) (.call _ 0 (.remove ⟨1, 7, 100⟩) rfl)
  have c2 := c1.step (.lock _ 0 _ rfl rfl rfl rfl)
  have c3 := c2.step (.access _ 0 _ _ _ _ _ rfl (.delU _ _ _))
  have c4 := c3.step (.access _ 0 _ _ _ _ _ rfl (.delM _ _ _))
  have c5 := c4.step (.unlock _ 0 _ _ rfl)
  have c6 := c5.step (.ret _ 0 _ rfl)
  refine ⟨_, _, _, a9, rfl, ?_, b4, c6, rfl⟩
  intro u op h
  simp only [upd] at h
  split at h
  · simp at h; subst h; exact id
  · split at h <;> simp [Net.Conf.init] at h

/-- C152 fails: a connection that is added between the time when the list was made and the end of Close stays in the
manager. -/
theorem C152_fails : ∃ h s, Net.Conf.Run Net.Conf.init h s ∧ h = [.call 0 .conns, .call 1 (.add ⟨1, 7, 100⟩), .ret 1 (.unit true), .ret 0 (.list [])] ∧
    s.cm.conns = [⟨1, 7, 100⟩] ∧ s.pc 0 = .idle := by
  have b0 := Net.Conf.Run.step (.refl Net.Conf.init) (.call _ 0 .conns rfl)
  have b1 := Net.Conf.Run.step b0 (.rlock _ 0 _ rfl rfl rfl)
  have b2 := b1.step (.access _ 0 _ _ _ _ _ rfl (.iterM _ _ [] (.refl _)))
  have b3 := b2.step (.runlock _ 0 _ _ rfl)
  have a1 := Net.Conf.Run.step b3 (.call _ 1 (.add ⟨1, 7, 100⟩) rfl)
  have a2 := a1.step (.lock _ 1 _ rfl rfl rfl rfl)
  have a3 := a2.step (.access _ 1 _ _ _ _ _ rfl (.readM _ _ _))
  have a4 := a3.step (.access _ 1 _ _ _ _ _ rfl (.readU _ _ _))
  have a5 := a4.step (.access _ 1 _ _ _ _ _ rfl (.writeM _ _ _ _))
  have a6 := a5.step (.access _ 1 _ _ _ _ _ rfl (.writeU _ _ _ _))
  have a7 := a6.step (.unlock _ 1 _ _ rfl)
  have a8 := a7.step (.ret _ 1 _ rfl)
  have a9 := a8.step (.ret _ 0 _ rfl)
  exact ⟨_, _, a9, rfl, rfl, rfl⟩

end Verif.Props
