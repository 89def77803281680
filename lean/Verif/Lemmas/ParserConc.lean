import Verif.Spec.ParserConc
import Verif.Lemmas.ConnConc
/-! Calls on a parser object that nobody else uses: what the rest of a program leads to. -/
namespace Verif.PConc
open Verif Verif.Lex Verif.Gram Verif.Query Verif.Parse Verif.Spec.PConc
open Verif.Net (upd)
open Verif.Lemmas.ConnConc (upd_same upd_other)

/-- Whatever the program does from `x` on, if nobody else uses the parser, `Q` holds of its end. -/
def Wp (Q : Obj → Res (List Statement) → Prop) : Prog → Obj → Prop
  | .ret r, x => Q x r
  | .read f k, x => Wp Q (k (x.mem f)) x
  | .write f v k, x => Wp Q k { x with mem := x.mem.set f v }
  | .new q k, x => Wp Q (k ⟨x.made, q⟩) { x with made := x.made + 1 }
  | .listen o k, x => Wp Q k { x with heard := o.id :: x.heard }
  | .start o k, x => Wp Q k { x with begun := o.id :: x.begun }
  | .finish o k, x => ∀ out, x.Gives o out → Wp Q (k out) x

theorem Wp.does {Q a b x y} (h : Wp Q a x) (d : Obj.Does x a y b) : Wp Q b y := by
  cases d with
  | finish _ _ out hg => exact h out hg
  | _ => exact h

@[simp] theorem set_same (m : Mem) (f : Field) (v : Val f) : m.set f v f = v := by simp [Mem.set]
theorem set_other (m : Mem) (f g : Field) (v : Val f) (h : f ≠ g) : m.set f v g = m g := by simp [Mem.set, h]

theorem wp_wr {Q f v k x} (h : Wp Q (k v) { x with mem := x.mem.set f v }) : Wp Q (.write f v (.read f k)) x := by
  rw [Wp, Wp]; simp only [set_same]; exact h

theorem wp_read {Q f v k x} (e : Obj.mem x f = v) (h : Wp Q (k v) x) : Wp Q (.read f k) x := by rw [Wp, e]; exact h

/-- A parser nobody is inside, after calls that leave `P`. -/
structure Quiet (x : Obj) (P : Parser) : Prop where
  done : x.mem .done = !P.failed
  old : ∀ b ∈ x.begun, b < x.made

/-- What a call alone leads to. -/
def Ends (toUint : Str → Option Nat) (P : Parser) (q : Str) (x : Obj) (r : Res (List Statement)) : Prop :=
  r = (P.parseString toUint q).2 ∧ Quiet x (P.parseString toUint q).1

theorem wp_code (toUint : Str → Option Nat) {x : Obj} {P : Parser} (hq : Quiet x P) (q : Str) : Wp (Ends toUint P q) (code toUint q) x := by
  obtain ⟨hd, hb⟩ := hq
  rw [code]
  cases he : isEmptyQuery q with
  | true =>
    have hp : P.parseString toUint q = (P, .err) := by simp [Parser.parseString, he]
    exact ⟨by rw [hp], by rw [hp]; exact ⟨hd, hb⟩⟩
  | false =>
    rw [if_neg (by simp), Wp]
    refine wp_wr (wp_wr (wp_wr (wp_wr ?_)))
    rw [Wp]
    refine wp_read (f := .parser) (v := (⟨x.made, q⟩ : Src)) rfl (wp_read (f := .parser) (v := (⟨x.made, q⟩ : Src)) rfl ?_)
    rw [Wp, Wp]
    intro out hout
    rw [Obj.Gives] at hout
    dsimp only at hout
    have hnot : x.made ∉ x.begun := fun h => Nat.lt_irrefl _ (hb _ h)
    have := hout (by simp [List.count_eq_zero_of_not_mem hnot]) (by simp)
    subst this
    have hb' : ∀ b ∈ x.made :: x.begun, b < x.made + 1 := by
      intro b h
      rcases List.mem_cons.1 h with rfl | h
      · omega
      · have := hb _ h; omega
    cases ht : treeOf q with
    | none =>
      have hp : P.parseString toUint q = ({ failed := true }, .err) := by simp [Parser.parseString, he, ht]
      simp only [checkPart, Wp]
      exact ⟨by rw [hp], by rw [hp]; exact ⟨rfl, hb'⟩⟩
    | some t =>
      rw [checkPart]
      refine wp_read (f := .done) (v := (!P.failed : Bool)) hd ?_
      cases hf : P.failed with
      | true =>
        have hp : P.parseString toUint q = (P, .err) := by simp [Parser.parseString, he, ht, hf]
        refine ⟨by rw [hp], ?_⟩
        rw [hp]
        refine ⟨?_, hb'⟩
        exact hd
      | false =>
        have hp : P.parseString toUint q = (P, Visit.statements toUint t) := by simp [Parser.parseString, he, ht, hf]
        simp only [Bool.not_false, if_true, visitPart]
        cases hv : Visit.statements toUint t with
        | err =>
          refine ⟨by rw [hp, hv], ?_⟩
          rw [hp]
          refine ⟨?_, hb'⟩
          exact hd
        | panic =>
          refine ⟨by rw [hp, hv], ?_⟩
          rw [hp]
          refine ⟨?_, hb'⟩
          exact hd
        | ok l =>
          simp only [Wp]
          refine ⟨by rw [hp, hv]; rfl, ?_⟩
          rw [hp]
          refine ⟨?_, hb'⟩
          exact hd

/-- The parser after calls one after the other. -/
def afterList (toUint : Str → Option Nat) (hist : List Str) : Parser := hist.foldl (fun p q => (p.parseString toUint q).1) newParser

theorem calls_append (p : Nat) (a b : List Event) : calls p (a ++ b) = calls p a + calls p b := by
  induction a with
  | nil => simp [calls]
  | cons e a ih => cases e <;> simp [calls, ih, Nat.add_assoc]

theorem answered_append (p : Nat) (a b : List Event) : answered p (a ++ b) = answered p a ++ answered p b := by
  induction a with
  | nil => simp [answered]
  | cons e a ih => cases e <;> simp only [answered, ih, List.cons_append] <;> split <;> simp

theorem Apart.prefix {a b : List Event} (h : Apart (a ++ b)) : Apart a := fun pre post t p q e =>
  h pre (post ++ b) t p q (by rw [e]; simp)

/-- The state of parser `p` when calls do not overlap: nobody is inside, or one goroutine is. -/
def At (toUint : Str → Option Nat) (s : Conf) (h : List Event) (p : Nat) : Prop :=
  (calls p h = (answered p h).length ∧ (∀ t q a, s.pc t ≠ some (p, q, a)) ∧ Quiet (s.obj p) (afterList toUint (answered p h))) ∨
  (calls p h = (answered p h).length + 1 ∧ ∃ t q a, s.pc t = some (p, q, a) ∧ (∀ u q' a', s.pc u = some (p, q', a') → u = t) ∧
    Wp (Ends toUint (afterList toUint (answered p h)) q) a (s.obj p))

/-- Every answer so far is that of the calls one after the other. -/
def Answers (toUint : Str → Option Nat) (h : List Event) : Prop :=
  ∀ pre post t p q r, h = pre ++ .ret t p q r :: post → r = ((afterList toUint (answered p pre)).parseString toUint q).2

theorem at_run (toUint : Str → Option Nat) {s : Conf} {h : List Event} (r : Conf.Run toUint Conf.init h s) :
    Apart h → (∀ p, At toUint s h p) ∧ Answers toUint h := by
  induction r with
  | refl =>
    intro _
    refine ⟨fun p => .inl ⟨rfl, fun t q a e => (by cases e), ⟨rfl, fun b hb => (by cases hb)⟩⟩, ?_⟩
    intro pre post t p q r e
    exact absurd (congrArg List.length e) (by simp)
  | @step h s1 e s2 r st ih =>
    intro hap
    obtain ⟨hat, hans⟩ := ih (Apart.prefix hap)
    cases st with
    | call t p q hn =>
      have hc := hap h [] t p q rfl
      constructor
      · intro p'
        by_cases hp : p = p'
        · subst hp
          rcases hat p with ⟨h1, h2, h3⟩ | ⟨h1, -⟩
          · refine .inr ⟨?_, t, q, code toUint q, by simp, ?_, ?_⟩
            · simp [calls_append, answered_append, calls, answered, h1]
            · intro u q' a' hu
              by_cases hut : u = t
              · exact hut
              · simp only at hu; rw [upd_other _ _ _ _ hut] at hu
                exact absurd hu (h2 _ _ _)
            · simp only [Option.toList, answered_append, answered, List.append_nil]
              exact wp_code toUint h3 q
          · omega
        · have e1 : calls p' (h ++ (some (Event.call t p q)).toList) = calls p' h := by simp [calls_append, calls, hp]
          have e2 : answered p' (h ++ (some (Event.call t p q)).toList) = answered p' h := by simp [answered_append, answered]
          rw [At, e1, e2]
          rcases hat p' with ⟨h1, h2, h3⟩ | ⟨h1, u, q', a, h2, h3, h4⟩
          · refine .inl ⟨h1, ?_, h3⟩
            intro u q' a hu
            by_cases hut : u = t
            · subst hut; simp only [upd_same] at hu; cases hu; exact hp rfl
            · simp only at hu; rw [upd_other _ _ _ _ hut] at hu; exact h2 _ _ _ hu
          · refine .inr ⟨h1, u, q', a, ?_, ?_, h4⟩
            · have : u ≠ t := by rintro rfl; rw [hn] at h2; cases h2
              simp only; rw [upd_other _ _ _ _ this]; exact h2
            · intro v q'' a'' hv
              by_cases hvt : v = t
              · subst hvt; simp only [upd_same] at hv; cases hv; exact absurd rfl hp
              · simp only at hv; rw [upd_other _ _ _ _ hvt] at hv; exact h3 _ _ _ hv
      · intro pre post t' p' q' r' e'
        rcases List.eq_nil_or_concat post with rfl | ⟨post', x, rfl⟩
        · have := List.append_inj_right' (s₁ := h) (s₂ := pre) (t₁ := [Event.call t p q]) (t₂ := [.ret t' p' q' r']) e' rfl
          cases this
        · have : h ++ [Event.call t p q] = (pre ++ .ret t' p' q' r' :: post') ++ [x] := by simpa using e'
          exact hans _ _ _ _ _ _ (List.append_inj_left' this rfl)
    | does t p q a x b hpc hd =>
      simp only [Option.toList, List.append_nil] at *
      refine ⟨?_, hans⟩
      intro p'
      by_cases hp : p' = p
      · subst hp
        rcases hat p' with ⟨_, h2, _⟩ | ⟨h1, u, q', a', h2, h3, h4⟩
        · exact absurd hpc (h2 _ _ _)
        · have hut := h3 _ _ _ hpc
          subst hut
          rw [hpc] at h2; cases h2
          refine .inr ⟨h1, t, q, b, by simp, ?_, ?_⟩
          · intro v q'' a'' hv
            by_cases hvt : v = t
            · exact hvt
            · simp only at hv; rw [upd_other _ _ _ _ hvt] at hv; exact h3 _ _ _ hv
          · simp only [upd_same]; exact h4.does hd
      · rcases hat p' with ⟨h1, h2, h3⟩ | ⟨h1, u, q', a', h2, h3, h4⟩
        · refine .inl ⟨h1, ?_, ?_⟩
          · intro v q'' a'' hv
            by_cases hvt : v = t
            · subst hvt; simp only [upd_same] at hv; cases hv; exact hp rfl
            · simp only at hv; rw [upd_other _ _ _ _ hvt] at hv; exact h2 _ _ _ hv
          · simp only; rw [upd_other _ _ _ _ hp]; exact h3
        · refine .inr ⟨h1, u, q', a', ?_, ?_, ?_⟩
          · have : u ≠ t := by rintro rfl; rw [hpc] at h2; cases h2; exact hp rfl
            simp only; rw [upd_other _ _ _ _ this]; exact h2
          · intro v q'' a'' hv
            by_cases hvt : v = t
            · subst hvt; simp only [upd_same] at hv; cases hv; exact absurd rfl hp
            · simp only at hv; rw [upd_other _ _ _ _ hvt] at hv; exact h3 _ _ _ hv
          · simp only; rw [upd_other _ _ _ _ hp]; exact h4
    | ret t p q r' hpc =>
      have hend : calls p h = (answered p h).length + 1 ∧ (∀ u q' a', s1.pc u = some (p, q', a') → u = t) ∧
          Ends toUint (afterList toUint (answered p h)) q (s1.obj p) r' := by
        rcases hat p with ⟨_, h2, _⟩ | ⟨h1, u, q', a', h2, h3, h4⟩
        · exact absurd hpc (h2 _ _ _)
        · have hut := h3 _ _ _ hpc
          subst hut
          rw [hpc] at h2; cases h2
          exact ⟨h1, h3, h4⟩
      obtain ⟨hc, hone, hr, hqt⟩ := hend
      constructor
      · intro p'
        by_cases hp : p = p'
        · subst hp
          have e2 : answered p (h ++ (some (Event.ret t p q r')).toList) = answered p h ++ [q] := by simp [answered_append, answered]
          refine .inl ⟨?_, ?_, ?_⟩
          · rw [e2]; simp [calls_append, calls, hc]
          · intro v q'' a'' hv
            by_cases hvt : v = t
            · subst hvt; simp at hv
            · simp only at hv; rw [upd_other _ _ _ _ hvt] at hv; exact hvt (hone _ _ _ hv)
          · rw [e2, afterList, List.foldl_append]; exact hqt
        · have e1 : calls p' (h ++ (some (Event.ret t p q r')).toList) = calls p' h := by simp [calls_append, calls]
          have e2 : answered p' (h ++ (some (Event.ret t p q r')).toList) = answered p' h := by simp [answered_append, answered, hp]
          rw [At, e1, e2]
          rcases hat p' with ⟨h1, h2, h3⟩ | ⟨h1, u, q', a, h2, h3, h4⟩
          · refine .inl ⟨h1, ?_, h3⟩
            intro u q' a hu
            by_cases hut : u = t
            · subst hut; simp at hu
            · simp only at hu; rw [upd_other _ _ _ _ hut] at hu; exact h2 _ _ _ hu
          · refine .inr ⟨h1, u, q', a, ?_, ?_, h4⟩
            · have : u ≠ t := by rintro rfl; rw [hpc] at h2; cases h2; exact hp rfl
              simp only; rw [upd_other _ _ _ _ this]; exact h2
            · intro v q'' a'' hv
              by_cases hvt : v = t
              · subst hvt; simp at hv
              · simp only at hv; rw [upd_other _ _ _ _ hvt] at hv; exact h3 _ _ _ hv
      · intro pre post t' p' q' r'' e'
        rcases List.eq_nil_or_concat post with rfl | ⟨post', x, rfl⟩
        · have e1 := List.append_inj_left' (s₁ := h) (s₂ := pre) (t₁ := [Event.ret t p q r']) (t₂ := [.ret t' p' q' r'']) e' rfl
          have e2 := List.append_inj_right' (s₁ := h) (s₂ := pre) (t₁ := [Event.ret t p q r']) (t₂ := [.ret t' p' q' r'']) e' rfl
          cases e2
          rw [← e1]; exact hr
        · have : h ++ [Event.ret t p q r'] = (pre ++ .ret t' p' q' r'' :: post') ++ [x] := by simpa using e'
          exact hans _ _ _ _ _ _ (List.append_inj_left' this rfl)

/-- Several accesses of one call. -/
inductive Steps : Obj → Prog → Obj → Prog → Prop
  | refl (x a) : Steps x a x a
  | head {x a y b z c} (d : Obj.Does x a y b) (r : Steps y b z c) : Steps x a z c

theorem Steps.trans {x a y b z c} (h : Steps x a y b) (g : Steps y b z c) : Steps x a z c := by
  induction h with
  | refl => exact g
  | head d _ ih => exact .head d (ih g)

theorem steps_wr {x f v k z c} (h : Steps { x with mem := x.mem.set f v } (k v) z c) : Steps x (.write f v (.read f k)) z c := by
  refine .head (.write ..) (.head (.read ..) ?_)
  simp only [set_same]; exact h

/-- A call up to the test of the listener. -/
theorem steps_check (toUint : Str → Option Nat) {x : Obj} {P : Parser} (hq : Quiet x P) {q : Str} (he : isEmptyQuery q = false) :
    ∃ y, Steps x (code toUint q) y (checkPart toUint (treeOf q)) ∧ Quiet y P := by
  obtain ⟨hd, hb⟩ := hq
  rw [code, if_neg (by simp [he])]
  let i : Src := ⟨x.made, q⟩
  refine ⟨{ mem := (((x.mem.set .input i).set .lexer i).set .tokens i).set .parser i, made := x.made + 1, heard := x.made :: x.heard, begun := x.made :: x.begun },
    ?_, hd, ?_⟩
  · refine .head (.new ..) (steps_wr (steps_wr (steps_wr (steps_wr (.head (.listen ..) (.head (.read ..) (.head (.read ..) (.head (.start ..) ?_))))))))
    exact .head (.finish _ _ _ (treeOf q) (fun _ _ => rfl)) (.refl _ _)
  · intro b h
    rcases List.mem_cons.1 h with h | h
    · exact h ▸ Nat.lt_succ_self _
    · exact Nat.lt_succ_of_lt (hb _ h)

/-- A call that will succeed, up to the last access. -/
theorem steps_last (toUint : Str → Option Nat) {x : Obj} {P : Parser} (hq : Quiet x P) (hf : P.failed = false) {q : Str} {t : Tree} {l : List Statement}
    (he : isEmptyQuery q = false) (ht : treeOf q = some t) (hl : Visit.statements toUint t = .ok l) :
    ∃ y, Steps x (code toUint q) y (.read .stmts fun l' => .ret (.ok l')) ∧ Quiet y P ∧ y.mem .stmts = l := by
  obtain ⟨y, hs, hd, hb⟩ := steps_check toUint hq he
  rw [ht] at hs
  refine ⟨{ y with mem := y.mem.set .stmts l }, hs.trans ?_, ⟨hd, hb⟩, rfl⟩
  rw [checkPart]
  refine .head (.read ..) ?_
  rw [hd, hf]
  simp only [Bool.not_false, if_true, visitPart, hl]
  exact .head (.write ..) (.refl _ _)

theorem upd_upd {α : Type} (f : Nat → α) (t : Nat) (x y : α) : upd (upd f t x) t y = upd f t y := by
  funext i; simp only [upd]; split <;> rfl

theorem upd_self {α : Type} (f : Nat → α) (t : Nat) : upd f t (f t) = f := by
  funext i; simp only [upd]; split
  · subst i; rfl
  · rfl

/-- A goroutine can go on with its call. -/
theorem Steps.run {toUint : Str → Option Nat} {x a y b} (hs : Steps x a y b) : ∀ {s0 : Conf} {h : List Event} {s : Conf} {t p q}, Conf.Run toUint s0 h s →
    s.obj p = x → s.pc t = some (p, q, a) → Conf.Run toUint s0 h { obj := upd s.obj p y, pc := upd s.pc t (some (p, q, b)) } := by
  induction hs with
  | refl x a =>
    intro s0 h s t p q r hx ha
    rw [← hx, ← ha, upd_self, upd_self]; exact r
  | head d _ ih =>
    intro s0 h s t p q r hx ha
    subst hx
    have := ih (t := t) (p := p) (q := q) (.step r (.does s t p q _ _ _ ha d)) (by simp) (by simp)
    simpa [upd_upd] using this

theorem calls_owned (toUint : Str → Option Nat) {s : Conf} {h : List Event} {own : Nat → Nat} (r : Conf.Run toUint Conf.init h s) :
    Owned own h → Apart h ∧ ∀ p, (∀ t q a, s.pc t = some (p, q, a) → t = own p) ∧
      ((∃ q a, s.pc (own p) = some (p, q, a)) ∧ calls p h = (answered p h).length + 1 ∨
       (¬ ∃ q a, s.pc (own p) = some (p, q, a)) ∧ calls p h = (answered p h).length) := by
  induction r with
  | refl =>
    intro _
    refine ⟨fun pre post t p q e => absurd (congrArg List.length e) (by simp), fun p => ⟨fun t q a e => (by cases e), .inr ⟨?_, rfl⟩⟩⟩
    rintro ⟨q, a, e⟩; cases e
  | @step h s1 e s2 r st ih =>
    intro ho
    obtain ⟨hap, hinv⟩ := ih (fun t p q hm => ho t p q (List.mem_append_left _ hm))
    cases st with
    | call t p q hn =>
      have hto := ho t p q (by simp)
      have hcp : calls p h = (answered p h).length := by
        rcases (hinv p).2 with ⟨⟨q', a', hq⟩, _⟩ | ⟨_, hc⟩
        · rw [← hto, hn] at hq; cases hq
        · exact hc
      refine ⟨?_, ?_⟩
      · intro pre post t' p' q' e'
        rcases List.eq_nil_or_concat post with rfl | ⟨post', x, rfl⟩
        · have e1 := List.append_inj_left' (s₁ := h) (s₂ := pre) (t₁ := [Event.call t p q]) (t₂ := [.call t' p' q']) e' rfl
          have e2 := List.append_inj_right' (s₁ := h) (s₂ := pre) (t₁ := [Event.call t p q]) (t₂ := [.call t' p' q']) e' rfl
          cases e2
          rw [← e1]; exact hcp
        · have : h ++ [Event.call t p q] = (pre ++ .call t' p' q' :: post') ++ [x] := by simpa using e'
          exact hap _ _ _ _ _ (List.append_inj_left' this rfl)
      · intro p'
        have e2 : answered p' (h ++ (some (Event.call t p q)).toList) = answered p' h := by simp [answered_append, answered]
        rw [e2]
        by_cases hp : p = p'
        · subst hp
          refine ⟨?_, .inl ⟨⟨q, code toUint q, ?_⟩, by simp [calls_append, calls, hcp]⟩⟩
          · intro u q' a' hu
            by_cases hut : u = t
            · rw [hut]; exact hto
            · simp only at hu; rw [upd_other _ _ _ _ hut] at hu; exact (hinv p).1 _ _ _ hu
          · rw [← hto]; simp
        · have e1 : calls p' (h ++ (some (Event.call t p q)).toList) = calls p' h := by simp [calls_append, calls, hp]
          have e3 : (∃ q_1 a, upd s1.pc t (some (p, q, code toUint q)) (own p') = some (p', q_1, a)) ↔ ∃ q a, s1.pc (own p') = some (p', q, a) := by
            by_cases hut : own p' = t
            · rw [hut, upd_same, hn]
              constructor
              · rintro ⟨_, _, e⟩; cases e; exact absurd rfl hp
              · rintro ⟨_, _, e⟩; cases e
            · rw [upd_other _ _ _ _ hut]
          refine ⟨?_, ?_⟩
          · intro u q' a' hu
            by_cases hut : u = t
            · subst hut; simp only [upd_same] at hu; cases hu; exact absurd rfl hp
            · simp only at hu; rw [upd_other _ _ _ _ hut] at hu; exact (hinv p').1 _ _ _ hu
          · rw [e1]; simp only [e3]; exact (hinv p').2
    | does t p q a x b hpc hd =>
      simp only [Option.toList, List.append_nil] at *
      refine ⟨hap, fun p' => ?_⟩
      have e3 : ∀ u, (∃ q_1 a, upd s1.pc t (some (p, q, b)) u = some (p', q_1, a)) ↔ ∃ q a, s1.pc u = some (p', q, a) := by
        intro u
        by_cases hut : u = t
        · subst hut
          rw [upd_same, hpc]
          constructor
          · rintro ⟨_, _, e⟩; cases e; exact ⟨_, _, rfl⟩
          · rintro ⟨_, _, e⟩; cases e; exact ⟨_, _, rfl⟩
        · rw [upd_other _ _ _ _ hut]
      refine ⟨?_, by simp only [e3]; exact (hinv p').2⟩
      intro u q' a' hu
      obtain ⟨q'', a'', hu'⟩ := (e3 u).1 ⟨_, _, hu⟩
      exact (hinv p').1 _ _ _ hu'
    | ret t p q r' hpc =>
      refine ⟨?_, ?_⟩
      · intro pre post t' p' q' e'
        rcases List.eq_nil_or_concat post with rfl | ⟨post', x, rfl⟩
        · have e2 := List.append_inj_right' (s₁ := h) (s₂ := pre) (t₁ := [Event.ret t p q r']) (t₂ := [.call t' p' q']) e' rfl
          cases e2
        · have : h ++ [Event.ret t p q r'] = (pre ++ .call t' p' q' :: post') ++ [x] := by simpa using e'
          exact hap _ _ _ _ _ (List.append_inj_left' this rfl)
      · intro p'
        have e1 : calls p' (h ++ (some (Event.ret t p q r')).toList) = calls p' h := by simp [calls_append, calls]
        have hto := (hinv p).1 _ _ _ hpc
        rw [e1]
        refine ⟨?_, ?_⟩
        · intro u q' a' hu
          by_cases hut : u = t
          · subst hut; simp at hu
          · simp only at hu; rw [upd_other _ _ _ _ hut] at hu; exact (hinv p').1 _ _ _ hu
        · by_cases hp : p = p'
          · subst hp
            have e2 : answered p (h ++ (some (Event.ret t p q r')).toList) = answered p h ++ [q] := by simp [answered_append, answered]
            rw [e2]
            refine .inr ⟨?_, ?_⟩
            · rintro ⟨_, _, e⟩; simp only [← hto, upd_same] at e; cases e
            · rcases (hinv p).2 with ⟨_, hc⟩ | ⟨hno, _⟩
              · simp [hc]
              · exact absurd ⟨_, _, hto ▸ hpc⟩ hno
          · have e2 : answered p' (h ++ (some (Event.ret t p q r')).toList) = answered p' h := by simp [answered_append, answered, hp]
            have e3 : (∃ q_1 a, upd s1.pc t none (own p') = some (p', q_1, a)) ↔ ∃ q a, s1.pc (own p') = some (p', q, a) := by
              by_cases hut : own p' = t
              · rw [hut, upd_same, hpc]
                constructor
                · rintro ⟨_, _, e⟩; cases e
                · rintro ⟨_, _, e⟩; cases e; exact absurd rfl hp
              · rw [upd_other _ _ _ _ hut]
            rw [e2]; simp only [e3]; exact (hinv p').2

end Verif.PConc
