import Verif.Lemmas.Derives
import Verif.Tactic.KRfl
/-! The preferred parse, found by trying parses in order until the rest of the input can be parsed. -/
namespace Verif.Gram
open Verif Verif.Lex Verif.Spec

/-- Proves `Proper e` for a given part. -/
macro "proper" : tactic => `(tactic| exact ⟨by krfl, Nat.le_of_ble_eq_true (by krfl)⟩)

/-- The first parse after which the continuation accepts. -/
def best {β : Type} (e : Elem) (k : List Token → Option β) (ts : List Token) : Option (List Tree × β) :=
  (parses e ts).findSome? (fun p => (k p.2).map (fun v => (p.1, v)))

variable {β : Type}

theorem best_eq {e : Elem} {k : List Token → Option β} {ts : List Token} {l : List PRes} (h : parses e ts = l) :
    best e k ts = l.findSome? (fun p => (k p.2).map (fun v => (p.1, v))) := by rw [best, h]

theorem findSome_after {a : List PRes} {b : Elem} {k : List Token → Option β} :
    (after a (parses b)).findSome? (fun p => (k p.2).map (fun v => (p.1, v))) =
      (a.findSome? (fun p => (best b k p.2).map (fun v => (p.1, v)))).map (fun x => (x.1 ++ x.2.1, x.2.2)) := by
  induction a with
  | nil => rfl
  | cons p a ih =>
    have h : after (p :: a) (parses b) = ((parses b p.2).map (fun q => (p.1 ++ q.1, q.2))) ++ after a (parses b) := rfl
    have key : ((parses b p.2).map (fun q => ((p.1 ++ q.1, q.2) : PRes))).findSome?
          (fun p => (k p.2).map (fun v => (p.1, v))) = (best b k p.2).map (fun x => (p.1 ++ x.1, x.2)) := by
      rw [List.findSome?_map, best]
      generalize parses b p.2 = l
      induction l with
      | nil => rfl
      | cons q l ih =>
        simp only [List.findSome?_cons, Function.comp]
        cases h : k q.2 with
        | none => simpa using ih
        | some v => rfl
    rw [h, List.findSome?_append, key, List.findSome?_cons, ih]
    cases hb : best b k p.2 with
    | none => rfl
    | some x => rfl

theorem best_seq {a b : Elem} (h : Proper (a ⬝ b)) (k : List Token → Option β) (ts : List Token) :
    best (a ⬝ b) k ts = (best a (best b k) ts).map (fun x => (x.1 ++ x.2.1, x.2.2)) := by
  rw [best_eq (parses_seq h ts), findSome_after]; rfl

theorem best_alt {a b : Elem} (h : Proper (a ∣ b)) (k : List Token → Option β) (ts : List Token) :
    best (a ∣ b) k ts = (best a k ts).or (best b k ts) := by
  rw [best_eq (parses_alt h ts), List.findSome?_append]; rfl

theorem best_eps (k : List Token → Option β) (ts : List Token) : best .eps k ts = (k ts).map (fun v => ([], v)) := by
  rw [best_eq (parses_eps ts)]
  cases h : k ts <;> simp [h]

theorem best_star {a : Elem} (h : Proper (.star a)) (k : List Token → Option β) (ts : List Token) :
    best (.star a) k ts = ((best a (best (.star a) k) ts).map (fun x => (x.1 ++ x.2.1, x.2.2))).or
      ((k ts).map (fun v => ([], v))) := by
  rw [best_eq (parses_star h ts), List.findSome?_append, findSome_after]
  have : List.findSome? (fun p => Option.map (fun v => (p.1, v)) (k p.2)) [(([], ts) : PRes)] =
      (k ts).map (fun v => ([], v)) := by
    cases h : k ts <;> simp [h]
  rw [this]; rfl

theorem best_nstar {a : Elem} (h : Proper (.nstar a)) (k : List Token → Option β) (ts : List Token) :
    best (.nstar a) k ts = ((k ts).map (fun v => ([], v))).or
      ((best a (best (.nstar a) k) ts).map (fun x => (x.1 ++ x.2.1, x.2.2))) := by
  rw [best_eq (parses_nstar h ts), List.findSome?_cons, findSome_after]
  cases k ts <;> rfl

theorem findSome_wrap (f : List Tree → List Tree) (k : List Token → Option β) (l : List PRes) :
    (l.map (fun p => ((f p.1, p.2) : PRes))).findSome? (fun p => (k p.2).map (fun v => (p.1, v))) =
      (l.findSome? (fun p => (k p.2).map (fun v => (p.1, v)))).map (fun x => (f x.1, x.2)) := by
  induction l with
  | nil => rfl
  | cons p l ih =>
    simp only [List.map_cons, List.findSome?_cons]
    cases h : k p.2 with
    | none => simpa using ih
    | some v => rfl

theorem best_nt (r : Rule) (k : List Token → Option β) (ts : List Token) :
    best (.nt r) k ts = (best (body r) k ts).map (fun x => ([.node r x.1], x.2)) := by
  rw [best_eq (parses_nt r ts), findSome_wrap (fun l => [.node r l])]; rfl

theorem best_lab {q : Lab} {a : Elem} (h : Proper (.lab q a)) (k : List Token → Option β) (ts : List Token) :
    best (.lab q a) k ts = (best a k ts).map (fun x => ([.lab q x.1], x.2)) := by
  rw [best_eq (parses_lab h ts), findSome_wrap (fun l => [.lab q l])]; rfl

theorem best_expr (p : Nat) (k : List Token → Option β) (ts : List Token) :
    best (.expr p) k ts = (best (exprBody p) k ts).map (fun x => (foldExpr x.1, x.2)) := by
  rw [best_eq (parses_expr p ts), findSome_wrap foldExpr]; rfl

/-! ### Rules for finding the preferred parse -/

/-- `l` is the preferred parse and the continuation gives `v`. -/
def First (e : Elem) (k : List Token → Option β) (ts : List Token) (l : List Tree) (v : β) : Prop :=
  best e k ts = some (l, v)
/-- There is no parse after which the continuation accepts. -/
def No (e : Elem) (k : List Token → Option β) (ts : List Token) : Prop := best e k ts = none

theorem First.seq {a b : Elem} {k : List Token → Option β} {ts : List Token} {l m : List Tree} {v : β}
    (h : First a (best b k) ts l (m, v)) (hp : Proper (a ⬝ b) := by proper) : First (a ⬝ b) k ts (l ++ m) v := by
  rw [First, best_seq hp, h]; rfl
theorem No.seq {a b : Elem} {k : List Token → Option β} {ts : List Token}
    (h : No a (best b k) ts) (hp : Proper (a ⬝ b) := by proper) : No (a ⬝ b) k ts := by
  rw [No, best_seq hp, h]; rfl

theorem First.altL {a b : Elem} {k : List Token → Option β} {ts : List Token} {l : List Tree} {v : β}
    (h : First a k ts l v) (hp : Proper (a ∣ b) := by proper) : First (a ∣ b) k ts l v := by
  rw [First, best_alt hp, h]; rfl
theorem First.altR {a b : Elem} {k : List Token → Option β} {ts : List Token} {l : List Tree} {v : β}
    (n : No a k ts) (h : First b k ts l v) (hp : Proper (a ∣ b) := by proper) : First (a ∣ b) k ts l v := by
  rw [First, best_alt hp, n, h]; rfl
theorem No.alt {a b : Elem} {k : List Token → Option β} {ts : List Token} (n : No a k ts) (h : No b k ts)
    (hp : Proper (a ∣ b) := by proper) : No (a ∣ b) k ts := by
  rw [No, best_alt hp, n, h]; rfl

theorem First.eps {k : List Token → Option β} {ts : List Token} {v : β} (h : k ts = some v) : First .eps k ts [] v := by
  rw [First, best_eps, h]; rfl

theorem First.tok {t : Tok} {x : Token} {r : List Token} {k : List Token → Option β} {v : β} (hx : x.kind = t)
    (h : k r = some v) : First (.tok t) k (x :: r) [.leaf x] v := by
  rw [First, best_eq (parses_tok t _)]
  simp [one, hx, h]
theorem No.tok {t : Tok} {x : Token} {r : List Token} {k : List Token → Option β} (hx : x.kind = t)
    (h : k r = none) : No (.tok t) k (x :: r) := by
  rw [No, best_eq (parses_tok t _)]
  simp [one, hx, h]

theorem First.starCons {a : Elem} {k : List Token → Option β} {ts : List Token} {l m : List Tree} {v : β}
    (h : First a (best (.star a) k) ts l (m, v)) (hp : Proper (.star a) := by proper) :
    First (.star a) k ts (l ++ m) v := by
  rw [First, best_star hp, h]; rfl
theorem First.starNil {a : Elem} {k : List Token → Option β} {ts : List Token} {v : β}
    (n : No a (best (.star a) k) ts) (h : k ts = some v) (hp : Proper (.star a) := by proper) :
    First (.star a) k ts [] v := by
  rw [First, best_star hp, n, h]; rfl
theorem First.nstarNil {a : Elem} {k : List Token → Option β} {ts : List Token} {v : β}
    (h : k ts = some v) (hp : Proper (.nstar a) := by proper) : First (.nstar a) k ts [] v := by
  rw [First, best_nstar hp, h]; rfl
theorem First.nstarCons {a : Elem} {k : List Token → Option β} {ts : List Token} {l m : List Tree} {v : β}
    (n : k ts = none) (h : First a (best (.nstar a) k) ts l (m, v)) (hp : Proper (.nstar a) := by proper) :
    First (.nstar a) k ts (l ++ m) v := by
  rw [First, best_nstar hp, n, h]; rfl

theorem First.nt {r : Rule} {k : List Token → Option β} {ts : List Token} {l : List Tree} {v : β}
    (h : First (body r) k ts l v) : First (.nt r) k ts [.node r l] v := by
  rw [First, best_nt, h]; rfl
theorem No.nt {r : Rule} {k : List Token → Option β} {ts : List Token} (h : No (body r) k ts) : No (.nt r) k ts := by
  rw [No, best_nt, h]; rfl
theorem First.lab {q : Lab} {a : Elem} {k : List Token → Option β} {ts : List Token} {l : List Tree} {v : β}
    (h : First a k ts l v) (hp : Proper (.lab q a) := by proper) : First (.lab q a) k ts [.lab q l] v := by
  rw [First, best_lab hp, h]; rfl
theorem No.lab {q : Lab} {a : Elem} {k : List Token → Option β} {ts : List Token}
    (h : No a k ts) (hp : Proper (.lab q a) := by proper) : No (.lab q a) k ts := by
  rw [No, best_lab hp, h]; rfl
theorem First.expr {p : Nat} {k : List Token → Option β} {ts : List Token} {l : List Tree} {v : β}
    (h : First (exprBody p) k ts l v) : First (.expr p) k ts (foldExpr l) v := by
  rw [First, best_expr, h]; rfl

/-- A part whose first parse is known. -/
theorem First.head {e : Elem} {k : List Token → Option β} {ts us : List Token} {l : List Tree} {v : β}
    (h : (parses e ts).head? = some (l, us)) (hk : k us = some v) : First e k ts l v := by
  obtain ⟨q, hq⟩ := List.head?_eq_some_iff.mp h
  rw [First, best_eq hq, List.findSome?_cons, hk]; rfl

/-- A part whose first parses are known and rejected. -/
theorem First.skip {e : Elem} {k : List Token → Option β} {ts us : List Token} {l : List Tree} {v : β}
    (pre post : List PRes) (h : parses e ts = pre ++ (l, us) :: post) (n : ∀ p ∈ pre, k p.2 = none)
    (hk : k us = some v) : First e k ts l v := by
  rw [First, best_eq h, List.findSome?_append, List.findSome?_cons, hk]
  have : pre.findSome? (fun p => (k p.2).map (fun v => (p.1, v))) = none := by
    rw [List.findSome?_eq_none_iff]
    intro p hp
    rw [n p hp]; rfl
  rw [this]; rfl

/-- A part with known parses, all rejected. -/
theorem No.all {e : Elem} {k : List Token → Option β} {ts : List Token}
    (h : ∀ p ∈ parses e ts, k p.2 = none) : No e k ts := by
  rw [No, best, List.findSome?_eq_none_iff]
  intro p hp
  rw [h p hp]; rfl

/-! ### Tokens with which a part can start -/

/-- May the part start with a token of the kind? (`n` is fuel; out of fuel the answer is yes.) -/
def starts : Nat → Elem → Tok → Bool
  | 0, _, _ => true
  | n + 1, e, t => match e with
    | .eps | .eof => false
    | .tok u => decide (t = u)
    | .set f => f t
    | .seq a b => starts n a t || (nullable a && starts n b t)
    | .alt a b => starts n a t || starts n b t
    | .star a | .nstar a | .lab _ a | .seg a => starts n a t
    | .nt r => starts n (body r) t
    | .expr p => starts n (exprBody p) t

theorem derives_nullable {e : Elem} (he : Proper e) {ts : List Token} {l : List Tree} (h : Derives e ts l ts) :
    nullable e = true := by
  cases hn : nullable e with
  | true => rfl
  | false =>
    have := (parses_shrinks e he ts _ ((mem_parses he).mpr h)).2 hn
    simp at this

theorem derives_starts {e : Elem} {ts us : List Token} {l : List Tree} (h : Derives e ts l us) :
    ∀ n x r, ts = x :: r → Proper e → starts n e x.kind = false → us = ts := by
  induction h with
  | eps ts => intros; rfl
  | tok x r =>
    intro n y q h hp hs
    obtain ⟨rfl, rfl⟩ := List.cons.inj h
    cases n <;> simp [starts] at hs
  | set f x r h =>
    intro n y q h' hp hs
    obtain ⟨rfl, rfl⟩ := List.cons.inj h'
    cases n <;> simp [starts, h] at hs
  | eof => intros; rfl
  | seq h k ih ik =>
    intro n x r hx hp hs
    cases n with
    | zero => simp [starts] at hs
    | succ n =>
      simp only [starts, Bool.or_eq_false_iff, Bool.and_eq_false_imp] at hs
      have h1 := ih n x r hx (proper_seq hp).1 hs.1
      subst h1
      exact ik n x r hx (proper_seq hp).2 (hs.2 (derives_nullable (proper_seq hp).1 h))
  | altLeft h ih =>
    intro n x r hx hp hs
    cases n with
    | zero => simp [starts] at hs
    | succ n =>
      simp only [starts, Bool.or_eq_false_iff] at hs
      exact ih n x r hx (proper_alt hp).1 hs.1
  | altRight h ih =>
    intro n x r hx hp hs
    cases n with
    | zero => simp [starts] at hs
    | succ n =>
      simp only [starts, Bool.or_eq_false_iff] at hs
      exact ih n x r hx (proper_alt hp).2 hs.2
  | starNil a ts => intros; rfl
  | starCons h k ih ik =>
    intro n x r hx hp hs
    cases n with
    | zero => simp [starts] at hs
    | succ n =>
      have h1 := ih n x r hx (proper_star hp) hs
      subst h1
      exact ik (n + 1) x r hx hp hs
  | nstarNil a ts => intros; rfl
  | nstarCons h k ih ik =>
    intro n x r hx hp hs
    cases n with
    | zero => simp [starts] at hs
    | succ n =>
      have h1 := ih n x r hx (proper_nstar hp) hs
      subst h1
      exact ik (n + 1) x r hx hp hs
  | lab q h ih =>
    intro n x r hx hp hs
    cases n with
    | zero => simp [starts] at hs
    | succ n => exact ih n x r hx (proper_lab hp) hs
  | nt q h ih =>
    intro n x r hx hp hs
    cases n with
    | zero => simp [starts] at hs
    | succ n => exact ih n x r hx (proper_body q) hs
  | expr p h ih =>
    intro n x r hx hp hs
    cases n with
    | zero => simp [starts] at hs
    | succ n => exact ih n x r hx (proper_exprBody p) hs
  | seg h ih =>
    intro n x r hx hp hs
    cases n with
    | zero => simp [starts] at hs
    | succ n => exact ih n x r hx (proper_seg hp) hs

/-- May the part start with a token of the kind? -/
def startsWith (e : Elem) (t : Tok) : Bool := starts 80 e t

/-- The tokens are none or start with one of the kinds. -/
def Heads (S : List Tok) (ts : List Token) : Prop := ∀ x r, ts = x :: r → x.kind ∈ S

theorem Heads.nil (S : List Tok) : Heads S [] := by intro x r h; cases h
theorem Heads.cons {S : List Tok} {x : Token} {r : List Token} (h : x.kind ∈ S) : Heads S (x :: r) := by
  intro y q hq
  obtain ⟨rfl, rfl⟩ := List.cons.inj hq
  exact h
theorem Heads.mono {S T : List Tok} {ts : List Token} (h : Heads S ts) (hs : ∀ t ∈ S, t ∈ T) : Heads T ts :=
  fun x r hx => hs _ (h x r hx)

/-- A part that takes a token finds nothing if it cannot start with the first one. -/
theorem No.off {e : Elem} {k : List Token → Option β} {ts : List Token} {S : List Tok} (h : Heads S ts)
    (hs : S.all (fun t => !startsWith e t) = true := by krfl) (hn : nullable e = false := by krfl)
    (hp : Proper e := by proper) : No e k ts := by
  apply No.all
  intro p hm
  have hd := (mem_parses hp).mp (show (p.1, p.2) ∈ parses e ts from hm)
  have hl := (parses_shrinks e hp ts p hm).2 hn
  cases ts with
  | nil => simp at hl
  | cons x r =>
    have := derives_starts hd 80 x r rfl hp
      (by simpa [startsWith] using (List.all_eq_true.mp hs) _ (h x r rfl))
    rw [this] at hl
    simp at hl

theorem No.at {e : Elem} {k : List Token → Option β} {x : Token} {r : List Token} {t : Tok} (hx : x.kind = t)
    (hs : startsWith e t = false := by krfl) (hn : nullable e = false := by krfl)
    (hp : Proper e := by proper) : No e k (x :: r) :=
  No.off (S := [t]) (Heads.cons (by simp [hx])) (by simp [hs]) hn hp

/-- The continuation rejects everything that starts with a token of the kind. -/
def Rejects (k : List Token → Option β) (t : Tok) : Prop := ∀ x r, x.kind = t → k (x :: r) = none

theorem Rejects.best {e : Elem} {k : List Token → Option β} {t : Tok} (h : Rejects k t)
    (hs : startsWith e t = false := by krfl) (hp : Proper e := by proper) : Rejects (best e k) t := by
  intro x r hx
  apply No.all
  intro p hm
  have hd := (mem_parses hp).mp (show (p.1, p.2) ∈ parses e (x :: r) from hm)
  rw [derives_starts hd 80 x r rfl hp (by rw [hx]; exact hs)]
  exact h x r hx

theorem First.optNone {a : Elem} {k : List Token → Option β} {ts : List Token} {v : β} (n : No a k ts)
    (h : k ts = some v) (hp : Proper (.opt a) := by proper) : First (.opt a) k ts [] v :=
  First.altR n (First.eps h) hp
theorem First.optSome {a : Elem} {k : List Token → Option β} {ts : List Token} {l : List Tree} {v : β}
    (h : First a k ts l v) (hp : Proper (.opt a) := by proper) : First (.opt a) k ts l v :=
  First.altL h hp

/-- An optional part that cannot start here. -/
theorem First.optOff {a : Elem} {k : List Token → Option β} {ts : List Token} {v : β} {S : List Tok} (hS : Heads S ts)
    (h : k ts = some v) (hs : S.all (fun t => !startsWith a t) = true := by krfl)
    (hn : nullable a = false := by krfl) (hp : Proper (.opt a) := by proper) : First (.opt a) k ts [] v :=
  First.optNone (No.off hS hs hn (proper_alt hp).1) h hp
/-- A loop that cannot start here. -/
theorem First.starOff {a : Elem} {k : List Token → Option β} {ts : List Token} {v : β} {S : List Tok}
    (hS : Heads S ts) (h : k ts = some v) (hs : S.all (fun t => !startsWith a t) = true := by krfl)
    (hn : nullable a = false := by krfl) (hp : Proper (.star a) := by proper) : First (.star a) k ts [] v :=
  First.starNil (No.off hS hs hn (proper_star hp)) h hp

theorem first_parseTree {ts us : List Token} {t : Tree} (h : First (.nt .parse) some ts [t] us) :
    parseTree ts = some t := by
  rw [First, best] at h
  rw [parseTree]
  cases hl : parses (.nt .parse) ts with
  | nil => rw [hl] at h; simp at h
  | cons p l =>
    rw [hl] at h
    simp only [List.findSome?_cons, Option.map_some, Option.some.injEq] at h
    obtain ⟨a, b⟩ := p
    cases h; rfl

end Verif.Gram
