import Verif.Lemmas.Leaves
import Verif.Spec.Where
/-! More about derivations: parentheses, tokens that cannot occur, first tokens, parts that stand alone. -/
namespace Verif.Gram
open Verif Verif.Lex Verif.Spec

theorem seq_inv {a b : Elem} {ts vs : List Token} {l : List Tree} (h : Derives (a ⬝ b) ts l vs) :
    ∃ l1 l2 us, l = l1 ++ l2 ∧ Derives a ts l1 us ∧ Derives b us l2 vs := by
  cases h with
  | seq h1 h2 => exact ⟨_, _, _, rfl, h1, h2⟩

theorem opt_inv {a : Elem} {ts vs : List Token} {l : List Tree} (h : Derives (.opt a) ts l vs) :
    l = [] ∨ Derives a ts l vs := by
  cases h with
  | altLeft h => exact Or.inr h
  | altRight h => cases h; exact Or.inl rfl

theorem nt_inv {r : Rule} {ts vs : List Token} {l : List Tree} (h : Derives (.nt r) ts l vs) :
    ∃ cs, l = [.node r cs] ∧ Derives (body r) ts cs vs := by
  cases h with
  | nt _ h => exact ⟨_, rfl, h⟩

theorem lab_inv {q : Lab} {a : Elem} {ts vs : List Token} {l : List Tree} (h : Derives (.lab q a) ts l vs) :
    ∃ cs, l = [.lab q cs] ∧ Derives a ts cs vs := by
  cases h with
  | lab _ h => exact ⟨_, rfl, h⟩

theorem tok_inv {t : Tok} {ts vs : List Token} {l : List Tree} (h : Derives (.tok t) ts l vs) : ∃ x, l = [.leaf x] ∧ x.kind = t := by
  cases h with
  | tok x r => exact ⟨x, rfl, rfl⟩

/-- One token of the kinds `K`. -/
def oneTok (K : List Tok) : Elem → Bool
  | .tok t => K.contains t
  | .alt a b => oneTok K a && oneTok K b
  | _ => false

theorem oneTok_sound {K : List Tok} {e : Elem} {ts us : List Token} {l : List Tree} (h : Derives e ts l us) (hf : oneTok K e = true) :
    ∃ x, l = [.leaf x] ∧ x.kind ∈ K := by
  induction h with
  | tok x r => exact ⟨x, rfl, by simpa [oneTok] using hf⟩
  | altLeft _ ih => simp only [oneTok, Bool.and_eq_true] at hf; exact ih hf.1
  | altRight _ ih => simp only [oneTok, Bool.and_eq_true] at hf; exact ih hf.2
  | _ => cases hf

/-! ### Parentheses -/

/-- The depth after the tokens when it is `d` before; `none` if a parenthesis is closed that is not open. -/
def walk : Nat → List Token → Option Nat
  | d, [] => some d
  | d, t :: r =>
    if t.kind = .OPEN_PAR then walk (d + 1) r
    else if t.kind = .CLOSE_PAR then (if d = 0 then none else walk (d - 1) r)
    else walk d r

theorem walk_append (d : Nat) (a b : List Token) : walk d (a ++ b) = (walk d a).bind (fun d => walk d b) := by
  induction a generalizing d with
  | nil => rfl
  | cons t a ih =>
    rw [List.cons_append, walk, walk]
    split
    · exact ih _
    · split
      · cases d with
        | zero => rfl
        | succ d => exact ih _
      · exact ih _

theorem walk_shift (k d d' : Nat) (a : List Token) (h : walk d a = some d') : walk (d + k) a = some (d' + k) := by
  induction a generalizing d with
  | nil => cases h; rfl
  | cons t a ih =>
    rw [walk] at h ⊢
    split
    · rename_i hk
      rw [if_pos hk] at h
      have := ih _ h
      rwa [Nat.add_right_comm] at this
    · rename_i hk
      rw [if_neg hk] at h
      split
      · rename_i hc
        rw [if_pos hc] at h
        cases d with
        | zero => cases h
        | succ d => rw [Nat.succ_add]; exact ih _ h
      · rename_i hc
        rw [if_neg hc] at h
        exact ih _ h

theorem countKind_append (k : Tok) (a b : List Token) : countKind k (a ++ b) = countKind k a + countKind k b := by
  simp [countKind]

theorem walk_count (d d' : Nat) (a : List Token) (h : walk d a = some d') :
    d + countKind .OPEN_PAR a = d' + countKind .CLOSE_PAR a := by
  induction a generalizing d with
  | nil => cases h; rfl
  | cons t a ih =>
    rw [walk] at h
    have e1 : ∀ k, countKind k (t :: a) = (if t.kind = k then 1 else 0) + countKind k a := by
      intro k; simp only [countKind, List.filter_cons]; split <;> simp_all; omega
    rw [e1, e1]
    split at h
    · rename_i hk
      have := ih _ h
      rw [if_pos hk, if_neg (by rw [hk]; decide)]; omega
    · rename_i hk
      split at h
      · rename_i hc
        cases d with
        | zero => cases h
        | succ d =>
          have := ih _ h
          rw [if_neg hk, if_pos hc]; omega
      · rename_i hc
        have := ih _ h
        rw [if_neg hk, if_neg hc]; omega

theorem walk_balanced {a : List Token} (h : walk 0 a = some 0) : Balanced a := by
  refine ⟨by have := walk_count 0 0 a h; omega, ?_⟩
  rintro p s rfl
  rw [walk_append] at h
  cases hp : walk 0 p with
  | none => rw [hp] at h; cases h
  | some d => have := walk_count 0 d p hp; omega

/-- The depth after every derivation of the part when it is `d` before. -/
def level : Elem → Nat → Option Nat
  | .tok t, d => if t = .OPEN_PAR then some (d + 1) else if t = .CLOSE_PAR then (if d = 0 then none else some (d - 1)) else some d
  | .set f, d => if f .OPEN_PAR || f .CLOSE_PAR then none else some d
  | .seq a b, d => (level a d).bind (level b)
  | .alt a b, d => if level a d = level b d then level a d else none
  | .star a, d | .nstar a, d => if level a d = some d then some d else none
  | .lab _ a, d | .seg a, d => level a d
  | .eps, d | .eof, d | .nt _, d | .expr _, d => some d

theorem level_body (r : Rule) : level (body r) 0 = some 0 := by
  cases r <;> rfl

theorem level_suffix (d : Nat) (l : List (Nat × Elem)) (h : ∀ s, s ∈ l → level s.2 d = some d) :
    level (l.foldr (fun s e => .seg s.2 ∣ e) (.set (fun _ => false))) d = some d := by
  induction l with
  | nil => rfl
  | cons s l ih =>
    have ih := ih (fun x hx => h x (List.mem_cons_of_mem _ hx))
    have hs := h s (List.mem_cons_self ..)
    simp only [List.foldr_cons, level, hs, ih, if_true]

theorem level_expr (p : Nat) : level (exprBody p) 0 = some 0 := by
  have h1 : level primary 0 = some 0 := by rfl
  have h2 : suffixes.all (fun s => level s.2 0 == some 0) = true := by decide
  have h3 : level (suffix p) 0 = some 0 := by
    refine level_suffix 0 _ (fun x hx => ?_)
    simpa using List.all_eq_true.mp h2 x (List.mem_filter.mp hx).1
  simp only [exprBody, level, h1, h3, Option.bind_some, if_true]

/-- Derivations are as deep at their end as the grammar says. -/
theorem level_sound {e : Elem} {ts us : List Token} {l : List Tree} (h : Derives e ts l us) :
    ∀ d d', level e d = some d' → walk d (leavesAll l) = some d' := by
  induction h with
  | eps | eof => intro d d' h; rw [leavesAll]; exact h
  | starNil | nstarNil =>
    intro d d' h
    rw [level] at h
    split at h
    · rw [leavesAll]; exact h
    · cases h
  | tok x r =>
    intro d d' h
    rw [leavesAll_one, Tree.leaves, walk]
    rw [level] at h
    split
    · rename_i hk; rw [if_pos hk] at h; exact h
    · rename_i hk
      rw [if_neg hk] at h
      split
      · rename_i hc
        rw [if_pos hc] at h
        cases d with
        | zero => cases h
        | succ d => exact h
      · rename_i hc; rw [if_neg hc] at h; exact h
  | set f x r hf =>
    intro d d' h
    rw [leavesAll_one, Tree.leaves, walk]
    rw [level] at h
    split at h
    · cases h
    · rename_i hk
      simp only [Bool.or_eq_true, not_or] at hk
      have h1 : x.kind ≠ .OPEN_PAR := fun he => hk.1 (he ▸ hf)
      have h2 : x.kind ≠ .CLOSE_PAR := fun he => hk.2 (he ▸ hf)
      rw [if_neg h1, if_neg h2]
      exact h
  | seq _ _ ih1 ih2 =>
    intro d d' h
    rw [level] at h
    obtain ⟨m, h1, h2⟩ := Option.bind_eq_some_iff.mp h
    rw [leavesAll_append, walk_append, ih1 _ _ h1]
    exact ih2 _ _ h2
  | altLeft _ ih =>
    intro d d' h
    rw [level] at h
    split at h
    · exact ih _ _ h
    · cases h
  | altRight _ ih =>
    intro d d' h
    rw [level] at h
    split at h
    · rename_i he; exact ih _ _ (he ▸ h)
    · cases h
  | starCons _ _ ih1 ih2 | nstarCons _ _ ih1 ih2 =>
    intro d d' h
    have h' := h
    rw [level] at h
    split at h
    · rename_i he
      rw [leavesAll_append, walk_append, ih1 _ _ he]
      exact ih2 _ _ h'
    · cases h
  | lab q _ ih | seg _ ih => intro d d' h; rw [leavesAll_one, Tree.leaves]; exact ih _ _ h
  | nt r _ ih =>
    intro d d' h
    cases h
    rw [leavesAll_one, Tree.leaves]
    simpa using walk_shift d 0 0 _ (ih _ _ (level_body r))
  | expr p h ih =>
    intro d d' hd
    cases hd
    rw [exprBody_leaves h]
    simpa using walk_shift d 0 0 _ (ih _ _ (level_expr p))

/-! ### Tokens that do not occur -/

/-- No token of the kinds `K` in the part, given that there is none in the rules `R`. -/
def avoids (K : List Tok) (R : List Rule) : Elem → Bool
  | .tok t => !K.contains t
  | .set f => K.all (fun k => !f k)
  | .seq a b | .alt a b => avoids K R a && avoids K R b
  | .star a | .nstar a | .lab _ a | .seg a => avoids K R a
  | .nt r => R.contains r
  | .eps | .eof => true
  | .expr _ => false

theorem avoids_sound {K : List Tok} {R : List Rule} (hR : R.all (fun r => avoids K R (body r)) = true) {e : Elem} {ts us : List Token}
    {l : List Tree} (h : Derives e ts l us) (hf : avoids K R e = true) : ∀ x, x ∈ leavesAll l → x.kind ∉ K := by
  induction h with
  | eps | eof | starNil | nstarNil => intro x hx; rw [leavesAll] at hx; cases hx
  | tok x r =>
    intro y hy
    rw [leavesAll_one, Tree.leaves, List.mem_singleton] at hy
    rw [hy]; simpa [avoids] using hf
  | set f x r h =>
    intro y hy
    rw [leavesAll_one, Tree.leaves, List.mem_singleton] at hy
    rw [hy]; intro hk
    rw [avoids, List.all_eq_true] at hf
    have := hf _ hk
    rw [h] at this; cases this
  | seq _ _ ih1 ih2 =>
    simp only [avoids, Bool.and_eq_true] at hf
    intro x hx
    rw [leavesAll_append] at hx
    rcases List.mem_append.mp hx with hx | hx
    · exact ih1 hf.1 x hx
    · exact ih2 hf.2 x hx
  | altLeft _ ih => simp only [avoids, Bool.and_eq_true] at hf; exact ih hf.1
  | altRight _ ih => simp only [avoids, Bool.and_eq_true] at hf; exact ih hf.2
  | starCons _ _ ih1 ih2 | nstarCons _ _ ih1 ih2 =>
    intro x hx
    rw [leavesAll_append] at hx
    rcases List.mem_append.mp hx with hx | hx
    · exact ih1 hf x hx
    · exact ih2 hf x hx
  | lab q _ ih => rw [leavesAll_one, Tree.leaves]; exact ih hf
  | seg _ ih => rw [leavesAll_one, Tree.leaves]; exact ih hf
  | nt r _ ih =>
    rw [leavesAll_one, Tree.leaves]
    exact ih (List.all_eq_true.mp hR r (by simpa [avoids] using hf))
  | expr p h ih => cases hf

/-! ### First tokens -/

/-- Every derivation has a token, given that this is so for the rules `R`. -/
def eats (R : List Rule) : Elem → Bool
  | .tok _ | .set _ => true
  | .seq a b => eats R a || eats R b
  | .alt a b => eats R a && eats R b
  | .lab _ a | .seg a => eats R a
  | .nt r => R.contains r
  | .eps | .eof | .star _ | .nstar _ | .expr _ => false

/-- Every derivation is without tokens or starts with one of the kinds `K`, given that the rules `R` always do the latter. -/
def begins (K : List Tok) (R : List Rule) : Elem → Bool
  | .tok t => K.contains t
  | .seq a b => begins K R a && (eats R a || begins K R b)
  | .alt a b => begins K R a && begins K R b
  | .star a | .nstar a | .lab _ a | .seg a => begins K R a
  | .nt r => R.contains r
  | .eps | .eof => true
  | .set _ | .expr _ => false

theorem eats_sound {R : List Rule} (hR : R.all (fun r => eats R (body r)) = true) {e : Elem} {ts us : List Token}
    {l : List Tree} (h : Derives e ts l us) (hf : eats R e = true) : leavesAll l ≠ [] := by
  induction h with
  | eps | eof | starNil | nstarNil | starCons | nstarCons | expr => cases hf
  | tok x r => rw [leavesAll_one, Tree.leaves]; exact List.cons_ne_nil _ _
  | set f x r h => rw [leavesAll_one, Tree.leaves]; exact List.cons_ne_nil _ _
  | seq _ _ ih1 ih2 =>
    simp only [eats, Bool.or_eq_true] at hf
    rw [leavesAll_append]
    rcases hf with hf | hf
    · exact List.append_ne_nil_of_left_ne_nil (ih1 hf) _
    · exact List.append_ne_nil_of_right_ne_nil _ (ih2 hf)
  | altLeft _ ih => simp only [eats, Bool.and_eq_true] at hf; exact ih hf.1
  | altRight _ ih => simp only [eats, Bool.and_eq_true] at hf; exact ih hf.2
  | lab q _ ih => rw [leavesAll_one, Tree.leaves]; exact ih hf
  | seg _ ih => rw [leavesAll_one, Tree.leaves]; exact ih hf
  | nt r _ ih =>
    rw [leavesAll_one, Tree.leaves]
    exact ih (List.all_eq_true.mp hR r (by simpa [eats] using hf))

theorem _root_.Verif.Spec.FirstIn.append {K : List Tok} {a b : List Token} (ha : FirstIn K a) (hb : a = [] → FirstIn K b) : FirstIn K (a ++ b) := by
  cases a with
  | nil => exact hb rfl
  | cons x a => intro t r h; cases h; exact ha _ _ rfl

theorem _root_.Verif.Spec.FirstIn.nil (K : List Tok) : FirstIn K [] := by intro t r h; cases h

theorem begins_sound {K : List Tok} {R : List Rule} (hE : R.all (fun r => eats R (body r)) = true)
    (hR : R.all (fun r => begins K R (body r)) = true) {e : Elem} {ts us : List Token}
    {l : List Tree} (h : Derives e ts l us) (hf : begins K R e = true) : FirstIn K (leavesAll l) := by
  induction h with
  | eps | eof | starNil | nstarNil => rw [leavesAll]; exact .nil K
  | tok x r =>
    rw [leavesAll_one, Tree.leaves]
    intro t r h; cases h
    simpa [begins] using hf
  | set | expr => cases hf
  | seq h1 _ ih1 ih2 =>
    simp only [begins, Bool.and_eq_true, Bool.or_eq_true] at hf
    rw [leavesAll_append]
    refine (ih1 hf.1).append fun he => ?_
    rcases hf.2 with h | h
    · exact absurd he (eats_sound hE h1 h)
    · exact ih2 h
  | altLeft _ ih => simp only [begins, Bool.and_eq_true] at hf; exact ih hf.1
  | altRight _ ih => simp only [begins, Bool.and_eq_true] at hf; exact ih hf.2
  | starCons _ _ ih1 ih2 | nstarCons _ _ ih1 ih2 =>
    rw [leavesAll_append]
    exact (ih1 hf).append fun _ => ih2 hf
  | lab q _ ih => rw [leavesAll_one, Tree.leaves]; exact ih hf
  | seg _ ih => rw [leavesAll_one, Tree.leaves]; exact ih hf
  | nt r _ ih =>
    rw [leavesAll_one, Tree.leaves]
    exact ih (List.all_eq_true.mp hR r (by simpa [begins] using hf))

/-! ### Labels and children -/

/-- Nothing in the part is labelled `q`. -/
def labFree (q : Lab) : Elem → Bool
  | .lab p _ => decide (p ≠ q)
  | .seq a b | .alt a b => labFree q a && labFree q b
  | .star a | .nstar a => labFree q a
  | _ => true

theorem labFree_sound {q : Lab} {e : Elem} {ts us : List Token} {l : List Tree} (h : Derives e ts l us) (hf : labFree q e = true) :
    labelled q l = [] := by
  induction h with
  | eps | eof | starNil | nstarNil | tok | set | nt | seg => rfl
  | seq _ _ ih1 ih2 =>
    simp only [labFree, Bool.and_eq_true] at hf
    rw [labelled_append, ih1 hf.1, ih2 hf.2]; rfl
  | altLeft _ ih => simp only [labFree, Bool.and_eq_true] at hf; exact ih hf.1
  | altRight _ ih => simp only [labFree, Bool.and_eq_true] at hf; exact ih hf.2
  | starCons _ _ ih1 ih2 | nstarCons _ _ ih1 ih2 => rw [labelled_append, ih1 hf, ih2 hf]; rfl
  | lab p _ ih =>
    have : p ≠ q := by simpa [labFree] using hf
    simp [labelled, this]
  | @expr p ts us l h ih =>
    obtain ⟨ds, hd⟩ := foldExpr_node l
    rw [hd]; rfl

/-- No child of the part is of rule `r`, not even a labelled one. -/
def absent (r : Rule) : Elem → Bool
  | .nt q => decide (q ≠ r)
  | .expr _ => decide (r ≠ .expr)
  | .seq a b | .alt a b => absent r a && absent r b
  | .star a | .nstar a | .lab _ a => absent r a
  | .eps | .eof | .tok _ | .set _ => true
  | .seg _ => false

/-- A list of trees without one of rule `r`, labels taken off twice. -/
def Without (r : Rule) (l : List Tree) : Prop := ∀ cs, Tree.node r cs ∉ unlab l ∧ Tree.node r cs ∉ l

theorem Without.append {r : Rule} {a b : List Tree} (ha : Without r a) (hb : Without r b) : Without r (a ++ b) := by
  intro cs
  rw [unlab_append, List.mem_append, List.mem_append]
  exact ⟨fun h => h.elim (ha cs).1 (hb cs).1, fun h => h.elim (ha cs).2 (hb cs).2⟩

theorem absent_sound {r : Rule} {e : Elem} {ts us : List Token} {l : List Tree} (h : Derives e ts l us) (hf : absent r e = true) :
    Without r l := by
  induction h with
  | eps | eof | starNil | nstarNil => exact fun cs => ⟨List.not_mem_nil, List.not_mem_nil⟩
  | tok | set => exact fun cs => ⟨fun h => (by cases List.mem_singleton.mp h), fun h => (by cases List.mem_singleton.mp h)⟩
  | seq _ _ ih1 ih2 =>
    simp only [absent, Bool.and_eq_true] at hf
    exact (ih1 hf.1).append (ih2 hf.2)
  | altLeft _ ih => simp only [absent, Bool.and_eq_true] at hf; exact ih hf.1
  | altRight _ ih => simp only [absent, Bool.and_eq_true] at hf; exact ih hf.2
  | starCons _ _ ih1 ih2 | nstarCons _ _ ih1 ih2 => exact (ih1 hf).append (ih2 hf)
  | lab p _ ih =>
    intro cs
    refine ⟨fun h => ?_, fun h => (by cases List.mem_singleton.mp h)⟩
    simp only [unlab, List.append_nil] at h
    exact (ih hf cs).2 h
  | seg => cases hf
  | nt q _ ih =>
    have hq : q ≠ r := by simpa [absent] using hf
    exact fun cs => ⟨fun h => (by cases List.mem_singleton.mp h; exact hq rfl), fun h => (by cases List.mem_singleton.mp h; exact hq rfl)⟩
  | @expr p ts us l h ih =>
    have hq : r ≠ .expr := by simpa [absent] using hf
    obtain ⟨ds, hd⟩ := foldExpr_node l
    rw [hd]
    exact fun cs => ⟨fun h => (by cases List.mem_singleton.mp h; exact hq rfl), fun h => (by cases List.mem_singleton.mp h; exact hq rfl)⟩

/-- A child of rule `r` is the only child. -/
def solo (r : Rule) : Elem → Bool
  | .nt _ => true
  | .alt a b => solo r a && solo r b
  | e => absent r e

theorem solo_sound {r : Rule} {e : Elem} {ts us : List Token} {l : List Tree} (h : Derives e ts l us) (hf : solo r e = true) {cs : List Tree}
    (hm : Tree.node r cs ∈ unlab l) : l = [.node r cs] := by
  induction h with
  | altLeft _ ih => simp only [solo, Bool.and_eq_true] at hf; exact ih hf.1 hm
  | altRight _ ih => simp only [solo, Bool.and_eq_true] at hf; exact ih hf.2 hm
  | nt q _ ih => cases List.mem_singleton.mp hm; rfl
  | eps | eof | starNil | nstarNil => cases hm
  | tok x r => exact absurd hm (absent_sound (.tok x r) hf cs).1
  | set f x r h => exact absurd hm (absent_sound (.set f x r h) hf cs).1
  | seq h k => exact absurd hm (absent_sound (.seq h k) hf cs).1
  | starCons h k => exact absurd hm (absent_sound (.starCons h k) hf cs).1
  | nstarCons h k => exact absurd hm (absent_sound (.nstarCons h k) hf cs).1
  | lab p h => exact absurd hm (absent_sound (.lab p h) hf cs).1
  | expr p h => exact absurd hm (absent_sound (.expr p h) hf cs).1
  | seg => cases hf

/-! ### Expressions -/

theorem addSegs_cases {b : List Tree} (hb : OnlySeg b) (t : Tree) (ht : ∃ cs, t = .node .expr cs) :
    (b = [] ∧ addSegs t b = t) ∨ ∃ x cs, Tree.seg cs ∈ b ∧ addSegs t b = .node .expr (.node .expr x :: cs) := by
  induction b generalizing t with
  | nil => exact Or.inl ⟨rfl, rfl⟩
  | cons y b ih =>
    obtain ⟨cs, rfl⟩ := hb y (List.mem_cons_self ..)
    obtain ⟨ds, rfl⟩ := ht
    right
    rcases ih (fun z hz => hb z (List.mem_cons_of_mem _ hz)) (.node .expr (.node .expr ds :: cs)) ⟨_, rfl⟩ with ⟨he, h⟩ | ⟨x, es, hm, h⟩
    · exact ⟨ds, cs, List.mem_cons_self .., h⟩
    · exact ⟨x, es, List.mem_cons_of_mem _ hm, h⟩

theorem suffix_seg {l : List (Nat × Elem)} {ts us : List Token} {m : List Tree} {cs : List Tree}
    (h : Derives (l.foldr (fun s e => .seg s.2 ∣ e) (.set (fun _ => false))) ts m us) (hm : Tree.seg cs ∈ m) :
    ∃ s ts' us', s ∈ l ∧ Derives s.2 ts' cs us' := by
  induction l with
  | nil =>
    cases h with
    | set f x r h => cases h
  | cons s l ih =>
    cases h with
    | altLeft h =>
      cases h with
      | seg h =>
        cases List.mem_singleton.mp hm
        exact ⟨s, _, _, List.mem_cons_self .., h⟩
    | altRight h =>
      obtain ⟨s', ts', us', h1, h2⟩ := ih h
      exact ⟨s', ts', us', List.mem_cons_of_mem _ h1, h2⟩

theorem star_seg {a : Elem} {P : List Tree → Prop} {cs : List Tree} (ha : ∀ {ts us m}, Derives a ts m us → Tree.seg cs ∈ m → P cs) {ts us : List Token}
    {m : List Tree} (h : Derives (.star a) ts m us) (hm : Tree.seg cs ∈ m) : P cs := by
  generalize he : Elem.star a = e at h
  induction h with
  | starNil => cases hm
  | starCons h1 _ _ ih2 =>
    cases he
    rcases List.mem_append.mp hm with hm | hm
    · exact ha h1 hm
    · exact ih2 hm rfl
  | _ => cases he

/-- An expression is a primary expression, or an expression with something behind it. -/
theorem expr_inv {p : Nat} {ts vs : List Token} {l : List Tree} (h : Derives (.expr p) ts l vs) :
    ∃ cs, l = [.node .expr cs] ∧ ((∃ us, Derives primary ts cs us) ∨
      ∃ x ds s ts' us', cs = .node .expr x :: ds ∧ s ∈ suffixes ∧ Derives s.2 ts' ds us') := by
  cases h with
  | @expr p _ _ l h =>
    rw [exprBody] at h
    obtain ⟨a, b, us, rfl, h1, h2⟩ := seq_inv h
    have ho : OnlySeg b := star_only (fun h => suffix_only h) h2
    have hs := beforeSegs_split (segFree_sound h1 primary_segFree) ho
    rw [foldExpr, hs.1, hs.2]
    rcases addSegs_cases ho (.node .expr a) ⟨_, rfl⟩ with ⟨he, h⟩ | ⟨x, ds, hm, h⟩
    · exact ⟨a, by rw [h], Or.inl ⟨us, h1⟩⟩
    · refine ⟨_, by rw [h], Or.inr ⟨x, ds, ?_⟩⟩
      have := star_seg (P := fun cs => ∃ s ts' us', s ∈ suffixes.filter (fun s => p ≤ s.1) ∧ Derives s.2 ts' cs us')
        (fun hd hm => suffix_seg hd hm) h2 hm
      obtain ⟨s, ts', us', h3, h4⟩ := this
      exact ⟨s, ts', us', rfl, (List.mem_filter.mp h3).1, h4⟩

/-- A comparison, AND, OR, literal value, parameter or arithmetic expression that is a child of an expression is all of it. -/
theorem expr_solo {p : Nat} {ts vs : List Token} {l : List Tree} (h : Derives (.expr p) ts l vs) {e c : Tree} (hl : e ∈ l) {r : Rule}
    (hr : r ∈ [Rule.comparison_expr, .and_expr, .or_expr, .literal_value, .bind_param, .arithmetic_expr, .function])
    (hc : e.child r = some c) : l = [.node .expr [c]] ∧ ∃ ts' us', Derives (.nt r) ts' [c] us' := by
  obtain ⟨cs, rfl, hi⟩ := expr_inv h
  clear h
  rw [List.mem_singleton] at hl
  subst hl
  obtain ⟨hm, ds, rfl⟩ := child_mem hc
  have hm : Tree.node r ds ∈ unlab cs := hm
  rcases hi with ⟨us, h⟩ | ⟨x, es, s, ts', us', rfl, hs, h⟩
  · have := solo_sound h (by revert hr; cases r <;> decide) hm
    subst this
    refine ⟨rfl, ?_⟩
    cases derives_derived h _ (List.mem_singleton_self _) with
    | node hd _ =>
      obtain ⟨ts', us', hd⟩ := hd (by rintro rfl; revert hr; decide)
      exact ⟨ts', us', .nt r hd⟩
  · exfalso
    rcases List.mem_cons.mp (show _ ∈ Tree.node .expr x :: unlab es from hm) with he | hm
    · cases he; revert hr; decide
    · have ha : ∀ r ∈ [Rule.comparison_expr, .and_expr, .or_expr, .literal_value, .bind_param, .arithmetic_expr, .function], suffixes.all (fun s => absent r s.2) = true := by decide
      exact (absent_sound h (List.all_eq_true.mp (ha r hr) s hs) _).1 hm

/-! ### Expressions of one token -/

/-- Every derivation has at least one token, given that the rules `R` and all primary expressions do. -/
def feeds (R : List Rule) : Elem → Bool
  | .tok _ | .set _ | .expr _ => true
  | .seq a b => feeds R a || feeds R b
  | .alt a b => feeds R a && feeds R b
  | .lab _ a | .seg a => feeds R a
  | .nt r => R.contains r
  | .eps | .eof | .star _ | .nstar _ => false

theorem feeds_sound {R : List Rule} (hR : R.all (fun r => feeds R (body r)) = true) (hp : feeds R primary = true) {e : Elem} {ts us : List Token}
    {l : List Tree} (h : Derives e ts l us) (hf : feeds R e = true) : leavesAll l ≠ [] := by
  induction h with
  | eps | eof | starNil | nstarNil | starCons | nstarCons => cases hf
  | tok x r => rw [leavesAll_one, Tree.leaves]; exact List.cons_ne_nil _ _
  | set f x r h => rw [leavesAll_one, Tree.leaves]; exact List.cons_ne_nil _ _
  | seq _ _ ih1 ih2 =>
    simp only [feeds, Bool.or_eq_true] at hf
    rw [leavesAll_append]
    rcases hf with hf | hf
    · exact List.append_ne_nil_of_left_ne_nil (ih1 hf) _
    · exact List.append_ne_nil_of_right_ne_nil _ (ih2 hf)
  | altLeft _ ih => simp only [feeds, Bool.and_eq_true] at hf; exact ih hf.1
  | altRight _ ih => simp only [feeds, Bool.and_eq_true] at hf; exact ih hf.2
  | lab q _ ih => rw [leavesAll_one, Tree.leaves]; exact ih hf
  | seg _ ih => rw [leavesAll_one, Tree.leaves]; exact ih hf
  | nt r _ ih =>
    rw [leavesAll_one, Tree.leaves]
    exact ih (List.all_eq_true.mp hR r (by simpa [feeds] using hf))
  | expr p h ih =>
    rw [exprBody_leaves h]
    refine ih ?_
    rw [exprBody, feeds, hp]; rfl

/-- A derivation with exactly one token has none of the kinds `K`, given that this holds of the rules `Q`. -/
def noOne (K : List Tok) (R Q : List Rule) : Elem → Bool
  | .tok t => !K.contains t
  | .set f => K.all (fun k => !f k)
  | .seq a b => (feeds R a && feeds R b) || (noOne K R Q a && noOne K R Q b)
  | .alt a b => noOne K R Q a && noOne K R Q b
  | .star a | .nstar a | .lab _ a | .seg a => noOne K R Q a
  | .nt r => Q.contains r
  | .eps | .eof => true
  | .expr _ => false

theorem append_one {α : Type} {a b : List α} {x : α} (h : a ++ b = [x]) : (a = [x] ∧ b = []) ∨ (a = [] ∧ b = [x]) := by
  cases a with
  | nil => exact Or.inr ⟨rfl, h⟩
  | cons y a =>
    cases a with
    | nil => cases b with
      | nil => cases h; exact Or.inl ⟨rfl, rfl⟩
      | cons z b => cases h
    | cons z a => cases h

theorem noOne_sound {K : List Tok} {R Q : List Rule} (hR : R.all (fun r => feeds R (body r)) = true) (hp : feeds R primary = true)
    (hQ : Q.all (fun r => noOne K R Q (body r)) = true) {e : Elem} {ts us : List Token}
    {l : List Tree} (h : Derives e ts l us) (hf : noOne K R Q e = true) : ∀ x, leavesAll l = [x] → x.kind ∉ K := by
  induction h with
  | eps | eof | starNil | nstarNil => intro x hx; rw [leavesAll] at hx; cases hx
  | tok y r =>
    intro x hx
    rw [leavesAll_one, Tree.leaves] at hx
    cases hx
    simpa [noOne] using hf
  | set f y r h =>
    intro x hx
    rw [leavesAll_one, Tree.leaves] at hx
    cases hx
    intro hk
    rw [noOne, List.all_eq_true] at hf
    have := hf _ hk
    rw [h] at this; cases this
  | seq h1 h2 ih1 ih2 =>
    intro x hx
    simp only [noOne, Bool.or_eq_true, Bool.and_eq_true] at hf
    rw [leavesAll_append] at hx
    rcases hf with hf | hf
    · have g1 := feeds_sound hR hp h1 hf.1
      have g2 := feeds_sound hR hp h2 hf.2
      rcases append_one hx with h | h
      · exact absurd h.2 g2
      · exact absurd h.1 g1
    · rcases append_one hx with h | h
      · exact ih1 hf.1 x h.1
      · exact ih2 hf.2 x h.2
  | altLeft _ ih => simp only [noOne, Bool.and_eq_true] at hf; exact ih hf.1
  | altRight _ ih => simp only [noOne, Bool.and_eq_true] at hf; exact ih hf.2
  | starCons _ _ ih1 ih2 | nstarCons _ _ ih1 ih2 =>
    intro x hx
    rw [leavesAll_append] at hx
    rcases append_one hx with h | h
    · exact ih1 hf x h.1
    · exact ih2 hf x h.2
  | lab q _ ih => rw [leavesAll_one, Tree.leaves]; exact ih hf
  | seg _ ih => rw [leavesAll_one, Tree.leaves]; exact ih hf
  | nt r _ ih =>
    rw [leavesAll_one, Tree.leaves]
    exact ih (List.all_eq_true.mp hQ r (by simpa [noOne] using hf))
  | expr => cases hf

/-- Rules with at least one token. -/
def fedRules : List Rule := [.literal_value, .signed_number, .string_literal, .bind_param, .arithmetic_expr, .system_var, .user_var, .column_name,
  .any_name, .keyword, .unary_operator, .comparison_expr, .and_expr, .or_expr, .«function», .raise_function, .function_name, .table_name, .collation_name,
  .schema_name, .table_function_name]

/-- An expression that is written as a number, a blob or a parameter is a literal value or a parameter. -/
theorem expr_value {p : Nat} {ts vs : List Token} {e : Tree} (h : Derives (.expr p) ts [e] vs) {b : Token} (hl : e.leaves = [b])
    (hb : b.kind ∈ [Tok.NUMERIC_LITERAL, .BLOB_LITERAL, .BIND_PARAMETER]) :
    (e.child .literal_value).isSome = true ∨ (e.child .bind_param).isSome = true := by
  have hfed : fedRules.all (fun r => feeds fedRules (body r)) = true := by decide
  have hprim : feeds fedRules primary = true := by decide
  generalize hlst : [e] = l at h
  cases h with
  | @expr p _ _ l h =>
    have hlv := exprBody_leaves h
    rw [← hlst, leavesAll_one, hl] at hlv
    rw [exprBody] at h
    obtain ⟨a, c, us, rfl, h1, h2⟩ := seq_inv h
    have ho : OnlySeg c := star_only (fun h => suffix_only h) h2
    have hs := beforeSegs_split (segFree_sound h1 primary_segFree) ho
    rw [foldExpr, hs.1, hs.2] at hlst
    rw [leavesAll_append] at hlv
    have hc : c = [] := by
      rcases append_one hlv.symm with hh | hh
      · rcases addSegs_cases ho (.node .expr a) ⟨_, rfl⟩ with ⟨he, -⟩ | ⟨x, ds, hm, -⟩
        · exact he
        · have := star_seg (P := fun cs => leavesAll cs ≠ []) (fun hd hm => by
            obtain ⟨s, ts', us', h3, h4⟩ := suffix_seg hd hm
            have hall : suffixes.all (fun s => feeds fedRules s.2) = true := by decide
            exact feeds_sound hfed hprim h4 (List.all_eq_true.mp hall s (List.mem_filter.mp h3).1)) h2 hm
          exfalso
          obtain ⟨c1, c2, rfl⟩ := List.append_of_mem hm
          have hz := hh.2
          rw [leavesAll_append, List.append_eq_nil_iff, leavesAll, List.append_eq_nil_iff] at hz
          exact this (by simpa [Tree.leaves] using hz.2.1)
      · exact absurd hh.1 (feeds_sound hfed hprim h1 hprim)
    subst hc
    simp only [addSegs, List.cons.injEq, and_true] at hlst
    subst hlst
    rw [leavesAll, List.append_nil] at hlv
    rcases (show _ ∨ _ by cases h1 with
      | altLeft h => exact Or.inl h
      | altRight h => exact Or.inr h) with h1 | h1
    · obtain ⟨cs, rfl, -⟩ := nt_inv h1
      exact Or.inl (by simp [Tree.child, Tree.kids, unlab, Tree.isRule])
    rcases (show _ ∨ _ by cases h1 with
      | altLeft h => exact Or.inl h
      | altRight h => exact Or.inr h) with h1 | h1
    · exact absurd hb (noOne_sound (Q := [.arithmetic_expr]) hfed hprim (by decide) h1 (by decide) b hlv.symm)
    rcases (show _ ∨ _ by cases h1 with
      | altLeft h => exact Or.inl h
      | altRight h => exact Or.inr h) with h1 | h1
    · obtain ⟨cs, rfl, -⟩ := nt_inv h1
      exact Or.inr (by simp [Tree.child, Tree.kids, unlab, Tree.isRule])
    · exact absurd hb (noOne_sound (Q := [.system_var, .user_var, .schema_name, .table_name, .column_name, .any_name, .keyword, .comparison_expr,
        .and_expr, .or_expr, .«function», .raise_function]) hfed hprim (by decide) h1 (by decide) b hlv.symm)

end Verif.Gram
