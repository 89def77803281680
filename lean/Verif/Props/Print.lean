import Verif.Lemmas.Join
import Verif.Spec.Query
/-! Properties C04–C06: LIMIT, ORDER BY and WHERE texts. -/
namespace Verif.Props
open Verif Verif.Util Verif.Query Verif.Spec

/-! ### C04 -/

private theorem limit_words (l : Limit) : ∃ ws : List Str, l.toStr = Str.join s%" " ws ∧
    (∀ w ∈ ws, ' ' ∉ w) ∧ ws = (if 0 < l.limit then [s%"LIMIT", Str.ofNat l.limit] else []) ++
      (if 0 < l.offset then [s%"OFFSET", Str.ofNat l.offset] else []) := by
  refine ⟨_, rfl, ?_, rfl⟩
  intro w hw
  have h1 := Str.space_not_mem_ofNat l.limit
  have h2 := Str.space_not_mem_ofNat l.offset
  repeat' split at hw
  all_goals simp only [List.mem_append, List.mem_cons, List.not_mem_nil, or_false, false_or] at hw
  · rcases hw with (rfl | rfl) | (rfl | rfl) <;> first | assumption | decide
  · rcases hw with rfl | rfl <;> first | assumption | decide
  · rcases hw with rfl | rfl <;> first | assumption | decide

private theorem join_ne_nil (ws : List Str) (h : ws ≠ []) (h1 : ∀ w ∈ ws, w ≠ []) :
    Str.join s%" " ws ≠ [] := by
  match ws with
  | [] => exact absurd rfl h
  | [x] => simpa [Str.join] using h1 x (by simp)
  | x :: y :: r => simp [Str.join]

private theorem limit_empty (l : Limit) : l.toStr = [] ↔ l.limit = 0 ∧ l.offset = 0 := by
  obtain ⟨ws, he, _, hw⟩ := limit_words l
  constructor
  · intro h
    rw [he] at h
    by_cases hws : ws = []
    · rw [hw] at hws
      by_cases h1 : 0 < l.limit
      · simp [h1] at hws
      · by_cases h2 : 0 < l.offset
        · simp [h2] at hws
        · omega
    · refine absurd h (join_ne_nil ws hws ?_)
      intro w hmem
      rw [hw] at hmem
      repeat' split at hmem
      all_goals simp only [List.mem_append, List.mem_cons, List.not_mem_nil, or_false, false_or] at hmem
      · rcases hmem with (rfl | rfl) | (rfl | rfl) <;> first | exact Str.ofNat_ne_nil _ | decide
      · rcases hmem with rfl | rfl <;> first | exact Str.ofNat_ne_nil _ | decide
      · rcases hmem with rfl | rfl <;> first | exact Str.ofNat_ne_nil _ | decide
  · rintro ⟨h1, h2⟩
    rw [he, hw, h1, h2]; simp

/-- C04: two limit clauses print the same text exactly when both limit and offset agree, and a clause
prints nothing exactly when it has neither. -/
theorem C04_limit_text_injective :
    (∀ a b : Limit, a.toStr = b.toStr ↔ (a.limit = b.limit ∧ a.offset = b.offset)) ∧
    (∀ a : Limit, a.toStr = [] ↔ (a.limit = 0 ∧ a.offset = 0)) := by
  refine ⟨fun a b => ⟨fun h => ?_, fun h => ?_⟩, limit_empty⟩
  · by_cases h0 : a.toStr = []
    · have h1 := (limit_empty a).mp h0
      have h2 := (limit_empty b).mp (h ▸ h0)
      omega
    · have ha0 : ¬ (a.limit = 0 ∧ a.offset = 0) := fun e => h0 ((limit_empty a).mpr e)
      have hb0 : ¬ (b.limit = 0 ∧ b.offset = 0) := fun e => h0 (h.trans ((limit_empty b).mpr e))
      obtain ⟨wa, ea, sa, da⟩ := limit_words a
      obtain ⟨wb, eb, sb, db⟩ := limit_words b
      have na : wa ≠ [] := by
        intro e; rw [e, Str.join] at ea; exact h0 ea
      have nb : wb ≠ [] := by
        intro e; rw [e, Str.join] at eb; exact h0 (h.trans eb)
      have := Str.join_inj ' ' [] wa wb na nb sa sb (by rw [← ea, ← eb, h])
      rw [da, db] at this
      have hLO : s%"LIMIT" ≠ s%"OFFSET" := by decide
      by_cases h1 : 0 < a.limit <;> by_cases h2 : 0 < a.offset <;>
        by_cases h3 : 0 < b.limit <;> by_cases h4 : 0 < b.offset <;>
        simp [h1, h2, h3, h4] at this
      all_goals
        first
        | (exact ⟨Str.ofNat_inj this.1, Str.ofNat_inj this.2⟩)
        | (exact ⟨Str.ofNat_inj this, by omega⟩)
        | (exact ⟨by omega, Str.ofNat_inj this⟩)
        | omega
  · obtain ⟨a1, a2⟩ := a
    obtain ⟨b1, b2⟩ := b
    obtain ⟨rfl, rfl⟩ := h
    rfl

example : ({ offset := 5, limit := 10 } : Limit).toStr = s%"LIMIT 10 OFFSET 5" := by decide +kernel
example : ({ offset := 0, limit := 105 } : Limit).toStr ≠ ({ offset := 5, limit := 10 } : Limit).toStr := by
  decide +kernel

/-! ### C05 -/

private theorem order_words (o : Order) (hd : o.order ≠ .none) :
    o.toStr = Str.join s%" " [o.column, o.order.toStr] := by
  simp [Order.toStr, hd, joinWithSpace]

private theorem order_inj (a b : Order) (ha : a.order ≠ .none) (hb : b.order ≠ .none)
    (hpa : Plain a.column) (hpb : Plain b.column) (h : a.toStr = b.toStr) : a = b := by
  rw [order_words a ha, order_words b hb] at h
  have hs : ∀ t : OrderType, ' ' ∉ t.toStr := by intro t; cases t <;> decide
  have := Str.join_inj ' ' [] [a.column, a.order.toStr] [b.column, b.order.toStr] (by simp) (by simp)
    (by intro x hx; simp at hx; rcases hx with rfl | rfl
        · exact hpa.1
        · exact hs _)
    (by intro x hx; simp at hx; rcases hx with rfl | rfl
        · exact hpb.1
        · exact hs _) h
  obtain ⟨c, t⟩ := a
  obtain ⟨c', t'⟩ := b
  simp at this
  obtain ⟨rfl, ht⟩ := this
  have : t = t' := by
    revert ht; cases t <;> cases t' <;> decide
  rw [this]

private theorem map_inj_on {α β : Type} (f : α → β) (xs ys : List α)
    (hf : ∀ x ∈ xs, ∀ y ∈ ys, f x = f y → x = y) (h : xs.map f = ys.map f) : xs = ys := by
  induction xs generalizing ys with
  | nil => cases ys with
    | nil => rfl
    | cons y ys => simp at h
  | cons x xs ih =>
    cases ys with
    | nil => simp at h
    | cons y ys =>
      simp at h
      rw [hf x (by simp) y (by simp) h.1,
        ih ys (fun a ha b hb => hf a (by simp [ha]) b (by simp [hb])) h.2]

/-- C05: the ORDER BY text determines the list of (column, direction) terms, for every list of terms with
a direction over names without spaces and commas. -/
theorem C05_order_text_injective (a b : List Order)
    (ha : ∀ o ∈ a, Plain o.column ∧ (o.order = .asc ∨ o.order = .desc))
    (hb : ∀ o ∈ b, Plain o.column ∧ (o.order = .asc ∨ o.order = .desc))
    (h : orderByString a = orderByString b) : a = b := by
  have dir : ∀ o : Order, (o.order = .asc ∨ o.order = .desc) → o.order ≠ .none := by
    intro o ho; rcases ho with e | e <;> rw [e] <;> decide
  have comma : ∀ o : Order, Plain o.column ∧ (o.order = .asc ∨ o.order = .desc) → ',' ∉ o.toStr := by
    intro o ho hm
    rw [order_words o (dir o ho.2)] at hm
    have : ',' ∉ o.order.toStr := by cases o.order <;> decide
    simp [Str.join, this] at hm
    exact ho.1.2 hm
  cases a with
  | nil =>
    cases b with
    | nil => rfl
    | cons y b => simp [orderByString, joinWithSpace, Str.join] at h
  | cons x a =>
    cases b with
    | nil => simp [orderByString, joinWithSpace, Str.join] at h
    | cons y b =>
      simp [orderByString, joinWithSpace, Str.join] at h
      have h2 := Str.join_inj ',' [' '] ((x :: a).map (·.toStr)) ((y :: b).map (·.toStr)) (by simp) (by simp)
        (by intro z hz; obtain ⟨o, ho, rfl⟩ := List.mem_map.mp hz; exact comma o (ha o ho))
        (by intro z hz; obtain ⟨o, ho, rfl⟩ := List.mem_map.mp hz; exact comma o (hb o ho))
        (by simpa [joinWithComma] using h)
      exact map_inj_on _ _ _ (fun o ho o' ho' e => order_inj o o' (dir o (ha o ho).2) (dir o' (hb o' ho').2)
        (ha o ho).1 (hb o' ho').1 e) h2

example : orderByString [⟨s%"a", .asc⟩, ⟨s%"b", .desc⟩] = s%"ORDER BY a ASC, b DESC" := by decide +kernel

/-! ### C06 -/

/-- Truth of an expression, a comparison being judged by its column name, operator and printed value. -/
abbrev truth (ρ : Str → CmpOp → Str → Bool) (e : Expr) : Bool := holds ρ Literal.valueString e

/-- C06 as stated is false: `a = 1 AND (b = 2 OR c = 3)` and `(a = 1 AND b = 2) OR c = 3` print alike. -/
theorem C06_where_text_structure_fails :
    ∃ (e e' : Expr) (ρ : Str → CmpOp → Str → Bool), e.toStr = e'.toStr ∧ truth ρ e ≠ truth ρ e' := by
  let c (n v : Str) : Expr := .cmp { op := .eq, left := { name := n }, right := some { v := .str v } }
  refine ⟨.and (c s%"a" s%"1") (.or (c s%"b" s%"2") (c s%"c" s%"3")),
    .or (.and (c s%"a" s%"1") (c s%"b" s%"2")) (c s%"c" s%"3"), fun n _ _ => n == s%"c", ?_, ?_⟩
  · decide +kernel
  · decide +kernel

/-- A comparison whose printed parts contain no space. -/
def cmpPlain (c : Cmp) : Prop := ' ' ∉ c.left.name ∧ ' ' ∉ Literal.valueString c.right

private def cmpWords (c : Cmp) : List Str :=
  match c.op with
  | .nin => [c.left.name, s%"NOT", s%"IN", Literal.valueString c.right]
  | op => [c.left.name, op.toStr, Literal.valueString c.right]

/-- replace the connective before the first comparison -/
private def relink (b : Bool) : List (Bool × Cmp) → List (Bool × Cmp)
  | [] => []
  | (_, c) :: t => (b, c) :: t

/-- in-order list of comparisons, each with the connective (`true` = OR) before it -/
private def flat : Expr → List (Bool × Cmp)
  | .cmp c => [(false, c)]
  | .and l r => flat l ++ relink false (flat r)
  | .or l r => flat l ++ relink true (flat r)

private theorem flat_ne (e : Expr) : flat e ≠ [] := by
  induction e with
  | cmp c => simp [flat]
  | and l r ihl ihr => simp [flat, ihl]
  | or l r ihl ihr => simp [flat, ihl]

private def conn (b : Bool) : Str := if b then s%"OR" else s%"AND"

private def wordsOf : List (Bool × Cmp) → List Str
  | [] => []
  | (_, c) :: t => cmpWords c ++ (t.map (fun p => conn p.1 :: cmpWords p.2)).flatten

private theorem cmpWords_ne (c : Cmp) : cmpWords c ≠ [] := by
  unfold cmpWords; split <;> simp

private theorem cmp_toStr (c : Cmp) : c.toStr = Str.join s%" " (cmpWords c) := by
  unfold Cmp.toStr cmpWords
  cases c.op <;> simp [Str.join, CmpOp.toStr, Column.toStr]

private theorem wordsOf_append (x y : List (Bool × Cmp)) (b : Bool) (hx : x ≠ []) (hy : y ≠ []) :
    wordsOf (x ++ relink b y) = wordsOf x ++ conn b :: wordsOf y := by
  cases x with
  | nil => exact absurd rfl hx
  | cons p x =>
    cases y with
    | nil => exact absurd rfl hy
    | cons q y => simp [wordsOf, relink]

private theorem wordsOf_ne (x : List (Bool × Cmp)) (hx : x ≠ []) : wordsOf x ≠ [] := by
  cases x with
  | nil => exact absurd rfl hx
  | cons p x => simp [wordsOf, cmpWords_ne]

private theorem toStr_words (e : Expr) : e.toStr = Str.join s%" " (wordsOf (flat e)) := by
  induction e with
  | cmp c => simp [Expr.toStr, flat, wordsOf, cmp_toStr]
  | and l r ihl ihr =>
    rw [flat, wordsOf_append _ _ _ (flat_ne l) (flat_ne r),
      Str.join_append _ _ _ (wordsOf_ne _ (flat_ne l)) (by simp),
      Str.join_cons _ _ _ (wordsOf_ne _ (flat_ne r)), Expr.toStr, ihl, ihr]
    simp [conn]
  | or l r ihl ihr =>
    rw [flat, wordsOf_append _ _ _ (flat_ne l) (flat_ne r),
      Str.join_append _ _ _ (wordsOf_ne _ (flat_ne l)) (by simp),
      Str.join_cons _ _ _ (wordsOf_ne _ (flat_ne r)), Expr.toStr, ihl, ihr]
    simp [conn]

private abbrev key (p : Bool × Cmp) : Bool × Str × CmpOp × Str :=
  (p.1, p.2.left.name, p.2.op, Literal.valueString p.2.right)

private theorem cmpWords_inj (c c' : Cmp) (x y : List Str) (h : cmpWords c ++ x = cmpWords c' ++ y) :
    key (false, c) = key (false, c') ∧ x = y := by
  unfold cmpWords at h
  unfold key
  have d : ∀ o o' : CmpOp, o ≠ .nin → o' ≠ .nin → o.toStr = o'.toStr → o = o' := by
    intro o o'; cases o <;> cases o' <;> decide
  have dn : ∀ o : CmpOp, o ≠ .nin → o.toStr ≠ s%"NOT" := by intro o; cases o <;> decide
  split at h <;> split at h
  · next _ h1 _ h2 => simp at h; simp [h1, h2, h.1, h.2.1, h.2.2]
  · next _ h1 _ h2 =>
    simp at h; exact absurd h.2.1.symm (dn _ (by intro e; exact h2 e))
  · next _ h1 _ h2 =>
    simp at h; exact absurd h.2.1 (dn _ (by intro e; exact h1 e))
  · next _ h1 _ h2 =>
    simp at h
    simp [h.1, h.2.2.1, h.2.2.2, d _ _ (by intro e; exact h1 e) (by intro e; exact h2 e) h.2.1]

private theorem tail_inj (x y : List (Bool × Cmp))
    (h : (x.map (fun p => conn p.1 :: cmpWords p.2)).flatten = (y.map (fun p => conn p.1 :: cmpWords p.2)).flatten) :
    x.map key = y.map key := by
  induction x generalizing y with
  | nil => cases y with
    | nil => rfl
    | cons q y => simp at h
  | cons p x ih =>
    cases y with
    | nil => simp at h
    | cons q y =>
      simp only [List.map_cons, List.flatten_cons, List.cons_append, List.cons.injEq] at h
      have h2 := cmpWords_inj p.2 q.2 _ _ h.2
      have hb : p.1 = q.1 := by
        have := h.1
        revert this
        cases p.1 <;> cases q.1 <;> decide
      have hk : key p = key q := by
        have := h2.1
        simp only [key, Prod.mk.injEq] at this ⊢
        exact ⟨hb, this.2⟩
      simp only [List.map_cons, hk, ih y h2.2]

private theorem wordsOf_inj (x y : List (Bool × Cmp)) (hx : x ≠ []) (hy : y ≠ [])
    (h : wordsOf x = wordsOf y) : (x.map key).map (·.2) = (y.map key).map (·.2) ∧ (x.map key).tail = (y.map key).tail := by
  cases x with
  | nil => exact absurd rfl hx
  | cons p x =>
    cases y with
    | nil => exact absurd rfl hy
    | cons q y =>
      simp only [wordsOf] at h
      have h2 := cmpWords_inj p.2 q.2 _ _ h
      have h3 := tail_inj x y h2.2
      have h1 := h2.1
      simp only [key, Prod.mk.injEq, true_and] at h1
      refine ⟨?_, by simpa using h3⟩
      simp only [List.map_cons, h3, key, h1.1, h1.2.1, h1.2.2]

/-- truth of a flat chain, AND binding tighter than OR; `acc` is the value of the current AND run -/
private def evalFlat (ρ : Str → CmpOp → Str → Bool) (acc : Bool) : List (Bool × Str × CmpOp × Str) → Bool
  | [] => acc
  | (true, n, o, v) :: t => acc || evalFlat ρ (ρ n o v) t
  | (false, n, o, v) :: t => evalFlat ρ (acc && ρ n o v) t

private theorem evalFlat_orFree (ρ) (e : Expr) (h : orFree e = true) (acc : Bool) (b : Bool) (t) :
    (∀ p c r, flat e = (p, c) :: r → evalFlat ρ acc (((b, c) :: r).map key ++ t) =
      if b then acc || evalFlat ρ (truth ρ e) t else evalFlat ρ (acc && truth ρ e) t) := by
  induction e generalizing acc b t with
  | cmp c =>
    intro p c' r hf
    simp [flat] at hf
    obtain ⟨⟨_, rfl⟩, rfl⟩ := hf
    cases b <;> simp [evalFlat, key, truth, holds]
  | and l r ihl ihr =>
    simp [orFree] at h
    intro p c q hf
    rw [flat] at hf
    cases hl : flat l with
    | nil => exact absurd hl (flat_ne l)
    | cons lp lt =>
      cases hr : flat r with
      | nil => exact absurd hr (flat_ne r)
      | cons rp rt =>
        rw [hl, hr] at hf
        simp only [relink, List.cons_append, List.cons.injEq] at hf
        obtain ⟨rfl, rfl⟩ := hf
        have e1 := ihl h.1 acc b (((false, rp.2) :: rt).map key ++ t) p c lt hl
        have e2 := fun a => ihr h.2 a false t rp.1 rp.2 rt hr
        simp only [List.map_cons, List.map_append, List.cons_append, List.append_assoc] at e1 e2 ⊢
        rw [e1]
        simp only [e2]
        cases b <;> simp [truth, holds, Bool.and_assoc]
  | or l r _ _ => simp [orFree] at h

private theorem evalFlat_or (ρ) (acc : Bool) (t) (x : Bool × Str × CmpOp × Str) :
    evalFlat ρ acc ((true, x.2) :: t) = (acc || evalFlat ρ (ρ x.2.1 x.2.2.1 x.2.2.2) t) := rfl

private theorem orFree_orOfAnds (e : Expr) (h : orFree e = true) : orOfAnds e = true := by
  cases e with
  | cmp c => rfl
  | and l r => simpa [orFree, orOfAnds] using h
  | or l r => simp [orFree] at h

/-- starting a chain with OR: the value is `acc ∨` the truth of the expression, continued -/
private theorem evalFlat_orOfAnds (ρ) (e : Expr) (h : orOfAnds e = true) :
    ∃ d u : Bool, truth ρ e = (d || u) ∧ ∀ acc t, (∀ p c r, flat e = (p, c) :: r →
      evalFlat ρ acc (((true, c) :: r).map key ++ t) = (acc || (d || evalFlat ρ u t))) := by
  induction e with
  | cmp c =>
    refine ⟨false, truth ρ (.cmp c), by simp, ?_⟩
    intro acc t p c' r hf
    have := evalFlat_orFree ρ (.cmp c) rfl acc true t p c' r hf
    simpa using this
  | and l r _ _ =>
    refine ⟨false, truth ρ (.and l r), by simp, ?_⟩
    intro acc t p c' q hf
    have := evalFlat_orFree ρ (.and l r) (by simpa [orFree, orOfAnds] using h) acc true t p c' q hf
    simpa using this
  | or l r ihl ihr =>
    simp [orOfAnds] at h
    obtain ⟨dl, ul, el, fl⟩ := ihl h.1
    obtain ⟨dr, ur, er, fr⟩ := ihr h.2
    refine ⟨dl || ul || dr, ur, ?_, ?_⟩
    · show (truth ρ l || truth ρ r) = _
      rw [el, er]; simp [Bool.or_assoc]
    · intro acc t p c q hf
      rw [flat] at hf
      cases hl : flat l with
      | nil => exact absurd hl (flat_ne l)
      | cons lp lt =>
        cases hr : flat r with
        | nil => exact absurd hr (flat_ne r)
        | cons rp rt =>
          rw [hl, hr] at hf
          simp only [relink, List.cons_append, List.cons.injEq] at hf
          obtain ⟨rfl, rfl⟩ := hf
          have e1 := fl acc (((true, rp.2) :: rt).map key ++ t) p c lt hl
          have e2 := fun a => fr a t rp.1 rp.2 rt hr
          simp only [List.map_cons, List.map_append, List.cons_append, List.append_assoc] at e1 e2 ⊢
          rw [e1]
          simp only [e2]
          simp [Bool.or_assoc]

private theorem words_plain (e : Expr) (h : AllCmp cmpPlain e) : ∀ w ∈ wordsOf (flat e), ' ' ∉ w := by
  have key1 : ∀ c : Cmp, cmpPlain c → ∀ w ∈ cmpWords c, ' ' ∉ w := by
    intro c hc w hw
    have ho : ∀ o : CmpOp, o ≠ .nin → ' ' ∉ o.toStr := by intro o; cases o <;> decide
    unfold cmpWords at hw
    split at hw
    · simp at hw
      rcases hw with rfl | rfl | rfl | rfl
      · exact hc.1
      · decide
      · decide
      · exact hc.2
    · next hne =>
      simp at hw
      rcases hw with rfl | rfl | rfl
      · exact hc.1
      · exact ho _ (by intro e; exact hne e)
      · exact hc.2
  have all : ∀ p ∈ flat e, cmpPlain p.2 := by
    clear key1
    induction e with
    | cmp c => intro p hp; simp [flat] at hp; subst hp; exact h
    | and l r ihl ihr =>
      intro p hp
      simp only [flat, List.mem_append] at hp
      rcases hp with hp | hp
      · exact ihl h.1 p hp
      · have hr := ihr h.2
        cases hf : flat r with
        | nil => rw [hf] at hp; simp [relink] at hp
        | cons q t =>
          rw [hf] at hp hr
          simp [relink] at hp
          rcases hp with rfl | hp
          · exact hr q (by simp)
          · exact hr p (by simp [hp])
    | or l r ihl ihr =>
      intro p hp
      simp only [flat, List.mem_append] at hp
      rcases hp with hp | hp
      · exact ihl h.1 p hp
      · have hr := ihr h.2
        cases hf : flat r with
        | nil => rw [hf] at hp; simp [relink] at hp
        | cons q t =>
          rw [hf] at hp hr
          simp [relink] at hp
          rcases hp with rfl | hp
          · exact hr q (by simp)
          · exact hr p (by simp [hp])
  intro w hw
  cases hf : flat e with
  | nil => exact absurd hf (flat_ne e)
  | cons p t =>
    rw [hf] at hw all
    simp only [wordsOf, List.mem_append, List.mem_flatten, List.mem_map] at hw
    rcases hw with hw | ⟨l, ⟨q, hq, rfl⟩, hw⟩
    · exact key1 p.2 (all p (by simp)) w hw
    · simp at hw
      rcases hw with rfl | hw
      · unfold conn; split <;> decide
      · exact key1 q.2 (all q (by simp [hq])) w hw

/-- C06, the part that holds: for expressions without an OR below an AND (what SQL text without
parentheses can say) over comparisons whose printed parts contain no space, expressions printing the same
text are true under the same valuations. Missing: OR below AND (the claim is false there) and string
values containing spaces (a value such as `x' AND b = 'y` prints like two comparisons). -/
theorem C06_where_text_structure_partial (e e' : Expr)
    (h : orOfAnds e = true) (h' : orOfAnds e' = true)
    (hp : AllCmp cmpPlain e) (hp' : AllCmp cmpPlain e')
    (ht : e.toStr = e'.toStr) (ρ : Str → CmpOp → Str → Bool) : truth ρ e = truth ρ e' := by
  have hw : wordsOf (flat e) = wordsOf (flat e') :=
    Str.join_inj ' ' [] _ _ (wordsOf_ne _ (flat_ne e)) (wordsOf_ne _ (flat_ne e'))
      (words_plain e hp) (words_plain e' hp') (by rw [← toStr_words, ← toStr_words, ht])
  have hk := wordsOf_inj _ _ (flat_ne e) (flat_ne e') hw
  obtain ⟨d, u, ev, f⟩ := evalFlat_orOfAnds ρ e h
  obtain ⟨d', u', ev', f'⟩ := evalFlat_orOfAnds ρ e' h'
  cases hf : flat e with
  | nil => exact absurd hf (flat_ne e)
  | cons p t =>
    cases hf' : flat e' with
    | nil => exact absurd hf' (flat_ne e')
    | cons p' t' =>
      have g := f false [] p.1 p.2 t hf
      have g' := f' false [] p'.1 p'.2 t' hf'
      rw [hf, hf'] at hk
      simp only [List.map_cons, List.tail_cons, List.cons.injEq, key, Prod.mk.injEq] at hk
      simp only [List.map_cons, List.append_nil, Bool.false_or, evalFlat, key] at g g'
      rw [ev, ev', ← g, ← g', hk.2, hk.1.1.1, hk.1.1.2.1, hk.1.1.2.2]

example : let c (n v : Str) : Expr := .cmp { op := .eq, left := { name := n }, right := some { v := .str v } }
    let e := Expr.or (.and (c s%"a" s%"1") (c s%"b" s%"2")) (c s%"c" s%"3")
    orOfAnds e = true ∧ AllCmp cmpPlain e ∧ e.toStr = s%"a = 1 AND b = 2 OR c = 3" := by
  refine ⟨by decide, ?_, by decide +kernel⟩
  simp [AllCmp, cmpPlain, Literal.valueString, Val.print]

end Verif.Props
