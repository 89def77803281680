import Verif.Lemmas.AggrReset
/-! Minimum and maximum by folding, and permuted rows. -/
namespace Verif.Lemmas
open Verif Verif.Fn Verif.Spec
variable {V F : Type}

theorem smaller_fold {E : Env V F} (hl : Linear E) (vals : List F) (s : F) :
    let x := vals.foldl (smaller E) s
    (x = s ∨ x ∈ vals) ∧ E.lt s x = false ∧ ∀ y ∈ vals, E.lt y x = false := by
  induction vals generalizing s with
  | nil => simp [hl.irrefl]
  | cons v vals ih =>
    simp only [List.foldl_cons]
    obtain ⟨h1, h2, h3⟩ := ih (smaller E s v)
    generalize List.foldl (smaller E) (smaller E s v) vals = x at *
    unfold smaller at h1 h2
    have asym : ∀ a b, E.lt a b = true → E.lt b a = false := by
      intro a b h
      cases hb : E.lt b a with
      | false => rfl
      | true => have := hl.trans _ _ _ h hb; rw [hl.irrefl] at this; cases this
    have neg : ∀ a b c, E.lt a b = true → E.lt a c = false → E.lt b c = false := by
      intro a b c h h'
      cases hb : E.lt b c with
      | false => rfl
      | true => rw [hl.trans _ _ _ h hb] at h'; cases h'
    by_cases hv : E.lt v s = true
    · rw [if_pos hv] at h1 h2
      refine ⟨?_, neg _ _ _ hv h2, ?_⟩
      · rcases h1 with h1 | h1
        · right; simp [h1]
        · right; simp [h1]
      · intro y hy
        rcases List.mem_cons.mp hy with rfl | hy
        · exact h2
        · exact h3 y hy
    · rw [if_neg hv] at h1 h2
      refine ⟨?_, h2, ?_⟩
      · rcases h1 with h1 | h1
        · left; exact h1
        · right; simp [h1]
      · intro y hy
        rcases List.mem_cons.mp hy with rfl | hy
        · rcases hl.total s y with h | h | h
          · exact neg _ _ _ h h2
          · rw [← h]; exact h2
          · exact absurd h hv
        · exact h3 y hy

/-- The reversed order. -/
def revEnv (E : Env V F) : Env V F := { E with lt := fun a b => E.lt b a }

theorem larger_eq (E : Env V F) : larger E = smaller (revEnv E) := rfl

theorem linear_rev {E : Env V F} (h : Linear E) : Linear (revEnv E) where
  irrefl a := h.irrefl a
  trans a b c h1 h2 := h.trans c b a h2 h1
  total a b := by
    rcases h.total a b with h | h | h
    · right; right; exact h
    · right; left; exact h
    · left; exact h

theorem larger_fold {E : Env V F} (hl : Linear E) (vals : List F) (s : F) :
    let x := vals.foldl (larger E) s
    (x = s ∨ x ∈ vals) ∧ E.lt x s = false ∧ ∀ y ∈ vals, E.lt x y = false := by
  rw [larger_eq]; exact smaller_fold (linear_rev hl) vals s

theorem lt_asymm {E : Env V F} (hl : Linear E) {a b : F} (h : E.lt a b = true) : E.lt b a = false := by
  cases hb : E.lt b a with
  | false => rfl
  | true => have := hl.trans _ _ _ h hb; rw [hl.irrefl] at this; cases this

theorem smaller_comm {E : Env V F} (hl : Linear E) (b x y : F) : smaller E (smaller E b x) y = smaller E (smaller E b y) x := by
  have ex : ∀ a b, E.lt a b = false → E.lt b a = false → a = b := by
    intro a b h1 h2
    rcases hl.total a b with h | h | h
    · rw [h1] at h; cases h
    · exact h
    · rw [h2] at h; cases h
  have h1 := smaller_fold hl [x, y] b
  have h2 := smaller_fold hl [y, x] b
  simp only [List.foldl_cons, List.foldl_nil] at h1 h2
  generalize smaller E (smaller E b x) y = u at *
  generalize smaller E (smaller E b y) x = w at *
  apply ex
  · rcases h1.1 with e | e
    · subst e; exact h2.2.1
    · exact h2.2.2 u (by simp at e ⊢; exact e.symm)
  · rcases h2.1 with e | e
    · subst e; exact h1.2.1
    · exact h1.2.2 w (by simp at e ⊢; exact e.symm)

theorem step_comm {E : Env V F} (ha : ∀ a b c, E.add (E.add a b) c = E.add a (E.add b c)) (hc : ∀ a b, E.add a b = E.add b a)
    (hl : Linear E) (k : AggrId) (b x y : F) : k.step E (k.step E b x) y = k.step E (k.step E b y) x := by
  cases k with
  | sum => simp only [AggrId.step]; rw [ha, hc x y, ← ha]
  | avg => simp only [AggrId.step]; rw [ha, hc x y, ← ha]
  | min => exact smaller_comm hl b x y
  | max => exact smaller_comm (linear_rev hl) b x y
  | count => rfl

theorem aggValue_perm {E : Env V F} (ha : ∀ a b c, E.add (E.add a b) c = E.add a (E.add b c)) (hc : ∀ a b, E.add a b = E.add b a)
    (hl : Linear E) (k : AggrId) {xs ys : List F} (h : xs.Perm ys) : aggValue E k xs = aggValue E k ys := by
  rw [← final_fold, ← final_fold, foldl_perm (k.step E) (fun b x y => step_comm ha hc hl k b x y) h, h.length_eq]

theorem pairwise2_perm {α β : Type} {R : α → β → Prop} {xs xs' : List α} {ys : List β} (h : Pairwise2 R xs ys)
    (hp : xs.Perm xs') : ∃ ys', ys.Perm ys' ∧ Pairwise2 R xs' ys' := by
  induction hp generalizing ys with
  | nil => exact ⟨ys, .refl _, h⟩
  | cons x _ ih =>
    cases h with
    | cons hr h =>
      obtain ⟨ys', p, q⟩ := ih h
      exact ⟨_ :: ys', p.cons _, .cons hr q⟩
  | swap x y l =>
    cases h with
    | cons hr h =>
      cases h with
      | cons hr' h => exact ⟨_, .swap _ _ _, .cons hr' (.cons hr h)⟩
  | trans _ _ ih1 ih2 =>
    obtain ⟨a, p, q⟩ := ih1 h
    obtain ⟨c, p', q'⟩ := ih2 q
    exact ⟨c, p.trans p', q'⟩

theorem column_perm {m m' : List (List F)} (j : Nat) (h : m.Perm m') : (column j m).Perm (column j m') := h.filterMap _

theorem nums_map_unique {E : Env V F} {n : Nat} {rs : List (List (Option V))} {m m' : List (List F)}
    (h : Pairwise2 (fun r ns => Nums E (r.drop n) ns) rs m) (h' : Pairwise2 (fun r ns => Nums E (r.drop n) ns) rs m') : m = m' := by
  induction h generalizing m' with
  | nil => cases h'; rfl
  | cons hr _ ih =>
    cases h' with
    | cons hr' h' => rw [ih h', nums_unique hr hr']

theorem list_ext_get {α : Type} {xs ys : List α} {w : Nat} (hx : xs.length = w) (hy : ys.length = w)
    (h : ∀ j, j < w → xs[j]? = ys[j]?) : xs = ys := by
  apply List.ext_getElem?
  intro j
  by_cases hj : j < w
  · exact h j hj
  · rw [List.getElem?_eq_none (by omega), List.getElem?_eq_none (by omega)]

/-- A group row is determined by its rows up to their order. -/
theorem isGroupRow_perm {E : Env V F} (ha : ∀ a b c, E.add (E.add a b) c = E.add a (E.add b c)) (hc : ∀ a b, E.add a b = E.add b a)
    (hl : Linear E) {k : AggrId} {n w : Nat} {t : List (Option V)} {rs rs' : List (List (Option V))} {out out' : List (Cell V F)}
    (hp : rs.Perm rs') (h : IsGroupRow E k n w t rs out) (h' : IsGroupRow E k n w t rs' out') : out = out' := by
  obtain ⟨m, aggs, a1, rfl, a3, a4⟩ := h
  obtain ⟨m', aggs', b1, rfl, b3, b4⟩ := h'
  obtain ⟨m'', p, q⟩ := pairwise2_perm a1 hp
  have : m'' = m' := nums_map_unique q b1
  subst this
  congr 1
  apply list_ext_get a3 b3
  intro j hj
  rw [a4 j hj, b4 j hj, aggValue_perm ha hc hl k (column_perm j p)]

end Verif.Lemmas
