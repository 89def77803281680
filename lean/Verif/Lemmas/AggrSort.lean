import Verif.Lemmas.AggrOrder
/-! Ordered finalisation. -/
namespace Verif.Lemmas
open Verif Verif.Fn Verif.Spec
variable {V F : Type}

theorem lessKeys_iff {E : Env V F} {P : Option V → Prop} (ho : CmpOrder E P) (xs ys : List (Option V))
    (hx : ∀ x ∈ xs, P x) (hy : ∀ y ∈ ys, P y) : lessKeys E xs ys = true ↔ LexLt E xs ys := by
  induction xs generalizing ys with
  | nil => simp only [lessKeys, Bool.false_eq_true, false_iff]; intro h; cases h
  | cons a as ih =>
    cases ys with
    | nil => simp only [lessKeys, Bool.false_eq_true, false_iff]; intro h; cases h
    | cons b bs =>
      have ih' := ih bs (fun x h => hx x (by simp [h])) (fun y h => hy y (by simp [h]))
      simp only [lessKeys]
      rcases ho.tri a b (hx a (by simp)) (hy b (by simp)) with h | h | h
      · rw [h]; simp; exact .head h
      · rw [h]; simp
        rw [ih']
        constructor
        · exact .tail h
        · intro hl; cases hl with
          | head h' => rw [h] at h'; cases h'
          | tail _ hl => exact hl
      · rw [h]; simp
        intro hl; cases hl with
        | head h' => rw [h] at h'; cases h'
        | tail h' hl => rw [h] at h'; cases h'

theorem lexLt_asymm {E : Env V F} {P : Option V → Prop} (ho : CmpOrder E P) {xs ys : List (Option V)}
    (hx : ∀ x ∈ xs, P x) (hy : ∀ y ∈ ys, P y) (h : LexLt E xs ys) : ¬ LexLt E ys xs := by
  induction h with
  | @head a b as bs h =>
    have := ho.symm _ _ _ (hx a (by simp)) (hy b (by simp)) h
    intro hl; cases hl with
    | head h' => rw [this] at h'; cases h'
    | tail h' hl => rw [this] at h'; cases h'
  | @tail a b as bs h _ ih =>
    have := ho.symm _ _ _ (hx a (by simp)) (hy b (by simp)) h
    intro hl; cases hl with
    | head h' => rw [this] at h'; cases h'
    | tail h' hl => exact ih (fun x h => hx x (by simp [h])) (fun y h => hy y (by simp [h])) hl

theorem lexLt_negtrans {E : Env V F} {P : Option V → Prop} (ho : CmpOrder E P) {xs ys zs : List (Option V)}
    (hx : ∀ x ∈ xs, P x) (hy : ∀ y ∈ ys, P y) (hz : ∀ z ∈ zs, P z) (l1 : xs.length = ys.length) (l2 : ys.length = zs.length)
    (h1 : ¬ LexLt E xs ys) (h2 : ¬ LexLt E ys zs) : ¬ LexLt E xs zs := by
  induction xs generalizing ys zs with
  | nil => intro h; cases h
  | cons a as ih =>
    match ys, zs, l1, l2 with
    | b :: bs, c :: cs, l1, l2 =>
      have pa := hx a (by simp)
      have pb := hy b (by simp)
      have pc := hz c (by simp)
      have hab : E.cmp a b = some 0 ∨ E.cmp a b = some 1 := by
        rcases ho.tri a b pa pb with h | h
        · exact absurd (.head h) h1
        · exact h
      have hbc : E.cmp b c = some 0 ∨ E.cmp b c = some 1 := by
        rcases ho.tri b c pb pc with h | h
        · exact absurd (.head h) h2
        · exact h
      -- reversed comparisons
      have rab : E.cmp b a ≠ some 1 := by
        rcases hab with h | h <;> rw [ho.symm _ _ _ pa pb h] <;> simp
      have rbc : E.cmp c b ≠ some 1 := by
        rcases hbc with h | h <;> rw [ho.symm _ _ _ pb pc h] <;> simp
      have rac : E.cmp c a ≠ some 1 := ho.trans c b a pc pb pa rbc rab
      intro hl
      cases hl with
      | head h => exact rac (ho.symm _ _ _ pa pc h)
      | tail h hl =>
        -- both comparisons must be 0
        have hab0 : E.cmp a b = some 0 := by
          rcases hab with h' | h'
          · exact h'
          · exfalso
            have hca : E.cmp c a = some 0 := by simpa using ho.symm _ _ _ pa pc h
            have : E.cmp a b ≠ some 1 := ho.trans a c b pa pc pb (by rw [h]; simp) rbc
            exact this h'
        have hbc0 : E.cmp b c = some 0 := by
          rcases hbc with h' | h'
          · exact h'
          · exfalso
            have : E.cmp b c ≠ some 1 := ho.trans b a c pb pa pc rab (by rw [h]; simp)
            exact this h'
        exact ih (fun x h => hx x (by simp [h])) (fun x h => hy x (by simp [h])) (fun x h => hz x (by simp [h]))
          (by simpa using l1) (by simpa using l2) (fun h => h1 (.tail hab0 h)) (fun h => h2 (.tail hbc0 h)) hl

theorem pairwise2_pairwise {α β : Type} {R : α → β → Prop} {S : α → α → Prop} {T : β → β → Prop} {xs : List α} {ys : List β}
    (h : Pairwise2 R xs ys) (hs : xs.Pairwise S) (himp : ∀ a b c d, a ∈ xs → b ∈ xs → R a c → R b d → S a b → T c d) :
    ys.Pairwise T := by
  induction h with
  | nil => exact .nil
  | @cons x y xs ys hr h ih =>
    rw [List.pairwise_cons] at hs ⊢
    refine ⟨?_, ih hs.2 (fun a b c d ha hb => himp a b c d (by simp [ha]) (by simp [hb]))⟩
    intro d hd
    obtain ⟨b, hb, hbd⟩ := pairwise2_right h d hd
    exact himp x b y d (by simp) (by simp [hb]) hr hbd (hs.1 b hb)

/-- The tuples of the groups in the order of the keys. -/
theorem tuples_of_keys {E : Env V F} {b' : Aggr V F} {b : Aggr V F} {rows : List (List (Option V))} {ks : List Str}
    {outs : List (List (Cell V F))}
    (h : Pairwise2 (fun k out => ∃ r rest, rowsWith E b.groupBys.length k rows = r :: rest ∧
        b'.groupKeys.get? k = some (r.take b.groupBys.length) ∧
        IsGroupRow E b.kind b.groupBys.length b.args.length (r.take b.groupBys.length) (r :: rest) out) ks outs) :
    ∃ ts : List (List (Option V)), Pairwise2 (fun k t => b'.groupKeys.get? k = some t ∧ ∃ r ∈ rows, t = r.take b.groupBys.length ∧
        keyOf E b.groupBys.length r = some k) ks ts ∧
      Pairwise2 (fun t out => ∃ aggs, out = t.map Cell.ofAny ++ aggs ∧ aggs.length = b.args.length) ts outs := by
  induction h with
  | nil => exact ⟨[], .nil, .nil⟩
  | @cons k out ks outs hk _ ih =>
    obtain ⟨ts, h1, h2⟩ := ih
    obtain ⟨r, rest, hR, hk, m, aggs, _, ho, hal, _⟩ := hk
    have hm : r ∈ rowsWith E b.groupBys.length k rows := by rw [hR]; simp
    obtain ⟨hr, hkr⟩ := List.mem_filter.mp hm
    exact ⟨_ :: ts, .cons ⟨hk, r, hr, rfl, by simpa using hkr⟩ h1, .cons ⟨aggs, ho, hal⟩ h2⟩

end Verif.Lemmas
