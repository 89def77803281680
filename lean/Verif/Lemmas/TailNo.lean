import Verif.Lemmas.LongText
/-! No SELECT goes on with a clause out of order. -/
namespace Verif.Gram
open Verif Verif.Lex Verif.Spec

variable {β : Type} {k : List Token → Option β} {sp : Spelling} {rest : List Token}

/-- No parse of the part leaves a rest that can be continued. -/
theorem No.allRests {e : Elem} {ts : List Token} (uss : List (List Token)) (h : (runs 400 e ts).map (fun l => l.map Prod.snd) = some uss)
    (hk : ∀ us ∈ uss, k us = none) (hp : Proper e := by proper) : No e k ts := by
  rw [Option.map_eq_some_iff] at h
  obtain ⟨l, h1, h2⟩ := h
  apply No.all
  rw [parses_of_runs hp h1]
  intro p hm
  have : p.2 ∈ l.map Prod.snd := List.mem_map_of_mem hm
  rw [h2] at this
  exact hk _ this

/-! ### Conditions -/

/-- A condition that is followed by something that is rejected. -/
theorem cond_no (c : CondS) (hS : Heads exprEnd rest) (hr : ∀ x ∈ badInner, Rejects k x) (hk : k rest = none) :
    No (.expr 0) k (c.toks sp ++ rest) := by
  have inner := suffix_rejects hr
  have hq : best (.star (suffix 0)) k rest = none := No.starOff hS hk
  have second : ∀ (a b : CmpS) (w : Tok), w ∈ joins →
      No (.expr 0) k (a.toks sp ++ kw sp w :: (b.toks sp ++ rest)) := by
    intro a b w hw
    obtain ⟨col, op, lit⟩ := a
    have hop := inner _ (badInner_cmp op) (kw sp op.tok) (lit.toks sp ++ kw sp w :: (b.toks sp ++ rest)) rfl
    have hmid : best (.star (suffix 0)) k (kw sp w :: (b.toks sp ++ rest)) = none := inner _ (joins_bad w hw) _ _ rfl
    refine No.expr (No.seq (a := primary) ?_)
    refine No.alt (No.at rfl) (No.alt ?_ (No.alt (No.at rfl) (No.alt (No.at rfl)
      (No.alt (No.at rfl) (No.alt ?_ (No.alt (No.at rfl) (No.alt (cmp_no _ hmid) (No.alt ?_ (No.alt ?_ (No.alt ?_
        (No.alt (No.at rfl) (No.alt (No.at rfl) (No.alt (No.at rfl) (No.alt (No.at rfl) (No.at rfl)))))))))))))))
    · cases op <;> exact No.empty
    · refine No.exact (l := [nameT .column_name col]) (us := kw sp op.tok :: (lit.toks sp ++ kw sp w :: (b.toks sp ++ rest))) ?_ hop
      cases op <;> krfl
    · refine No.nt (No.seq (No.lab (cmp_no _ (No.seq ?_))))
      simp only [joins, List.mem_cons, List.not_mem_nil, or_false] at hw
      rcases hw with rfl | rfl
      · exact No.tok rfl (No.lab (cmp_no b hq))
      · exact No.at rfl
    · refine No.nt (No.seq (No.lab (cmp_no _ (No.seq ?_))))
      simp only [joins, List.mem_cons, List.not_mem_nil, or_false] at hw
      rcases hw with rfl | rfl
      · exact No.at rfl
      · exact No.tok rfl (No.lab (cmp_no b hq))
    · cases op <;> exact No.empty
  cases c with
  | one c =>
    obtain ⟨col, op, lit⟩ := c
    have hop := inner _ (badInner_cmp op) (kw sp op.tok) (lit.toks sp ++ rest) rfl
    show No (.expr 0) k (CmpS.toks sp ⟨col, op, lit⟩ ++ rest)
    refine No.expr (No.seq (a := primary) ?_)
    refine No.alt (No.at rfl) (No.alt ?_ (No.alt (No.at rfl) (No.alt (No.at rfl)
      (No.alt (No.at rfl) (No.alt ?_ (No.alt (No.at rfl) (No.alt (cmp_no _ hq) (No.alt ?_ (No.alt ?_ (No.alt ?_
        (No.alt (No.at rfl) (No.alt (No.at rfl) (No.alt (No.at rfl) (No.alt (No.at rfl) (No.at rfl)))))))))))))))
    · cases op <;> exact No.empty
    · refine No.exact (l := [nameT .column_name col]) (us := kw sp op.tok :: (lit.toks sp ++ rest)) ?_ hop
      cases op <;> krfl
    · exact No.nt (No.seq (No.lab (cmp_no _ (No.seq (No.off hS)))))
    · exact No.nt (No.seq (No.lab (cmp_no _ (No.seq (No.off hS)))))
    · cases op <;> exact No.empty
  | and a b =>
    have e : (CondS.and a b).toks sp ++ rest = a.toks sp ++ (kw sp .AND_ :: (b.toks sp ++ rest)) := by simp [CondS.toks]
    rw [e]; exact second a b _ (by decide)
  | or a b =>
    have e : (CondS.or a b).toks sp ++ rest = a.toks sp ++ (kw sp .OR_ :: (b.toks sp ++ rest)) := by simp [CondS.toks]
    rw [e]; exact second a b _ (by decide)

theorem where_good_no {q : Lab} (c : Option CondS) (hr : ∀ t ∈ badInner, Rejects k t) (hwh : Rejects k .WHERE_)
    (hw : Heads [.ORDER_, .LIMIT_, .OFFSET_, .GROUP_] rest) (hk : k rest = none) :
    No (.opt ((.tok .WHERE_) ⬝ (.lab q (.expr 0)))) k (whereToks sp c ++ rest) := by
  cases c with
  | none => exact No.optOff hw hk
  | some c => exact No.opt (No.seq (No.tok rfl (No.lab (cond_no c (hw.mono (by decide)) hr hk)))) (hwh _ _ rfl)

/-! ### Ordering terms -/

/-- What no statement goes on with after an ordering term. -/
def orderInner : List Tok := [.ASC_, .DESC_, .NUMERIC_LITERAL, .BY_]

theorem order_no (o : OrderS) (hr : ∀ t ∈ orderInner, Rejects k t) (hS : Heads [.COMMA, .LIMIT_, .OFFSET_, .GROUP_, .IDENTIFIER] rest) (hk : k rest = none) :
    No (.nt .ordering_term) k (o.toks sp ++ rest) := by
  obtain ⟨c, d⟩ := o
  cases d with
  | none =>
    exact No.nt (No.seq (atom_no (sp := sp) (.col c) (hS.mono (by decide)) (No.seq (No.optOff hS (No.seq (No.optOff hS (No.optOff hS hk)))))))
  | some d =>
    cases d with
    | asc =>
      refine No.nt (No.seq (atom_no (sp := sp) (.col c) (rest := kw sp .ASC_ :: rest) Heads.kw (No.seq (No.optOff (S := [.ASC_]) Heads.kw (No.seq (No.opt ?_ ?_))))))
      · exact No.nt (No.alt (No.tok rfl (No.optOff hS hk)) (No.at rfl))
      · exact No.optOff (S := [.ASC_]) Heads.kw (hr .ASC_ (by decide) _ _ rfl)
    | desc =>
      refine No.nt (No.seq (atom_no (sp := sp) (.col c) (rest := kw sp .DESC_ :: rest) Heads.kw (No.seq (No.optOff (S := [.DESC_]) Heads.kw (No.seq (No.opt ?_ ?_))))))
      · exact No.nt (No.alt (No.at rfl) (No.tok rfl (No.optOff hS hk)))
      · exact No.optOff (S := [.DESC_]) Heads.kw (hr .DESC_ (by decide) _ _ rfl)

/-- No ordering term starts the tokens and ends where one may end. -/
def BadTerm (ts : List Token) : Prop :=
  ∀ {γ : Type} (q : List Token → Option γ), (∀ t ∈ orderInner, Rejects q t) → No (.nt .ordering_term) q ts

theorem BadTerm.nil : BadTerm [] := fun _ _ => No.off (S := []) (Heads.nil _)
theorem BadTerm.comma : BadTerm (kw sp .COMMA :: rest) := fun _ _ => No.at rfl
theorem BadTerm.limit (n : Str) : BadTerm (kw sp .LIMIT_ :: number n :: rest) := fun _ hr =>
  No.allRests [number n :: rest] (by krfl) (fun us hm => by simp at hm; subst hm; exact hr .NUMERIC_LITERAL (by decide) _ _ rfl)
theorem BadTerm.offset (n : Str) : BadTerm (kw sp .OFFSET_ :: number n :: rest) := fun _ hr =>
  No.allRests [number n :: rest] (by krfl) (fun us hm => by simp at hm; subst hm; exact hr .NUMERIC_LITERAL (by decide) _ _ rfl)
theorem BadTerm.group : BadTerm (kw sp .GROUP_ :: kw sp .BY_ :: rest) := fun _ hr =>
  No.allRests [kw sp .BY_ :: rest] (by krfl) (fun us hm => by simp at hm; subst hm; exact hr .BY_ (by decide) _ _ rfl)

/-- The rest of the terms of an ORDER BY clause. -/
abbrev moreTerms : Elem := .star ((.tok .COMMA) ⬝ (.nt .ordering_term))

theorem moreTerms_rejects (hr : ∀ t ∈ orderInner, Rejects k t) : ∀ t ∈ orderInner, Rejects (best moreTerms k) t := by
  intro t ht
  have : orderInner.all (fun t => !startsWith moreTerms t) = true := by krfl
  exact Rejects.best (hr t ht) (by simpa using List.all_eq_true.mp this t ht)

/-- Terms in order, and then something that is rejected, or a comma without a term. -/
theorem terms_no (os : List OrderS) (hr : ∀ t ∈ orderInner, Rejects k t) (hc : Rejects k .COMMA)
    (hS : Heads [.LIMIT_, .OFFSET_, .GROUP_, .IDENTIFIER] rest ∧ k rest = none ∨ ∃ b, rest = kw sp .COMMA :: b ∧ BadTerm b) :
    No moreTerms k (tailToks sp (OrderS.toks sp) os ++ rest) := by
  induction os with
  | nil =>
    rcases hS with ⟨h, hk⟩ | ⟨b, rfl, hb⟩
    · exact No.starOff h hk
    · exact No.star (No.seq (No.tok rfl (hb _ (moreTerms_rejects hr)))) (hc _ _ rfl)
  | cons o os ih =>
    have e1 : tailToks sp (OrderS.toks sp) (o :: os) ++ rest = kw sp .COMMA :: (o.toks sp ++ (tailToks sp (OrderS.toks sp) os ++ rest)) := by
      simp [tailToks]
    rw [e1]
    refine No.star (No.seq (No.tok rfl (order_no o (moreTerms_rejects hr) ?_ ih))) (hc _ _ rfl)
    cases os with
    | nil =>
      rcases hS with ⟨h, -⟩ | ⟨b, rfl, -⟩
      · exact h.mono (by decide)
      · exact Heads.kw
    | cons => exact Heads.kw

theorem terms_heads (os : List OrderS)
    (hS : Heads [.LIMIT_, .OFFSET_, .GROUP_, .IDENTIFIER] rest ∨ ∃ b, rest = kw sp .COMMA :: b) :
    Heads [.COMMA, .LIMIT_, .OFFSET_, .GROUP_, .IDENTIFIER] (tailToks sp (OrderS.toks sp) os ++ rest) := by
  cases os with
  | nil =>
    rcases hS with h | ⟨b, rfl⟩
    · exact h.mono (by decide)
    · exact Heads.kw
  | cons => exact Heads.kw

/-- An ORDER BY clause followed by something that is rejected. -/
theorem orders_no (os : List OrderS) (hr : ∀ t ∈ orderInner, Rejects k t) (hc : Rejects k .COMMA) (ho : Rejects k .ORDER_)
    (hS : Heads [.LIMIT_, .OFFSET_, .GROUP_, .IDENTIFIER] rest) (hk : k rest = none) :
    No (.opt (.nt .order_by_stmt)) k (ordersToks sp os ++ rest) := by
  cases os with
  | nil => exact No.optOff hS hk
  | cons o os =>
    rw [ordersToks, commas_map]
    simp only [List.cons_append, List.append_assoc]
    refine No.opt (No.nt (No.seq (No.tok rfl (No.seq (No.tok rfl (No.seq (order_no o (moreTerms_rejects hr) ?_ ?_))))))) (ho _ _ rfl)
    · exact terms_heads os (.inl hS)
    · exact terms_no os hr hc (.inl ⟨hS, hk⟩)

/-- An ORDER BY clause with a comma without a term. -/
theorem orders_gap_no (o : OrderS) (os : List OrderS) {b : List Token} (hr : ∀ t ∈ orderInner, Rejects k t) (hc : Rejects k .COMMA)
    (ho : Rejects k .ORDER_) (hb : BadTerm b) :
    No (.opt (.nt .order_by_stmt)) k (ordersToks sp (o :: os) ++ kw sp .COMMA :: b) := by
  rw [ordersToks, commas_map]
  simp only [List.cons_append, List.append_assoc]
  refine No.opt (No.nt (No.seq (No.tok rfl (No.seq (No.tok rfl (No.seq (order_no o (moreTerms_rejects hr) ?_ ?_))))))) (ho _ _ rfl)
  · exact terms_heads os (.inr ⟨b, rfl⟩)
  · exact terms_no os hr hc (.inr ⟨b, rfl, hb⟩)

theorem orders_first_no {b : List Token} (hr : ∀ t ∈ orderInner, Rejects k t) (ho : Rejects k .ORDER_) (hb : BadTerm b) :
    No (.opt (.nt .order_by_stmt)) k (kw sp .ORDER_ :: kw sp .BY_ :: b) :=
  No.opt (No.nt (No.seq (No.tok rfl (No.seq (No.tok rfl (No.seq (hb _ (moreTerms_rejects hr)))))))) (ho _ _ rfl)

/-- A LIMIT clause followed by `GROUP` or a name. -/
theorem limit_no (l : LimitS) (hS : Heads [.GROUP_, .IDENTIFIER] rest) (ho : Rejects k .OFFSET_) (hc : Rejects k .COMMA) (hl : Rejects k .LIMIT_)
    (hk : k rest = none) : No (.opt (.nt .limit_stmt)) k (l.toks sp ++ rest) := by
  have he : Heads exprEnd rest := hS.mono (by decide)
  cases l with
  | none => exact No.optOff hS hk
  | only n => exact No.opt (No.nt (No.seq (No.tok rfl (No.seq (lit_no (sp := sp) (.num n) he (No.optOff hS hk)))))) (hl _ _ rfl)
  | offset n m =>
    refine No.opt (No.nt (No.seq (No.tok rfl (No.seq (lit_no (sp := sp) (.num n) (rest := kw sp .OFFSET_ :: number m :: rest) Heads.kw
      (No.opt (No.seq (No.alt (No.tok rfl (lit_no (sp := sp) (.num m) he hk)) (No.at rfl))) (ho _ _ rfl))))))) (hl _ _ rfl)
  | comma m n =>
    refine No.opt (No.nt (No.seq (No.tok rfl (No.seq (lit_no (sp := sp) (.num m) (rest := kw sp .COMMA :: number n :: rest) Heads.kw
      (No.opt (No.seq (No.alt (No.at rfl) (No.tok rfl (lit_no (sp := sp) (.num n) he hk)))) (hc _ _ rfl))))))) (hl _ _ rfl)

/-! ### SELECT statements -/

/-- Clauses that no SELECT ends with: they start with a word of a clause, and no parse of them is followed by the end. -/
structure BadTail (ts : List Token) : Prop where
  heads : Heads [.ORDER_, .LIMIT_, .OFFSET_] ts
  follow : WhereFollow ts
  no : ∀ {γ : Type} (q : List Token → Option γ), Quiet q → best (.opt (.nt .order_by_stmt)) (best (.opt (.nt .limit_stmt)) q) ts = none

theorem orderInner_quiet (hq : Quiet k) : ∀ t ∈ orderInner, Rejects (best (.opt (.nt .limit_stmt)) k) t := by
  intro x hx
  simp only [orderInner, List.mem_cons, List.not_mem_nil, or_false] at hx
  rcases hx with rfl | rfl | rfl | rfl <;> quiet hq

theorem orders_follow (os : List OrderS) (h : WhereFollow rest) : WhereFollow (ordersToks sp os ++ rest) := by
  cases os with
  | nil => exact h
  | cons o os => exact .inr ⟨kw sp .ORDER_, kw sp .BY_, _, rfl, by simp [kw, clauseToks], by simp [kw]⟩

/-- An offset without a limit. -/
theorem BadTail.offset (os : List OrderS) (n : Str) : BadTail (ordersToks sp os ++ kw sp .OFFSET_ :: number n :: rest) where
  heads := by
    cases os with
    | nil => exact Heads.kw
    | cons => exact Heads.kw
  follow := orders_follow os (.inr ⟨kw sp .OFFSET_, number n, _, rfl, by simp [kw, clauseToks], by simp [number]⟩)
  no := fun q hq => orders_no os (orderInner_quiet hq) (by quiet hq) (by quiet hq) Heads.kw (No.optOff (S := [.OFFSET_]) Heads.kw (hq .OFFSET_ (by krfl) _ _ rfl))

theorem limit_follow (l : LimitS) (h : l ≠ .none) : WhereFollow (l.toks sp ++ rest) := by
  cases l with
  | none => exact absurd rfl h
  | only n => exact .inr ⟨kw sp .LIMIT_, number n, _, rfl, by simp [kw, clauseToks], by simp [number]⟩
  | offset n m => exact .inr ⟨kw sp .LIMIT_, number n, _, rfl, by simp [kw, clauseToks], by simp [number]⟩
  | comma m n => exact .inr ⟨kw sp .LIMIT_, number m, _, rfl, by simp [kw, clauseToks], by simp [number]⟩

/-- `GROUP BY` after an ordering or a limit. -/
theorem BadTail.group (os : List OrderS) (l : LimitS) (h : os ≠ [] ∨ l ≠ .none) :
    BadTail (ordersToks sp os ++ (l.toks sp ++ kw sp .GROUP_ :: rest)) where
  heads := by
    cases os with
    | cons => exact Heads.kw
    | nil =>
      cases l with
      | none => simp at h
      | _ => exact Heads.kw
  follow := by
    cases os with
    | cons o os => exact .inr ⟨kw sp .ORDER_, kw sp .BY_, _, rfl, by simp [kw, clauseToks], by simp [kw]⟩
    | nil => exact limit_follow l (by simpa using h)
  no := fun q hq => by
    refine orders_no os (orderInner_quiet hq) (by quiet hq) (by quiet hq) ?_ (limit_no l Heads.kw (by quiet hq) (by quiet hq) (by quiet hq) (hq .GROUP_ (by krfl) _ _ rfl))
    cases l with
    | none => exact Heads.kw
    | _ => exact Heads.kw

/-- An ordering in which a term is missing. -/
theorem BadTail.gap (o : OrderS) (os : List OrderS) {b : List Token} (hb : BadTerm b) :
    BadTail (ordersToks sp (o :: os) ++ kw sp .COMMA :: b) where
  heads := Heads.kw
  follow := .inr ⟨kw sp .ORDER_, kw sp .BY_, _, rfl, by simp [kw, clauseToks], by simp [kw]⟩
  no := fun q hq => orders_gap_no o os (orderInner_quiet hq) (by quiet hq) (by quiet hq) hb

theorem BadTail.first {b : List Token} (hb : BadTerm b) : BadTail (kw sp .ORDER_ :: kw sp .BY_ :: b) where
  heads := Heads.kw
  follow := .inr ⟨kw sp .ORDER_, kw sp .BY_, _, rfl, by simp [kw, clauseToks], by simp [kw]⟩
  no := fun q hq => orders_first_no (orderInner_quiet hq) (by quiet hq) hb

theorem select_tail_no (i : ItemS) (is : List ItemS) (tabs : List TabS) (c : Option CondS) {ts : List Token}
    (hb : BadTail ts) (hq : Quiet k) : No (.nt .sql_stmt) k (kw sp .SELECT_ :: (i.toks sp ++ (tailToks sp (ItemS.toks sp) is ++
      (fromToks sp tabs ++ (whereToks sp c ++ ts))))) := by
  have h2 := hb.heads
  have h1' : Heads clauseToks (whereToks sp c ++ ts) := by
    cases c with
    | none => exact h2.mono (by decide)
    | some c => exact Heads.kw
  have h1 : Heads exprFollow (whereToks sp c ++ ts) := h1'.mono (by decide)
  have h0 : Heads exprFollow (fromToks sp tabs ++ (whereToks sp c ++ ts)) := by
    cases tabs with
    | nil => exact h1
    | cons => exact Heads.kw
  have hi := heads_tail (sp := sp) (f := ItemS.toks sp) is (by decide) h0
  have hin : Heads (Tok.STAR :: atomStart) (i.toks sp ++ (tailToks sp (ItemS.toks sp) is ++
      (fromToks sp tabs ++ (whereToks sp c ++ ts)))) := by
    cases i with
    | star => exact Heads.kw
    | atom a => exact (atom_heads a _).mono (by decide)
    | fn f args => exact Heads.ident
  have hopen : ∀ {γ : Type} {q : List Token → Option γ}, Rejects q .OPEN_PAR → ∀ t ∈ [Tok.OPEN_PAR], Rejects q t := by
    intro γ q hq t ht
    rw [List.mem_singleton] at ht
    rw [ht]; exact hq
  have hfol : WhereFollow (whereToks sp c ++ ts) := by
    cases c with
    | none => exact hb.follow
    | some c =>
      obtain ⟨a, r, hc⟩ := cond_head (sp := sp) c
      exact .inr ⟨kw sp .WHERE_, ident a, _, by rw [whereToks, hc]; rfl, by simp [kw, clauseToks], by simp [ident]⟩
  refine No.nt (No.seq (No.optOff (S := [.SELECT_]) Heads.kw ?_))
  iterate 26 refine No.alt (No.at (t := .SELECT_) rfl) ?_
  refine No.alt ?_ (No.at (t := .SELECT_) rfl)
  refine No.nt (No.seq (No.optOff (S := [.SELECT_]) Heads.kw ?_))
  refine No.seq (No.lab (No.nt (No.alt ?_ (No.at (t := .SELECT_) rfl))))
  refine No.seq (No.tok rfl (No.seq (No.optOff hin ?_)))
  refine No.seq (item_no i (hopen (by quiet hq)) hi ?_)
  refine No.seq (list_no (R := [.OPEN_PAR]) (Fol := Heads exprFollow)
      (fun t ht => comma_starts (by rintro rfl; simp at ht)) (fun r => Heads.kw)
      (fun q x us hr h hq => No.seq (No.tok rfl (item_no x hr h hq))) is (hopen (by quiet hq)) (by quiet hq) h0 (comma_off ?_) ?_)
  · cases tabs with
    | nil => exact h1'.noComma
    | cons => exact Heads.noComma (S := [.FROM_]) Heads.kw
  refine No.seq (from_no tabs ?_ (by quiet hq) (by quiet hq) hfol h1' ?_)
  · intro x hx
    simp only [List.mem_cons, List.not_mem_nil, or_false] at hx
    rcases hx with rfl | rfl | rfl | rfl | rfl <;> quiet hq
  refine No.seq (where_good_no c ?_ (by quiet hq) (h2.mono (by decide)) ?_)
  · intro x hx
    simp only [badInner, condInner, List.cons_append, List.nil_append, List.mem_cons, List.not_mem_nil, or_false] at hx
    rcases hx with rfl | rfl | rfl | rfl | rfl | rfl | rfl | rfl | rfl | rfl | rfl <;> quiet hq
  refine No.seq (No.optOff h2 (No.optOff h2 ?_))
  exact No.seq (No.starOff h2 (No.seq (hb.no k hq)))

end Verif.Gram
