import Verif.Model.Parser
/-! The parser terminates on every token list: more fuel does not change results, and some fuel is enough. -/
namespace Verif.Gram
open Verif Verif.Lex

/-! ### Fuel monotonicity -/

/-- `g` gives at least the results of `f`. -/
def Ext {α β : Type} (f g : α → Option β) : Prop := ∀ a b, f a = some b → g a = some b

theorem bindAll_mono {α β : Type} {f g : α → Option (List β)} (h : Ext f g) :
    ∀ {l m}, bindAll l f = some m → bindAll l g = some m := by
  intro l
  induction l with
  | nil => intro m hm; exact hm
  | cons a l ih =>
    intro m hm
    simp only [bindAll] at hm ⊢
    cases ha : f a with
    | none => rw [ha] at hm; simp at hm
    | some x =>
      rw [ha] at hm
      rw [h a x ha]
      cases hb : bindAll l f with
      | none => rw [hb] at hm; simp at hm
      | some y => rw [hb] at hm; rw [ih hb]; exact hm

theorem bind_mono {α β : Type} {x y : Option α} {f g : α → Option β} (h : ∀ a, x = some a → y = some a)
    (hf : Ext f g) {b : β} (hb : x.bind f = some b) : y.bind g = some b := by
  cases hx : x with
  | none => rw [hx] at hb; simp at hb
  | some a => rw [hx] at hb; rw [h a hx]; exact hf a b hb

theorem map_mono {α β : Type} {x y : Option α} {f : α → β} (h : ∀ a, x = some a → y = some a)
    {b : β} (hb : x.map f = some b) : y.map f = some b := by
  cases hx : x with
  | none => rw [hx] at hb; simp at hb
  | some a => rw [hx] at hb; rw [h a hx]; exact hb

theorem runs_succ : ∀ n e ts l, runs n e ts = some l → runs (n + 1) e ts = some l := by
  intro n
  induction n with
  | zero => intro e ts l h; simp [runs] at h
  | succ n ih =>
    intro e ts l h
    cases e with
    | eps => simpa [runs] using h
    | tok t => simpa [runs] using h
    | set f => simpa [runs] using h
    | eof => simpa [runs] using h
    | seq a b =>
      rw [runs] at h ⊢
      refine bind_mono (ih a ts) ?_ h
      intro x y hxy
      refine bindAll_mono ?_ hxy
      intro p q hq
      exact map_mono (ih b p.2) hq
    | alt a b =>
      rw [runs] at h ⊢
      refine bind_mono (ih a ts) ?_ h
      intro x y hxy
      exact map_mono (ih b ts) hxy
    | star a =>
      rw [runs] at h ⊢
      refine bind_mono (ih a ts) ?_ h
      intro x y hxy
      refine map_mono ?_ hxy
      intro z hz
      refine bindAll_mono ?_ hz
      intro p q hq
      exact map_mono (ih (.star a) p.2) hq
    | nstar a =>
      rw [runs] at h ⊢
      refine bind_mono (ih a ts) ?_ h
      intro x y hxy
      refine map_mono ?_ hxy
      intro z hz
      refine bindAll_mono ?_ hz
      intro p q hq
      exact map_mono (ih (.nstar a) p.2) hq
    | lab k a => rw [runs] at h ⊢; exact map_mono (ih a ts) h
    | nt r => rw [runs] at h ⊢; exact map_mono (ih (body r) ts) h
    | expr p => rw [runs] at h ⊢; exact map_mono (ih (exprBody p) ts) h
    | seg a => rw [runs] at h ⊢; exact map_mono (ih a ts) h

theorem runs_mono {n m : Nat} (hnm : n ≤ m) {e ts l} (h : runs n e ts = some l) : runs m e ts = some l := by
  induction hnm with
  | refl => exact h
  | step _ ih => exact runs_succ _ _ _ _ ih

theorem runs_unique {n m : Nat} {e ts l k} (h : runs n e ts = some l) (h' : runs m e ts = some k) : l = k := by
  have a := runs_mono (Nat.le_max_left n m) h
  have b := runs_mono (Nat.le_max_right n m) h'
  rw [a] at b
  exact Option.some.inj b

/-! ### Parts that take a token -/

/-- May the part match no tokens? (Only `parse` of all rules may.) -/
def nullable : Elem → Bool
  | .eps | .eof | .star _ | .nstar _ => true
  | .tok _ | .set _ | .expr _ => false
  | .seq a b => nullable a && nullable b
  | .alt a b => nullable a || nullable b
  | .lab _ a | .seg a => nullable a
  | .nt r => decide (r = .parse)

/-- Are all loop bodies non-nullable? -/
def loopsOk : Elem → Bool
  | .star a | .nstar a => !nullable a && loopsOk a
  | .seq a b | .alt a b => loopsOk a && loopsOk b
  | .lab _ a | .seg a => loopsOk a
  | _ => true

/-- How deep rules nest before a token is taken. -/
def rankOf : Rule → Nat
  | .column_constraint | .table_constraint | .delete_stmt | .delete_stmt_limited | .literal_value | .insert_stmt
  | .select_core | .update_stmt | .update_stmt_limited | .frame_spec | .window_function_invocation | .any_name => 2
  | .source_name | .select_stmt | .simple_select_stmt | .compound_select_stmt | .«name» | .database_name
  | .function_name | .schema_name | .table_name | .table_or_index_name | .column_name | .collation_name
  | .foreign_table | .index_name | .trigger_name | .view_name | .module_name | .pragma_name | .savepoint_name
  | .table_alias | .transaction_name | .window_name | .«alias» | .filename | .base_window_name | .simple_func
  | .aggregate_func | .table_function_name => 3
  | .sql_stmt | .column_def | .type_name | .cte_table_name | .common_table_expression | .«function»
  | .comparison_expr | .arithmetic_expr | .pragma_value | .factored_select_stmt | .from_table | .from_function
  | .table_or_subquery | .update_column_set | .qualified_table_name | .simple_function_invocation
  | .aggregate_function_invocation | .initial_select | .recursive_select => 4
  | .sql_stmt_list | .recursive_cte | .and_expr | .or_expr | .join_clause | .«from» => 5
  | .parse => 6
  | .indexed_column | .expr | .result_column | .ordering_term | .frame_left | .frame_right | .frame_single
  | .expr_asc_desc | .module_argument => 7
  | _ => 1

/-- The rank of a part: how deep rules nest before a token is taken. -/
def rank : Elem → Nat
  | .eps | .tok _ | .set _ | .eof => 0
  | .seq a b => if nullable a then max (rank a) (rank b) else rank a
  | .alt a b => max (rank a) (rank b)
  | .star a | .nstar a | .lab _ a | .seg a => rank a
  | .nt r => rankOf r
  | .expr _ => 6

theorem body_rank (r : Rule) : rank (body r) < rankOf r := by cases r <;> decide +kernel
theorem body_loops (r : Rule) : loopsOk (body r) = true := by cases r <;> decide +kernel
theorem body_nullable (r : Rule) (h : r ≠ .parse) : nullable (body r) = false := by
  cases r <;> first | exact absurd rfl h | decide +kernel

theorem primary_rank : rank primary < 6 := by decide +kernel
theorem primary_loops : loopsOk primary = true := by decide +kernel
theorem primary_nullable : nullable primary = false := by decide +kernel

theorem suffix_ok (p : Nat) : nullable (suffix p) = false ∧ loopsOk (suffix p) = true := by
  have key : ∀ l : List (Nat × Elem), (∀ s ∈ l, nullable s.2 = false ∧ loopsOk s.2 = true) →
      nullable (l.foldr (fun s e => .seg s.2 ∣ e) (.set (fun _ => false))) = false ∧
      loopsOk (l.foldr (fun s e => .seg s.2 ∣ e) (.set (fun _ => false))) = true := by
    intro l hl
    induction l with
    | nil => exact ⟨rfl, rfl⟩
    | cons s l ih =>
      have h1 := hl s (by simp)
      have h2 := ih (fun x hx => hl x (by simp [hx]))
      simp only [List.foldr_cons, nullable, loopsOk, h1.1, h1.2, h2.1, h2.2]
      exact ⟨rfl, rfl⟩
  refine key _ ?_
  intro s hs
  have hmem := (List.mem_filter.mp hs).1
  have hall : suffixes.all (fun s => !nullable s.2 && loopsOk s.2) = true := by decide +kernel
  have := List.all_eq_true.mp hall s hmem
  simp only [Bool.and_eq_true, Bool.not_eq_true'] at this
  exact this

theorem exprBody_rank (p : Nat) : rank (exprBody p) < 6 := by
  have h : rank (exprBody p) = rank primary := by
    rw [exprBody, rank, primary_nullable]; rfl
  rw [h]; exact primary_rank
theorem exprBody_loops (p : Nat) : loopsOk (exprBody p) = true := by
  simp [exprBody, loopsOk, primary_loops, suffix_ok p]
theorem exprBody_nullable (p : Nat) : nullable (exprBody p) = false := by
  rw [exprBody, nullable, primary_nullable]; rfl

/-! ### Results do not get longer -/

theorem bindAll_mem {α β : Type} {f : α → Option (List β)} :
    ∀ {l m}, bindAll l f = some m → ∀ b ∈ m, ∃ a ∈ l, ∃ x, f a = some x ∧ b ∈ x := by
  intro l
  induction l with
  | nil => intro m hm b hb; simp only [bindAll, Option.some.injEq] at hm; rw [← hm] at hb; simp at hb
  | cons a l ih =>
    intro m hm b hb
    rw [bindAll] at hm
    cases ha : f a with
    | none => rw [ha] at hm; simp at hm
    | some x =>
      cases hl : bindAll l f with
      | none => rw [ha, hl] at hm; simp at hm
      | some y =>
        rw [ha, hl] at hm
        simp only [Option.bind_some, Option.map_some, Option.some.injEq] at hm
        rw [← hm] at hb
        rcases List.mem_append.mp hb with h | h
        · exact ⟨a, by simp, x, ha, h⟩
        · obtain ⟨c, hc, z, hz, hbz⟩ := ih hl b h
          exact ⟨c, by simp [hc], z, hz, hbz⟩

/-- A result is no longer than the input, and shorter if the part is not nullable. -/
def Shrinks (e : Elem) (ts : List Token) (l : List PRes) : Prop :=
  ∀ p ∈ l, p.2.length ≤ ts.length ∧ (nullable e = false → p.2.length < ts.length)

theorem one_shrinks (f : Tok → Bool) (ts : List Token) (p : PRes) (h : p ∈ one f ts) : p.2.length < ts.length := by
  cases ts with
  | nil => simp [one] at h
  | cons x r =>
    simp only [one] at h
    split at h
    · simp only [List.mem_singleton] at h; rw [h]; simp
    · simp at h

theorem runs_shrinks : ∀ n e ts l, runs n e ts = some l → Shrinks e ts l := by
  intro n
  induction n with
  | zero => intro e ts l h; simp [runs] at h
  | succ n ih =>
    intro e ts l h p hp
    cases e with
    | eps =>
      simp only [runs, Option.some.injEq] at h
      rw [← h, List.mem_singleton] at hp
      rw [hp]; exact ⟨Nat.le_refl _, fun h => by simp [nullable] at h⟩
    | tok t =>
      simp only [runs, Option.some.injEq] at h
      rw [← h] at hp
      have := one_shrinks _ _ _ hp
      exact ⟨Nat.le_of_lt this, fun _ => this⟩
    | set f =>
      simp only [runs, Option.some.injEq] at h
      rw [← h] at hp
      have := one_shrinks _ _ _ hp
      exact ⟨Nat.le_of_lt this, fun _ => this⟩
    | eof =>
      simp only [runs, Option.some.injEq] at h
      rw [← h] at hp
      split at hp
      · rw [List.mem_singleton] at hp; rw [hp]; exact ⟨Nat.zero_le _, fun h => by simp [nullable] at h⟩
      · simp at hp
    | seq a b =>
      rw [runs] at h
      obtain ⟨x, hx, h⟩ := Option.bind_eq_some_iff.mp h
      obtain ⟨q, hq, y, hy, hpy⟩ := bindAll_mem h p hp
      obtain ⟨z, hz, rfl⟩ := Option.map_eq_some_iff.mp hy
      obtain ⟨w, hw, rfl⟩ := List.mem_map.mp hpy
      have h1 := ih a ts x hx q hq
      have h2 := ih b q.2 z hz w hw
      refine ⟨Nat.le_trans h2.1 h1.1, fun hn => ?_⟩
      simp only [nullable, Bool.and_eq_false_iff] at hn
      rcases hn with hn | hn
      · exact Nat.lt_of_le_of_lt h2.1 (h1.2 hn)
      · exact Nat.lt_of_lt_of_le (h2.2 hn) h1.1
    | alt a b =>
      rw [runs] at h
      obtain ⟨x, hx, h⟩ := Option.bind_eq_some_iff.mp h
      obtain ⟨y, hy, rfl⟩ := Option.map_eq_some_iff.mp h
      rcases List.mem_append.mp hp with hp | hp
      · have := ih a ts x hx p hp
        exact ⟨this.1, fun hn => this.2 (by simp only [nullable, Bool.or_eq_false_iff] at hn; exact hn.1)⟩
      · have := ih b ts y hy p hp
        exact ⟨this.1, fun hn => this.2 (by simp only [nullable, Bool.or_eq_false_iff] at hn; exact hn.2)⟩
    | star a =>
      refine ⟨?_, fun hn => by simp [nullable] at hn⟩
      rw [runs] at h
      obtain ⟨x, hx, h⟩ := Option.bind_eq_some_iff.mp h
      obtain ⟨y, hy, rfl⟩ := Option.map_eq_some_iff.mp h
      rcases List.mem_append.mp hp with hp | hp
      · obtain ⟨q, hq, u, hu, hpu⟩ := bindAll_mem hy p hp
        obtain ⟨z, hz, rfl⟩ := Option.map_eq_some_iff.mp hu
        obtain ⟨w, hw, rfl⟩ := List.mem_map.mp hpu
        exact Nat.le_trans (ih (.star a) q.2 z hz w hw).1 (ih a ts x hx q hq).1
      · rw [List.mem_singleton] at hp; rw [hp]; exact Nat.le_refl _
    | nstar a =>
      refine ⟨?_, fun hn => by simp [nullable] at hn⟩
      rw [runs] at h
      obtain ⟨x, hx, h⟩ := Option.bind_eq_some_iff.mp h
      obtain ⟨y, hy, rfl⟩ := Option.map_eq_some_iff.mp h
      rcases List.mem_cons.mp hp with hp | hp
      · rw [hp]; exact Nat.le_refl _
      · obtain ⟨q, hq, u, hu, hpu⟩ := bindAll_mem hy p hp
        obtain ⟨z, hz, rfl⟩ := Option.map_eq_some_iff.mp hu
        obtain ⟨w, hw, rfl⟩ := List.mem_map.mp hpu
        exact Nat.le_trans (ih (.nstar a) q.2 z hz w hw).1 (ih a ts x hx q hq).1
    | lab k a =>
      rw [runs] at h
      obtain ⟨x, hx, rfl⟩ := Option.map_eq_some_iff.mp h
      obtain ⟨w, hw, rfl⟩ := List.mem_map.mp hp
      exact ih a ts x hx w hw
    | nt r =>
      rw [runs] at h
      obtain ⟨x, hx, rfl⟩ := Option.map_eq_some_iff.mp h
      obtain ⟨w, hw, rfl⟩ := List.mem_map.mp hp
      have := ih (body r) ts x hx w hw
      refine ⟨this.1, fun hn => this.2 ?_⟩
      simp only [nullable, decide_eq_false_iff_not] at hn
      exact body_nullable r hn
    | expr k =>
      rw [runs] at h
      obtain ⟨x, hx, rfl⟩ := Option.map_eq_some_iff.mp h
      obtain ⟨w, hw, rfl⟩ := List.mem_map.mp hp
      have := ih (exprBody k) ts x hx w hw
      exact ⟨this.1, fun _ => this.2 (exprBody_nullable k)⟩
    | seg a =>
      rw [runs] at h
      obtain ⟨x, hx, rfl⟩ := Option.map_eq_some_iff.mp h
      obtain ⟨w, hw, rfl⟩ := List.mem_map.mp hp
      exact ih a ts x hx w hw

/-! ### Enough fuel -/

/-- Finitely many calls with results have a result together. -/
theorem bindAll_total {f : PRes → Option (List PRes)} :
    ∀ l : List PRes, (∀ p ∈ l, ∃ x, f p = some x) → ∃ x, bindAll l f = some x := by
  intro l
  induction l with
  | nil => intro _; exact ⟨[], rfl⟩
  | cons p l ih =>
    intro h
    obtain ⟨x, hx⟩ := h p (by simp)
    obtain ⟨y, hy⟩ := ih (fun q hq => h q (by simp [hq]))
    exact ⟨x ++ y, by rw [bindAll, hx, hy]; rfl⟩

/-- The calls after a first result. -/
theorem after_total (n : Nat) (b : Elem) (l : List PRes) (h : ∀ p ∈ l, ∃ x, runs n b p.2 = some x) :
    ∃ x, bindAll l (fun p => (runs n b p.2).map (fun m => m.map (fun q => (p.1 ++ q.1, q.2)))) = some x := by
  refine bindAll_total l ?_
  intro p hp
  obtain ⟨x, hx⟩ := h p hp
  exact ⟨_, by rw [hx]; rfl⟩

/-- How deep the parts of a right-hand side nest. -/
def height : Elem → Nat
  | .seq a b | .alt a b => max (height a) (height b) + 1
  | .star a | .nstar a | .lab _ a | .seg a => height a + 1
  | _ => 1

theorem body_height (r : Rule) : height (body r) ≤ 40 := by cases r <;> decide +kernel

theorem suffix_height (p : Nat) : height (suffix p) ≤ 30 := by
  have key : ∀ l : List (Nat × Elem), (∀ s ∈ l, height s.2 ≤ 13) →
      height (l.foldr (fun s e => .seg s.2 ∣ e) (.set (fun _ => false))) ≤ l.length + 15 := by
    intro l hl
    induction l with
    | nil => decide
    | cons s l ih =>
      have h1 := hl s (by simp)
      have h2 := ih (fun x hx => hl x (by simp [hx]))
      simp only [List.foldr_cons, height, List.length_cons]
      omega
  have hall : suffixes.all (fun s => decide (height s.2 ≤ 13)) = true := by decide +kernel
  have h := key (suffixes.filter (fun s => p ≤ s.1)) (by
    intro s hs
    exact of_decide_eq_true (List.all_eq_true.mp hall s (List.mem_filter.mp hs).1))
  have hlen : (suffixes.filter (fun s => p ≤ s.1)).length ≤ 9 :=
    Nat.le_trans (List.length_filter_le _ _) (by decide)
  exact Nat.le_trans h (by omega)

theorem exprBody_height (p : Nat) : height (exprBody p) ≤ 40 := by
  have h1 : height primary ≤ 30 := by decide +kernel
  have h2 := suffix_height p
  simp only [exprBody, height]
  omega

theorem rankOf_le (r : Rule) : rankOf r ≤ 7 := by cases r <;> decide
theorem rank_le (e : Elem) : rank e ≤ 7 := by
  induction e with
  | seq a b iha ihb => simp only [rank]; split <;> omega
  | alt a b iha ihb => simp only [rank]; omega
  | star a ih => exact ih
  | nstar a ih => exact ih
  | lab _ a ih => exact ih
  | seg a ih => exact ih
  | nt r => exact rankOf_le r
  | _ => simp [rank]

/-- With fuel for the tokens, the rank and the height every part has a result. -/
theorem runs_total_aux : ∀ len k e, loopsOk e = true → rank e ≤ k → height e ≤ 40 → ∀ ts : List Token,
    ts.length ≤ len → ∀ n, 400 * len + 40 * k + height e ≤ n → ∃ l, runs n e ts = some l := by
  intro len
  induction len using Nat.strongRecOn with
  | ind len ihlen =>
  have shorter : ∀ e, loopsOk e = true → height e ≤ 40 → ∀ ts : List Token, ts.length < len →
      ∀ n, 400 * len ≤ n + 80 → ∃ l, runs n e ts = some l := by
    intro e he hh ts h n hn
    refine ihlen ts.length h 7 e he (rank_le e) hh ts (Nat.le_refl _) n ?_
    omega
  intro k
  induction k using Nat.strongRecOn with
  | ind k ihk =>
  intro e
  induction e with
  | eps => intro _ _ _ ts _ n hn; obtain ⟨m, rfl⟩ : ∃ m, n = m + 1 := ⟨n - 1, by simp only [height] at hn; omega⟩; exact ⟨_, rfl⟩
  | tok t => intro _ _ _ ts _ n hn; obtain ⟨m, rfl⟩ : ∃ m, n = m + 1 := ⟨n - 1, by simp only [height] at hn; omega⟩; exact ⟨_, rfl⟩
  | set f => intro _ _ _ ts _ n hn; obtain ⟨m, rfl⟩ : ∃ m, n = m + 1 := ⟨n - 1, by simp only [height] at hn; omega⟩; exact ⟨_, rfl⟩
  | eof => intro _ _ _ ts _ n hn; obtain ⟨m, rfl⟩ : ∃ m, n = m + 1 := ⟨n - 1, by simp only [height] at hn; omega⟩; exact ⟨_, rfl⟩
  | seq a b iha ihb =>
    intro hl hr hh ts hts n hn
    obtain ⟨m, rfl⟩ : ∃ m, n = m + 1 := ⟨n - 1, by simp only [height] at hn; omega⟩
    simp only [loopsOk, Bool.and_eq_true] at hl
    simp only [height] at hh hn
    have hra : rank a ≤ k := by
      simp only [rank] at hr; split at hr
      · exact Nat.le_trans (Nat.le_max_left _ _) hr
      · exact hr
    obtain ⟨l, hl1⟩ := iha hl.1 hra (by omega) ts hts m (by omega)
    have hs := runs_shrinks m a ts l hl1
    obtain ⟨x, hx⟩ := after_total m b l (by
      intro p hp
      cases hna : nullable a with
      | false => exact shorter b hl.2 (by omega) p.2 (Nat.lt_of_lt_of_le ((hs p hp).2 hna) hts) m (by omega)
      | true =>
        refine ihb hl.2 ?_ (by omega) p.2 (Nat.le_trans (hs p hp).1 hts) m (by omega)
        simp only [rank, hna, if_true] at hr
        exact Nat.le_trans (Nat.le_max_right _ _) hr)
    exact ⟨x, by rw [runs, hl1]; exact hx⟩
  | alt a b iha ihb =>
    intro hl hr hh ts hts n hn
    obtain ⟨m, rfl⟩ : ∃ m, n = m + 1 := ⟨n - 1, by simp only [height] at hn; omega⟩
    simp only [loopsOk, Bool.and_eq_true] at hl
    simp only [rank] at hr
    simp only [height] at hh hn
    obtain ⟨l, hl1⟩ := iha hl.1 (by omega) (by omega) ts hts m (by omega)
    obtain ⟨x, hx⟩ := ihb hl.2 (by omega) (by omega) ts hts m (by omega)
    exact ⟨l ++ x, by rw [runs, hl1, hx]; rfl⟩
  | star a iha =>
    intro hl hr hh ts hts n hn
    obtain ⟨m, rfl⟩ : ∃ m, n = m + 1 := ⟨n - 1, by simp only [height] at hn; omega⟩
    have hl' := hl
    have hh' := hh
    simp only [loopsOk, Bool.and_eq_true, Bool.not_eq_true'] at hl
    simp only [height] at hh hn
    obtain ⟨l, hl1⟩ := iha hl.2 hr (by omega) ts hts m (by omega)
    have hs := runs_shrinks m a ts l hl1
    obtain ⟨x, hx⟩ := after_total m (.star a) l
      (fun p hp => shorter (.star a) hl' hh' p.2 (Nat.lt_of_lt_of_le ((hs p hp).2 hl.1) hts) m (by omega))
    refine ⟨x ++ [([], ts)], ?_⟩
    rw [runs, hl1]
    simp only [Option.bind_some]
    rw [hx]; rfl
  | nstar a iha =>
    intro hl hr hh ts hts n hn
    obtain ⟨m, rfl⟩ : ∃ m, n = m + 1 := ⟨n - 1, by simp only [height] at hn; omega⟩
    have hl' := hl
    have hh' := hh
    simp only [loopsOk, Bool.and_eq_true, Bool.not_eq_true'] at hl
    simp only [height] at hh hn
    obtain ⟨l, hl1⟩ := iha hl.2 hr (by omega) ts hts m (by omega)
    have hs := runs_shrinks m a ts l hl1
    obtain ⟨x, hx⟩ := after_total m (.nstar a) l
      (fun p hp => shorter (.nstar a) hl' hh' p.2 (Nat.lt_of_lt_of_le ((hs p hp).2 hl.1) hts) m (by omega))
    refine ⟨([], ts) :: x, ?_⟩
    rw [runs, hl1]
    simp only [Option.bind_some]
    rw [hx]; rfl
  | lab q a iha =>
    intro hl hr hh ts hts n hn
    obtain ⟨m, rfl⟩ : ∃ m, n = m + 1 := ⟨n - 1, by simp only [height] at hn; omega⟩
    simp only [height] at hh hn
    obtain ⟨l, h⟩ := iha hl hr (by omega) ts hts m (by omega)
    exact ⟨_, by rw [runs, h]; rfl⟩
  | nt r =>
    intro _ hr hh ts hts n hn
    obtain ⟨m, rfl⟩ : ∃ m, n = m + 1 := ⟨n - 1, by simp only [height] at hn; omega⟩
    simp only [height] at hh hn
    simp only [rank] at hr
    have h1 := body_rank r
    have h2 := body_height r
    obtain ⟨l, h⟩ := ihk (rank (body r)) (by omega) (body r) (body_loops r) (Nat.le_refl _) h2 ts hts m (by omega)
    exact ⟨_, by rw [runs, h]; rfl⟩
  | expr p =>
    intro _ hr hh ts hts n hn
    obtain ⟨m, rfl⟩ : ∃ m, n = m + 1 := ⟨n - 1, by simp only [height] at hn; omega⟩
    simp only [height] at hh hn
    simp only [rank] at hr
    have h1 := exprBody_rank p
    have h2 := exprBody_height p
    obtain ⟨l, h⟩ := ihk (rank (exprBody p)) (by omega) (exprBody p) (exprBody_loops p) (Nat.le_refl _) h2 ts hts m
      (by omega)
    exact ⟨_, by rw [runs, h]; rfl⟩
  | seg a iha =>
    intro hl hr hh ts hts n hn
    obtain ⟨m, rfl⟩ : ∃ m, n = m + 1 := ⟨n - 1, by simp only [height] at hn; omega⟩
    simp only [height] at hh hn
    obtain ⟨l, h⟩ := iha hl hr (by omega) ts hts m (by omega)
    exact ⟨_, by rw [runs, h]; rfl⟩

/-- The parts of right-hand sides. -/
def Proper (e : Elem) : Prop := loopsOk e = true ∧ height e ≤ 40

/-- `fuelFor` is enough. -/
theorem runs_total (e : Elem) (he : Proper e) (ts : List Token) : ∃ l, runs (fuelFor ts) e ts = some l := by
  refine runs_total_aux ts.length 7 e he.1 (rank_le e) he.2 ts (Nat.le_refl _) _ ?_
  have := he.2
  simp only [fuelFor]
  omega

theorem parses_of_runs {e : Elem} (he : Proper e) {ts : List Token} {n : Nat} {l : List PRes}
    (h : runs n e ts = some l) : parses e ts = l := by
  obtain ⟨k, hk⟩ := runs_total e he ts
  rw [parses, hk]
  exact runs_unique hk h

theorem runs_parses (e : Elem) (he : Proper e) (ts : List Token) : runs (fuelFor ts) e ts = some (parses e ts) := by
  obtain ⟨k, hk⟩ := runs_total e he ts
  rw [parses, hk]; rfl

/-! ### The equations of the parser without fuel -/

/-- One part after another. -/
def after (l : List PRes) (f : List Token → List PRes) : List PRes :=
  l.flatMap (fun p => (f p.2).map (fun q => (p.1 ++ q.1, q.2)))

theorem bindAll_flat {f : PRes → Option (List PRes)} {g : PRes → List PRes} :
    ∀ {l : List PRes}, (∀ p ∈ l, f p = some (g p)) → bindAll l f = some (l.flatMap g) := by
  intro l
  induction l with
  | nil => intro _; rfl
  | cons p l ih =>
    intro h
    rw [bindAll, h p (by simp), ih (fun q hq => h q (by simp [hq]))]
    rfl

theorem proper_seq {a b : Elem} (h : Proper (a ⬝ b)) : Proper a ∧ Proper b := by
  obtain ⟨h1, h2⟩ := h
  simp only [loopsOk, Bool.and_eq_true] at h1
  simp only [height] at h2
  exact ⟨⟨h1.1, by omega⟩, ⟨h1.2, by omega⟩⟩
theorem proper_alt {a b : Elem} (h : Proper (a ∣ b)) : Proper a ∧ Proper b := by
  obtain ⟨h1, h2⟩ := h
  simp only [loopsOk, Bool.and_eq_true] at h1
  simp only [height] at h2
  exact ⟨⟨h1.1, by omega⟩, ⟨h1.2, by omega⟩⟩
theorem proper_star {a : Elem} (h : Proper (.star a)) : Proper a := by
  obtain ⟨h1, h2⟩ := h
  simp only [loopsOk, Bool.and_eq_true] at h1
  simp only [height] at h2
  exact ⟨h1.2, by omega⟩
theorem proper_nstar {a : Elem} (h : Proper (.nstar a)) : Proper a := by
  obtain ⟨h1, h2⟩ := h
  simp only [loopsOk, Bool.and_eq_true] at h1
  simp only [height] at h2
  exact ⟨h1.2, by omega⟩
theorem proper_lab {k : Lab} {a : Elem} (h : Proper (.lab k a)) : Proper a := by
  obtain ⟨h1, h2⟩ := h
  simp only [height] at h2
  exact ⟨h1, by omega⟩
theorem proper_seg {a : Elem} (h : Proper (.seg a)) : Proper a := by
  obtain ⟨h1, h2⟩ := h
  simp only [height] at h2
  exact ⟨h1, by omega⟩
theorem proper_body (r : Rule) : Proper (body r) := ⟨body_loops r, body_height r⟩
theorem proper_exprBody (p : Nat) : Proper (exprBody p) := ⟨exprBody_loops p, exprBody_height p⟩

theorem parses_eps (ts : List Token) : parses .eps ts = [([], ts)] :=
  parses_of_runs (n := 1) ⟨rfl, by simp [height]⟩ rfl
theorem parses_tok (t : Tok) (ts : List Token) : parses (.tok t) ts = one (fun k => decide (k = t)) ts :=
  parses_of_runs (n := 1) ⟨rfl, by simp [height]⟩ rfl
theorem parses_set (f : Tok → Bool) (ts : List Token) : parses (.set f) ts = one f ts :=
  parses_of_runs (n := 1) ⟨rfl, by simp [height]⟩ rfl
theorem parses_eof (ts : List Token) : parses .eof ts = if ts.isEmpty then [([], [])] else [] :=
  parses_of_runs (n := 1) ⟨rfl, by simp [height]⟩ rfl

theorem parses_alt {a b : Elem} (h : Proper (a ∣ b)) (ts : List Token) :
    parses (a ∣ b) ts = parses a ts ++ parses b ts := by
  refine parses_of_runs (n := fuelFor ts + 1) h ?_
  rw [runs, runs_parses a (proper_alt h).1, runs_parses b (proper_alt h).2]; rfl

theorem parses_lab {k : Lab} {a : Elem} (h : Proper (.lab k a)) (ts : List Token) :
    parses (.lab k a) ts = (parses a ts).map (fun p => ([.lab k p.1], p.2)) := by
  refine parses_of_runs (n := fuelFor ts + 1) h ?_
  rw [runs, runs_parses a (proper_lab h)]; rfl

theorem parses_seg {a : Elem} (h : Proper (.seg a)) (ts : List Token) :
    parses (.seg a) ts = (parses a ts).map (fun p => ([.seg p.1], p.2)) := by
  refine parses_of_runs (n := fuelFor ts + 1) h ?_
  rw [runs, runs_parses a (proper_seg h)]; rfl

theorem parses_nt (r : Rule) (ts : List Token) :
    parses (.nt r) ts = (parses (body r) ts).map (fun p => ([.node r p.1], p.2)) := by
  refine parses_of_runs (n := fuelFor ts + 1) ⟨rfl, by simp [height]⟩ ?_
  rw [runs, runs_parses (body r) (proper_body r)]; rfl

theorem parses_expr (k : Nat) (ts : List Token) :
    parses (.expr k) ts = (parses (exprBody k) ts).map (fun p => (foldExpr p.1, p.2)) := by
  refine parses_of_runs (n := fuelFor ts + 1) ⟨rfl, by simp [height]⟩ ?_
  rw [runs, runs_parses (exprBody k) (proper_exprBody k)]; rfl

theorem fuelFor_mono {us ts : List Token} (h : us.length ≤ ts.length) : fuelFor us ≤ fuelFor ts := by
  simp only [fuelFor]; omega

theorem runs_parses_of_le (e : Elem) (he : Proper e) {us ts : List Token} (h : us.length ≤ ts.length) :
    runs (fuelFor ts) e us = some (parses e us) :=
  runs_mono (fuelFor_mono h) (runs_parses e he us)

theorem parses_shrinks (e : Elem) (he : Proper e) (ts : List Token) : Shrinks e ts (parses e ts) :=
  runs_shrinks _ e ts _ (runs_parses e he ts)

theorem parses_seq {a b : Elem} (h : Proper (a ⬝ b)) (ts : List Token) :
    parses (a ⬝ b) ts = after (parses a ts) (parses b) := by
  refine parses_of_runs (n := fuelFor ts + 1) h ?_
  obtain ⟨ha, hb⟩ := proper_seq h
  rw [runs, runs_parses a ha]
  refine bindAll_flat ?_
  intro p hp
  rw [runs_parses_of_le b hb (parses_shrinks a ha ts p hp).1]; rfl

theorem parses_star {a : Elem} (h : Proper (.star a)) (ts : List Token) :
    parses (.star a) ts = after (parses a ts) (parses (.star a)) ++ [([], ts)] := by
  refine parses_of_runs (n := fuelFor ts + 1) h ?_
  have ha := proper_star h
  rw [runs, runs_parses a ha]
  simp only [Option.bind_some]
  rw [bindAll_flat (g := fun p => (parses (.star a) p.2).map (fun q => (p.1 ++ q.1, q.2)))]
  · rfl
  · intro p hp
    rw [runs_parses_of_le (.star a) h (parses_shrinks a ha ts p hp).1]; rfl

theorem parses_nstar {a : Elem} (h : Proper (.nstar a)) (ts : List Token) :
    parses (.nstar a) ts = ([], ts) :: after (parses a ts) (parses (.nstar a)) := by
  refine parses_of_runs (n := fuelFor ts + 1) h ?_
  have ha := proper_nstar h
  rw [runs, runs_parses a ha]
  simp only [Option.bind_some]
  rw [bindAll_flat (g := fun p => (parses (.nstar a) p.2).map (fun q => (p.1 ++ q.1, q.2)))]
  · rfl
  · intro p hp
    rw [runs_parses_of_le (.nstar a) h (parses_shrinks a ha ts p hp).1]; rfl

end Verif.Gram
