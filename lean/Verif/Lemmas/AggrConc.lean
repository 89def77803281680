import Verif.Spec.AggrConc
/-! Calls of `AggregateRow` one at a time are calls in turn. -/
namespace Verif.Lemmas.AggrConc
open Verif Verif.Fn Verif.AggrConc Verif.Spec.AggrConc
open Verif.Net (upd)
variable {V F : Type}

/-- The program without interruption. -/
def run : Aggr V F → Prog F → Aggr V F × Res Unit
  | a, .ret r => (a, r)
  | a, .readAcc n k => run a (k a.aggrs[n]?)
  | a, .writeAcc n f k => run { a with aggrs := a.aggrs.set n f } k
  | a, .readCount k => run a (k a.counts)
  | a, .writeCount c k => run { a with counts := c } k

theorem run_does {a b : Aggr V F} {p q : Prog F} (h : Does a p b q) : run a p = run b q := by
  cases h <;> rfl

/-- No access changes what is fixed. -/
theorem does_fixed {a b : Aggr V F} {p q : Prog F} (h : Does a p b q) :
    b.columns = a.columns ∧ b.groupBys = a.groupBys ∧ b.kind = a.kind := by
  cases h <;> exact ⟨rfl, rfl, rfl⟩

theorem run_rowProg (E : Env V F) (a : Aggr V F) (vs : List (Option V)) (pre accs : List F) (h : a.aggrs = pre ++ accs) :
    run a (rowProg E a.kind pre.length vs) = (let r := accumulate E a.kind accs vs
      match r.2 with
      | .ok _ => ({ a with aggrs := pre ++ r.1, counts := a.counts + 1 }, .ok ())
      | e => ({ a with aggrs := pre ++ r.1 }, e)) := by
  induction vs generalizing a pre accs with
  | nil => cases accs <;> simp [rowProg, run, accumulate, ← h]
  | cons v vs ih =>
    rw [rowProg]
    cases hv : toFloat64 E v with
    | none => cases accs <;> simp [run, accumulate, hv, ← h]
    | some f =>
      cases accs with
      | nil =>
        have : a.aggrs[pre.length]? = none := by rw [h]; simp
        simp [run, accumulate, hv, this, ← h]
      | cons acc accs =>
        have hg : a.aggrs[pre.length]? = some acc := by rw [h]; simp
        have := ih { a with aggrs := a.aggrs.set pre.length (a.kind.step E acc f) } (pre ++ [a.kind.step E acc f]) accs (by simp [h])
        simp only [List.length_append, List.length_cons, List.length_nil] at this
        simp only [run, hg, accumulate, hv]
        rw [this]
        simp only [List.append_assoc, List.cons_append, List.nil_append]

/-- A call that is not interrupted is `AggregateRow`. -/
theorem run_code (E : Env V F) (a : Aggr V F) (hg : a.groupBys = []) (row : List (Option V)) : run a (code E a row) = a.aggregateRow E row := by
  rw [code, Aggr.aggregateRow]
  split
  · rfl
  · rw [show rowProg E a.kind 0 row = rowProg E a.kind ([] : List F).length row from rfl, run_rowProg E a row [] a.aggrs rfl]
    rw [if_neg (by simp [hg])]
    simp only [List.nil_append]
    cases (accumulate E a.kind a.aggrs row).2 <;> rfl

theorem inTurn_snoc (E : Env V F) (a : Aggr V F) (rs : List (List (Option V))) (r : List (Option V)) :
    inTurn E a (rs ++ [r]) = (let x := inTurn E a rs; let y := x.1.aggregateRow E r; (y.1, x.2 ++ [y.2])) := by
  induction rs generalizing a with
  | nil => rfl
  | cons x xs ih => simp only [List.cons_append, inTurn, ih]

theorem rows_append (a b : List (Event V)) : rows (a ++ b) = rows a ++ rows b := List.filterMap_append ..
theorem results_append (a b : List (Event V)) : results (a ++ b) = results a ++ results b := List.filterMap_append ..

theorem upd_same {α : Type} (f : Nat → α) (t : Nat) (x : α) : upd f t x t = x := by simp [upd]
theorem upd_other {α : Type} (f : Nat → α) {t u : Nat} (x : α) (h : u ≠ t) : upd f t x u = f u := by simp [upd, h]

/-- Between calls, or in one call. -/
def Inv (E : Env V F) (a0 : Aggr V F) (h : List (Event V)) (s : Conf V F) : Prop :=
  s.aggr.groupBys = [] ∧ (((∀ t, s.pc t = none) ∧ (rows h).length = (results h).length ∧ inTurn E a0 (rows h) = (s.aggr, results h)) ∨
  ∃ t row p rs a, s.pc t = some (row, p) ∧ (∀ u, u ≠ t → s.pc u = none) ∧ rows h = rs ++ [row] ∧ rs.length = (results h).length ∧
    inTurn E a0 rs = (a, results h) ∧ run s.aggr p = a.aggregateRow E row)

theorem inv_run {E : Env V F} {a0 : Aggr V F} (hg : a0.groupBys = []) {h : List (Event V)} {s : Conf V F}
    (hr : Conf.Run E (Conf.of a0) h s) (h1 : OneAtATime h) : Inv E a0 h s := by
  generalize hs0 : Conf.of a0 = s0 at hr
  induction hr with
  | refl => subst hs0; exact ⟨hg, Or.inl ⟨fun _ => rfl, rfl, rfl⟩⟩
  | @step h s1 e s2 r st ih =>
    have h1' : OneAtATime h := fun pre post he => h1 pre (post ++ e.toList) (by rw [he, List.append_assoc])
    obtain ⟨hgs, hi⟩ := ih h1'
    cases st with
    | call t row hn =>
      simp only [Option.toList]
      rcases hi with ⟨hall, hlen, ht⟩ | ⟨t', row', p, rs, a, ht', -, hrows, hlen, -, -⟩
      · refine ⟨hgs, Or.inr ⟨t, row, _, rows h, s1.aggr, upd_same .., fun u hu => ?_, by simp [rows_append]; rfl, ?_, ?_, run_code E _ hgs row⟩⟩
        · exact (upd_other _ _ hu).trans (hall u)
        · rw [results_append]; simp [results] at hlen ⊢; exact hlen
        · rw [results_append, ht]; simp [results]
      · exfalso
        have := h1 (h ++ [Event.call t row]) [] (by simp)
        simp [rows_append, results_append, hrows] at this
        simp [rows, results] at this hlen
        omega
    | does t row p a q hp hd =>
      simp only [Option.toList, List.append_nil]
      have hfix := does_fixed hd
      refine ⟨hfix.2.1.trans hgs, ?_⟩
      rcases hi with ⟨hall, -, -⟩ | ⟨t', row', p', rs, a', ht', ho, hrows, hlen, hin, hrun⟩
      · rw [hall t] at hp; cases hp
      · by_cases he : t = t'
        · subst he
          rw [ht'] at hp; cases hp
          exact Or.inr ⟨t, row, q, rs, a', upd_same .., fun u hu => (upd_other _ _ hu).trans (ho u hu), hrows, hlen, hin, by
            rw [← run_does hd]; exact hrun⟩
        · rw [ho t he] at hp; cases hp
    | ret t row r hp =>
      simp only [Option.toList]
      refine ⟨hgs, Or.inl ?_⟩
      rcases hi with ⟨hall, -, -⟩ | ⟨t', row', p', rs, a', ht', ho, hrows, hlen, hin, hrun⟩
      · rw [hall t] at hp; cases hp
      · by_cases he : t = t'
        · subst he
          rw [ht'] at hp; cases hp
          have e1 : rows (h ++ [Event.ret t row r]) = rs ++ [row] := by rw [rows_append, hrows]; simp [rows]
          have e2 : results (h ++ [Event.ret t row r]) = results h ++ [r] := by rw [results_append]; rfl
          refine ⟨fun u => ?_, by rw [e1, e2]; simp [hlen], ?_⟩
          · by_cases hu : u = t
            · subst hu; exact upd_same ..
            · exact (upd_other _ _ hu).trans (ho u hu)
          · rw [e1, e2, inTurn_snoc, hin]
            simp only [← hrun, run]
        · rw [ho t he] at hp; cases hp

/-! ### The count is never too high -/

/-- The program does not write the count. -/
def NoCount : Prog F → Prop
  | .ret _ => True
  | .readAcc _ k => ∀ x, NoCount (k x)
  | .writeAcc _ _ k => NoCount k
  | .readCount k => ∀ c, NoCount (k c)
  | .writeCount _ _ => False

/-- The program writes the count at most once, and then at most `m` or what it reads first plus one. -/
def Bound : Nat → Prog F → Prop
  | _, .ret _ => True
  | m, .readAcc _ k => ∀ x, Bound m (k x)
  | m, .writeAcc _ _ k => Bound m k
  | _, .readCount k => ∀ c m', c + 1 ≤ m' → Bound m' (k c)
  | m, .writeCount c k => c ≤ m ∧ NoCount k

theorem Bound.mono {m m' : Nat} (h : m ≤ m') {p : Prog F} (hp : Bound m p) : Bound m' p := by
  induction p with
  | ret => trivial
  | readAcc n k ih => exact fun x => ih x (hp x)
  | writeAcc n f k ih => exact ih hp
  | readCount k => exact hp
  | writeCount c k => exact ⟨Nat.le_trans hp.1 h, hp.2⟩

theorem bound_rowProg (E : Env V F) (k : AggrId) (vs : List (Option V)) (n m : Nat) : Bound m (rowProg E k n vs) := by
  induction vs generalizing n with
  | nil => exact fun c m' h => ⟨h, trivial⟩
  | cons v vs ih =>
    rw [rowProg]
    split
    · trivial
    · intro x
      cases x with
      | none => trivial
      | some acc => exact ih (n + 1)

theorem bound_code (E : Env V F) (a : Aggr V F) (row : List (Option V)) (m : Nat) : Bound m (code E a row) := by
  rw [code]
  split
  · trivial
  · exact bound_rowProg ..

/-- The goroutines in `L` have not written the count in their present call. -/
def CountInv (c0 k : Nat) (s : Conf V F) : Prop :=
  ∃ L : List Nat, L.Nodup ∧ s.aggr.counts + L.length ≤ c0 + k ∧ (∀ t, t ∈ L → s.pc t ≠ none) ∧
    ∀ t row p, s.pc t = some (row, p) → (t ∈ L ∧ ∃ m, m + L.length = c0 + k + 1 ∧ Bound m p) ∨ (t ∉ L ∧ NoCount p)

theorem count_run {E : Env V F} {a0 : Aggr V F} {h : List (Event V)} {s : Conf V F} (hr : Conf.Run E (Conf.of a0) h s) :
    CountInv a0.counts (rows h).length s := by
  generalize hs0 : Conf.of a0 = s0 at hr
  induction hr with
  | refl => subst hs0; exact ⟨[], .nil, by simp [Conf.of], by simp, fun t row p hp => by cases hp⟩
  | @step h s1 e s2 r st ih =>
    obtain ⟨L, hn, hc, hL, hp⟩ := ih
    cases st with
    | call t row ht =>
      have hk : (rows (h ++ (some (Event.call t row)).toList)).length = (rows h).length + 1 := by
        rw [rows_append]; simp [rows]
      rw [hk]
      have htL : t ∉ L := fun hm => hL t hm ht
      refine ⟨t :: L, List.nodup_cons.mpr ⟨htL, hn⟩, by simp only [List.length_cons]; omega, ?_, ?_⟩
      · intro u hu
        by_cases he : u = t
        · subst he; simp [upd_same]
        · simp only [upd_other _ _ he]
          exact hL u ((List.mem_cons.mp hu).resolve_left he)
      · intro u row' p hu
        by_cases he : u = t
        · subst he
          simp only [upd_same] at hu
          cases hu
          exact Or.inl ⟨by simp, a0.counts + (rows h).length + 1 - L.length, by simp only [List.length_cons]; omega, bound_code ..⟩
        · simp only [upd_other _ _ he] at hu
          rcases hp u row' p hu with ⟨h1, m, h2, h3⟩ | ⟨h1, h2⟩
          · exact Or.inl ⟨by simp [h1], m, by simp only [List.length_cons]; omega, h3⟩
          · exact Or.inr ⟨by simp [h1, he], h2⟩
    | does t row p a q ht hd =>
      simp only [Option.toList, List.append_nil]
      -- a step that writes no count
      have quiet : a.counts = s1.aggr.counts → (∀ m, m + L.length = a0.counts + (rows h).length + 1 → Bound m p → Bound m q) → (NoCount p → NoCount q) →
          CountInv a0.counts (rows h).length ⟨a, upd s1.pc t (some (row, q))⟩ := by
        intro h0 h1 h2
        refine ⟨L, hn, by simp only [h0]; exact hc, ?_, ?_⟩
        · intro u hu
          by_cases he : u = t
          · subst he; simp [upd_same]
          · simp only [upd_other _ _ he]; exact hL u hu
        · intro u row' p' hu
          by_cases he : u = t
          · subst he
            simp only [upd_same] at hu
            cases hu
            rcases hp u row p ht with ⟨h3, m, h4, h5⟩ | ⟨h3, h4⟩
            · exact Or.inl ⟨h3, m, h4, h1 m h4 h5⟩
            · exact Or.inr ⟨h3, h2 h4⟩
          · simp only [upd_other _ _ he] at hu
            exact hp u row' p' hu
      cases hd with
      | readAcc n k => exact quiet rfl (fun m _ hb => hb _) (fun hb => hb _)
      | writeAcc n f k => exact quiet rfl (fun m _ hb => hb) (fun hb => hb)
      | readCount k => exact quiet rfl (fun m hm hb => hb _ m (by omega)) (fun hb => hb _)
      | writeCount c k =>
        rcases hp t row _ ht with ⟨h3, m, h4, h5, h6⟩ | ⟨h3, h4⟩
        · have hlen := List.length_erase_of_mem h3
          have hpos := List.length_pos_of_mem h3
          refine ⟨L.erase t, hn.erase t, by simp only; omega, ?_, ?_⟩
          · intro u hu
            by_cases he : u = t
            · subst he; simp [upd_same]
            · simp only [upd_other _ _ he]; exact hL u (List.mem_of_mem_erase hu)
          · intro u row' p' hu
            by_cases he : u = t
            · subst he
              simp only [upd_same] at hu
              cases hu
              exact Or.inr ⟨fun hm => ((hn.mem_erase_iff).mp hm).1 rfl, h6⟩
            · simp only [upd_other _ _ he] at hu
              rcases hp u row' p' hu with ⟨h7, m', h8, h9⟩ | ⟨h7, h8⟩
              · exact Or.inl ⟨(List.mem_erase_of_ne he).mpr h7, m' + 1, by omega, Bound.mono (Nat.le_succ _) h9⟩
              · exact Or.inr ⟨fun hm => h7 (List.mem_of_mem_erase hm), h8⟩
        · exact h4.elim
    | ret t row r ht =>
      have hk : (rows (h ++ (some (Event.ret t row r)).toList)).length = (rows h).length := by
        rw [rows_append]; simp [rows]
      rw [hk]
      have hle : (L.erase t).length ≤ L.length := List.length_erase_le ..
      refine ⟨L.erase t, hn.erase t, by simp only; omega, ?_, ?_⟩
      · intro u hu
        have he : u ≠ t := ((hn.mem_erase_iff).mp hu).1
        simp only [upd_other _ _ he]; exact hL u (List.mem_of_mem_erase hu)
      · intro u row' p' hu
        by_cases he : u = t
        · subst he
          simp only [upd_same] at hu
          cases hu
        · simp only [upd_other _ _ he] at hu
          rcases hp u row' p' hu with ⟨h7, m', h8, h9⟩ | ⟨h7, h8⟩
          · exact Or.inl ⟨(List.mem_erase_of_ne he).mpr h7, m' + (L.length - (L.erase t).length), by omega, Bound.mono (Nat.le_add_right ..) h9⟩
          · exact Or.inr ⟨fun hm => h7 (List.mem_of_mem_erase hm), h8⟩

end Verif.Lemmas.AggrConc
