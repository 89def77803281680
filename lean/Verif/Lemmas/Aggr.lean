import Verif.Lemmas.GoMap
import Verif.Lemmas.Str
import Verif.Spec.Aggr
/-! Lemmas about the aggregators. -/
namespace Verif.Lemmas
open Verif Verif.Fn Verif.Spec
variable {V F : Type}

theorem nums_length {E : Env V F} {row : List (Option V)} {ns : List F} (h : Nums E row ns) : row.length = ns.length := by
  induction h with
  | nil => rfl
  | cons _ _ ih => simp [ih]

theorem asNum_iff (E : Env V F) (v : Option V) (f : F) : AsNum E v f ↔ toFloat64 E v = some f := by
  cases v with
  | none =>
    simp only [toFloat64, Option.some.injEq]
    constructor
    · rintro ⟨⟩; rfl
    · rintro rfl; exact .nil
  | some v =>
    simp only [toFloat64]
    constructor
    · intro h; cases h with | val h => exact h
    · exact .val

theorem nums_unique {E : Env V F} {row : List (Option V)} {ns ms : List F} (h : Nums E row ns) (h' : Nums E row ms) : ns = ms := by
  induction h generalizing ms with
  | nil => cases h'; rfl
  | cons hv _ ih =>
    cases h' with
    | cons hv' h' =>
      rw [ih h']
      rw [asNum_iff] at hv hv'
      rw [hv] at hv'; simp at hv'; rw [hv']

theorem accumulate_of_nums {E : Env V F} (k : AggrId) {row : List (Option V)} {ns : List F} (h : Nums E row ns)
    (accs : List F) (hl : accs.length = row.length) :
    accumulate E k accs row = (List.zipWith (k.step E) accs ns, .ok ()) := by
  induction h generalizing accs with
  | nil =>
    have : accs = [] := by simpa using hl
    subst this; rfl
  | @cons v n l m hv hr ih =>
    cases accs with
    | nil => simp at hl
    | cons a accs =>
      simp only [List.length_cons, Nat.add_right_cancel_iff] at hl
      rw [asNum_iff] at hv
      simp [accumulate, hv, ih accs hl]

theorem nums_of_accumulate {E : Env V F} (k : AggrId) (row : List (Option V)) (accs : List F)
    (h : (accumulate E k accs row).2 = .ok ()) : ∃ ns, Nums E row ns := by
  induction row generalizing accs with
  | nil => exact ⟨[], .nil⟩
  | cons v row ih =>
    cases accs with
    | nil => simp only [accumulate] at h; split at h <;> cases h
    | cons a accs =>
      simp only [accumulate] at h
      split at h
      · cases h
      · next f hf =>
        obtain ⟨ns, hns⟩ := ih accs h
        exact ⟨f :: ns, .cons ((asNum_iff _ _ _).mpr hf) hns⟩

theorem accumulate_length (E : Env V F) (k : AggrId) (row : List (Option V)) (accs : List F) :
    (accumulate E k accs row).1.length = accs.length := by
  induction row generalizing accs with
  | nil => simp [accumulate]
  | cons v row ih =>
    cases accs with
    | nil => simp only [accumulate]; split <;> rfl
    | cons a accs => simp only [accumulate]; split <;> simp [ih]

/-- Columnwise folding. -/
theorem foldl_zipWith_getElem? (f : F → F → F) (m : List (List F)) (accs : List F)
    (hw : ∀ r ∈ m, r.length = accs.length) (j : Nat) (x : F) (hx : accs[j]? = some x) :
    (m.foldl (List.zipWith f) accs)[j]? = some ((column j m).foldl f x) := by
  induction m generalizing accs x with
  | nil => simpa [column] using hx
  | cons r m ih =>
    have hr := hw r (by simp)
    have hj : j < accs.length := (List.getElem?_eq_some_iff.mp hx).1
    obtain ⟨y, hy⟩ : ∃ y, r[j]? = some y := ⟨r[j]'(by omega), by simp [hr, hj]⟩
    have hz : (List.zipWith f accs r)[j]? = some (f x y) := by
      rw [List.getElem?_zipWith]; simp [hx, hy]
    have := ih (List.zipWith f accs r) (by
      intro s hs
      have := hw s (by simp [hs])
      simp [hr, this]) (f x y) hz
    simp only [List.foldl_cons, this, column, List.filterMap_cons, hy]

theorem foldl_zipWith_length (f : F → F → F) (m : List (List F)) (accs : List F)
    (hw : ∀ r ∈ m, r.length = accs.length) : (m.foldl (List.zipWith f) accs).length = accs.length := by
  induction m generalizing accs with
  | nil => rfl
  | cons r m ih =>
    have hr := hw r (by simp)
    rw [List.foldl_cons, ih]
    · simp [hr]
    · intro s hs
      have := hw s (by simp [hs])
      simp [hr, this]

theorem column_length (m : List (List F)) (w j : Nat) (hj : j < w) (hw : ∀ r ∈ m, r.length = w) :
    (column j m).length = m.length := by
  induction m with
  | nil => rfl
  | cons r m ih =>
    have hr := hw r (by simp)
    have : r[j]? = some (r[j]'(by omega)) := by simp [hr, hj]
    simp only [column, List.filterMap_cons, this, List.length_cons] at *
    rw [ih (fun s hs => hw s (by simp [hs]))]

/-- The fold the code computes is the specified aggregate. -/
theorem final_fold (E : Env V F) (k : AggrId) (vals : List F) :
    k.final E (vals.foldl (k.step E) (k.init E)) vals.length = aggValue E k vals := by
  cases k with
  | sum => simp [AggrId.final, aggValue, sumOf, AggrId.init]; rfl
  | avg => cases vals <;> simp [AggrId.final, aggValue, sumOf, AggrId.init] <;> rfl
  | min => cases vals <;> simp [AggrId.final, aggValue, AggrId.init] <;> rfl
  | max => cases vals <;> simp [AggrId.final, aggValue, AggrId.init] <;> rfl
  | count => simp [AggrId.final, aggValue]

/-- The invariant of reachable aggregators. -/
structure Good (a : Aggr V F) : Prop where
  cols : a.columns.length = a.groupBys.length + a.args.length
  aggrs : a.aggrs.length = a.columns.length
  accs : ∀ k xs, a.groupAggrs.get? k = some xs → xs.length = a.args.length
  keys : a.groupAggrs.keys.Nodup

/-- What a successful `Reset` establishes. -/
structure Fresh (E : Env V F) (a : Aggr V F) : Prop where
  cols : a.columns = a.groupBys ++ a.args.map (callText a.name)
  ne : a.columns ≠ []
  aggrs : a.aggrs = List.replicate a.columns.length (a.kind.init E)
  counts : a.counts = 0
  noAggrs : a.groupAggrs = []
  noCounts : a.groupCounts = []

theorem Fresh.good {E : Env V F} {a : Aggr V F} (h : Fresh E a) : Good a where
  cols := by rw [h.cols]; simp
  aggrs := by rw [h.aggrs]; simp
  accs := by rw [h.noAggrs]; simp
  keys := by rw [h.noAggrs]; simp [GoMap.keys]

theorem fresh_of_resetCore {E : Env V F} {a b : Aggr V F} (h : a.resetCore E = (b, true)) : Fresh E b := by
  unfold Aggr.resetCore at h
  simp only at h
  split at h
  · simp at h
  · next hne =>
    simp only [Prod.mk.injEq, and_true] at h
    subst h
    exact ⟨rfl, by intro h0; exact hne (congrArg List.length h0), rfl, rfl, rfl, rfl⟩

theorem fresh_of_reset {E : Env V F} {a b : Aggr V F} {os : List AggrOpt} (h : a.reset E os = (b, true)) : Fresh E b := by
  unfold Aggr.reset at h
  simp only at h
  split at h
  · exact fresh_of_resetCore h
  · simp at h

theorem fresh_of_new {E : Env V F} {k : AggrId} {b : Aggr V F} {os : List AggrOpt} (h : newAggr E k os = some b) : Fresh E b := by
  unfold newAggr at h
  simp only at h
  split at h
  · split at h
    · next h1 h2 =>
      simp only [Option.some.injEq] at h
      refine fresh_of_resetCore (a := (({ kind := k } : Aggr V F).applyOpts (os ++ [.name k.name])).1) ?_
      rw [← h, ← h2]
    · simp at h
  · simp at h

/-! ### Without grouping -/

theorem aggregateRow_ungrouped {E : Env V F} {a : Aggr V F} (hg : a.groupBys = []) (row : List (Option V)) :
    a.aggregateRow E row =
      if a.columns.length ≠ row.length then (a, .err)
      else
        match (accumulate E a.kind a.aggrs row).2 with
        | .ok _ => ({ a with aggrs := (accumulate E a.kind a.aggrs row).1, counts := a.counts + 1 }, .ok ())
        | e => ({ a with aggrs := (accumulate E a.kind a.aggrs row).1 }, e) := by
  unfold Aggr.aggregateRow
  split
  · rfl
  · rw [if_neg (by simp [hg])]; rfl

theorem feed_ungrouped {E : Env V F} (rows : List (List (Option V))) (a a' : Aggr V F) (hg : a.groupBys = [])
    (hl : a.aggrs.length = a.columns.length) (h : feed E a rows = some a') :
    ∃ m, Pairwise2 (Nums E) rows m ∧ (∀ r ∈ m, r.length = a.columns.length) ∧
      a' = { a with aggrs := m.foldl (List.zipWith (a.kind.step E)) a.aggrs, counts := a.counts + rows.length } := by
  induction rows generalizing a with
  | nil => simp only [feed, Option.some.injEq] at h; subst h; exact ⟨[], .nil, by simp, by simp⟩
  | cons r rows ih =>
    simp only [feed] at h
    rw [aggregateRow_ungrouped hg] at h
    split at h
    · next hok =>
      split at hok
      · cases hok
      · next hlen =>
        rw [if_neg hlen] at h
        have hlen' : a.columns.length = r.length := by simpa using hlen
        split at hok
        · next hacc =>
          obtain ⟨ns, hns⟩ := nums_of_accumulate a.kind r a.aggrs hacc
          have hrl := nums_length hns
          have e := accumulate_of_nums a.kind hns a.aggrs (by omega)
          rw [e] at h
          simp only at h
          obtain ⟨m, h1, h2, h3⟩ := ih _ (by simpa using hg) (by simp [hrl ▸ hlen', hl]) h
          refine ⟨ns :: m, .cons hns h1, ?_, ?_⟩
          · intro x hx
            rcases List.mem_cons.mp hx with rfl | hx
            · omega
            · exact h2 x hx
          · rw [h3]; simp [Nat.add_comm, Nat.add_left_comm]
        · next hne => exact absurd hok (hne ())
    · cases h

theorem feed_ungrouped_ok {E : Env V F} (rows : List (List (Option V))) (a : Aggr V F) (hg : a.groupBys = [])
    (hl : a.aggrs.length = a.columns.length) (h : ∀ r ∈ rows, r.length = a.columns.length ∧ ∃ ns, Nums E r ns) :
    ∃ a', feed E a rows = some a' := by
  induction rows generalizing a with
  | nil => exact ⟨a, rfl⟩
  | cons r rows ih =>
    obtain ⟨h1, ns, hns⟩ := h r (by simp)
    have hrl := nums_length hns
    have e := accumulate_of_nums a.kind hns a.aggrs (by omega)
    have hlen : ¬ a.columns.length ≠ r.length := by simp [h1]
    simp only [feed, aggregateRow_ungrouped hg, if_neg hlen, e]
    refine ih _ hg ?_ ?_
    · simp [← hrl, h1, hl]
    · intro s hs; exact h s (by simp [hs])

/-- The result of an aggregator without grouping, column by column. -/
theorem ungrouped_result {E : Env V F} {a a' : Aggr V F} (hf : Fresh E a) (hg : a.groupBys = [])
    (rows : List (List (Option V))) (h : feed E a rows = some a') (ch : Choice) (ob : OrderBy)
    (m : List (List F)) (hm : Pairwise2 (Nums E) rows m) :
    ∃ row, a'.finalize E ch ob = some { columns := a.columns, rows := [row] } ∧ row.length = a.columns.length ∧
      ∀ j, j < a.columns.length → row[j]? = some (aggValue E a.kind (column j m)) := by
  obtain ⟨m', h1, h2, h3⟩ := feed_ungrouped rows a a' hg hf.good.aggrs h
  have hmm : m' = m := by
    clear h3 h2 h
    induction h1 generalizing m with
    | nil => cases hm; rfl
    | cons hv _ ih => cases hm with | cons hv' hm => rw [nums_unique hv hv', ih _ hm]
  subst hmm
  have hml : rows.length = m'.length := by
    clear h3 h2 h hm
    induction h1 with
    | nil => rfl
    | cons _ _ ih => simp [ih]
  have hw : ∀ r ∈ m', r.length = a.aggrs.length := by intro r hr; rw [h2 r hr, hf.good.aggrs]
  refine ⟨(m'.foldl (List.zipWith (a.kind.step E)) a.aggrs).map (fun x => a.kind.final E x rows.length), ?_, ?_, ?_⟩
  · rw [h3]; simp [Aggr.finalize, hg, hf.counts]
  · rw [List.length_map, foldl_zipWith_length _ _ _ hw, hf.good.aggrs]
  · intro j hj
    have hx : a.aggrs[j]? = some (a.kind.init E) := by rw [hf.aggrs]; simp [hj]
    rw [List.getElem?_map, foldl_zipWith_getElem? _ _ _ hw j _ hx]
    simp only [Option.map_some, Option.some.injEq]
    rw [← final_fold, column_length m' _ j hj h2, hml]

end Verif.Lemmas
