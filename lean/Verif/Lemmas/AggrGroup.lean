import Verif.Lemmas.Aggr
/-! Lemmas about grouped aggregation. -/
namespace Verif.Lemmas
open Verif Verif.Fn Verif.Spec
variable {V F : Type}

/-- Key text of the first `n` values of a row. -/
def keyOf (E : Env V F) (n : Nat) (r : List (Option V)) : Option Str := groupKey E (r.take n)

/-- The rows with the key text. -/
def rowsWith (E : Env V F) (n : Nat) (k : Str) (rows : List (List (Option V))) : List (List (Option V)) :=
  rows.filter (fun r => keyOf E n r == some k)

/-- The numbers of a row that converts. -/
def numsD (E : Env V F) (row : List (Option V)) : List F := row.filterMap (toFloat64 E)

theorem numsD_eq {E : Env V F} {row : List (Option V)} {ns : List F} (h : Nums E row ns) : numsD E row = ns := by
  induction h with
  | nil => rfl
  | cons hv _ ih =>
    rw [asNum_iff] at hv
    simp [numsD, hv] at *
    exact ih

/-- The accumulated values of a group. -/
def foldRows (E : Env V F) (k : AggrId) (n w : Nat) (rs : List (List (Option V))) : List F :=
  rs.foldl (fun acc r => List.zipWith (k.step E) acc (numsD E (r.drop n))) (List.replicate w (k.init E))

/-- The state after the rows, relative to the freshly reset state. -/
structure GInv (E : Env V F) (a0 : Aggr V F) (rows : List (List (Option V))) (a : Aggr V F) : Prop where
  kind : a.kind = a0.kind
  args : a.args = a0.args
  columns : a.columns = a0.columns
  groupBys : a.groupBys = a0.groupBys
  aggs : ∀ k, a.groupAggrs.get? k =
    if rowsWith E a0.groupBys.length k rows = [] then none
    else some (foldRows E a0.kind a0.groupBys.length a0.args.length (rowsWith E a0.groupBys.length k rows))
  counts : ∀ k, a.groupCounts.get? k =
    if rowsWith E a0.groupBys.length k rows = [] then none else some (rowsWith E a0.groupBys.length k rows).length
  keys : ∀ k r, (rowsWith E a0.groupBys.length k rows).head? = some r →
    a.groupKeys.get? k = some (r.take a0.groupBys.length)
  nodup : a.groupAggrs.keys.Nodup
  len : ∀ r ∈ rows, r.length = a0.columns.length
  key : ∀ r ∈ rows, ∃ k, keyOf E a0.groupBys.length r = some k
  nums : ∀ r ∈ rows, ∃ ns, Nums E (r.drop a0.groupBys.length) ns

theorem ginv_fresh {E : Env V F} {a : Aggr V F} (h : Fresh E a) : GInv E a [] a where
  kind := rfl
  args := rfl
  columns := rfl
  groupBys := rfl
  aggs k := by rw [h.noAggrs]; simp [rowsWith]
  counts k := by rw [h.noCounts]; simp [rowsWith]
  keys k r hr := by simp [rowsWith] at hr
  nodup := by rw [h.noAggrs]; simp [GoMap.keys]
  len := by simp
  key := by simp
  nums := by simp

theorem rowsWith_append (E : Env V F) (n : Nat) (k : Str) (rows : List (List (Option V))) (r : List (Option V)) :
    rowsWith E n k (rows ++ [r]) = rowsWith E n k rows ++ (if keyOf E n r == some k then [r] else []) := by
  unfold rowsWith
  rw [List.filter_append]
  congr 1
  rw [List.filter_cons]; split <;> simp_all

theorem foldRows_length (E : Env V F) (k : AggrId) (n w : Nat) (rs : List (List (Option V)))
    (h : ∀ r ∈ rs, (numsD E (r.drop n)).length = w) : (foldRows E k n w rs).length = w := by
  unfold foldRows
  have : ∀ (rs : List (List (Option V))) (acc : List F), acc.length = w → (∀ r ∈ rs, (numsD E (r.drop n)).length = w) →
      (rs.foldl (fun acc r => List.zipWith (k.step E) acc (numsD E (r.drop n))) acc).length = w := by
    intro rs
    induction rs with
    | nil => intro acc h _; exact h
    | cons r rs ih =>
      intro acc ha hr
      rw [List.foldl_cons]
      apply ih
      · simp [ha, hr r (by simp)]
      · intro s hs; exact hr s (by simp [hs])
  exact this rs _ (by simp) h

/-- A row of the right width with a key text and convertible values. -/
structure RowOk (E : Env V F) (a0 : Aggr V F) (r : List (Option V)) : Prop where
  len : r.length = a0.columns.length
  key : ∃ k, keyOf E a0.groupBys.length r = some k
  nums : ∃ ns, Nums E (r.drop a0.groupBys.length) ns

theorem ensure_get {E : Env V F} {a : Aggr V F} (key : Str) (vals : List (Option V)) :
    ∃ accs, (a.ensureGroup E key vals).groupAggrs.get? key = some accs := by
  unfold Aggr.ensureGroup
  split
  · next x hx => exact ⟨x, hx⟩
  · exact ⟨_, GoMap.get?_set_self _ _ _⟩

theorem ginv_step {E : Env V F} {a0 a : Aggr V F} {rows : List (List (Option V))}
    (hw : a0.columns.length = a0.groupBys.length + a0.args.length) (hg : a0.groupBys.length ≠ 0)
    (h : GInv E a0 rows a) (r : List (Option V)) (hr : RowOk E a0 r) :
    ∃ a', a.aggregateRow E r = (a', .ok ()) ∧ GInv E a0 (rows ++ [r]) a' := by
  obtain ⟨hlen, ⟨key, hkey⟩, ns, hns⟩ := hr
  have hnl := nums_length hns
  have hnl' : ns.length = a0.args.length := by rw [← hnl, List.length_drop]; omega
  have hnd : numsD E (r.drop a0.groupBys.length) = ns := numsD_eq hns
  unfold Aggr.aggregateRow
  rw [if_neg (by rw [h.columns]; simp [hlen]), if_pos (by rw [h.groupBys]; exact hg)]
  simp only
  rw [if_neg (by rw [h.groupBys]; omega)]
  have hk' : groupKey E (r.take a.groupBys.length) = some key := by rw [h.groupBys]; exact hkey
  rw [hk']
  simp only
  have hRl : ∀ s ∈ rowsWith E a0.groupBys.length key rows, (numsD E (s.drop a0.groupBys.length)).length = a0.args.length := by
    intro s hs
    have hs' : s ∈ rows := (List.mem_filter.mp hs).1
    obtain ⟨ms, hms⟩ := h.nums s hs'
    rw [numsD_eq hms, ← nums_length hms, List.length_drop, h.len s hs']; omega
  -- the state with the group present
  have hens : let b := a.ensureGroup E key (r.take a.groupBys.length)
      b.kind = a.kind ∧ b.args = a.args ∧ b.columns = a.columns ∧ b.groupBys = a.groupBys ∧
      b.groupAggrs.get? key = some (foldRows E a0.kind a0.groupBys.length a0.args.length (rowsWith E a0.groupBys.length key rows)) ∧
      (∀ k, k ≠ key → b.groupAggrs.get? k = a.groupAggrs.get? k) ∧
      countOf b.groupCounts key = (rowsWith E a0.groupBys.length key rows).length ∧
      (∀ k, k ≠ key → b.groupCounts.get? k = a.groupCounts.get? k) ∧
      (∀ s, (rowsWith E a0.groupBys.length key rows ++ [r]).head? = some s → b.groupKeys.get? key = some (s.take a0.groupBys.length)) ∧
      (∀ k, k ≠ key → b.groupKeys.get? k = a.groupKeys.get? k) ∧ b.groupAggrs.keys.Nodup := by
    have ha := h.aggs key
    have hc := h.counts key
    unfold Aggr.ensureGroup
    by_cases hR : rowsWith E a0.groupBys.length key rows = []
    · rw [if_pos hR] at ha hc
      rw [ha]
      refine ⟨rfl, rfl, rfl, rfl, ?_, ?_, ?_, ?_, ?_, ?_, ?_⟩
      · simp only [GoMap.get?_set_self, hR, foldRows, List.foldl_nil]
        rw [h.columns, h.groupBys, h.kind]
        have : a0.columns.length - a0.groupBys.length = a0.args.length := by omega
        rw [this]
      · intro k hk; exact GoMap.get?_set_ne _ _ (Ne.symm hk)
      · simp [countOf, hR]
      · intro k hk; exact GoMap.get?_set_ne _ _ (Ne.symm hk)
      · intro s hs; rw [hR] at hs; simp at hs; subst hs; rw [h.groupBys]; simp
      · intro k hk; exact GoMap.get?_set_ne _ _ (Ne.symm hk)
      · exact GoMap.nodup_keys_set _ _ _ h.nodup
    · rw [if_neg hR] at ha hc
      rw [ha]
      refine ⟨rfl, rfl, rfl, rfl, ha, fun _ _ => rfl, ?_, fun _ _ => rfl, ?_, fun _ _ => rfl, h.nodup⟩
      · simp [countOf, hc]
      · intro s hs
        apply h.keys
        cases hx : rowsWith E a0.groupBys.length key rows with
        | nil => exact absurd hx hR
        | cons x xs => rw [hx] at hs; simpa using hs
  generalize a.ensureGroup E key (r.take a.groupBys.length) = b at hens
  simp only at hens
  obtain ⟨e1, e2, e3, e4, e5, e6, e7, e8, e9, e10, e11⟩ := hens
  rw [e5]
  simp only
  have hacc := accumulate_of_nums (E := E) b.kind hns
    (foldRows E a0.kind a0.groupBys.length a0.args.length (rowsWith E a0.groupBys.length key rows))
    (by rw [foldRows_length E _ _ _ _ hRl, hnl, hnl'])
  rw [h.groupBys, hacc]
  simp only
  refine ⟨_, rfl, ?_⟩
  have hself : rowsWith E a0.groupBys.length key (rows ++ [r]) = rowsWith E a0.groupBys.length key rows ++ [r] := by
    rw [rowsWith_append]; simp [hkey]
  have hother : ∀ k, k ≠ key → rowsWith E a0.groupBys.length k (rows ++ [r]) = rowsWith E a0.groupBys.length k rows := by
    intro k hk
    rw [rowsWith_append, hkey]
    have : (some key == some k) = false := by simpa using Ne.symm hk
    rw [this]; simp
  constructor
  · exact e1.trans h.kind
  · exact e2.trans h.args
  · exact e3.trans h.columns
  · exact e4.trans h.groupBys
  · intro k
    by_cases hk : k = key
    · subst hk
      simp only [GoMap.get?_set_self, hself]
      rw [if_neg (by simp)]
      simp only [foldRows, List.foldl_append, List.foldl_cons, List.foldl_nil, hnd]
      rw [e1, h.kind]
    · simp only [GoMap.get?_set_ne _ _ (Ne.symm hk)]
      rw [hother k hk, e6 k hk, h.aggs k]
  · intro k
    by_cases hk : k = key
    · subst hk
      simp only [GoMap.get?_set_self, hself]
      rw [if_neg (by simp), e7]; simp
    · simp only [GoMap.get?_set_ne _ _ (Ne.symm hk)]
      rw [hother k hk, e8 k hk, h.counts k]
  · intro k s hs
    by_cases hk : k = key
    · subst hk
      rw [hself] at hs
      exact e9 s hs
    · rw [hother k hk] at hs
      simp only
      rw [e10 k hk]; exact h.keys k s hs
  · exact GoMap.nodup_keys_set _ _ _ e11
  · intro s hs
    rcases List.mem_append.mp hs with hs | hs
    · exact h.len s hs
    · simp at hs; subst hs; exact hlen
  · intro s hs
    rcases List.mem_append.mp hs with hs | hs
    · exact h.key s hs
    · simp at hs; subst hs; exact ⟨key, hkey⟩
  · intro s hs
    rcases List.mem_append.mp hs with hs | hs
    · exact h.nums s hs
    · simp at hs; subst hs; exact ⟨ns, hns⟩

/-- A row accepted in a reachable state satisfies `RowOk`. -/
theorem rowOk_of_ok {E : Env V F} {a0 a : Aggr V F} {rows : List (List (Option V))} (hg : a0.groupBys.length ≠ 0)
    (h : GInv E a0 rows a) (r : List (Option V)) (hok : (a.aggregateRow E r).2 = .ok ()) : RowOk E a0 r := by
  unfold Aggr.aggregateRow at hok
  by_cases h1 : a.columns.length ≠ r.length
  · rw [if_pos h1] at hok; cases hok
  rw [if_neg h1, if_pos (by rw [h.groupBys]; exact hg)] at hok
  simp only at hok
  split at hok
  · cases hok
  · split at hok
    · cases hok
    · next key hkey =>
      rw [h.groupBys] at hkey
      refine ⟨by rw [← h.columns]; simpa using (Eq.symm (by simpa using h1)), ⟨key, hkey⟩, ?_⟩
      split at hok
      · cases hok
      · next accs haccs =>
        split at hok
        · next hacc =>
          rw [h.groupBys] at hacc
          exact nums_of_accumulate _ _ _ hacc
        · next e he => exact absurd hok (he ())

theorem feed_grouped {E : Env V F} {a0 : Aggr V F} (hw : a0.columns.length = a0.groupBys.length + a0.args.length)
    (hg : a0.groupBys.length ≠ 0) (rows done : List (List (Option V))) (a a' : Aggr V F) (hi : GInv E a0 done a)
    (h : feed E a rows = some a') : GInv E a0 (done ++ rows) a' ∧ ∀ r ∈ rows, RowOk E a0 r := by
  induction rows generalizing done a with
  | nil => simp only [feed, Option.some.injEq] at h; subst h; simpa using hi
  | cons r rows ih =>
    simp only [feed] at h
    split at h
    · next hok =>
      have hrow := rowOk_of_ok hg hi r hok
      obtain ⟨b, hb, hbi⟩ := ginv_step hw hg hi r hrow
      rw [hb] at h
      obtain ⟨h1, h2⟩ := ih (done ++ [r]) b hbi h
      refine ⟨by simpa using h1, ?_⟩
      intro s hs
      rcases List.mem_cons.mp hs with rfl | hs
      · exact hrow
      · exact h2 s hs
    · cases h

theorem feed_grouped_ok {E : Env V F} {a0 : Aggr V F} (hw : a0.columns.length = a0.groupBys.length + a0.args.length)
    (hg : a0.groupBys.length ≠ 0) (rows done : List (List (Option V))) (a : Aggr V F) (hi : GInv E a0 done a)
    (h : ∀ r ∈ rows, RowOk E a0 r) : ∃ a', feed E a rows = some a' := by
  induction rows generalizing done a with
  | nil => exact ⟨a, rfl⟩
  | cons r rows ih =>
    obtain ⟨b, hb, hbi⟩ := ginv_step hw hg hi r (h r (by simp))
    simp only [feed, hb]
    exact ih (done ++ [r]) b hbi (fun s hs => h s (by simp [hs]))

/-- The group keys are exactly the key texts that occurred. -/
theorem ginv_keys {E : Env V F} {a0 a : Aggr V F} {rows : List (List (Option V))} (h : GInv E a0 rows a) (k : Str) :
    k ∈ a.groupAggrs.keys ↔ ∃ r ∈ rows, keyOf E a0.groupBys.length r = some k := by
  rw [GoMap.mem_keys_iff, h.aggs k]
  by_cases hR : rowsWith E a0.groupBys.length k rows = []
  · rw [if_pos hR]
    simp only [Option.isSome_none, Bool.false_eq_true, false_iff]
    rintro ⟨r, hr, hk⟩
    have : r ∈ rowsWith E a0.groupBys.length k rows := by
      unfold rowsWith; rw [List.mem_filter]; exact ⟨hr, by simp [hk]⟩
    rw [hR] at this; cases this
  · rw [if_neg hR]
    simp only [Option.isSome_some, true_iff]
    obtain ⟨r, hr⟩ := List.exists_mem_of_ne_nil _ hR
    unfold rowsWith at hr
    rw [List.mem_filter] at hr
    exact ⟨r, hr.1, by simpa using hr.2⟩

/-- The result row of a group. -/
theorem ginv_groupRow {E : Env V F} {a0 a : Aggr V F} {rows : List (List (Option V))} (h : GInv E a0 rows a) (k : Str)
    (r : List (Option V)) (rest : List (List (Option V))) (hR : rowsWith E a0.groupBys.length k rows = r :: rest) :
    a.groupRow E k = some ((r.take a0.groupBys.length).map Cell.ofAny ++
      (foldRows E a0.kind a0.groupBys.length a0.args.length (r :: rest)).map
        (fun x => a0.kind.final E x (rest.length + 1))) := by
  unfold Aggr.groupRow
  rw [h.keys k r (by rw [hR]; rfl), h.aggs k, h.counts k, hR, if_neg (by simp), if_neg (by simp), h.kind]
  rfl

theorem groupRows_some {E : Env V F} {a : Aggr V F} (ks : List Str) (h : ∀ k ∈ ks, ∃ out, a.groupRow E k = some out) :
    ∃ outs, a.groupRows E ks = some outs ∧ Pairwise2 (fun k out => a.groupRow E k = some out) ks outs := by
  induction ks with
  | nil => exact ⟨[], rfl, .nil⟩
  | cons k ks ih =>
    obtain ⟨out, ho⟩ := h k (by simp)
    obtain ⟨outs, h1, h2⟩ := ih (fun k hk => h k (by simp [hk]))
    exact ⟨out :: outs, by simp [Aggr.groupRows, ho, h1], .cons ho h2⟩

/-- Folding a group's rows, column by column. -/
theorem foldRows_column {E : Env V F} (k : AggrId) (n w : Nat) (rs : List (List (Option V))) (m : List (List F))
    (hm : Pairwise2 (fun r ns => Nums E (r.drop n) ns) rs m) (hw : ∀ r ∈ m, r.length = w) (j : Nat) (hj : j < w) :
    ((foldRows E k n w rs).map (fun x => k.final E x rs.length))[j]? = some (aggValue E k (column j m)) := by
  have hfold : foldRows E k n w rs = m.foldl (List.zipWith (k.step E)) (List.replicate w (k.init E)) := by
    unfold foldRows
    generalize List.replicate w (k.init E) = acc
    clear hw
    induction hm generalizing acc with
    | nil => rfl
    | cons hr _ ih => rw [List.foldl_cons, List.foldl_cons, numsD_eq hr, ih]
  have hlen : rs.length = m.length := by
    clear hw hfold
    induction hm with
    | nil => rfl
    | cons _ _ ih => simp [ih]
  have hw' : ∀ r ∈ m, r.length = (List.replicate w (k.init E)).length := by simpa using hw
  rw [List.getElem?_map, hfold, foldl_zipWith_getElem? _ _ _ hw' j (k.init E) (by simp [hj])]
  simp only [Option.map_some, Option.some.injEq]
  rw [← final_fold, column_length m w j hj hw, hlen]

end Verif.Lemmas
