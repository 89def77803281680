import Verif.Props.Aggr
import Verif.Lemmas.AggrSet
/-! C33, C34, C36–C38, C42: rejected rows, row order, ordered finalisation, aggregator sets, result sets. -/
namespace Verif.Props
open Verif Verif.Fn Verif.Spec Verif.Lemmas
variable {V F : Type}

/-! ### C33 rejected rows -/

/-- C33 as far as it holds, for rows rejected before anything is accumulated: a row of the wrong width, a row
with a group value that has no text, a map without one of the arguments and a value that is neither row nor
map leave the aggregator exactly as it was, in every state. -/
theorem C33_early_partial (E : Env V F) (a : Aggr V F) (v : AggrIn V)
    (h : match v with
      | .row r => r.length ≠ a.columns.length ∨
          (a.groupBys ≠ [] ∧ a.groupBys.length ≤ r.length ∧ ∃ w ∈ r.take a.groupBys.length, E.toText w = none)
      | .map m => ∃ x ∈ a.args, x ≠ s%"*" ∧ m.get? x = none
      | .other => True) :
    (a.aggregate E v).2 = .err ∧ (a.aggregate E v).1 = a := by
  cases v with
  | other => exact ⟨rfl, rfl⟩
  | row r =>
    simp only at h
    simp only [Aggr.aggregate, Aggr.aggregateRow]
    by_cases hw : a.columns.length ≠ r.length
    · rw [if_pos hw]; exact ⟨rfl, rfl⟩
    · rw [if_neg hw]
      rcases h with h | ⟨hg, hl, w, hw', ht⟩
      · exact absurd (Ne.symm h) hw
      · have hk : groupKey E (r.take a.groupBys.length) = none := by
          cases hk : groupKey E (r.take a.groupBys.length) with
          | none => rfl
          | some k =>
            obtain ⟨ts, hts, _⟩ := (keyOf_iff E a.groupBys.length r k).mp hk
            obtain ⟨t, _, hwt⟩ := pairwise2_left hts w hw'
            rw [ht] at hwt; cases hwt
        rw [if_pos (by simpa using hg), if_neg (by omega), hk]
        exact ⟨rfl, rfl⟩
  | map m =>
    obtain ⟨x, hx, hs, hm⟩ := h
    have : mapRow m a.args = none := by
      generalize a.args = args at hx
      induction args with
      | nil => cases hx
      | cons y args ih =>
        simp only [mapRow]
        rcases List.mem_cons.mp hx with rfl | hx
        · rw [if_neg hs, hm]
        · rw [ih hx]; split <;> rfl
    simp only [Aggr.aggregate, Aggr.aggregateMap, this]
    exact ⟨trivial, trivial⟩

/-- C33 as far as it holds, for rows rejected by a value that is not a number: with at most one argument, and
without grouping or with a group that already has a row, the aggregator stays exactly as it was. Missing:
several arguments, and a first row of a group (see `C33_fails`). -/
theorem C33_late_partial (E : Env V F) (c a : Aggr V F) (hc : Started E c) (hargs : c.args.length ≤ 1)
    (rows : List (List (Option V))) (hf : feed E c rows = some a) (r : List (Option V))
    (hgroup : c.groupBys = [] ∨ ∃ s ∈ rows, s.take c.groupBys.length = r.take c.groupBys.length)
    (hrej : (a.aggregateRow E r).2 ≠ .ok ()) : (a.aggregateRow E r).1 = a := by
  have hfr := started_fresh hc
  by_cases hg : c.groupBys = []
  · obtain ⟨m, hm, hw, ha⟩ := feed_ungrouped rows c a hg hfr.good.aggrs hf
    have hag : a.groupBys = [] := by rw [ha]; exact hg
    rw [aggregateRow_ungrouped hag] at hrej ⊢
    split
    · rfl
    · next hlen =>
      rw [if_neg hlen] at hrej
      have hcol : a.columns = c.columns := by rw [ha]
      have hr1 : r.length ≤ 1 := by
        have : a.columns.length = r.length := by simpa using hlen
        rw [← this, hcol, hfr.good.cols, hg]; simpa using hargs
      cases hx : (accumulate E a.kind a.aggrs r).2 with
      | ok u => rw [hx] at hrej; exact absurd rfl hrej
      | err => simp only; rw [accumulate_single E a.kind a.aggrs r hr1 (by rw [hx]; simp)]
      | panic => simp only; rw [accumulate_single E a.kind a.aggrs r hr1 (by rw [hx]; simp)]
  · have hi := (feed_grouped hfr.good.cols (by simpa using hg) rows [] c a (ginv_fresh hfr) hf).1
    rw [List.nil_append] at hi
    obtain ⟨s, hs, hst⟩ : ∃ s ∈ rows, s.take c.groupBys.length = r.take c.groupBys.length := by
      rcases hgroup with h | h
      · exact absurd h hg
      · exact h
    obtain ⟨k, hk⟩ := hi.key s hs
    have hkr : groupKey E (r.take a.groupBys.length) = some k := by
      rw [hi.groupBys, ← hst]; exact hk
    have hin : ∃ accs, a.groupAggrs.get? k = some accs := by
      have := (ginv_keys hi k).mpr ⟨s, hs, hk⟩
      rw [GoMap.mem_keys_iff, Option.isSome_iff_exists] at this
      exact this
    obtain ⟨accs, haccs⟩ := hin
    have hens : a.ensureGroup E k (r.take a.groupBys.length) = a := by
      unfold Aggr.ensureGroup; rw [haccs]
    unfold Aggr.aggregateRow at hrej ⊢
    by_cases hlen : a.columns.length ≠ r.length
    · rw [if_pos hlen]
    · rw [if_neg hlen] at hrej ⊢
      rw [if_pos (by rw [hi.groupBys]; simpa using hg)] at hrej ⊢
      simp only at hrej ⊢
      by_cases hlt : r.length < a.groupBys.length
      · rw [if_pos hlt]
      · rw [if_neg hlt] at hrej ⊢
        rw [hkr] at hrej ⊢
        simp only [hens, haccs] at hrej ⊢
        have hr1 : (r.drop a.groupBys.length).length ≤ 1 := by
          have h1 : a.columns.length = r.length := by simpa using hlen
          rw [List.length_drop, ← h1, hi.columns, hfr.good.cols, hi.groupBys]; omega
        cases hx : (accumulate E a.kind accs (r.drop a.groupBys.length)).2 with
        | ok u => rw [hx] at hrej; exact absurd rfl hrej
        | err =>
          simp only
          rw [accumulate_single E a.kind accs _ hr1 (by rw [hx]; simp), set_same _ _ _ haccs]
        | panic =>
          simp only
          rw [accumulate_single E a.kind accs _ hr1 (by rw [hx]; simp), set_same _ _ _ haccs]

/-- C33 is false in general: a rejected row adds its first value to SUM(x), SUM(y); and a rejected first row
of a group adds a row for that group to the result. -/
theorem C33_fails :
    (∃ r : List (Option ExV), (Aggr.aggregateRow exEnv (exTwo .sum) r).2 = .err ∧
      (exTwo .sum).finalize exEnv exChoice .none = some { columns := (exTwo .sum).columns, rows := [[.num 0, .num 0]] } ∧
      (Aggr.aggregateRow exEnv (exTwo .sum) r).1.finalize exEnv exChoice .none =
        some { columns := (exTwo .sum).columns, rows := [[.num 5, .num 0]] }) ∧
    (∃ r : List (Option ExV), (Aggr.aggregateRow exEnv exGrouped r).2 = .err ∧
      exGrouped.finalize exEnv exChoice .none = some { columns := exGrouped.columns, rows := [] } ∧
      (Aggr.aggregateRow exEnv exGrouped r).1.finalize exEnv exChoice .none =
        some { columns := exGrouped.columns, rows := [[.val (.t s%"u"), .num 0]] }) :=
  ⟨⟨[some (.n 5), some (.t s%"bad")], by decide, by decide, by decide⟩,
   ⟨[some (.t s%"u"), some (.t s%"bad")], by decide, by decide, by decide⟩⟩

example : exGrouped.args.length ≤ 1 ∧ (∃ a, feed exEnv exGrouped exGroupRows = some a ∧
    (a.aggregateRow exEnv [some (.t s%"v"), some (.t s%"bad")]).2 ≠ .ok ()) ∧
    ∃ s ∈ exGroupRows, s.take 1 = [some (ExV.t s%"v")] := by
  refine ⟨by decide, ⟨_, rfl, by decide⟩, by decide⟩

/-! ### C34 row order -/

/-- C34 without grouping: any permutation of accepted rows is accepted and gives the same result, when
addition is associative and commutative and the order is linear. -/
theorem C34_order_ungrouped (E : Env V F) (ha : ∀ a b c, E.add (E.add a b) c = E.add a (E.add b c))
    (hcomm : ∀ a b, E.add a b = E.add b a) (hl : Linear E) (b b' : Aggr V F) (hs : Started E b) (hg : b.groupBys = [])
    (rows rows' : List (List (Option V))) (hp : rows.Perm rows') (h : feed E b rows = some b') :
    ∃ c', feed E b rows' = some c' ∧ ∀ ch ch' ob ob', b'.finalize E ch ob = c'.finalize E ch' ob' := by
  have hf := started_fresh hs
  have hacc := (C26_accepted E b hs hg rows).mp ⟨b', h⟩
  obtain ⟨c', hc'⟩ := (C26_accepted E b hs hg rows').mpr (fun r hr => hacc r (hp.mem_iff.mpr hr))
  refine ⟨c', hc', ?_⟩
  intro ch ch' ob ob'
  obtain ⟨m, hm, _⟩ := feed_ungrouped rows b b' hg hf.good.aggrs h
  obtain ⟨m', p, hm'⟩ := pairwise2_perm hm hp
  obtain ⟨row, h1, h2, h3⟩ := ungrouped_result hf hg rows h ch ob m hm
  obtain ⟨row', h1', h2', h3'⟩ := ungrouped_result hf hg rows' hc' ch' ob' m' hm'
  have : row = row' := by
    apply list_ext_get h2 h2'
    intro j hj
    rw [h3 j hj, h3' j hj, aggValue_perm ha hcomm hl b.kind (column_perm j p)]
  rw [h1, h1', this]

/-- C34 with grouping, as far as it holds: when the group values have faithful texts, any permutation of
accepted rows is accepted and gives the same rows up to their order. Missing: groups merged by their texts
(`C34_fails`). -/
theorem C34_order_grouped_partial [DecidableEq V] (E : Env V F) (ha : ∀ a b c, E.add (E.add a b) c = E.add a (E.add b c))
    (hcomm : ∀ a b, E.add a b = E.add b a) (hl : Linear E) (b b' : Aggr V F) (hs : Started E b) (hg : b.groupBys ≠ [])
    (rows rows' : List (List (Option V))) (hp : rows.Perm rows') (h : feed E b rows = some b')
    (ht : TextsFaithful E b.groupBys.length rows) :
    ∃ c', feed E b rows' = some c' ∧ ∀ ch ch' ob ob', Lawful ch → Lawful ch' → ∃ rs rs',
      b'.finalize E ch ob = some rs ∧ c'.finalize E ch' ob' = some rs' ∧ rs.columns = rs'.columns ∧
      rs.rows.Perm rs'.rows := by
  have hacc := (C30_accepted E b hs hg rows).mp ⟨b', h⟩
  obtain ⟨c', hc'⟩ := (C30_accepted E b hs hg rows').mpr (fun r hr => hacc r (hp.mem_iff.mpr hr))
  refine ⟨c', hc', ?_⟩
  intro ch ch' ob ob' hch hch'
  have ht' : TextsFaithful E b.groupBys.length rows' := by
    refine ⟨fun r hr s hs => ht.inj r (hp.mem_iff.mpr hr) s (hp.mem_iff.mpr hs), ?_⟩
    rcases ht.comma with h | h
    · exact .inl h
    · exact .inr (fun r hr => h r (hp.mem_iff.mpr hr))
  obtain ⟨ts, outs, h1, h2, h3, h4⟩ := C30_group_by_partial E b b' hs hg rows h ht ch hch ob
  obtain ⟨ts', outs', k1, k2, k3, k4⟩ := C30_group_by_partial E b c' hs hg rows' hc' ht' ch' hch' ob'
  refine ⟨_, _, h1, k1, rfl, ?_⟩
  simp only
  have hts : ts.Perm ts' := by
    rw [List.perm_ext_iff_of_nodup h2 k2]
    intro t; rw [h3, k3]
    constructor
    · rintro ⟨r, hr, e⟩; exact ⟨r, hp.mem_iff.mp hr, e⟩
    · rintro ⟨r, hr, e⟩; exact ⟨r, hp.mem_iff.mpr hr, e⟩
  obtain ⟨outs'', p, q⟩ := pairwise2_perm h4 hts
  have : outs'' = outs' := by
    clear p h1 k1 hts k2 k3 h2 h3 h4
    induction q generalizing outs' with
    | nil => cases k4; rfl
    | cons hr _ ih =>
      cases k4 with
      | cons hr' k4 =>
        rw [ih _ k4]
        congr 1
        exact isGroupRow_perm ha hcomm hl (hp.filter _) hr hr'
  rw [← this]; exact p

/-- C34 is false in general with grouping: when two tuples share a text key, the tuple shown is that of the
first row. -/
theorem C34_fails : ∃ (b b' c' : Aggr ExV Nat) (r s : List (Option ExV)), Started exEnv b ∧
    feed exEnv b [r, s] = some b' ∧ feed exEnv b [s, r] = some c' ∧
    ∃ rs rs', b'.finalize exEnv exChoice .none = some rs ∧ c'.finalize exEnv exChoice .none = some rs' ∧
      ¬ rs.rows.Perm rs'.rows := by
  obtain ⟨b, r, s, h1, _, ⟨b', h3, h4⟩, ⟨c', h5, h6⟩⟩ := C31_fails
  refine ⟨b, b', c', r, s, h1, h3, h5, _, _, h4, h6, ?_⟩
  intro hp
  have := hp.mem_iff.mp (List.mem_cons_self)
  simp at this

example : (∀ a b c, exEnv.add (exEnv.add a b) c = exEnv.add a (exEnv.add b c)) ∧ (∀ a b, exEnv.add a b = exEnv.add b a) :=
  ⟨Nat.add_assoc, Nat.add_comm⟩
example : exGroupRows.Perm exGroupRows.reverse := (List.reverse_perm _).symm

/-! ### C36 ordered finalisation -/

/-- C36 (ascending): when `safecast.Compare` is a total preorder on the group values, `Finalize` ascending
returns the group rows sorted by their group values, for any sorter that sorts under a strict weak order. -/
theorem C36_ascending (E : Env V F) (b b' : Aggr V F) (hs : Started E b) (hg : b.groupBys ≠ [])
    (rows : List (List (Option V))) (h : feed E b rows = some b') (ch : Choice) (hc : Lawful ch) (hsort : SortsWeak ch)
    (P : Option V → Prop) (ho : CmpOrder E P) (hP : ∀ r ∈ rows, ∀ v ∈ r.take b.groupBys.length, P v) :
    ∃ (tuples : List (List (Option V))) (outs : List (List (Cell V F))),
      b'.finalize E ch .asc = some { columns := b.columns, rows := outs } ∧
      Pairwise2 (fun t out => ∃ aggs, out = t.map Cell.ofAny ++ aggs ∧ aggs.length = b.args.length) tuples outs ∧
      (∀ t ∈ tuples, t.length = b.groupBys.length) ∧
      tuples.Pairwise (fun s t => ¬ LexLt E t s) := by
  have hf := started_fresh hs
  obtain ⟨outs, h1, h2, h3, h4⟩ := grouped_result hf hg rows h ch hc .asc
  obtain ⟨ts, t1, t2⟩ := tuples_of_keys h4
  have hacc := (C30_accepted E b hs hg rows).mp ⟨b', h⟩
  have hlen : ∀ r ∈ rows, (r.take b.groupBys.length).length = b.groupBys.length := by
    intro r hr; rw [List.length_take, (hacc r hr).1, hf.good.cols]; omega
  -- every key has a tuple
  have hkeys : ∀ k ∈ ch.enum b'.groupAggrs.keys, ∃ r ∈ rows, keysOf b'.groupKeys k = r.take b.groupBys.length := by
    intro k hk
    have hperm : (b'.orderedKeys E ch .asc).Perm (ch.enum b'.groupAggrs.keys) := hc.sort_perm _ _
    obtain ⟨t, _, hkt, r, hr, e, _⟩ := pairwise2_left t1 k (hperm.mem_iff.mpr hk)
    exact ⟨r, hr, by unfold keysOf; rw [hkt, e]⟩
  have hless : ∀ i ∈ ch.enum b'.groupAggrs.keys, ∀ j ∈ ch.enum b'.groupAggrs.keys,
      (lessAsc E (keysOf b'.groupKeys i) (keysOf b'.groupKeys j) = true ↔
        LexLt E (keysOf b'.groupKeys i) (keysOf b'.groupKeys j)) := by
    intro i hi j hj
    obtain ⟨r, hr, er⟩ := hkeys i hi
    obtain ⟨s, hs', es⟩ := hkeys j hj
    rw [er, es]
    unfold lessAsc
    rw [hlen r hr, hlen s hs', if_neg (by omega), if_neg (by omega)]
    exact lessKeys_iff ho _ _ (hP r hr) (hP s hs')
  have hsorted := hsort (fun i j => lessAsc E (keysOf b'.groupKeys i) (keysOf b'.groupKeys j)) (ch.enum b'.groupAggrs.keys)
    (by
      intro i hi j hj hlt
      rw [hless i hi j hj] at hlt
      rw [← Bool.not_eq_true, hless j hj i hi]
      obtain ⟨r, hr, er⟩ := hkeys i hi
      obtain ⟨s, hs', es⟩ := hkeys j hj
      rw [er, es] at hlt ⊢
      exact lexLt_asymm ho (hP r hr) (hP s hs') hlt)
    (by
      intro i hi j hj k hk h1 h2
      rw [← Bool.not_eq_true] at h1 h2 ⊢
      rw [hless i hi j hj] at h1
      rw [hless j hj k hk] at h2
      rw [hless i hi k hk]
      obtain ⟨r, hr, er⟩ := hkeys i hi
      obtain ⟨s, hs', es⟩ := hkeys j hj
      obtain ⟨q, hq, eq⟩ := hkeys k hk
      rw [er, es] at h1
      rw [es, eq] at h2
      rw [er, eq]
      exact lexLt_negtrans ho (hP r hr) (hP s hs') (hP q hq) (by rw [hlen r hr, hlen s hs']) (by rw [hlen s hs', hlen q hq]) h1 h2)
  refine ⟨ts, outs, h1, t2, ?_, ?_⟩
  · intro t ht
    obtain ⟨k, _, _, r, hr, e, _⟩ := pairwise2_right t1 t ht
    rw [e, hlen r hr]
  · refine pairwise2_pairwise t1 hsorted ?_
    intro i j s t hi hj hs' ht' hlt
    have hperm : (b'.orderedKeys E ch .asc).Perm (ch.enum b'.groupAggrs.keys) := hc.sort_perm _ _
    have hi' := hperm.mem_iff.mp hi
    have hj' := hperm.mem_iff.mp hj
    rw [← Bool.not_eq_true, hless j hj' i hi'] at hlt
    have e1 : keysOf b'.groupKeys i = s := by unfold keysOf; rw [hs'.1]
    have e2 : keysOf b'.groupKeys j = t := by unfold keysOf; rw [ht'.1]
    rw [e1, e2] at hlt
    exact hlt

/-- C36 (descending) as far as it holds: sorted strictly descending when different groups are strictly
ordered, for a sorter that never needs to compare a group with itself. Missing: groups that compare equal, and
sorters relying on a strict weak order (see `C36_descending_fails`). -/
theorem C36_descending_partial (E : Env V F) (b b' : Aggr V F) (hs : Started E b) (hg : b.groupBys ≠ [])
    (rows : List (List (Option V))) (h : feed E b rows = some b') (ch : Choice) (hc : Lawful ch) (hsort : SortsDistinct ch)
    (P : Option V → Prop) (ho : CmpOrder E P) (hP : ∀ r ∈ rows, ∀ v ∈ r.take b.groupBys.length, P v)
    (htot : ∀ r ∈ rows, ∀ s ∈ rows, LexLt E (r.take b.groupBys.length) (s.take b.groupBys.length) ∨
      r.take b.groupBys.length = s.take b.groupBys.length ∨ LexLt E (s.take b.groupBys.length) (r.take b.groupBys.length)) :
    ∃ (tuples : List (List (Option V))) (outs : List (List (Cell V F))),
      b'.finalize E ch .desc = some { columns := b.columns, rows := outs } ∧
      Pairwise2 (fun t out => ∃ aggs, out = t.map Cell.ofAny ++ aggs ∧ aggs.length = b.args.length) tuples outs ∧
      (∀ t ∈ tuples, t.length = b.groupBys.length) ∧
      tuples.Pairwise (fun s t => LexLt E t s) := by
  have hf := started_fresh hs
  obtain ⟨outs, h1, h2, h3, h4⟩ := grouped_result hf hg rows h ch hc .desc
  obtain ⟨ts, t1, t2⟩ := tuples_of_keys h4
  have hacc := (C30_accepted E b hs hg rows).mp ⟨b', h⟩
  have hlen : ∀ r ∈ rows, (r.take b.groupBys.length).length = b.groupBys.length := by
    intro r hr; rw [List.length_take, (hacc r hr).1, hf.good.cols]; omega
  have hperm : (b'.orderedKeys E ch .desc).Perm (ch.enum b'.groupAggrs.keys) := hc.sort_perm _ _
  have hkeys : ∀ k ∈ ch.enum b'.groupAggrs.keys, ∃ r ∈ rows, keysOf b'.groupKeys k = r.take b.groupBys.length ∧
      keyOf E b.groupBys.length r = some k := by
    intro k hk
    obtain ⟨t, _, hkt, r, hr, e, hkr⟩ := pairwise2_left t1 k (hperm.mem_iff.mpr hk)
    exact ⟨r, hr, by unfold keysOf; rw [hkt, e], hkr⟩
  have hless : ∀ i ∈ ch.enum b'.groupAggrs.keys, ∀ j ∈ ch.enum b'.groupAggrs.keys, i ≠ j →
      (lessDesc E (keysOf b'.groupKeys i) (keysOf b'.groupKeys j) = true ↔
        LexLt E (keysOf b'.groupKeys j) (keysOf b'.groupKeys i)) := by
    intro i hi j hj hij
    obtain ⟨r, hr, er, kr⟩ := hkeys i hi
    obtain ⟨s, hs', es, ks⟩ := hkeys j hj
    rw [er, es]
    unfold lessDesc lessAsc
    rw [hlen r hr, hlen s hs', if_neg (by omega), if_neg (by omega)]
    rw [Bool.not_eq_true', ← Bool.not_eq_true, lessKeys_iff ho _ _ (hP r hr) (hP s hs')]
    constructor
    · intro hn
      rcases htot r hr s hs' with h | h | h
      · exact absurd h hn
      · exfalso; apply hij
        have : keyOf E b.groupBys.length r = keyOf E b.groupBys.length s := by unfold keyOf; rw [h]
        rw [kr, ks] at this; simpa using this
      · exact h
    · intro hl; exact lexLt_asymm ho (hP s hs') (hP r hr) hl
  have hnd : (ch.enum b'.groupAggrs.keys).Nodup := (hperm.nodup_iff).mp h2
  have htrans : ∀ r ∈ rows, ∀ s ∈ rows, ∀ q ∈ rows, LexLt E (r.take b.groupBys.length) (s.take b.groupBys.length) →
      LexLt E (s.take b.groupBys.length) (q.take b.groupBys.length) → LexLt E (r.take b.groupBys.length) (q.take b.groupBys.length) := by
    intro r hr s hs' q hq a1 a2
    rcases htot r hr q hq with h | h | h
    · exact h
    · rw [h] at a1; exact absurd a2 (lexLt_asymm ho (hP q hq) (hP s hs') a1)
    · exfalso
      -- q < r, so not r < q; with not s < r and not q < s: a contradiction by negative transitivity
      have n1 := lexLt_asymm ho (hP r hr) (hP s hs') a1
      have n2 := lexLt_asymm ho (hP s hs') (hP q hq) a2
      exact lexLt_negtrans ho (hP q hq) (hP s hs') (hP r hr) (by rw [hlen q hq, hlen s hs']) (by rw [hlen s hs', hlen r hr]) n2 n1 h
  have hsorted := hsort (fun i j => lessDesc E (keysOf b'.groupKeys i) (keysOf b'.groupKeys j)) (ch.enum b'.groupAggrs.keys) hnd
    (by
      intro i hi j hj hij
      have e1 := hless i hi j hj hij
      have e2 := hless j hj i hi (Ne.symm hij)
      obtain ⟨r, hr, er, kr⟩ := hkeys i hi
      obtain ⟨s, hs', es, ks⟩ := hkeys j hj
      rw [er, es] at e1 e2
      rw [er, es, Bool.eq_iff_iff, Bool.not_eq_true', ← Bool.not_eq_true, e1, e2]
      constructor
      · intro hl; exact lexLt_asymm ho (hP s hs') (hP r hr) hl
      · intro hn
        rcases htot r hr s hs' with h | h | h
        · exact absurd h hn
        · exfalso; apply hij
          have : keyOf E b.groupBys.length r = keyOf E b.groupBys.length s := by unfold keyOf; rw [h]
          rw [kr, ks] at this; simpa using this
        · exact h)
    (by
      intro i hi j hj k hk hij hjk hik a1 a2
      rw [hless i hi j hj hij] at a1
      rw [hless j hj k hk hjk] at a2
      rw [hless i hi k hk hik]
      obtain ⟨r, hr, er, kr⟩ := hkeys i hi
      obtain ⟨s, hs', es, ks⟩ := hkeys j hj
      obtain ⟨q, hq, eq, kq⟩ := hkeys k hk
      rw [er, es] at a1
      rw [es, eq] at a2
      rw [er, eq]
      exact htrans q hq s hs' r hr a2 a1)
  refine ⟨ts, outs, h1, t2, ?_, ?_⟩
  · intro t ht
    obtain ⟨k, _, _, r, hr, e, _⟩ := pairwise2_right t1 t ht
    rw [e, hlen r hr]
  · have hsorted' : (b'.orderedKeys E ch .desc).Pairwise (fun i j => i ≠ j ∧ lessDesc E (keysOf b'.groupKeys i) (keysOf b'.groupKeys j) = true) :=
      List.Pairwise.and h2 hsorted
    refine pairwise2_pairwise t1 hsorted' ?_
    intro i j s t hi hj hs' ht' hlt
    have hi' := hperm.mem_iff.mp hi
    have hj' := hperm.mem_iff.mp hj
    have := (hless i hi' j hj' hlt.1).mp hlt.2
    have e1 : keysOf b'.groupKeys i = s := by unfold keysOf; rw [hs'.1]
    have e2 : keysOf b'.groupKeys j = t := by unfold keysOf; rw [ht'.1]
    rw [e1, e2] at this
    exact this

/-- A sorter that sorts under every strict weak order, and leaves the list alone when the comparison puts an
element before itself. -/
def exSorter : Choice where
  enum := id
  sort f l := if l.any (fun i => f i i) then l else (l.attach.mergeSort (fun i j => !f j.1 i.1)).map (·.1)

theorem exSorter_lawful : Lawful exSorter where
  enum_perm _ := .refl _
  sort_perm f l := by
    simp only [exSorter]
    split
    · exact .refl _
    · have := (List.mergeSort_perm l.attach (fun i j => !f j.1 i.1)).map (·.1)
      rwa [List.attach_map_subtype_val] at this
  sort_local f g l h := by
    have h1 : l.any (fun i => f i i) = l.any (fun i => g i i) := by
      rw [Bool.eq_iff_iff, List.any_eq_true, List.any_eq_true]
      constructor
      · rintro ⟨x, hx, e⟩; exact ⟨x, hx, by rw [← h x hx x hx]; exact e⟩
      · rintro ⟨x, hx, e⟩; exact ⟨x, hx, by rw [h x hx x hx]; exact e⟩
    have h2 : (fun (i j : {x // x ∈ l}) => !f j.1 i.1) = (fun i j => !g j.1 i.1) := by
      funext i j; rw [h j.1 j.2 i.1 i.2]
    simp only [exSorter]
    rw [h1, h2]

theorem exSorter_sorts : SortsWeak exSorter := by
  intro f l hasym hneg
  have hirr : l.any (fun i => f i i) = false := by
    rw [← Bool.not_eq_true, List.any_eq_true]
    rintro ⟨x, hx, e⟩
    have := hasym x hx x hx e
    rw [this] at e; cases e
  simp only [exSorter, hirr]
  rw [if_neg (by simp), List.pairwise_map]
  have := List.pairwise_mergeSort (le := fun (i j : {x // x ∈ l}) => !f j.1 i.1)
    (by
      intro a b c h1 h2
      simp only [Bool.not_eq_true'] at h1 h2 ⊢
      exact hneg c.1 c.2 b.1 b.2 a.1 a.2 h2 h1)
    (by
      intro a b
      cases hab : f b.1 a.1 with
      | false => simp
      | true => simp [hasym b.1 b.2 a.1 a.2 hab]) l.attach
  exact this.imp (fun h => by simpa using h)

/-- A number read from a value, for the order of the example. -/
def IsNum (v : Option ExV) : Prop := ∃ i, v = some (.n i)

theorem exEnv_cmp : CmpOrder exEnv IsNum where
  tri := by
    rintro a b ⟨i, rfl⟩ ⟨j, rfl⟩
    simp only [exEnv]
    by_cases h1 : i < j
    · simp [h1]
    · by_cases h2 : j < i <;> simp [h1, h2]
  symm := by
    rintro a b c ⟨i, rfl⟩ ⟨j, rfl⟩ h
    simp only [exEnv] at h ⊢
    by_cases h1 : i < j
    · have : ¬ j < i := by omega
      simp [h1, this] at h ⊢; omega
    · by_cases h2 : j < i
      · simp [h1, h2] at h ⊢; omega
      · simp [h1, h2] at h ⊢; omega
  trans := by
    rintro a b c ⟨i, rfl⟩ ⟨j, rfl⟩ ⟨k, rfl⟩ h1 h2
    simp only [exEnv] at h1 h2 ⊢
    by_cases e1 : j < i
    · have : ¬ i < j := by omega
      simp [e1, this] at h1
    · by_cases e2 : k < j
      · have : ¬ j < k := by omega
        simp [e2, this] at h2
      · have : ¬ k < i := by omega
        by_cases h3 : i < k <;> simp [this, h3]

/-- Rows grouped by a number. -/
def exNumRows : List (List (Option ExV)) := [[some (.n 1), some (.n 5)], [some (.n 2), some (.n 6)]]

/-- C36 (descending) is false in general: with a sorter that keeps every promise of `sort.Slice` (sorted under
every strict weak order), two groups with different comparable numbers come out ascending, because the
comparison given to the sorter puts every group before itself. -/
theorem C36_descending_fails : ∃ (ch : Choice) (b b' : Aggr ExV Nat) (rows : List (List (Option ExV))),
    Lawful ch ∧ SortsWeak ch ∧ Started exEnv b ∧ (∀ r ∈ rows, ∀ v ∈ r.take b.groupBys.length, IsNum v) ∧
    feed exEnv b rows = some b' ∧ LexLt exEnv [some (.n 1)] [some (.n 2)] ∧
    b'.finalize exEnv ch .desc = some { columns := b.columns, rows :=
      [[.val (.n 1), .num 5], [.val (.n 2), .num 6]] } := by
  refine ⟨exSorter, exGrouped, { exGrouped with
      groupKeys := [(s%"1", [some (.n 1)]), (s%"2", [some (.n 2)])]
      groupAggrs := [(s%"1", [5]), (s%"2", [6])]
      groupCounts := [(s%"1", 1), (s%"2", 1)] }, exNumRows, exSorter_lawful, exSorter_sorts,
    .inr ⟨.sum, [.args [s%"x"], .group s%"g"], rfl⟩, ?_, by decide +kernel, .head (by decide), by decide +kernel⟩
  intro r hr v hv
  simp only [exNumRows, List.mem_cons, List.not_mem_nil, or_false] at hr
  rcases hr with rfl | rfl
  · simp [exGrouped] at hv; exact ⟨1, hv⟩
  · simp [exGrouped] at hv; exact ⟨2, hv⟩

example : ∀ r ∈ exNumRows, ∀ v ∈ r.take exGrouped.groupBys.length, IsNum v := by
  intro r hr v hv
  simp only [exNumRows, List.mem_cons, List.not_mem_nil, or_false] at hr
  rcases hr with rfl | rfl
  · simp [exGrouped] at hv; exact ⟨1, hv⟩
  · simp [exGrouped] at hv; exact ⟨2, hv⟩
example : ∀ r ∈ exNumRows, ∀ s ∈ exNumRows, LexLt exEnv (r.take 1) (s.take 1) ∨ r.take 1 = s.take 1 ∨ LexLt exEnv (s.take 1) (r.take 1) := by
  intro r hr s hs
  simp only [exNumRows, List.mem_cons, List.not_mem_nil, or_false] at hr hs
  rcases hr with rfl | rfl <;> rcases hs with rfl | rfl
  · exact .inr (.inl rfl)
  · exact .inl (.head (by decide))
  · exact .inr (.inr (.head (by decide)))
  · exact .inr (.inl rfl)

/-! ### C37, C38 aggregator sets -/

/-- C37, exactly: the rows of the merged result of a set of aggregators (all with the same number of group
columns, fed the same rows) are as wide as its columns if and only if there are no rows or none of the later
aggregators has exactly one column. -/
theorem C37_width_iff (E : Env V F) (a : Aggr V F) (as as' : List (Aggr V F)) (hs : ∀ x ∈ a :: as, Started E x)
    (hn : ∀ x ∈ as, x.groupBys.length = a.groupBys.length) (rows : List (List (Option V)))
    (h : setFeed E (a :: as) rows = some as') (chs : List Choice) (hcl : chs.length = as'.length)
    (hc : ∀ ch ∈ chs, Lawful ch) :
    ∃ rs, setFinalize E (chs.zip as') = .ok rs ∧
      ((∀ row ∈ rs.rows, row.length = rs.columns.length) ↔ rs.rows = [] ∨ ∀ x ∈ as, x.columns.length ≠ 1) := by
  obtain ⟨rss, N, h1, h2⟩ := set_results (a :: as) as' a.groupBys.length (fun x hx => started_fresh (hs x hx))
    (by intro x hx; rcases List.mem_cons.mp hx with rfl | hx; exact rfl; exact hn x hx) rows h chs hcl hc
  cases h2 with
  | @cons _ q _ qs hq hqs =>
    have hcol : ∀ p ∈ qs, p.columns ≠ [] := by
      intro p hp
      obtain ⟨x, hx, e, _⟩ := pairwise2_right hqs p hp
      rw [e]; exact (started_fresh (hs x (by simp [hx]))).ne
    have hl : ∀ p ∈ qs, p.rows.length = q.rows.length := by
      intro p hp
      obtain ⟨x, hx, _, _, e⟩ := pairwise2_right hqs p hp
      rw [e, hq.2.2]
    have hwid : ∀ p ∈ qs, ∀ o ∈ p.rows, o.length = p.columns.length := by
      intro p hp o ho
      obtain ⟨x, hx, e, e2, _⟩ := pairwise2_right hqs p hp
      rw [e]; exact e2 o ho
    have hne : ∀ p ∈ qs, ∀ o ∈ p.rows, o ≠ [] := by
      intro p hp o ho e
      have := hwid p hp o ho
      rw [e] at this
      exact hcol p hp (List.eq_nil_of_length_eq_zero this.symm)
    have hset := setFinalize_eq h1 hcol hl hne
    refine ⟨_, hset, ?_⟩
    simp only
    -- the width of row i
    have hrow : ∀ (i : Nat) (o : List (Cell V F)),
        (qs.foldl (fun acc rs => List.zipWith (fun r x => r ++ later x) acc rs.rows) q.rows)[i]? = some o →
        o.length = (q.columns ++ qs.flatMap (fun q => q.columns.drop 1)).length + (qs.filter (fun q => q.columns.length == 1)).length := by
      intro i o ho
      have hi : i < q.rows.length := by
        have := (List.getElem?_eq_some_iff.mp ho).1
        rwa [mergeFold_length qs q.rows hl] at this
      obtain ⟨parts, p1, p2⟩ := mergeFold_get qs q.rows hl i _ (List.getElem?_eq_getElem hi)
      rw [p2, Option.some.injEq] at ho
      rw [← ho, List.length_append, List.length_append, hq.2.1 _ (List.getElem_mem hi), hq.1]
      have : Pairwise2 (fun (q : ResultSet V F) (p : List (Cell V F)) => p.length = q.columns.length) qs parts := by
        refine pairwise2_imp p1 ?_
        intro p o hp _ hpo
        exact hwid p hp o (List.mem_of_getElem? hpo)
      rw [length_flatMap_later this]; omega
    have hfil : (qs.filter (fun q => q.columns.length == 1)).length = 0 ↔ ∀ x ∈ as, x.columns.length ≠ 1 := by
      rw [List.length_eq_zero_iff, List.filter_eq_nil_iff]
      constructor
      · intro hh x hx e
        obtain ⟨p, hp, ep, _⟩ := pairwise2_left hqs x hx
        exact hh p hp (by rw [ep, e]; rfl)
      · intro hh p hp e
        obtain ⟨x, hx, ep, _⟩ := pairwise2_right hqs p hp
        exact hh x hx (by rw [← ep]; simpa using e)
    constructor
    · intro hall
      by_cases he : qs.foldl (fun acc rs => List.zipWith (fun r x => r ++ later x) acc rs.rows) q.rows = []
      · exact .inl he
      · right
        rw [← hfil]
        obtain ⟨o, ho⟩ := List.exists_mem_of_ne_nil _ he
        obtain ⟨i, hi⟩ := List.getElem?_of_mem ho
        have h1 := hrow i o hi
        have h2 := hall o ho
        omega
    · rintro (he | hh) o ho
      · rw [he] at ho; cases ho
      · obtain ⟨i, hi⟩ := List.getElem?_of_mem ho
        rw [hrow i o hi, hfil.mpr hh]; rfl

/-- C37 as far as it holds: with grouping and at least one argument each, every row of the merged result has
one value per column. Missing: two or more aggregators without grouping (see `C37_fails`). -/
theorem C37_width_partial (E : Env V F) (a : Aggr V F) (as as' : List (Aggr V F)) (hs : ∀ x ∈ a :: as, Started E x)
    (hg : a.groupBys ≠ []) (hn : ∀ x ∈ as, x.groupBys.length = a.groupBys.length) (hargs : ∀ x ∈ as, x.args ≠ [])
    (rows : List (List (Option V))) (h : setFeed E (a :: as) rows = some as') (chs : List Choice)
    (hcl : chs.length = as'.length) (hc : ∀ ch ∈ chs, Lawful ch) :
    ∃ rs, setFinalize E (chs.zip as') = .ok rs ∧ ∀ row ∈ rs.rows, row.length = rs.columns.length := by
  obtain ⟨rs, h1, h2⟩ := C37_width_iff E a as as' hs hn rows h chs hcl hc
  refine ⟨rs, h1, h2.mpr (.inr ?_)⟩
  intro x hx e
  have := (started_fresh (hs x (by simp [hx]))).good.cols
  rw [e, hn x hx] at this
  have h1 : a.groupBys.length ≠ 0 := by simpa using hg
  have h2 : x.args.length ≠ 0 := by simpa using hargs x hx
  omega

/-- Example: a new single-column aggregator. -/
def exOne (k : AggrId) : Aggr ExV Nat :=
  { kind := k, name := k.name, args := [s%"x"], columns := [callText k.name s%"x"], aggrs := [k.init exEnv] }

/-- C37 is false in general: `SUM(x), COUNT(x)` without grouping returns one column and two values. -/
theorem C37_fails : ∃ (as as' : List (Aggr ExV Nat)) (rs : ResultSet ExV Nat), (∀ x ∈ as, Started exEnv x) ∧
    setFeed exEnv as [[some (.n 3)], [some (.n 4)]] = some as' ∧
    setFinalize exEnv ([exChoice, exChoice].zip as') = .ok rs ∧
    rs.columns = [s%"SUM(x)"] ∧ rs.rows = [[.num 7, .num 2]] := by
  refine ⟨[exOne .sum, exOne .count], _, _, ?_, rfl, rfl, by decide, by decide⟩
  intro x hx
  simp only [List.mem_cons, List.not_mem_nil, or_false] at hx
  rcases hx with rfl | rfl
  · exact .inr ⟨.sum, [.args [s%"x"]], rfl⟩
  · exact .inr ⟨.count, [.args [s%"x"]], rfl⟩

/-- C38 as far as it holds: when all aggregators enumerate their groups in the same way, each merged row is
made of the rows of one and the same group key in every aggregator: there is a list of keys such that row `i`
of the merge is the first aggregator's row for key `i` followed by the later aggregators' rows for key `i`
(without their first value, unless it is their only one). Missing: enumeration orders that differ between
aggregators, as Go's map iteration may choose (see `C38_fails`). -/
theorem C38_aligned_partial (E : Env V F) (a : Aggr V F) (as as' : List (Aggr V F)) (hs : ∀ x ∈ a :: as, Started E x)
    (hg : a.groupBys ≠ []) (hn : ∀ x ∈ as, x.groupBys.length = a.groupBys.length) (rows : List (List (Option V)))
    (h : setFeed E (a :: as) rows = some as') (ch : Choice) (hc : Lawful ch) :
    ∃ (rs : ResultSet V F) (keys : List Str), setFinalize E ((List.replicate as'.length ch).zip as') = .ok rs ∧
      keys.Nodup ∧ rs.rows.length = keys.length ∧
      ∀ (i : Nat) (k : Str), keys[i]? = some k → ∃ o parts, rs.rows[i]? = some (o ++ parts.flatMap later) ∧
        Pairwise2 (fun (x : Aggr V F) out => ∃ r rest, rowsWith E a.groupBys.length k rows = r :: rest ∧
          IsGroupRow E x.kind a.groupBys.length x.args.length (r.take a.groupBys.length) (r :: rest) out) (a :: as) (o :: parts) := by
  have hfeed := setFeed_feed rows (a :: as) as' h
  have hlaw : ∀ c ∈ List.replicate as'.length ch, Lawful c := by
    intro c hc'; rw [List.mem_replicate] at hc'; rw [hc'.2]; exact hc
  obtain ⟨rss, N, h1, h2⟩ := set_results (a :: as) as' a.groupBys.length (fun x hx => started_fresh (hs x hx))
    (by intro x hx; rcases List.mem_cons.mp hx with rfl | hx; exact rfl; exact hn x hx) rows h
    (List.replicate as'.length ch) (by simp) hlaw
  -- the keys of the first aggregator
  obtain ⟨a', ha'⟩ : ∃ a', feed E a rows = some a' := by
    cases hfeed with | cons hf _ => exact ⟨_, hf⟩
  have hxg : ∀ x ∈ a :: as, x.groupBys ≠ [] := by
    intro x hx e
    rcases List.mem_cons.mp hx with rfl | hx
    · exact hg e
    · have := hn x hx; rw [e] at this; exact hg (List.eq_nil_of_length_eq_zero this.symm)
  have hxn : ∀ x ∈ a :: as, x.groupBys.length = a.groupBys.length := by
    intro x hx; rcases List.mem_cons.mp hx with rfl | hx
    · rfl
    · exact hn x hx
  have hkeys : ∀ x ∈ a :: as, ∀ x', feed E x rows = some x' → x'.orderedKeys E ch .none = a'.orderedKeys E ch .none := by
    intro x hx x' hxf
    simp only [Aggr.orderedKeys]
    rw [keys_eq (E := E) rows x a x' a' (hxg x hx) (hxn x hx)
      (by rw [(started_fresh (hs x hx)).noAggrs, (started_fresh (hs a (by simp))).noAggrs]) hxf ha']
  -- every result set is, row by row, the rows of these keys
  have hres : Pairwise2 (fun (x : Aggr V F) (q : ResultSet V F) => Pairwise2 (fun k out => ∃ r rest,
      rowsWith E a.groupBys.length k rows = r :: rest ∧
      IsGroupRow E x.kind a.groupBys.length x.args.length (r.take a.groupBys.length) (r :: rest) out)
      (a'.orderedKeys E ch .none) q.rows) (a :: as) rss := by
    have hz := pairwise2_zip hfeed (cs := List.replicate as'.length ch) (by simp) (fun c => c = ch)
      (by intro c hc'; rw [List.mem_replicate] at hc'; exact hc'.2)
    have hz' : Pairwise2 (fun x (p : Choice × Aggr V F) => x ∈ a :: as ∧ feed E x rows = some p.2 ∧ p.1 = ch) (a :: as)
        ((List.replicate as'.length ch).zip as') := pairwise2_imp hz (fun x p hx _ hr => ⟨hx, hr⟩)
    obtain ⟨rss', f1, f2⟩ := finalizeAll_some (E := E) ((List.replicate as'.length ch).zip as') (by
      intro p hp
      obtain ⟨x, hx, _, hxp, hch⟩ := pairwise2_right hz' p hp
      obtain ⟨outs, h1, _⟩ := finalize_shape (started_fresh (hs x hx)) rows hxp p.1 (by rw [hch]; exact hc) .none
      exact ⟨_, h1⟩)
    rw [h1, Option.some.injEq] at f1
    subst f1
    refine pairwise2_trans hz' f2 ?_
    rintro x ⟨c, x'⟩ q ⟨hx, hxf, hch⟩ hq
    simp only at hch hq hxf
    subst hch
    obtain ⟨outs, g1, _, _, g4⟩ := finalize_shape (started_fresh (hs x hx)) rows hxf c hc .none
    rw [g1, Option.some.injEq] at hq
    subst hq
    have := g4 (hxg x hx)
    rw [hkeys x hx x' hxf, hxn x hx] at this
    exact this
  obtain ⟨_, k1, k2, _, _⟩ := grouped_result (started_fresh (hs a (by simp))) hg rows ha' ch hc .none
  cases h2 with
  | @cons _ q _ qs hq hqs =>
    cases hres with
    | cons hr0 hrs =>
      have hcol : ∀ p ∈ qs, p.columns ≠ [] := by
        intro p hp
        obtain ⟨x, hx, e, _⟩ := pairwise2_right hqs p hp
        rw [e]; exact (started_fresh (hs x (by simp [hx]))).ne
      have hl : ∀ p ∈ qs, p.rows.length = q.rows.length := by
        intro p hp
        obtain ⟨x, hx, _, _, e⟩ := pairwise2_right hqs p hp
        rw [e, hq.2.2]
      have hne : ∀ p ∈ qs, ∀ o ∈ p.rows, o ≠ [] := by
        intro p hp o ho e
        obtain ⟨x, hx, ec, e2, _⟩ := pairwise2_right hqs p hp
        have := e2 o ho
        rw [e] at this
        exact (started_fresh (hs x (by simp [hx]))).ne (List.eq_nil_of_length_eq_zero this.symm)
      have hset := setFinalize_eq h1 hcol hl hne
      refine ⟨_, a'.orderedKeys E ch .none, hset, k2, ?_, ?_⟩
      · simp only
        rw [mergeFold_length qs q.rows hl, pairwise2_length hr0]
      · intro i k hk
        have hget : ∀ (x : Aggr V F) (p : ResultSet V F) (o : List (Cell V F)), Pairwise2 (fun k out => ∃ r rest,
            rowsWith E a.groupBys.length k rows = r :: rest ∧
            IsGroupRow E x.kind a.groupBys.length x.args.length (r.take a.groupBys.length) (r :: rest) out)
            (a'.orderedKeys E ch .none) p.rows → p.rows[i]? = some o → ∃ r rest,
            rowsWith E a.groupBys.length k rows = r :: rest ∧
            IsGroupRow E x.kind a.groupBys.length x.args.length (r.take a.groupBys.length) (r :: rest) o := by
          intro x p o hp ho
          generalize a'.orderedKeys E ch .none = ks at hp hk
          generalize p.rows = os at hp ho
          clear hset h1 hl
          induction hp generalizing i with
          | nil => simp at hk
          | cons hr _ ih =>
            cases i with
            | zero => simp at hk ho; subst hk ho; exact hr
            | succ i => exact ih i (by simpa using hk) (by simpa using ho)
        have hi : i < q.rows.length := by
          rw [← pairwise2_length hr0]
          exact (List.getElem?_eq_some_iff.mp hk).1
        obtain ⟨parts, p1, p2⟩ := mergeFold_get qs q.rows hl i _ (List.getElem?_eq_getElem hi)
        refine ⟨_, parts, p2, .cons (hget a q _ hr0 (List.getElem?_eq_getElem hi)) ?_⟩
        exact pairwise2_trans hrs p1 (fun x p o hp ho => hget x p o hp ho)

/-- Keys in reverse insertion order. -/
def exReverse : Choice := ⟨List.reverse, fun _ l => l⟩

theorem exReverse_lawful : Lawful exReverse := ⟨fun _ => List.reverse_perm _, fun _ _ => .refl _, fun _ _ _ _ => rfl⟩

/-- Example: COUNT grouped by one column. -/
def exGroupedCount : Aggr ExV Nat :=
  { kind := .count, name := s%"COUNT", args := [s%"x"], groupBys := [s%"g"], columns := [s%"g", s%"COUNT(x)"], aggrs := [0, 0] }

/-- C38 is false in general: when the two aggregators' maps enumerate the groups in different orders (both are
allowed), group `u` with SUM 7 is paired with the COUNT of group `v`. -/
theorem C38_fails : ∃ (as as' : List (Aggr ExV Nat)) (rs : ResultSet ExV Nat), (∀ x ∈ as, Started exEnv x) ∧
    Lawful exChoice ∧ Lawful exReverse ∧
    setFeed exEnv as exGroupRows = some as' ∧
    setFinalize exEnv ([exChoice, exReverse].zip as') = .ok rs ∧
    rs.columns = [s%"g", s%"SUM(x)", s%"COUNT(x)"] ∧
    rs.rows = [[.val (.t s%"u"), .num 7, .num 1], [.val (.t s%"v"), .num 2, .num 2]] := by
  refine ⟨[exGrouped, exGroupedCount], _, _, ?_, exChoice_lawful, exReverse_lawful, rfl, rfl, by decide, by decide⟩
  intro x hx
  simp only [List.mem_cons, List.not_mem_nil, or_false] at hx
  rcases hx with rfl | rfl
  · exact .inr ⟨.sum, [.args [s%"x"], .group s%"g"], rfl⟩
  · exact .inr ⟨.count, [.args [s%"x"], .group s%"g"], rfl⟩

example : ∃ as', setFeed exEnv [exGrouped, exGroupedCount] exGroupRows = some as' ∧ as'.length = 2 := ⟨_, rfl, rfl⟩

end Verif.Props
