import Verif.Props.GroupKeys
/-! C30, C34: exactly when groups are the groups of the values. -/
namespace Verif.Props
open Verif Verif.Fn Verif.Spec Verif.Lemmas

variable {V F : Type}

theorem ofAny_map_inj {a b : List (Option V)} (h : a.map (Cell.ofAny (F := F)) = b.map Cell.ofAny) : a = b := by
  refine (List.map_inj_right ?_).mp h
  intro x y hxy
  cases x <;> cases y <;> simp_all [Cell.ofAny]

/-- Every result row shows the group values of the first row with its key, and every row has such a result row. -/
theorem shown {E : Env V F} {b b' : Aggr V F} (hf : Fresh E b) (hg : b.groupBys ≠ []) {rows : List (List (Option V))}
    (h : feed E b rows = some b') {ch : Choice} (hc : Lawful ch) {ob : OrderBy} {outs : List (List (Cell V F))}
    (ho : b'.finalize E ch ob = some { columns := b.columns, rows := outs }) :
    (∀ out, out ∈ outs → ∃ k x rest, rowsWith E b.groupBys.length k rows = x :: rest ∧
      out.take b.groupBys.length = (x.take b.groupBys.length).map Cell.ofAny) ∧
    ∀ k x rest, rowsWith E b.groupBys.length k rows = x :: rest → ∃ out, out ∈ outs ∧
      out.take b.groupBys.length = (x.take b.groupBys.length).map Cell.ofAny := by
  obtain ⟨outs', h1, h2, h3, h4⟩ := grouped_result hf hg rows h ch hc ob
  rw [ho] at h1
  cases h1
  have hn : b.groupBys.length ≠ 0 := by simpa using hg
  have hi := (feed_grouped hf.good.cols hn rows [] b b' (ginv_fresh hf) h).1
  rw [List.nil_append] at hi
  have hin : ∀ k x rest, rowsWith E b.groupBys.length k rows = x :: rest → x ∈ rows ∧ keyOf E b.groupBys.length x = some k := by
    intro k x rest hR
    have hm : x ∈ rowsWith E b.groupBys.length k rows := by rw [hR]; simp
    obtain ⟨hr, hk⟩ := List.mem_filter.mp hm
    exact ⟨hr, by simpa using hk⟩
  have hrow : ∀ k x rest out, rowsWith E b.groupBys.length k rows = x :: rest →
      IsGroupRow E b.kind b.groupBys.length b.args.length (x.take b.groupBys.length) (x :: rest) out →
      out.take b.groupBys.length = (x.take b.groupBys.length).map Cell.ofAny := by
    rintro k x rest out hR ⟨m, aggs, -, rfl, -, -⟩
    have hl : (x.take b.groupBys.length).length = b.groupBys.length := by
      have := hi.len x (hin k x rest hR).1
      rw [hf.good.cols] at this
      rw [List.length_take]; omega
    rw [List.take_append_of_le_length (by rw [List.length_map, hl]; exact Nat.le_refl _)]
    rw [List.take_of_length_le (by rw [List.length_map, hl]; exact Nat.le_refl _)]
  constructor
  · intro out hm
    obtain ⟨k, hk, x, rest, hR, -, hg⟩ := pairwise2_right h4 out hm
    exact ⟨k, x, rest, hR, hrow k x rest out hR hg⟩
  · intro k x rest hR
    obtain ⟨hx, hkx⟩ := hin k x rest hR
    obtain ⟨out, hm, x', rest', hR', -, hg⟩ := pairwise2_left h4 k ((h3 k).mpr ⟨x, hx, hkx⟩)
    rw [hR] at hR'; cases hR'
    exact ⟨out, hm, hrow k x rest out hR hg⟩

/-- Group values that are shown belong to the first row with their key. -/
theorem shown_first {E : Env V F} {b b' : Aggr V F} (hf : Fresh E b) (hg : b.groupBys ≠ []) {rows : List (List (Option V))}
    (h : feed E b rows = some b') {ch : Choice} (hc : Lawful ch) {ob : OrderBy} {outs : List (List (Cell V F))}
    (ho : b'.finalize E ch ob = some { columns := b.columns, rows := outs }) {out : List (Cell V F)} (hm : out ∈ outs)
    {t : List (Option V)} (he : out.take b.groupBys.length = t.map Cell.ofAny) {k : Str} (hk : groupKey E t = some k) :
    ∃ x rest, rowsWith E b.groupBys.length k rows = x :: rest ∧ x.take b.groupBys.length = t := by
  obtain ⟨k', x, rest, hR, hx⟩ := (shown hf hg h hc ho).1 out hm
  have hxt : x.take b.groupBys.length = t := ofAny_map_inj (F := F) (hx.symm.trans he)
  have hmx : x ∈ rowsWith E b.groupBys.length k' rows := by rw [hR]; simp
  have hkx : keyOf E b.groupBys.length x = some k' := by simpa using (List.mem_filter.mp hmx).2
  rw [keyOf, hxt, hk] at hkx
  cases hkx
  exact ⟨x, rest, hR, hxt⟩

/-- C30, exactly: `Finalize` returns one row per distinct tuple of group values, with the aggregates of exactly the rows
with that tuple, if and only if different tuples among the rows have different texts joined with commas. -/
theorem C30_iff [DecidableEq V] (E : Env V F) (b b' : Aggr V F) (hs : Started E b) (hg : b.groupBys ≠ [])
    (rows : List (List (Option V))) (h : feed E b rows = some b') (ch : Choice) (hc : Lawful ch) (ob : OrderBy) :
    (∃ (tuples : List (List (Option V))) (outs : List (List (Cell V F))),
      b'.finalize E ch ob = some { columns := b.columns, rows := outs } ∧ tuples.Nodup ∧
      (∀ t, t ∈ tuples ↔ ∃ r ∈ rows, r.take b.groupBys.length = t) ∧
      Pairwise2 (fun t out => IsGroupRow E b.kind b.groupBys.length b.args.length t
        (rowsOf b.groupBys.length t rows) out) tuples outs) ↔ KeysApart E b.groupBys.length rows := by
  have hf := started_fresh hs
  constructor
  · rintro ⟨tuples, outs, h1, -, h3, h4⟩ r hr s hs' ts us ht hu he
    have hn : b.groupBys.length ≠ 0 := by simpa using hg
    have hi := (feed_grouped hf.good.cols hn rows [] b b' (ginv_fresh hf) h).1
    rw [List.nil_append] at hi
    have key : ∀ r ∈ rows, ∀ ts, Texts E (r.take b.groupBys.length) ts → ∃ x rest, rowsWith E b.groupBys.length (Str.join s%"," ts) rows = x :: rest ∧
        x.take b.groupBys.length = r.take b.groupBys.length := by
      intro r hr ts ht
      obtain ⟨out, hm, m, aggs, -, rfl, -, -⟩ := pairwise2_left h4 _ ((h3 _).mpr ⟨r, hr, rfl⟩)
      refine shown_first hf hg h hc h1 hm ?_ ((keyOf_iff E _ r _).mpr ⟨ts, ht, rfl⟩)
      have hl : (r.take b.groupBys.length).length = b.groupBys.length := by
        have := hi.len r hr
        rw [hf.good.cols] at this
        rw [List.length_take]; omega
      rw [List.take_append_of_le_length (by rw [List.length_map, hl]; exact Nat.le_refl _)]
      rw [List.take_of_length_le (by rw [List.length_map, hl]; exact Nat.le_refl _)]
    obtain ⟨x, rest, e1, e2⟩ := key r hr ts ht
    obtain ⟨y, rest', e3, e4⟩ := key s hs' us hu
    rw [← he, e1] at e3
    cases e3
    rw [← e2, ← e4]
  · intro ha
    obtain ⟨ts, outs, h1, h2, h3, h4, _⟩ := apart_tuples hf hg rows h ha ch hc ob
    exact ⟨ts, outs, h1, h2, h3, h4⟩

/-- Commas in the texts do no harm as long as the joined texts differ. -/
def commaRows : List (List (Option ExV)) := [[some (.t s%"a,b"), some (.t s%"c"), some (.n 1)], [some (.t s%"a"), some (.t s%"c"), some (.n 2)]]

/-- An aggregator with two group columns. -/
def commaAggr : Aggr ExV Nat := ⟨.sum, s%"SUM", [s%"x"], [s%"g", s%"h", s%"SUM(x)"], [0, 0, 0], 0, [s%"g", s%"h"], [], [], []⟩

theorem commaAggr_started : Started exEnv commaAggr := .inr ⟨.sum, [.args [s%"x"], .groupBys [s%"g", s%"h"]], rfl⟩

theorem commaRows_apart : KeysApart exEnv 2 commaRows := by
  intro r hr s hs ts us ht hu he
  have h1 : Texts exEnv ([some (.t s%"a,b"), some (.t s%"c")] : List (Option ExV)) [s%"a,b", s%"c"] := .cons rfl (.cons rfl .nil)
  have h2 : Texts exEnv ([some (.t s%"a"), some (.t s%"c")] : List (Option ExV)) [s%"a", s%"c"] := .cons rfl (.cons rfl .nil)
  simp only [commaRows, List.mem_cons, List.not_mem_nil, or_false] at hr hs
  rcases hr with rfl | rfl <;> rcases hs with rfl | rfl
  · rfl
  · rw [texts_unique ht h1, texts_unique hu h2] at he; revert he; decide
  · rw [texts_unique ht h2, texts_unique hu h1] at he; revert he; decide
  · rfl

example : ∃ b', feed exEnv commaAggr commaRows = some b' ∧ ∃ (tuples : List (List (Option ExV))) (outs : List (List (Cell ExV Nat))),
    b'.finalize exEnv exChoice .none = some { columns := commaAggr.columns, rows := outs } ∧ tuples.Nodup ∧
    (∀ t, t ∈ tuples ↔ ∃ r ∈ commaRows, r.take 2 = t) ∧
    Pairwise2 (fun t out => IsGroupRow exEnv .sum 2 1 t (rowsOf 2 t commaRows) out) tuples outs :=
  ⟨_, rfl, (C30_iff exEnv commaAggr _ commaAggr_started (by decide) commaRows rfl exChoice exChoice_lawful .none).mpr commaRows_apart⟩

/-- C34, exactly, with grouping: every order of the rows gives the same result rows up to their order if and only if
different tuples of group values among the rows have different texts joined with commas. -/
theorem C34_iff [DecidableEq V] (E : Env V F) (ha : ∀ a b c, E.add (E.add a b) c = E.add a (E.add b c))
    (hcomm : ∀ a b, E.add a b = E.add b a) (hl : Linear E) (b b' : Aggr V F) (hs : Started E b) (hg : b.groupBys ≠ [])
    (rows : List (List (Option V))) (h : feed E b rows = some b') :
    (∀ rows', rows.Perm rows' → ∃ c', feed E b rows' = some c' ∧ ∀ ch ch' ob ob', Lawful ch → Lawful ch' → ∃ rs rs',
      b'.finalize E ch ob = some rs ∧ c'.finalize E ch' ob' = some rs' ∧ rs.columns = rs'.columns ∧
      rs.rows.Perm rs'.rows) ↔ KeysApart E b.groupBys.length rows := by
  have hf := started_fresh hs
  constructor
  · intro hall r hr s hs' ts us ht hu he
    let ch : Choice := ⟨id, fun _ l => l⟩
    have hch : Lawful ch := ⟨fun l => .refl l, fun _ l => .refl l, fun _ _ _ _ => rfl⟩
    -- whatever row with this key: its group values are those of the first
    have key : ∀ y ∈ rows, ∀ ts, Texts E (y.take b.groupBys.length) ts → ∃ x rest, rowsWith E b.groupBys.length (Str.join s%"," ts) rows = x :: rest ∧
        x.take b.groupBys.length = y.take b.groupBys.length := by
      intro y hy ts ht
      have hk : keyOf E b.groupBys.length y = some (Str.join s%"," ts) := (keyOf_iff E _ y _).mpr ⟨ts, ht, rfl⟩
      obtain ⟨c', hc', hfin⟩ := hall (y :: rows.erase y) (List.perm_cons_erase hy)
      obtain ⟨rs, rs', f1, f2, -, hp⟩ := hfin ch ch .none .none hch hch
      obtain ⟨o1, g1, -⟩ := grouped_result hf hg rows h ch hch .none
      obtain ⟨o2, g2, -⟩ := grouped_result hf hg _ hc' ch hch .none
      rw [f1] at g1; cases g1
      rw [f2] at g2; cases g2
      obtain ⟨out, hm, ho⟩ := (shown hf hg hc' hch f2).2 (Str.join s%"," ts) y (rowsWith E b.groupBys.length (Str.join s%"," ts) (rows.erase y)) (by
        rw [rowsWith, List.filter_cons, if_pos (by simp [hk])]; rfl)
      exact shown_first hf hg h hch f1 (hp.mem_iff.mpr hm) ho hk
    obtain ⟨x, rest, e1, e2⟩ := key r hr ts ht
    obtain ⟨y, rest', e3, e4⟩ := key s hs' us hu
    rw [← he, e1] at e3
    cases e3
    rw [← e2, ← e4]
  · intro hk rows' hp
    have hacc := (C30_accepted E b hs hg rows).mp ⟨b', h⟩
    obtain ⟨c', hc'⟩ := (C30_accepted E b hs hg rows').mpr (fun r hr => hacc r (hp.mem_iff.mpr hr))
    refine ⟨c', hc', ?_⟩
    intro ch ch' ob ob' hch hch'
    have hk' : KeysApart E b.groupBys.length rows' := fun r hr s hs => hk r (hp.mem_iff.mpr hr) s (hp.mem_iff.mpr hs)
    obtain ⟨ts, outs, h1, h2, h3, h4, -⟩ := apart_tuples hf hg rows h hk ch hch ob
    obtain ⟨ts', outs', k1, k2, k3, k4, -⟩ := apart_tuples hf hg rows' hc' hk' ch' hch' ob'
    refine ⟨_, _, h1, k1, rfl, ?_⟩
    simp only
    have hts : ts.Perm ts' := by
      rw [List.perm_ext_iff_of_nodup h2 k2]
      intro t; rw [h3, k3]
      constructor
      · rintro ⟨r, hr, e⟩; exact ⟨r, hp.mem_iff.mp hr, e⟩
      · rintro ⟨r, hr, e⟩; exact ⟨r, hp.mem_iff.mpr hr, e⟩
    obtain ⟨outs'', p, q⟩ := pairwise2_perm h4 hts
    have : outs'' = outs' := by
      clear p h1 k1 hts k2 k3 h2 h3 h4
      induction q generalizing outs' with
      | nil => cases k4; rfl
      | cons hr _ ih =>
        cases k4 with
        | cons hr' k4 =>
          rw [ih _ k4]
          congr 1
          exact isGroupRow_perm ha hcomm hl (hp.filter _) hr hr'
    rw [← this]; exact p

example : ∃ b', feed exEnv commaAggr commaRows = some b' ∧ ∀ rows', commaRows.Perm rows' → ∃ c', feed exEnv commaAggr rows' = some c' ∧
    ∀ ch ch' ob ob', Lawful ch → Lawful ch' → ∃ rs rs', b'.finalize exEnv ch ob = some rs ∧ c'.finalize exEnv ch' ob' = some rs' ∧
      rs.columns = rs'.columns ∧ rs.rows.Perm rs'.rows :=
  ⟨_, rfl, (C34_iff exEnv Nat.add_assoc Nat.add_comm exEnv_linear commaAggr _ commaAggr_started (by decide) commaRows rfl).mpr commaRows_apart⟩

end Verif.Props
