import Verif.Lemmas.AggrOrder
/-! C26–C35: aggregates without and with grouping. -/
namespace Verif.Props
open Verif Verif.Fn Verif.Spec Verif.Lemmas
variable {V F : Type}

/-! ### A concrete environment for the examples: texts and natural numbers, 1000 as the largest "finite" number -/

/-- Example values. -/
inductive ExV | t (s : Str) | n (i : Nat)
  deriving DecidableEq, Repr

/-- Example environment. -/
def exEnv : Env ExV Nat where
  zero := 0
  add := (· + ·)
  div := (· / ·)
  lt a b := decide (a < b)
  ofNat n := n
  maxFloat := 1000
  negInf := 0
  toFloat | .n i => some i | .t _ => none
  toText | some (.t s) => some s | some (.n i) => some (Str.ofNat i) | none => some []
  cmp | some (.n i), some (.n j) => some (if i < j then -1 else if j < i then 1 else 0) | _, _ => none

/-- Keys in insertion order, sorting by nothing. -/
def exChoice : Choice := ⟨id, fun _ l => l⟩

theorem exChoice_lawful : Lawful exChoice := ⟨fun _ => .refl _, fun _ _ => .refl _, fun _ _ _ _ => rfl⟩

theorem exEnv_linear : Linear exEnv := by
  constructor
  · intro a; simp [exEnv]
  · intro a b c; simp only [exEnv, decide_eq_true_eq]; omega
  · intro a b; simp only [exEnv, decide_eq_true_eq]; omega

/-! ### C26 SUM, C27 AVG, C29 COUNT -/

/-- C26: SUM without grouping: after a construction or `Reset` and any accepted rows, `Finalize` returns one
row, which holds in each column the sum of the numbers of that column. -/
theorem C26_sum (E : Env V F) (b b' : Aggr V F) (hs : Started E b) (hk : b.kind = .sum) (hg : b.groupBys = [])
    (rows : List (List (Option V))) (h : feed E b rows = some b') (ch : Choice) (ob : OrderBy) :
    ∃ m row, Pairwise2 (Nums E) rows m ∧ b'.finalize E ch ob = some { columns := b.columns, rows := [row] } ∧
      row.length = b.columns.length ∧ ∀ j, j < b.columns.length → row[j]? = some (.num (sumOf E (column j m))) := by
  have hf := started_fresh hs
  obtain ⟨m, hm, _⟩ := feed_ungrouped rows b b' hg hf.good.aggrs h
  obtain ⟨row, h1, h2, h3⟩ := ungrouped_result hf hg rows h ch ob m hm
  rw [hk] at h3
  exact ⟨m, row, hm, h1, h2, h3⟩

/-- C26: which rows are accepted without grouping: those with one value per column, every value nil or a
number. -/
theorem C26_accepted (E : Env V F) (b : Aggr V F) (hs : Started E b) (hg : b.groupBys = [])
    (rows : List (List (Option V))) :
    (∃ b', feed E b rows = some b') ↔ ∀ r ∈ rows, r.length = b.columns.length ∧ ∃ ns, Nums E r ns := by
  have hf := started_fresh hs
  constructor
  · rintro ⟨b', h⟩
    obtain ⟨m, hm, hw, _⟩ := feed_ungrouped rows b b' hg hf.good.aggrs h
    intro r hr
    obtain ⟨x, hx, hrx⟩ := pairwise2_left hm r hr
    exact ⟨by rw [nums_length hrx, hw x hx], x, hrx⟩
  · exact feed_ungrouped_ok rows b hg hf.good.aggrs

/-- C27: AVG without grouping: the sum divided by the number of rows in each column, null when there were no
rows. -/
theorem C27_avg (E : Env V F) (b b' : Aggr V F) (hs : Started E b) (hk : b.kind = .avg) (hg : b.groupBys = [])
    (rows : List (List (Option V))) (h : feed E b rows = some b') (ch : Choice) (ob : OrderBy) :
    ∃ m row, Pairwise2 (Nums E) rows m ∧ b'.finalize E ch ob = some { columns := b.columns, rows := [row] } ∧
      row.length = b.columns.length ∧ ∀ j, j < b.columns.length → row[j]? = some
        (if rows = [] then .nil else .num (E.div (sumOf E (column j m)) (E.ofNat rows.length))) := by
  have hf := started_fresh hs
  obtain ⟨m, hm, hw, _⟩ := feed_ungrouped rows b b' hg hf.good.aggrs h
  obtain ⟨row, h1, h2, h3⟩ := ungrouped_result hf hg rows h ch ob m hm
  refine ⟨m, row, hm, h1, h2, fun j hj => ?_⟩
  rw [h3 j hj, hk]
  have hl := column_length m _ j hj hw
  have hrm := pairwise2_length hm
  congr 1
  cases hc : column j m with
  | nil =>
    rw [hc] at hl
    have : rows = [] := by
      apply List.eq_nil_of_length_eq_zero; rw [hrm, ← hl]; rfl
    rw [if_pos this]; rfl
  | cons x xs =>
    rw [hc] at hl
    have : rows ≠ [] := by
      intro e; rw [e] at hrm; rw [← hrm] at hl; simp at hl
    rw [if_neg this, hrm, ← hl]; rfl

/-- C29: COUNT without grouping: the number of rows, in every column. -/
theorem C29_count (E : Env V F) (b b' : Aggr V F) (hs : Started E b) (hk : b.kind = .count) (hg : b.groupBys = [])
    (rows : List (List (Option V))) (h : feed E b rows = some b') (ch : Choice) (ob : OrderBy) :
    ∃ row, b'.finalize E ch ob = some { columns := b.columns, rows := [row] } ∧ row.length = b.columns.length ∧
      ∀ j, j < b.columns.length → row[j]? = some (.num (E.ofNat rows.length)) := by
  have hf := started_fresh hs
  obtain ⟨m, hm, hw, _⟩ := feed_ungrouped rows b b' hg hf.good.aggrs h
  obtain ⟨row, h1, h2, h3⟩ := ungrouped_result hf hg rows h ch ob m hm
  refine ⟨row, h1, h2, fun j hj => ?_⟩
  rw [h3 j hj, hk]
  simp only [aggValue]
  rw [column_length m _ j hj hw, pairwise2_length hm]

/-! ### C28 MIN and MAX -/

/-- C28 (MAX): over numbers in a linear order with minus infinity below all of them, MAX is one of the
aggregated numbers and none is larger. -/
theorem C28_max (E : Env V F) (hl : Linear E) (hb : ∀ x, E.lt x E.negInf = false) (b b' : Aggr V F)
    (hs : Started E b) (hk : b.kind = .max) (hg : b.groupBys = [])
    (rows : List (List (Option V))) (hne : rows ≠ []) (h : feed E b rows = some b') (ch : Choice) (ob : OrderBy) :
    ∃ m row, Pairwise2 (Nums E) rows m ∧ b'.finalize E ch ob = some { columns := b.columns, rows := [row] } ∧
      row.length = b.columns.length ∧
      ∀ j, j < b.columns.length → ∃ x, row[j]? = some (.num x) ∧ IsMax E x (column j m) := by
  have hf := started_fresh hs
  obtain ⟨m, hm, hw, _⟩ := feed_ungrouped rows b b' hg hf.good.aggrs h
  obtain ⟨row, h1, h2, h3⟩ := ungrouped_result hf hg rows h ch ob m hm
  refine ⟨m, row, hm, h1, h2, fun j hj => ?_⟩
  have hcl := column_length m _ j hj hw
  cases hc : column j m with
  | nil =>
    rw [hc, ← pairwise2_length hm] at hcl
    exact absurd (List.eq_nil_of_length_eq_zero hcl.symm) hne
  | cons v vs =>
    refine ⟨(v :: vs).foldl (larger E) E.negInf, ?_, ?_⟩
    · rw [h3 j hj, hc, hk]; rfl
    · obtain ⟨a1, a2, a3⟩ := larger_fold hl (v :: vs) E.negInf
      refine ⟨?_, a3⟩
      rcases a1 with a1 | a1
      · have hv := a3 v (by simp)
        rcases hl.total v E.negInf with h | h | h
        · rw [hb v] at h; cases h
        · rw [a1, ← h]; simp
        · rw [a1] at hv; rw [hv] at h; cases h
      · exact a1

/-- C28 (MIN), exactly: MIN is the minimum of the aggregated numbers if and only if one of them is not above
the largest finite number. -/
theorem C28_min_iff (E : Env V F) (hl : Linear E) (b b' : Aggr V F)
    (hs : Started E b) (hk : b.kind = .min) (hg : b.groupBys = [])
    (rows : List (List (Option V))) (hne : rows ≠ []) (h : feed E b rows = some b') (ch : Choice) (ob : OrderBy) :
    ∃ m row, Pairwise2 (Nums E) rows m ∧ b'.finalize E ch ob = some { columns := b.columns, rows := [row] } ∧
      row.length = b.columns.length ∧
      ∀ j, j < b.columns.length → ∃ x, row[j]? = some (.num x) ∧
        (IsMin E x (column j m) ↔ ∃ y ∈ column j m, E.lt E.maxFloat y = false) := by
  have hf := started_fresh hs
  obtain ⟨m, hm, hw, _⟩ := feed_ungrouped rows b b' hg hf.good.aggrs h
  obtain ⟨row, h1, h2, h3⟩ := ungrouped_result hf hg rows h ch ob m hm
  refine ⟨m, row, hm, h1, h2, fun j hj => ?_⟩
  have hcl := column_length m _ j hj hw
  cases hc : column j m with
  | nil =>
    rw [hc, ← pairwise2_length hm] at hcl
    exact absurd (List.eq_nil_of_length_eq_zero hcl.symm) hne
  | cons v vs =>
    refine ⟨(v :: vs).foldl (smaller E) E.maxFloat, ?_, ?_⟩
    · rw [h3 j hj, hc, hk]; rfl
    · obtain ⟨a1, a2, a3⟩ := smaller_fold hl (v :: vs) E.maxFloat
      constructor
      · rintro ⟨hx, _⟩; exact ⟨_, hx, a2⟩
      · rintro ⟨y, hy, hym⟩
        refine ⟨?_, a3⟩
        rcases a1 with a1 | a1
        · have hv := a3 y hy
          rw [a1] at hv
          rcases hl.total y E.maxFloat with h | h | h
          · rw [hv] at h; cases h
          · rw [a1, ← h]; exact hy
          · rw [hym] at h; cases h
        · exact a1

/-- C28 (MIN) as far as it holds: when some aggregated number is not above the largest finite number, MIN is
one of the numbers and none is smaller. Missing: columns holding only numbers above it (plus infinity). -/
theorem C28_min_partial (E : Env V F) (hl : Linear E) (b b' : Aggr V F)
    (hs : Started E b) (hk : b.kind = .min) (hg : b.groupBys = [])
    (rows : List (List (Option V))) (hne : rows ≠ []) (h : feed E b rows = some b') (ch : Choice) (ob : OrderBy) :
    ∃ m row, Pairwise2 (Nums E) rows m ∧ b'.finalize E ch ob = some { columns := b.columns, rows := [row] } ∧
      ∀ j, j < b.columns.length → (∃ y ∈ column j m, E.lt E.maxFloat y = false) →
        ∃ x, row[j]? = some (.num x) ∧ IsMin E x (column j m) := by
  obtain ⟨m, row, h1, h2, _, h4⟩ := C28_min_iff E hl b b' hs hk hg rows hne h ch ob
  refine ⟨m, row, h1, h2, fun j hj hy => ?_⟩
  obtain ⟨x, hx, hi⟩ := h4 j hj
  exact ⟨x, hx, hi.mpr hy⟩

/-- C28 (MIN) is false in general: for any number above the largest finite one (plus infinity), MIN of that
single value is the largest finite number instead. -/
theorem C28_min_fails (E : Env V F) (v : V) (f : F) (hv : E.toFloat v = some f) (hlt : E.lt f E.maxFloat = false)
    (hne : f ≠ E.maxFloat) (ch : Choice) (ob : OrderBy) :
    ∃ b b', newAggr E .min [.args [s%"x"]] = some b ∧ feed E b [[some v]] = some b' ∧
      b'.finalize E ch ob = some { columns := [s%"MIN(x)"], rows := [[.num E.maxFloat]] } ∧
      ¬ IsMin E E.maxFloat [f] := by
  refine ⟨{ kind := .min, name := s%"MIN", args := [s%"x"], columns := [s%"MIN(x)"], aggrs := [E.maxFloat] },
    { kind := .min, name := s%"MIN", args := [s%"x"], columns := [s%"MIN(x)"], aggrs := [E.maxFloat], counts := 1 },
    rfl, ?_, rfl, ?_⟩
  · simp [feed, Aggr.aggregateRow, accumulate, toFloat64, hv, AggrId.step, hlt]
  · rintro ⟨h, _⟩; simp at h; exact hne h.symm

/-- Example: a new SUM, AVG, COUNT, MIN or MAX over two columns. -/
def exTwo (k : AggrId) : Aggr ExV Nat :=
  { kind := k, name := k.name, args := [s%"x", s%"y"], columns := [callText k.name s%"x", callText k.name s%"y"],
    aggrs := [k.init exEnv, k.init exEnv] }

/-- Rows for the examples. -/
def exRows : List (List (Option ExV)) := [[some (.n 3), some (.n 7)], [none, some (.n 2)], [some (.n 4), some (.n 1)]]

example (k : AggrId) : Started exEnv (exTwo k) := .inr ⟨k, [.args [s%"x", s%"y"]], rfl⟩

example : feed exEnv (exTwo .sum) exRows = some { exTwo .sum with aggrs := [7, 10], counts := 3 } := by decide
example : feed exEnv (exTwo .avg) exRows = some { exTwo .avg with aggrs := [7, 10], counts := 3 } := by decide
example : feed exEnv (exTwo .count) exRows = some { exTwo .count with aggrs := [0, 0], counts := 3 } := by decide
example : feed exEnv (exTwo .max) exRows = some { exTwo .max with aggrs := [4, 7], counts := 3 } := by decide
example : feed exEnv (exTwo .min) exRows = some { exTwo .min with aggrs := [0, 1], counts := 3 } := by decide
example : exRows ≠ [] ∧ ∀ x, exEnv.lt x exEnv.negInf = false := by
  refine ⟨by decide, fun x => ?_⟩
  simp [exEnv]
example : exEnv.toFloat (.n 2000) = some 2000 ∧ exEnv.lt 2000 exEnv.maxFloat = false ∧ (2000 : Nat) ≠ exEnv.maxFloat := by decide

/-! ### C30 GROUP BY, C31 distinct tuples -/

/-- C30, for any group values: `Finalize` returns one row per distinct key text (the texts of the group
values joined with commas), and each row is the group values of the first row with that key followed by the
aggregates of exactly the rows with that key, whatever order the groups are enumerated in. -/
theorem C30_per_key (E : Env V F) (b b' : Aggr V F) (hs : Started E b) (hg : b.groupBys ≠ [])
    (rows : List (List (Option V))) (h : feed E b rows = some b') (ch : Choice) (hc : Lawful ch) (ob : OrderBy) :
    ∃ (keys : List Str) (outs : List (List (Cell V F))),
      b'.finalize E ch ob = some { columns := b.columns, rows := outs } ∧ keys.Nodup ∧
      (∀ k, k ∈ keys ↔ ∃ r ∈ rows, ∃ ts, Texts E (r.take b.groupBys.length) ts ∧ k = Str.join s%"," ts) ∧
      Pairwise2 (fun k out => ∃ (p : List (Option V) → Bool) (r : _) (rest : _),
        (∀ r, p r = true ↔ ∃ ts, Texts E (r.take b.groupBys.length) ts ∧ k = Str.join s%"," ts) ∧
        rows.filter p = r :: rest ∧
        IsGroupRow E b.kind b.groupBys.length b.args.length (r.take b.groupBys.length) (r :: rest) out) keys outs := by
  obtain ⟨outs, h1, h2, h3, h4⟩ := grouped_result (started_fresh hs) hg rows h ch hc ob
  refine ⟨_, outs, h1, h2, ?_, ?_⟩
  · intro k
    rw [h3]
    constructor
    · rintro ⟨r, hr, hk⟩; exact ⟨r, hr, (keyOf_iff E _ r k).mp hk⟩
    · rintro ⟨r, hr, hk⟩; exact ⟨r, hr, (keyOf_iff E _ r k).mpr hk⟩
  · refine pairwise2_imp h4 ?_
    rintro k out _ _ ⟨r, rest, a1, _, a2⟩
    refine ⟨fun r => keyOf E b.groupBys.length r == some k, r, rest, ?_, a1, a2⟩
    intro r
    rw [← keyOf_iff]
    simp

/-- C30 as far as it holds: when the texts of the group values tell them apart and (with two or more group
columns) have no commas, `Finalize` returns exactly one row per distinct group value tuple, holding the
tuple and the aggregates of exactly the rows with that tuple, whatever order the groups are enumerated in.
Missing: group values whose texts contain commas or coincide (see `C31_fails`). -/
theorem C30_group_by_partial [DecidableEq V] (E : Env V F) (b b' : Aggr V F) (hs : Started E b) (hg : b.groupBys ≠ [])
    (rows : List (List (Option V))) (h : feed E b rows = some b') (ht : TextsFaithful E b.groupBys.length rows)
    (ch : Choice) (hc : Lawful ch) (ob : OrderBy) :
    ∃ (tuples : List (List (Option V))) (outs : List (List (Cell V F))),
      b'.finalize E ch ob = some { columns := b.columns, rows := outs } ∧ tuples.Nodup ∧
      (∀ t, t ∈ tuples ↔ ∃ r ∈ rows, r.take b.groupBys.length = t) ∧
      Pairwise2 (fun t out => IsGroupRow E b.kind b.groupBys.length b.args.length t
        (rowsOf b.groupBys.length t rows) out) tuples outs := by
  obtain ⟨ts, outs, h1, h2, h3, h4, _⟩ := grouped_tuples (started_fresh hs) hg rows h ht ch hc ob
  exact ⟨ts, outs, h1, h2, h3, h4⟩

/-- C30: which rows are accepted with grouping: those with one value per column, convertible group values
and nil or numeric arguments. -/
theorem C30_accepted (E : Env V F) (b : Aggr V F) (hs : Started E b) (hg : b.groupBys ≠ [])
    (rows : List (List (Option V))) :
    (∃ b', feed E b rows = some b') ↔ ∀ r ∈ rows, r.length = b.columns.length ∧
      (∃ ts, Texts E (r.take b.groupBys.length) ts) ∧ ∃ ns, Nums E (r.drop b.groupBys.length) ns := by
  have hf := started_fresh hs
  have hn : b.groupBys.length ≠ 0 := by simpa using hg
  constructor
  · rintro ⟨b', h⟩ r hr
    obtain ⟨a1, ⟨k, a2⟩, a3⟩ := (feed_grouped hf.good.cols hn rows [] b b' (ginv_fresh hf) h).2 r hr
    obtain ⟨ts, hts, _⟩ := (keyOf_iff E _ r k).mp a2
    exact ⟨a1, ⟨ts, hts⟩, a3⟩
  · intro h
    refine feed_grouped_ok hf.good.cols hn rows [] b (ginv_fresh hf) ?_
    intro r hr
    obtain ⟨a1, ⟨ts, a2⟩, a3⟩ := h r hr
    exact ⟨a1, ⟨_, (keyOf_iff E _ r _).mpr ⟨ts, a2, rfl⟩⟩, a3⟩

/-- C31 as far as it holds: under the same condition on the texts, two rows with different group values end
up in two different result rows, each starting with its own values. -/
theorem C31_distinct_partial [DecidableEq V] (E : Env V F) (b b' : Aggr V F) (hs : Started E b) (hg : b.groupBys ≠ [])
    (rows : List (List (Option V))) (h : feed E b rows = some b') (ht : TextsFaithful E b.groupBys.length rows)
    (ch : Choice) (hc : Lawful ch) (ob : OrderBy) (r s : List (Option V)) (hr : r ∈ rows) (hs' : s ∈ rows)
    (hne : r.take b.groupBys.length ≠ s.take b.groupBys.length) :
    ∃ (rs : ResultSet V F) (i j : Nat) (o p : List (Cell V F)), b'.finalize E ch ob = some rs ∧ i ≠ j ∧
      rs.rows[i]? = some o ∧ rs.rows[j]? = some p ∧
      o.take b.groupBys.length = (r.take b.groupBys.length).map Cell.ofAny ∧
      p.take b.groupBys.length = (s.take b.groupBys.length).map Cell.ofAny := by
  obtain ⟨ts, outs, h1, h2, h3, h4⟩ := C30_group_by_partial E b b' hs hg rows h ht ch hc ob
  have hlen : ∀ x ∈ rows, (x.take b.groupBys.length).length = b.groupBys.length := by
    intro x hx
    have := ((C30_accepted E b hs hg rows).mp ⟨b', h⟩ x hx).1
    rw [List.length_take, this, (started_fresh hs).good.cols]; omega
  have key : ∀ x ∈ rows, ∃ (i : Nat) (o : _), ts[i]? = some (x.take b.groupBys.length) ∧ outs[i]? = some o ∧
      o.take b.groupBys.length = (x.take b.groupBys.length).map Cell.ofAny := by
    intro x hx
    obtain ⟨i, hi⟩ := List.getElem?_of_mem ((h3 _).mpr ⟨x, hx, rfl⟩)
    have hp : ∀ (ts : List (List (Option V))) (outs : List (List (Cell V F))) (i : Nat) (t : List (Option V)),
        Pairwise2 (fun t out => IsGroupRow E b.kind b.groupBys.length b.args.length t
          (rowsOf b.groupBys.length t rows) out) ts outs → ts[i]? = some t →
        ∃ o, outs[i]? = some o ∧ ∃ rs, IsGroupRow E b.kind b.groupBys.length b.args.length t rs o := by
      intro ts outs i t hpw
      induction hpw generalizing i with
      | nil => simp
      | cons hr _ ih =>
        cases i with
        | zero => intro e; simp at e; subst e; exact ⟨_, rfl, _, hr⟩
        | succ i => intro e; exact ih i (by simpa using e)
    obtain ⟨o, ho, rs, _, aggs, _, hoe, _⟩ := hp ts outs i _ h4 hi
    refine ⟨i, o, hi, ho, ?_⟩
    rw [hoe]
    exact List.take_left' (by rw [List.length_map]; exact hlen x hx)
  obtain ⟨i, o, a1, a2, a3⟩ := key r hr
  obtain ⟨j, p, b1, b2, b3⟩ := key s hs'
  refine ⟨_, i, j, o, p, h1, ?_, a2, b2, a3, b3⟩
  intro e; subst e
  rw [a1] at b1
  exact hne (by simpa using b1)

/-- C31 (and with it C30 and C34) is false in general: the tuples (`a,b`, `c`) and (`a`, `b,c`) are merged
into one group, and which tuple the result shows depends on the row order. -/
theorem C31_fails : ∃ (b : Aggr ExV Nat) (r s : List (Option ExV)), Started exEnv b ∧
    r.take b.groupBys.length ≠ s.take b.groupBys.length ∧
    (∃ b', feed exEnv b [r, s] = some b' ∧ b'.finalize exEnv exChoice .none = some { columns := b.columns, rows :=
      [[.val (.t s%"a,b"), .val (.t s%"c"), .num 3]] }) ∧
    (∃ b', feed exEnv b [s, r] = some b' ∧ b'.finalize exEnv exChoice .none = some { columns := b.columns, rows :=
      [[.val (.t s%"a"), .val (.t s%"b,c"), .num 3]] }) := by
  refine ⟨⟨.sum, s%"SUM", [s%"x"], [s%"g", s%"h", s%"SUM(x)"], [0, 0, 0], 0, [s%"g", s%"h"], [], [], []⟩, [some (.t s%"a,b"), some (.t s%"c"), some (.n 1)], [some (.t s%"a"), some (.t s%"b,c"), some (.n 2)],
    .inr ⟨.sum, [.args [s%"x"], .groupBys [s%"g", s%"h"]], rfl⟩, by decide, ⟨_, rfl, by decide⟩, ⟨_, rfl, by decide⟩⟩

/-- Example: SUM grouped by one column. -/
def exGrouped : Aggr ExV Nat :=
  { kind := .sum, name := s%"SUM", args := [s%"x"], groupBys := [s%"g"], columns := [s%"g", s%"SUM(x)"], aggrs := [0, 0] }

/-- Rows for the grouped examples. -/
def exGroupRows : List (List (Option ExV)) :=
  [[some (.t s%"u"), some (.n 3)], [some (.t s%"v"), some (.n 2)], [some (.t s%"u"), some (.n 4)]]

example : Started exEnv exGrouped ∧ exGrouped.groupBys ≠ [] := ⟨.inr ⟨.sum, [.args [s%"x"], .group s%"g"], rfl⟩, by decide⟩
example : ∃ b', feed exEnv exGrouped exGroupRows = some b' ∧ b'.finalize exEnv exChoice .none =
    some { columns := [s%"g", s%"SUM(x)"], rows := [[.val (.t s%"u"), .num 7], [.val (.t s%"v"), .num 2]] } :=
  ⟨_, rfl, by decide⟩
example : TextsFaithful exEnv exGrouped.groupBys.length exGroupRows := by
  refine ⟨?_, .inl rfl⟩
  decide +revert

/-! ### C32 Reset -/

/-- C32: after a successful `Reset`, every further history of calls returns the same as on any newly started
aggregator of the same kind, name, arguments and group columns (whatever happened before the reset). -/
theorem C32_reset (E : Env V F) (a b c : Aggr V F) (os : List AggrOpt) (hb : a.reset E os = (b, true)) (hc : Started E c)
    (hk : b.kind = c.kind) (hn : b.name = c.name) (ha : b.args = c.args) (hg : b.groupBys = c.groupBys)
    (cs : List (AggrCall V)) (hl : ∀ ch ob, .finalize ch ob ∈ cs → Lawful ch) :
    (b.calls E cs).2 = (c.calls E cs).2 :=
  same_calls (same_fresh (fresh_of_reset hb) (started_fresh hc) hk hn ha hg) cs hl

/-- C32: `Reset` without options succeeds on every started aggregator after every history of aggregations and
finalisations, and keeps its kind, name, arguments and group columns. -/
theorem C32_reset_keeps (E : Env V F) (c : Aggr V F) (hc : Started E c) (cs : List (AggrCall V))
    (hno : ∀ os, .reset os ∉ cs) :
    ∃ b, (c.calls E cs).1.reset E [] = (b, true) ∧ b.kind = c.kind ∧ b.name = c.name ∧ b.args = c.args ∧
      b.groupBys = c.groupBys := by
  have hkeep : ∀ (cs : List (AggrCall V)) (a : Aggr V F), (∀ os, .reset os ∉ cs) →
      (a.calls E cs).1.kind = a.kind ∧ (a.calls E cs).1.name = a.name ∧ (a.calls E cs).1.args = a.args ∧
      (a.calls E cs).1.groupBys = a.groupBys := by
    intro cs
    induction cs with
    | nil => intro a _; exact ⟨rfl, rfl, rfl, rfl⟩
    | cons x cs ih =>
      intro a hno
      have hno' : ∀ os, .reset os ∉ cs := fun os h => hno os (by simp [h])
      cases x with
      | reset os => exact absurd (by simp) (hno os)
      | finalize ch ob => exact ih a hno'
      | aggregate v =>
        obtain ⟨h1, h2, h3, h4⟩ := ih (a.aggregate E v).1 hno'
        have hrow : ∀ r, (a.aggregateRow E r).1.kind = a.kind ∧ (a.aggregateRow E r).1.name = a.name ∧
            (a.aggregateRow E r).1.args = a.args ∧ (a.aggregateRow E r).1.groupBys = a.groupBys := by
          intro r
          have hens : ∀ key vals, (a.ensureGroup E key vals).kind = a.kind ∧ (a.ensureGroup E key vals).name = a.name ∧
              (a.ensureGroup E key vals).args = a.args ∧ (a.ensureGroup E key vals).groupBys = a.groupBys := by
            intro key vals; unfold Aggr.ensureGroup; split <;> exact ⟨rfl, rfl, rfl, rfl⟩
          unfold Aggr.aggregateRow
          split
          · exact ⟨rfl, rfl, rfl, rfl⟩
          split
          · simp only
            split
            · exact ⟨rfl, rfl, rfl, rfl⟩
            split
            · exact ⟨rfl, rfl, rfl, rfl⟩
            · split
              · exact hens _ _
              · split <;> exact hens _ _
          · simp only
            split <;> exact ⟨rfl, rfl, rfl, rfl⟩
        have hagg : (a.aggregate E v).1.kind = a.kind ∧ (a.aggregate E v).1.name = a.name ∧
            (a.aggregate E v).1.args = a.args ∧ (a.aggregate E v).1.groupBys = a.groupBys := by
          cases v with
          | row r => exact hrow r
          | map m =>
            simp only [Aggr.aggregate, Aggr.aggregateMap]
            split
            · exact ⟨rfl, rfl, rfl, rfl⟩
            · exact hrow _
          | other => exact ⟨rfl, rfl, rfl, rfl⟩
        exact ⟨h1.trans hagg.1, h2.trans hagg.2.1, h3.trans hagg.2.2.1, h4.trans hagg.2.2.2⟩
  obtain ⟨h1, h2, h3, h4⟩ := hkeep cs c hno
  generalize (c.calls E cs).1 = d at *
  have hf := started_fresh hc
  have hne : ¬ (d.groupBys ++ d.args.map (callText d.name)).length = 0 := by
    rw [h2, h3, h4, ← hf.cols]; simpa using hf.ne
  have hr : d.reset E [] = d.resetCore E := rfl
  have hcore : (d.resetCore E).2 = true ∧ (d.resetCore E).1.kind = d.kind ∧ (d.resetCore E).1.name = d.name ∧
      (d.resetCore E).1.args = d.args ∧ (d.resetCore E).1.groupBys = d.groupBys := by
    unfold Aggr.resetCore
    simp only
    rw [if_neg hne]
    exact ⟨rfl, rfl, rfl, rfl, rfl⟩
  obtain ⟨c1, c2, c3, c4, c5⟩ := hcore
  exact ⟨(d.resetCore E).1, by rw [hr, ← c1], c2.trans h1, c3.trans h2, c4.trans h3, c5.trans h4⟩

example : ({ exGrouped with
      groupKeys := [(s%"old", [some (.t s%"old")])]
      groupAggrs := [(s%"old", [9])]
      groupCounts := [(s%"old", 4)] } : Aggr ExV Nat).reset exEnv [] =
    ({ exGrouped with groupKeys := [(s%"old", [some (.t s%"old")])] }, true) := by decide

/-! ### C35 Finalize -/

/-- The calls other than `Finalize`. -/
def notFinalize : AggrCall V → Bool
  | .finalize _ _ => false
  | _ => true

/-- What the other calls returned. -/
def notFinalized : AggrOut V F → Bool
  | .finalized _ => false
  | _ => true

/-- C35: leaving all `Finalize` calls out of any history of calls changes neither the state reached nor what
the other calls return. -/
theorem C35_finalize_pure (E : Env V F) (a : Aggr V F) (cs : List (AggrCall V)) :
    (a.calls E cs).1 = (a.calls E (cs.filter notFinalize)).1 ∧
    (a.calls E cs).2.filter notFinalized = (a.calls E (cs.filter notFinalize)).2 := by
  induction cs generalizing a with
  | nil => exact ⟨rfl, rfl⟩
  | cons x cs ih =>
    cases x with
    | finalize ch ob => exact ih a
    | aggregate v =>
      obtain ⟨h1, h2⟩ := ih (a.aggregate E v).1
      exact ⟨h1, congrArg (AggrOut.aggregated (a.aggregate E v).2 :: ·) h2⟩
    | reset os =>
      obtain ⟨h1, h2⟩ := ih (a.reset E os).1
      exact ⟨h1, congrArg (AggrOut.reset (a.reset E os).2 :: ·) h2⟩

end Verif.Props
