import Verif.Spec.AliasRow
import Verif.Lemmas.GoMap
/-! Lemmas on aggregators that hold references to their group values. -/
namespace Verif.AliasRow
open Verif Verif.Fn Verif.Spec

section
variable {V F : Type}

theorem map_set {α β : Type} (f : α → β) (m : GoMap Str α) (k : Str) (v : α) :
    (m.set k v).map (fun e => (e.1, f e.2)) = GoMap.set (m.map (fun e => (e.1, f e.2))) k (f v) := by
  induction m with
  | nil => rfl
  | cons e m ih =>
    simp only [GoMap.set, List.map_cons]
    split
    · rfl
    · simp only [List.map_cons, ih]

theorem mem_set {α : Type} (m : GoMap Str α) (k : Str) (v : α) (e : Str × α) (h : e ∈ m.set k v) : e ∈ m ∨ e.2 = v := by
  induction m with
  | nil =>
    simp only [GoMap.set, List.mem_singleton] at h
    exact .inr (by rw [h])
  | cons x m ih =>
    simp only [GoMap.set] at h
    split at h
    · rcases List.mem_cons.mp h with h | h
      · exact .inr (by rw [h])
      · exact .inl (.tail _ h)
    · rcases List.mem_cons.mp h with h | h
      · exact .inl (h ▸ .head _)
      · rcases ih h with h | h
        · exact .inl (.tail _ h)
        · exact .inr h

/-- What `AggregateRow` does to the group values. -/
theorem aggregateRow_keys (E : Env V F) (a : Aggr V F) (row : List (Option V)) :
    (a.aggregateRow E row).1.groupKeys =
      if a.columns.length ≠ row.length ∨ a.groupBys.length = 0 ∨ row.length < a.groupBys.length then a.groupKeys
      else match groupKey E (row.take a.groupBys.length) with
        | none => a.groupKeys
        | some key => if (a.groupAggrs.get? key).isSome then a.groupKeys
          else a.groupKeys.set key (row.take a.groupBys.length) := by
  unfold Aggr.aggregateRow
  by_cases h1 : a.columns.length = row.length
  · rw [if_neg (by simpa using h1)]
    by_cases h2 : a.groupBys.length = 0
    · rw [if_neg (by simpa using h2), if_pos (.inr (.inl h2))]
      simp only
      split <;> rfl
    · rw [if_pos h2]
      simp only
      by_cases h3 : row.length < a.groupBys.length
      · rw [if_pos h3, if_pos (.inr (.inr h3))]
      · rw [if_neg h3, if_neg (by simp [h1, h2, h3])]
        cases hk : groupKey E (row.take a.groupBys.length) with
        | none => rfl
        | some key =>
          simp only
          have he : (a.ensureGroup E key (row.take a.groupBys.length)).groupKeys =
              if (a.groupAggrs.get? key).isSome then a.groupKeys else a.groupKeys.set key (row.take a.groupBys.length) := by
            unfold Aggr.ensureGroup
            cases a.groupAggrs.get? key <;> rfl
          rw [← he]
          split
          · rfl
          · split <;> rfl
  · rw [if_pos (by simpa using h1), if_pos (.inl h1)]

theorem applyOpt_keys (a : Aggr V F) (o : AggrOpt) : (a.applyOpt o).1.groupKeys = a.groupKeys := by
  unfold Aggr.applyOpt
  cases o <;> simp only <;> first | rfl | (split <;> rfl)

theorem applyOpts_keys (os : List AggrOpt) (a : Aggr V F) : (a.applyOpts os).1.groupKeys = a.groupKeys := by
  induction os generalizing a with
  | nil => rfl
  | cons o os ih =>
    unfold Aggr.applyOpts
    simp only
    split
    · rw [ih, applyOpt_keys]
    · exact applyOpt_keys a o

theorem resetCore_keys (E : Env V F) (a : Aggr V F) : (a.resetCore E).1.groupKeys = a.groupKeys := by
  unfold Aggr.resetCore
  simp only
  split <;> rfl

theorem reset_keys (E : Env V F) (a : Aggr V F) (os : List AggrOpt) : (a.reset E os).1.groupKeys = a.groupKeys := by
  unfold Aggr.reset
  simp only
  split
  · rw [resetCore_keys, applyOpts_keys]
  · exact applyOpts_keys os a

theorem newAggr_keys (E : Env V F) (k : AggrId) (os : List AggrOpt) (a : Aggr V F) (h : newAggr E k os = some a) :
    a.groupKeys = [] := by
  unfold newAggr at h
  simp only at h
  split at h
  · split at h
    · injection h with h
      rw [← h, resetCore_keys, applyOpts_keys]
    · exact absurd h (by simp)
  · exact absurd h (by simp)

/-- `keep` agrees with the value model when the reference reads as the row's beginning. -/
theorem keep_read {β : Type} (E : Env V F) (s : RAggr V F) (row : List (Option V)) (ref : KeyRef V) (f : KeyRef V → β)
    (g : List (Option V) → β) (hr : s.refs.map (fun e => (e.1, f e.2)) = s.core.groupKeys.map (fun e => (e.1, g e.2)))
    (hf : s.core.groupBys.length ≤ row.length → s.core.groupBys.length ≠ 0 → f ref = g (row.take s.core.groupBys.length)) :
    (s.keep E row ref).map (fun e => (e.1, f e.2)) =
      (s.core.aggregateRow E row).1.groupKeys.map (fun e => (e.1, g e.2)) := by
  rw [aggregateRow_keys]
  unfold RAggr.keep
  split
  · exact hr
  · rename_i h
    cases groupKey E (row.take s.core.groupBys.length) with
    | none => exact hr
    | some key =>
      simp only
      split
      · exact hr
      · rw [map_set, map_set, hr, hf (Nat.le_of_not_lt fun c => h (.inr (.inr c))) (fun c => h (.inr (.inl c)))]

theorem keep_mem (E : Env V F) (s : RAggr V F) (row : List (Option V)) (ref : KeyRef V) (e : Str × KeyRef V)
    (h : e ∈ s.keep E row ref) : e ∈ s.refs ∨ (e.2 = ref ∧ row ≠ []) := by
  unfold RAggr.keep at h
  split at h
  · exact .inl h
  · rename_i hn
    have hne : row ≠ [] := by
      intro c
      rw [c] at hn
      simp only [List.length_nil] at hn
      by_cases h0 : s.core.groupBys.length = 0
      · exact hn (.inr (.inl h0))
      · exact hn (.inr (.inr (by omega)))
    split at h
    · exact .inl h
    · split at h
      · exact .inl h
      · rcases mem_set _ _ _ _ h with h | h
        · exact .inl h
        · exact .inr ⟨h, hne⟩

/-- The aggregator holds what the value model holds, in rows that were passed. -/
def Inv (m : Rows V) (used : List Nat) (s : RAggr V F) : Prop :=
  s.read m = s.core ∧ ∀ e ∈ s.refs, ∀ p n, e.2 = .shared p n → p ∈ used ∧ p < m.length

theorem read_eq {m : Rows V} {s : RAggr V F} :
    s.read m = s.core ↔ s.refs.map (fun e => (e.1, e.2.read m)) = s.core.groupKeys := by
  constructor
  · intro h
    have := congrArg Aggr.groupKeys h
    exact this
  · intro h
    unfold RAggr.read
    rw [h]

theorem map_pair_id {α : Type} (l : List (Str × α)) : l.map (fun e => (e.1, e.2)) = l := by
  induction l with
  | nil => rfl
  | cons e l ih => rw [List.map_cons, ih]

theorem Inv.row {m : Rows V} {used : List Nat} {s : RAggr V F} (E : Env V F) (h : Inv m used s) (p : Nat) :
    Inv m (p :: used) (s.aggregateRow E m p).1 := by
  refine ⟨read_eq.mpr ?_, ?_⟩
  · have := keep_read E s ((m[p]?).getD []) (.shared p s.core.groupBys.length) (fun r => r.read m) (fun x => x)
      (by rw [map_pair_id]; exact read_eq.mp h.1) (fun _ _ => rfl)
    rw [map_pair_id] at this
    exact this
  · intro e he q n hq
    rcases keep_mem E s _ _ e he with h' | ⟨h', hne⟩
    · exact ⟨.tail _ (h.2 e h' q n hq).1, (h.2 e h' q n hq).2⟩
    · rw [hq] at h'
      injection h' with h1 h2
      subst h1
      refine ⟨.head _, ?_⟩
      by_cases c : q < m.length
      · exact c
      · rw [List.getElem?_eq_none (Nat.le_of_not_lt c)] at hne
        exact absurd rfl hne

theorem Inv.map {m : Rows V} {used : List Nat} {s : RAggr V F} (E : Env V F) (h : Inv m used s) (o : GoMap Str (Option V)) :
    Inv m used (s.aggregateMap E o).1 := by
  unfold RAggr.aggregateMap
  split
  · exact h
  · rename_i row _
    refine ⟨read_eq.mpr ?_, ?_⟩
    · have := keep_read E s row (.own (row.take s.core.groupBys.length)) (fun r => r.read m) (fun x => x)
        (by rw [map_pair_id]; exact read_eq.mp h.1) (fun _ _ => rfl)
      rw [map_pair_id] at this
      exact this
    · intro e he q n hq
      rcases keep_mem E s _ _ e he with h' | ⟨h', _⟩
      · exact h.2 e h' q n hq
      · rw [hq] at h'; cases h'

theorem aggregateMap_core (E : Env V F) (s : RAggr V F) (o : GoMap Str (Option V)) :
    (s.aggregateMap E o).1.core = (s.core.aggregateMap E o).1 ∧ (s.aggregateMap E o).2 = (s.core.aggregateMap E o).2 := by
  unfold RAggr.aggregateMap Aggr.aggregateMap
  cases mapRow o s.core.args <;> exact ⟨rfl, rfl⟩

theorem Inv.reset {m : Rows V} {used : List Nat} {s : RAggr V F} (E : Env V F) (h : Inv m used s) (os : List AggrOpt) :
    Inv m used { s with core := (s.core.reset E os).1 } := by
  refine ⟨read_eq.mpr ?_, h.2⟩
  rw [reset_keys]
  exact read_eq.mp h.1

theorem read_congr {m m' : Rows V} {s : RAggr V F}
    (h : ∀ e ∈ s.refs, ∀ p n, e.2 = .shared p n → m[p]? = m'[p]?) : s.read m' = s.read m := by
  have : s.refs.map (fun e => (e.1, e.2.read m')) = s.refs.map (fun e => (e.1, e.2.read m)) := ?_
  · unfold RAggr.read
    rw [this]
  apply List.map_congr_left
  intro e he
  have := h e he
  cases hr : e.2 with
  | own vs => rfl
  | shared p n => simp only [KeyRef.read, this p n hr]

theorem Inv.new {m : Rows V} {used : List Nat} {s : RAggr V F} (h : Inv m used s) (row : List (Option V)) :
    Inv (m ++ [row]) used s := by
  refine ⟨?_, fun e he p n hp => ⟨(h.2 e he p n hp).1, ?_⟩⟩
  · rw [read_congr (m := m) (fun e he p n hp => (List.getElem?_append_left (h.2 e he p n hp).2).symm), h.1]
  · have := (h.2 e he p n hp).2
    simp only [List.length_append]
    omega

theorem Inv.write {m : Rows V} {used : List Nat} {s : RAggr V F} (h : Inv m used s) (p i : Nat) (v : Option V) (hp : p ∉ used) :
    Inv (m.modify p (fun r => r.set i v)) used s := by
  refine ⟨?_, fun e he q n hq => ⟨(h.2 e he q n hq).1, by rw [List.length_modify]; exact (h.2 e he q n hq).2⟩⟩
  rw [read_congr (m := m) (fun e he q n hq => ?_), h.1]
  have hne : ¬ p = q := fun c => hp (c ▸ (h.2 e he q n hq).1)
  rw [List.getElem?_modify]
  simp [hne]

/-- Without reuse the aggregator returns what it returns for rows passed by value. -/
theorem acts_byValue (E : Env V F) (as : List (Act V)) (m : Rows V) (used : List Nat) (s : RAggr V F) (h : Inv m used s)
    (hn : NoReuse used as) : acts E m s as = (s.core.calls E (byValue m as)).2 := by
  induction as generalizing m used s with
  | nil => rfl
  | cons a as ih =>
    cases a with
    | new row => exact ih _ _ _ (h.new row) hn
    | write p i v => exact ih _ _ _ (h.write p i v hn.1) hn.2
    | row p =>
      show _ :: acts E m (s.aggregateRow E m p).1 as = _
      rw [ih _ _ _ (h.row E p) hn]
      rfl
    | map o =>
      show _ :: acts E m (s.aggregateMap E o).1 as = _
      rw [ih _ _ _ (h.map E o) hn, (aggregateMap_core E s o).1, (aggregateMap_core E s o).2]
      rfl
    | finalize ch ob =>
      show _ :: acts E m s as = _
      rw [ih _ _ _ h hn, h.1]
      rfl
    | reset os =>
      show _ :: acts E m { s with core := (s.core.reset E os).1 } as = _
      rw [ih _ _ _ (h.reset E os) hn]
      rfl

/-! ### With reuse -/

/-- The aggregator holds group values for the same keys and of the same lengths as the value model. -/
def Shape (m : Rows V) (s : RAggr V F) : Prop :=
  s.refs.map (fun e => (e.1, (e.2.read m).length)) = s.core.groupKeys.map (fun e => (e.1, e.2.length)) ∧
  ∀ e ∈ s.refs, ∀ p n, e.2 = .shared p n → p < m.length

theorem Shape.row {m : Rows V} {s : RAggr V F} (E : Env V F) (h : Shape m s) (p : Nat) :
    Shape m (s.aggregateRow E m p).1 := by
  refine ⟨keep_read E s _ _ (fun r => (r.read m).length) List.length h.1 (fun _ _ => rfl), ?_⟩
  intro e he q n hq
  rcases keep_mem E s _ _ e he with h' | ⟨h', hne⟩
  · exact h.2 e h' q n hq
  · rw [hq] at h'
    injection h' with h1 h2
    subst h1
    by_cases c : q < m.length
    · exact c
    · rw [List.getElem?_eq_none (Nat.le_of_not_lt c)] at hne
      exact absurd rfl hne

theorem Shape.map {m : Rows V} {s : RAggr V F} (E : Env V F) (h : Shape m s) (o : GoMap Str (Option V)) :
    Shape m (s.aggregateMap E o).1 := by
  unfold RAggr.aggregateMap
  split
  · exact h
  · rename_i row _
    refine ⟨keep_read E s row _ (fun r => (r.read m).length) List.length h.1 (fun _ _ => rfl), ?_⟩
    intro e he q n hq
    rcases keep_mem E s _ _ e he with h' | ⟨h', _⟩
    · exact h.2 e h' q n hq
    · rw [hq] at h'; cases h'

theorem Shape.reset {m : Rows V} {s : RAggr V F} (E : Env V F) (h : Shape m s) (os : List AggrOpt) :
    Shape m { s with core := (s.core.reset E os).1 } := ⟨by rw [reset_keys]; exact h.1, h.2⟩

theorem Shape.change {m m' : Rows V} {s : RAggr V F} (h : Shape m s) (hl : m.length ≤ m'.length)
    (hc : ∀ p, p < m.length → ((m'[p]?).getD []).length = ((m[p]?).getD []).length) : Shape m' s := by
  refine ⟨?_, fun e he p n hp => Nat.lt_of_lt_of_le (h.2 e he p n hp) hl⟩
  rw [← h.1]
  apply List.map_congr_left
  intro e he
  have := h.2 e he
  cases hr : e.2 with
  | own vs => rfl
  | shared p n => simp only [KeyRef.read, List.length_take, hc p (this p n hr)]

theorem get?_map {α β : Type} (f : α → β) (m : GoMap Str α) (k : Str) :
    GoMap.get? (m.map (fun e => (e.1, f e.2))) k = (GoMap.get? m k).map f := by
  induction m with
  | nil => rfl
  | cons e m ih =>
    simp only [List.map_cons, GoMap.get?]
    split
    · rfl
    · exact ih

theorem groupRow_shape (E : Env V F) {m : Rows V} {s : RAggr V F} (h : Shape m s) (k : Str) :
    match (s.read m).groupRow E k, s.core.groupRow E k with
    | none, none => True
    | some x, some y => ∃ a b rest, x = a ++ rest ∧ y = b ++ rest ∧ a.length = b.length
    | _, _ => False := by
  have h1 : (GoMap.get? s.refs k).map (fun r => (r.read m).length) = (GoMap.get? s.core.groupKeys k).map List.length := by
    rw [← get?_map (fun r : KeyRef V => (r.read m).length), ← get?_map, h.1]
  unfold Aggr.groupRow
  have h2 : (s.read m).groupKeys.get? k = (GoMap.get? s.refs k).map (fun r => r.read m) := get?_map _ _ _
  rw [h2]
  show match (match (GoMap.get? s.refs k).map (fun r => r.read m), s.core.groupAggrs.get? k, s.core.groupCounts.get? k with
    | some ks, some accs, some n => some (ks.map Cell.ofAny ++ accs.map (fun x => s.core.kind.final E x n))
    | _, _, _ => none), (match s.core.groupKeys.get? k, s.core.groupAggrs.get? k, s.core.groupCounts.get? k with
    | some ks, some accs, some n => some (ks.map Cell.ofAny ++ accs.map (fun x => s.core.kind.final E x n))
    | _, _, _ => none) with
    | none, none => True
    | some x, some y => ∃ a b rest, x = a ++ rest ∧ y = b ++ rest ∧ a.length = b.length
    | _, _ => False
  cases hr : GoMap.get? s.refs k with
  | none =>
    rw [hr] at h1
    cases hg : GoMap.get? s.core.groupKeys k with
    | none => exact trivial
    | some v => rw [hg] at h1; cases h1
  | some r =>
    rw [hr] at h1
    cases hg : GoMap.get? s.core.groupKeys k with
    | none => rw [hg] at h1; cases h1
    | some v =>
      rw [hg] at h1
      cases s.core.groupAggrs.get? k with
      | none => exact trivial
      | some accs =>
        cases s.core.groupCounts.get? k with
        | none => exact trivial
        | some n =>
          refine ⟨_, _, _, rfl, rfl, ?_⟩
          rw [List.length_map, List.length_map]
          injection h1

theorem groupRows_shape (E : Env V F) {m : Rows V} {s : RAggr V F} (h : Shape m s) (ks : List Str) :
    match (s.read m).groupRows E ks, s.core.groupRows E ks with
    | none, none => True
    | some x, some y => x.length = y.length ∧ ∀ (i : Nat) (a b : List (Cell V F)), x[i]? = some a → y[i]? = some b →
        ∃ k l rest, a = k ++ rest ∧ b = l ++ rest ∧ k.length = l.length
    | _, _ => False := by
  induction ks with
  | nil => exact ⟨rfl, fun i a b ha => by cases ha⟩
  | cons k ks ih =>
    have hk := groupRow_shape E h k
    simp only [Aggr.groupRows]
    cases h1 : (s.read m).groupRow E k with
    | none =>
      cases h2 : s.core.groupRow E k with
      | none => exact trivial
      | some y => rw [h1, h2] at hk; exact hk.elim
    | some x =>
      cases h2 : s.core.groupRow E k with
      | none => rw [h1, h2] at hk; exact hk.elim
      | some y =>
        rw [h1, h2] at hk
        cases h3 : (s.read m).groupRows E ks with
        | none =>
          cases h4 : s.core.groupRows E ks with
          | none => exact trivial
          | some ys => rw [h3, h4] at ih; exact ih.elim
        | some xs =>
          cases h4 : s.core.groupRows E ks with
          | none => rw [h3, h4] at ih; exact ih.elim
          | some ys =>
            rw [h3, h4] at ih
            refine ⟨by simp only [List.length_cons, ih.1], ?_⟩
            intro i a b ha hb
            cases i with
            | zero =>
              injection ha with ha
              injection hb with hb
              subst ha
              subst hb
              exact hk
            | succ i => exact ih.2 i a b ha hb

theorem finalize_shape (E : Env V F) {m : Rows V} {s : RAggr V F} (h : Shape m s) (ch : Choice) :
    OutSameButKeys (.finalized ((s.read m).finalize E ch .none)) (.finalized (s.core.finalize E ch .none)) := by
  unfold Aggr.finalize
  show OutSameButKeys (.finalized (if s.core.groupBys.length ≠ 0 then _ else _)) _
  by_cases hg : s.core.groupBys.length ≠ 0
  · rw [if_pos hg, if_pos hg]
    have := groupRows_shape E h (ch.enum s.core.groupAggrs.keys)
    show OutSameButKeys (.finalized (((s.read m).groupRows E (ch.enum s.core.groupAggrs.keys)).map _))
      (.finalized ((s.core.groupRows E (ch.enum s.core.groupAggrs.keys)).map _))
    cases h3 : (s.read m).groupRows E (ch.enum s.core.groupAggrs.keys) with
    | none =>
      cases h4 : s.core.groupRows E (ch.enum s.core.groupAggrs.keys) with
      | none => exact trivial
      | some ys => rw [h3, h4] at this; exact this.elim
    | some xs =>
      cases h4 : s.core.groupRows E (ch.enum s.core.groupAggrs.keys) with
      | none => rw [h3, h4] at this; exact this.elim
      | some ys =>
        rw [h3, h4] at this
        exact ⟨rfl, this.1, this.2⟩
  · rw [if_neg hg, if_neg hg]
    exact ⟨rfl, rfl, fun i a b ha hb => ⟨[], [], a, rfl, by
      have : some a = some b := ha.symm.trans hb
      injection this with this
      rw [this]; rfl, rfl⟩⟩

/-- Whatever the caller writes where, only the group values shown can differ. -/
theorem acts_shape (E : Env V F) (as : List (Act V)) (m : Rows V) (s : RAggr V F) (h : Shape m s)
    (ho : ∀ ch ob, .finalize ch ob ∈ as → ob = .none) :
    (acts E m s as).length = ((s.core.calls E (byValue m as)).2).length ∧
    ∀ (i : Nat) (x y : AggrOut V F), (acts E m s as)[i]? = some x → ((s.core.calls E (byValue m as)).2)[i]? = some y →
      OutSameButKeys x y := by
  have cons : ∀ (x y : AggrOut V F) (xs ys : List (AggrOut V F)), OutSameButKeys x y →
      (xs.length = ys.length ∧ ∀ (i : Nat) (x y : AggrOut V F), xs[i]? = some x → ys[i]? = some y → OutSameButKeys x y) →
      (x :: xs).length = (y :: ys).length ∧
        ∀ (i : Nat) (a b : AggrOut V F), (x :: xs)[i]? = some a → (y :: ys)[i]? = some b → OutSameButKeys a b := by
    intro x y xs ys hxy hr
    refine ⟨by simp only [List.length_cons, hr.1], ?_⟩
    intro i a b ha hb
    cases i with
    | zero =>
      injection ha with ha
      injection hb with hb
      subst ha
      subst hb
      exact hxy
    | succ i => exact hr.2 i a b ha hb
  induction as generalizing m s with
  | nil => exact ⟨rfl, fun i x y hx => by cases hx⟩
  | cons a as ih =>
    have ho' := fun ch ob hm => ho ch ob (.tail _ hm)
    cases a with
    | new row =>
      exact ih (m ++ [row]) _ (h.change (by simp) (fun p hp => by rw [List.getElem?_append_left hp])) ho'
    | write p i v =>
      refine ih (m.modify p (fun r => r.set i v)) _ (h.change (by simp) (fun q hq => ?_)) ho'
      rw [List.getElem?_modify, List.getElem?_eq_getElem hq]
      simp only [Option.map_some, Option.getD_some, Option.map_eq_map]
      split <;> simp
    | row p => exact cons _ _ _ _ rfl (ih _ _ (h.row E p) ho')
    | map o =>
      have e := aggregateMap_core E s o
      have := ih _ _ (h.map E o) ho'
      rw [e.1] at this
      exact cons _ _ _ _ e.2 this
    | finalize ch ob =>
      have : ob = .none := ho ch ob (.head _)
      subst this
      exact cons _ _ _ _ (finalize_shape E h ch) (ih _ _ h ho')
    | reset os => exact cons _ _ _ _ rfl (ih _ _ (h.reset E os) ho')

end
end Verif.AliasRow
