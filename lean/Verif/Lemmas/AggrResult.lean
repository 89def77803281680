import Verif.Lemmas.AggrGroup
import Verif.Lemmas.Join
/-! The result of grouped aggregation. -/
namespace Verif.Lemmas
open Verif Verif.Fn Verif.Spec
variable {V F : Type}

theorem started_fresh {E : Env V F} {b : Aggr V F} (h : Started E b) : Fresh E b := by
  rcases h with ⟨a, os, h⟩ | ⟨k, os, h⟩
  · exact fresh_of_reset h
  · exact fresh_of_new h

theorem orderedKeys_perm {E : Env V F} {ch : Choice} (hc : Lawful ch) (a : Aggr V F) (ob : OrderBy) :
    (a.orderedKeys E ch ob).Perm a.groupAggrs.keys := by
  unfold Aggr.orderedKeys
  cases ob with
  | none => exact hc.enum_perm _
  | asc => exact (hc.sort_perm _ _).trans (hc.enum_perm _)
  | desc => exact (hc.sort_perm _ _).trans (hc.enum_perm _)

theorem nums_rows {E : Env V F} (n : Nat) (rs : List (List (Option V))) (h : ∀ r ∈ rs, ∃ ns, Nums E (r.drop n) ns) :
    ∃ m, Pairwise2 (fun r ns => Nums E (r.drop n) ns) rs m := by
  induction rs with
  | nil => exact ⟨[], .nil⟩
  | cons r rs ih =>
    obtain ⟨ns, hns⟩ := h r (by simp)
    obtain ⟨m, hm⟩ := ih (fun s hs => h s (by simp [hs]))
    exact ⟨ns :: m, .cons hns hm⟩

theorem pairwise2_right {α β : Type} {R : α → β → Prop} {xs : List α} {ys : List β} (h : Pairwise2 R xs ys) :
    ∀ y ∈ ys, ∃ x ∈ xs, R x y := by
  induction h with
  | nil => intro y hy; cases hy
  | cons hr _ ih =>
    intro y hy
    rcases List.mem_cons.mp hy with rfl | hy
    · exact ⟨_, by simp, hr⟩
    · obtain ⟨x, hx, hxy⟩ := ih y hy; exact ⟨x, by simp [hx], hxy⟩

theorem pairwise2_left {α β : Type} {R : α → β → Prop} {xs : List α} {ys : List β} (h : Pairwise2 R xs ys) :
    ∀ x ∈ xs, ∃ y ∈ ys, R x y := by
  induction h with
  | nil => intro y hy; cases hy
  | cons hr _ ih =>
    intro x hx
    rcases List.mem_cons.mp hx with rfl | hx
    · exact ⟨_, by simp, hr⟩
    · obtain ⟨y, hy, hxy⟩ := ih x hx; exact ⟨y, by simp [hy], hxy⟩

theorem pairwise2_imp {α β : Type} {R S : α → β → Prop} {xs : List α} {ys : List β} (h : Pairwise2 R xs ys)
    (himp : ∀ x y, x ∈ xs → y ∈ ys → R x y → S x y) : Pairwise2 S xs ys := by
  induction h with
  | nil => exact .nil
  | cons hr _ ih =>
    exact .cons (himp _ _ (by simp) (by simp) hr) (ih (fun x y hx hy => himp x y (by simp [hx]) (by simp [hy])))

theorem pairwise2_map_left {α β γ : Type} {R : γ → β → Prop} {f : α → γ} {xs : List α} {ys : List β}
    (h : Pairwise2 (fun x y => R (f x) y) xs ys) : Pairwise2 R (xs.map f) ys := by
  induction h with
  | nil => exact .nil
  | cons hr _ ih => exact .cons hr ih

theorem pairwise2_length {α β : Type} {R : α → β → Prop} {xs : List α} {ys : List β} (h : Pairwise2 R xs ys) :
    xs.length = ys.length := by
  induction h with
  | nil => rfl
  | cons _ _ ih => simp [ih]

theorem isGroupRow_fold {E : Env V F} (k : AggrId) (n w : Nat) (t : List (Option V)) (rs : List (List (Option V)))
    (h : ∀ r ∈ rs, ∃ ns, Nums E (r.drop n) ns) (hw : ∀ r ∈ rs, r.length = n + w) :
    IsGroupRow E k n w t rs (t.map Cell.ofAny ++ (foldRows E k n w rs).map (fun x => k.final E x rs.length)) := by
  obtain ⟨m, hm⟩ := nums_rows n rs h
  have hmw : ∀ x ∈ m, x.length = w := by
    intro x hx
    obtain ⟨r, hr, hrx⟩ := pairwise2_right hm x hx
    rw [← nums_length hrx, List.length_drop, hw r hr]; omega
  refine ⟨m, _, hm, rfl, ?_, fun j hj => foldRows_column k n w rs m hm hmw j hj⟩
  rw [List.length_map]
  apply foldRows_length
  intro r hr
  obtain ⟨ns, hns⟩ := h r hr
  rw [numsD_eq hns, ← nums_length hns, List.length_drop, hw r hr]; omega

/-- What `Finalize` returns in a state reached from a fresh one, group key by group key. -/
theorem ginv_result {E : Env V F} {b b' : Aggr V F} (hf : Fresh E b) (hg : b.groupBys ≠ [])
    {rows : List (List (Option V))} (hi : GInv E b rows b') (ch : Choice) (hc : Lawful ch) (ob : OrderBy) :
    ∃ outs, b'.finalize E ch ob = some { columns := b.columns, rows := outs } ∧ (b'.orderedKeys E ch ob).Nodup ∧
      (∀ k, k ∈ b'.orderedKeys E ch ob ↔ ∃ r ∈ rows, keyOf E b.groupBys.length r = some k) ∧
      Pairwise2 (fun k out => ∃ r rest, rowsWith E b.groupBys.length k rows = r :: rest ∧
        b'.groupKeys.get? k = some (r.take b.groupBys.length) ∧
        IsGroupRow E b.kind b.groupBys.length b.args.length (r.take b.groupBys.length) (r :: rest) out)
        (b'.orderedKeys E ch ob) outs := by
  have hw := hf.good.cols
  have hp := orderedKeys_perm (E := E) hc b' ob
  generalize hks : b'.orderedKeys E ch ob = ks at hp
  have hmem : ∀ k, k ∈ ks ↔ ∃ r ∈ rows, keyOf E b.groupBys.length r = some k := by
    intro k; rw [hp.mem_iff]; exact ginv_keys hi k
  have hrow : ∀ k ∈ ks, ∃ r rest, rowsWith E b.groupBys.length k rows = r :: rest := by
    intro k hk
    obtain ⟨r, hr, hkr⟩ := (hmem k).mp hk
    cases hx : rowsWith E b.groupBys.length k rows with
    | nil =>
      have : r ∈ rowsWith E b.groupBys.length k rows := List.mem_filter.mpr ⟨hr, by simp [hkr]⟩
      rw [hx] at this; cases this
    | cons x xs => exact ⟨x, xs, rfl⟩
  obtain ⟨outs, ho, hpw⟩ := groupRows_some (E := E) (a := b') ks (by
    intro k hk
    obtain ⟨r, rest, hR⟩ := hrow k hk
    exact ⟨_, ginv_groupRow hi k r rest hR⟩)
  refine ⟨outs, ?_, hp.nodup_iff.mpr hi.nodup, hmem, ?_⟩
  · unfold Aggr.finalize
    rw [if_pos (by rw [hi.groupBys]; simpa using hg), hks, ho, hi.columns]; rfl
  · refine pairwise2_imp hpw ?_
    intro k out hk _ hout
    obtain ⟨r, rest, hR⟩ := hrow k hk
    rw [ginv_groupRow hi k r rest hR, Option.some.injEq] at hout
    refine ⟨r, rest, hR, hi.keys k r (by rw [hR]; rfl), ?_⟩
    rw [← hout]
    have hin : ∀ s ∈ r :: rest, s ∈ rows := by
      intro s hs; rw [← hR] at hs; exact (List.mem_filter.mp hs).1
    exact isGroupRow_fold (E := E) b.kind b.groupBys.length b.args.length _ (r :: rest)
      (fun s hs => hi.nums s (hin s hs)) (fun s hs => by rw [hi.len s (hin s hs), hw])

theorem grouped_result {E : Env V F} {b b' : Aggr V F} (hf : Fresh E b) (hg : b.groupBys ≠ [])
    (rows : List (List (Option V))) (h : feed E b rows = some b') (ch : Choice) (hc : Lawful ch) (ob : OrderBy) :
    ∃ outs, b'.finalize E ch ob = some { columns := b.columns, rows := outs } ∧ (b'.orderedKeys E ch ob).Nodup ∧
      (∀ k, k ∈ b'.orderedKeys E ch ob ↔ ∃ r ∈ rows, keyOf E b.groupBys.length r = some k) ∧
      Pairwise2 (fun k out => ∃ r rest, rowsWith E b.groupBys.length k rows = r :: rest ∧
        b'.groupKeys.get? k = some (r.take b.groupBys.length) ∧
        IsGroupRow E b.kind b.groupBys.length b.args.length (r.take b.groupBys.length) (r :: rest) out)
        (b'.orderedKeys E ch ob) outs := by
  have hi := (feed_grouped hf.good.cols (by simpa using hg) rows [] b b' (ginv_fresh hf) h).1
  rw [List.nil_append] at hi
  exact ginv_result hf hg hi ch hc ob

/-! ### Key texts -/

theorem texts_iff (E : Env V F) (vs : List (Option V)) (ts : List Str) : keyTexts E vs = some ts ↔ Texts E vs ts := by
  induction vs generalizing ts with
  | nil =>
    simp only [keyTexts, Option.some.injEq]
    constructor
    · rintro rfl; exact .nil
    · intro h; cases h; rfl
  | cons v vs ih =>
    simp only [keyTexts]
    cases hv : E.toText v with
    | none =>
      simp only [reduceCtorEq, false_iff]
      intro h; cases h with | cons h _ => rw [hv] at h; cases h
    | some t =>
      simp only [Option.map_eq_some_iff]
      constructor
      · rintro ⟨ts', h1, rfl⟩; exact .cons hv ((ih ts').mp h1)
      · intro h
        cases h with
        | cons h h' => rw [hv] at h; cases h; exact ⟨_, (ih _).mpr h', rfl⟩

theorem keyOf_iff (E : Env V F) (n : Nat) (r : List (Option V)) (k : Str) :
    keyOf E n r = some k ↔ ∃ ts, Texts E (r.take n) ts ∧ k = Str.join s%"," ts := by
  unfold keyOf groupKey
  rw [Option.map_eq_some_iff]
  constructor
  · rintro ⟨ts, h1, rfl⟩; exact ⟨ts, (texts_iff E _ _).mp h1, rfl⟩
  · rintro ⟨ts, h1, rfl⟩; exact ⟨ts, (texts_iff E _ _).mpr h1, rfl⟩

/-- With faithful texts, rows with the same key text have the same group values. -/
theorem key_inj {E : Env V F} {n : Nat} {rows : List (List (Option V))} (hn : n ≠ 0) (ht : TextsFaithful E n rows)
    (hl : ∀ r ∈ rows, n ≤ r.length) {r s : List (Option V)} (hr : r ∈ rows) (hs : s ∈ rows) {k : Str}
    (h1 : keyOf E n r = some k) (h2 : keyOf E n s = some k) : r.take n = s.take n := by
  obtain ⟨ts, t1, rfl⟩ := (keyOf_iff E n r k).mp h1
  obtain ⟨us, u1, heq⟩ := (keyOf_iff E n s _).mp h2
  have lt := pairwise2_length t1
  have lu := pairwise2_length u1
  have htake : ∀ x ∈ rows, (x.take n).length = n := by
    intro x hx; rw [List.length_take]; have := hl x hx; omega
  rw [htake r hr] at lt
  rw [htake s hs] at lu
  have hts : ts = us := by
    rcases ht.comma with h1 | hcm
    · subst h1
      match ts, us, lt, lu with
      | [x], [y], _, _ => simp [Str.join] at heq; rw [heq]
    · apply Str.join_inj ',' [] ts us
      · intro h; subst h; exact hn lt
      · intro h; subst h; exact hn lu
      · intro x hx
        obtain ⟨v, hv, hvx⟩ := pairwise2_right t1 x hx
        exact hcm r hr v hv x hvx
      · intro x hx
        obtain ⟨v, hv, hvx⟩ := pairwise2_right u1 x hx
        exact hcm s hs v hv x hvx
      · exact heq
  subst hts
  have hinj := ht.inj r hr s hs
  generalize r.take n = vs at *
  generalize s.take n = ws at *
  clear heq h1 h2 lt lu htake
  induction t1 generalizing ws with
  | nil => cases u1; rfl
  | cons hv _ ih =>
    cases u1 with
    | cons hw hws =>
      rw [hinj _ (by simp) _ (by simp) _ hv hw, ih _ hws]
      intro v hv' w hw'
      exact hinj v (by simp [hv']) w (by simp [hw'])

theorem apart_key {E : Env V F} {n : Nat} {rows : List (List (Option V))} (ht : KeysApart E n rows) {r s : List (Option V)} (hr : r ∈ rows) (hs : s ∈ rows) {k : Str}
    (h1 : keyOf E n r = some k) (h2 : keyOf E n s = some k) : r.take n = s.take n := by
  obtain ⟨ts, t1, e1⟩ := (keyOf_iff E n r k).mp h1
  obtain ⟨us, u1, e2⟩ := (keyOf_iff E n s k).mp h2
  exact ht r hr s hs ts us t1 u1 (e1.symm.trans e2)

/-- What `Finalize` returns, group tuple by group tuple. -/
theorem apart_tuples [DecidableEq V] {E : Env V F} {b b' : Aggr V F} (hf : Fresh E b) (hg : b.groupBys ≠ [])
    (rows : List (List (Option V))) (h : feed E b rows = some b') (ht : KeysApart E b.groupBys.length rows)
    (ch : Choice) (hc : Lawful ch) (ob : OrderBy) :
    ∃ ts outs, b'.finalize E ch ob = some { columns := b.columns, rows := outs } ∧ ts.Nodup ∧
      (∀ t, t ∈ ts ↔ ∃ r ∈ rows, r.take b.groupBys.length = t) ∧
      Pairwise2 (fun t out => IsGroupRow E b.kind b.groupBys.length b.args.length t
        (rowsOf b.groupBys.length t rows) out) ts outs ∧
      Pairwise2 (fun k t => b'.groupKeys.get? k = some t) (b'.orderedKeys E ch ob) ts := by
  obtain ⟨outs, h1, h2, h3, h4⟩ := grouped_result hf hg rows h ch hc ob
  generalize b'.orderedKeys E ch ob = ks at *
  have hn : b.groupBys.length ≠ 0 := by simpa using hg
  have hi := (feed_grouped hf.good.cols hn rows [] b b' (ginv_fresh hf) h).1
  rw [List.nil_append] at hi
  have hl : ∀ r ∈ rows, b.groupBys.length ≤ r.length := by
    intro r hr; rw [hi.len r hr, hf.good.cols]; omega
  have hrowsOf : ∀ k r rest, rowsWith E b.groupBys.length k rows = r :: rest →
      r ∈ rows ∧ keyOf E b.groupBys.length r = some k ∧ rowsOf b.groupBys.length (r.take b.groupBys.length) rows = r :: rest := by
    intro k r rest hR
    have hm : r ∈ rowsWith E b.groupBys.length k rows := by rw [hR]; simp
    obtain ⟨hr, hk⟩ := List.mem_filter.mp hm
    have hk : keyOf E b.groupBys.length r = some k := by simpa using hk
    refine ⟨hr, hk, ?_⟩
    rw [← hR]
    unfold rowsOf rowsWith
    apply List.filter_congr
    intro s hs
    rw [Bool.eq_iff_iff]
    simp only [decide_eq_true_eq, beq_iff_eq]
    constructor
    · intro e
      have : keyOf E b.groupBys.length s = keyOf E b.groupBys.length r := by unfold keyOf; rw [e]
      rw [this, hk]
    · intro e; exact apart_key ht hs hr e hk
  have hkey : ∀ k r rest, rowsWith E b.groupBys.length k rows = r :: rest → b'.groupKeys.get? k = some (r.take b.groupBys.length) := by
    intro k r rest hR; exact hi.keys k r (by rw [hR]; rfl)
  suffices hs : ∃ ts, ts.Nodup ∧ (∀ t, t ∈ ts ↔ ∃ r ∈ rows, r.take b.groupBys.length = t ∧ ∃ k ∈ ks, keyOf E b.groupBys.length r = some k) ∧
      Pairwise2 (fun t out => IsGroupRow E b.kind b.groupBys.length b.args.length t
        (rowsOf b.groupBys.length t rows) out) ts outs ∧ Pairwise2 (fun k t => b'.groupKeys.get? k = some t) ks ts by
    obtain ⟨ts, a1, a2, a3, a4⟩ := hs
    refine ⟨ts, outs, h1, a1, ?_, a3, a4⟩
    intro t
    rw [a2]
    constructor
    · rintro ⟨r, hr, e, _⟩; exact ⟨r, hr, e⟩
    · rintro ⟨r, hr, e⟩
      obtain ⟨k, hk⟩ := hi.key r hr
      exact ⟨r, hr, e, k, (h3 k).mpr ⟨r, hr, hk⟩, hk⟩
  clear h3 h1
  induction h4 with
  | nil => exact ⟨[], by simp, by simp, .nil, .nil⟩
  | @cons k out ks outs hk _ ih =>
    obtain ⟨r, rest, hR, _, hrow⟩ := hk
    have hnd := List.nodup_cons.mp h2
    obtain ⟨ts, a1, a2, a3, a4⟩ := ih hnd.2
    obtain ⟨hr, hkr, hof⟩ := hrowsOf k r rest hR
    refine ⟨r.take b.groupBys.length :: ts, ?_, ?_, .cons (by rw [hof]; exact hrow) a3, .cons (hkey k r rest hR) a4⟩
    · rw [List.nodup_cons]
      refine ⟨?_, a1⟩
      intro hin
      obtain ⟨s, hs, e, k', hk', hks⟩ := (a2 _).mp hin
      have : keyOf E b.groupBys.length s = keyOf E b.groupBys.length r := by unfold keyOf; rw [e]
      rw [hks, hkr] at this
      cases this
      exact hnd.1 hk'
    · intro t
      rw [List.mem_cons, a2]
      constructor
      · rintro (rfl | ⟨s, hs, e, k', hk', hks⟩)
        · exact ⟨r, hr, rfl, k, by simp, hkr⟩
        · exact ⟨s, hs, e, k', by simp [hk'], hks⟩
      · rintro ⟨s, hs, e, k', hk', hks⟩
        rcases List.mem_cons.mp hk' with rfl | hk'
        · left; rw [← e]; exact apart_key ht hs hr hks hkr
        · right; exact ⟨s, hs, e, k', hk', hks⟩

theorem faithful_apart {E : Env V F} {n : Nat} {rows : List (List (Option V))} (hn : n ≠ 0) (ht : TextsFaithful E n rows)
    (hl : ∀ r ∈ rows, n ≤ r.length) : KeysApart E n rows :=
  fun r hr s hs ts us h1 h2 he => key_inj hn ht hl hr hs ((keyOf_iff E n r _).mpr ⟨ts, h1, rfl⟩) ((keyOf_iff E n s _).mpr ⟨us, h2, he⟩)

/-- The same with faithful texts. -/
theorem grouped_tuples [DecidableEq V] {E : Env V F} {b b' : Aggr V F} (hf : Fresh E b) (hg : b.groupBys ≠ [])
    (rows : List (List (Option V))) (h : feed E b rows = some b') (ht : TextsFaithful E b.groupBys.length rows)
    (ch : Choice) (hc : Lawful ch) (ob : OrderBy) :
    ∃ ts outs, b'.finalize E ch ob = some { columns := b.columns, rows := outs } ∧ ts.Nodup ∧
      (∀ t, t ∈ ts ↔ ∃ r ∈ rows, r.take b.groupBys.length = t) ∧
      Pairwise2 (fun t out => IsGroupRow E b.kind b.groupBys.length b.args.length t
        (rowsOf b.groupBys.length t rows) out) ts outs ∧
      Pairwise2 (fun k t => b'.groupKeys.get? k = some t) (b'.orderedKeys E ch ob) ts := by
  have hn : b.groupBys.length ≠ 0 := by simpa using hg
  have hi := (feed_grouped hf.good.cols hn rows [] b b' (ginv_fresh hf) h).1
  rw [List.nil_append] at hi
  exact apart_tuples hf hg rows h (faithful_apart hn ht (fun r hr => by rw [hi.len r hr, hf.good.cols]; omega)) ch hc ob

end Verif.Lemmas
