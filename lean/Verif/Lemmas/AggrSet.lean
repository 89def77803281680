import Verif.Lemmas.AggrSort
/-! Aggregator sets. -/
namespace Verif.Lemmas
open Verif Verif.Fn Verif.Spec
variable {V F : Type}

theorem setAggregate_ok {E : Env V F} (v : AggrIn V) (as : List (Aggr V F)) (h : (setAggregate E v as).2 = .ok ()) :
    Pairwise2 (fun a a' => a.aggregate E v = (a', .ok ())) as (setAggregate E v as).1 := by
  induction as with
  | nil => exact .nil
  | cons a as ih =>
    simp only [setAggregate] at h ⊢
    cases hr : (a.aggregate E v).2 with
    | ok u =>
      rw [hr] at h
      simp only at h ⊢
      exact .cons (Prod.ext rfl hr) (ih h)
    | err => rw [hr] at h; cases h
    | panic => rw [hr] at h; cases h

theorem pairwise2_trans {α β γ : Type} {R : α → β → Prop} {S : β → γ → Prop} {T : α → γ → Prop} {xs : List α} {ys : List β} {zs : List γ}
    (h1 : Pairwise2 R xs ys) (h2 : Pairwise2 S ys zs) (h : ∀ a b c, R a b → S b c → T a c) : Pairwise2 T xs zs := by
  induction h1 generalizing zs with
  | nil => cases h2; exact .nil
  | cons hr _ ih =>
    cases h2 with
    | cons hs h2 => exact .cons (h _ _ _ hr hs) (ih h2)

theorem pairwise2_refl {α : Type} {R : α → α → Prop} (h : ∀ a, R a a) (xs : List α) : Pairwise2 R xs xs := by
  induction xs with
  | nil => exact .nil
  | cons x xs ih => exact .cons (h x) ih

/-- Feeding a set feeds each aggregator. -/
theorem setFeed_feed {E : Env V F} (rows : List (List (Option V))) (as as' : List (Aggr V F)) (h : setFeed E as rows = some as') :
    Pairwise2 (fun a a' => feed E a rows = some a') as as' := by
  induction rows generalizing as with
  | nil => simp only [setFeed, Option.some.injEq] at h; subst h; exact pairwise2_refl (R := fun a a' => feed E a [] = some a') (fun a => rfl) as
  | cons r rows ih =>
    simp only [setFeed] at h
    split at h
    · next hok =>
      refine pairwise2_trans (setAggregate_ok _ as hok) (ih _ h) ?_
      intro a b c hab hbc
      simp only [feed]
      have : a.aggregateRow E r = (b, .ok ()) := hab
      rw [this]; exact hbc
    · cases h

/-- What is appended from a row of a later result set: a single value, or everything but the first. -/
def later (x : List (Cell V F)) : List (Cell V F) := if x.length = 1 then x else x.drop 1

theorem mergeRows_eq (rows xs : List (List (Cell V F))) (hl : xs.length = rows.length) (hne : ∀ x ∈ xs, x ≠ []) :
    mergeRows rows xs = some (List.zipWith (fun r x => r ++ later x) rows xs) := by
  induction rows generalizing xs with
  | nil =>
    have : xs = [] := by simpa using hl
    subst this; rfl
  | cons r rows ih =>
    cases xs with
    | nil => simp at hl
    | cons x xs =>
      have ih' := ih xs (by simpa using hl) (fun x h => hne x (by simp [h]))
      match x, hne x (by simp) with
      | [c], _ => simp [mergeRows, ih', later]
      | c :: d :: t, _ => simp [mergeRows, ih', later]

theorem mergeFold_eq (rest : List (ResultSet V F)) (rows : List (List (Cell V F)))
    (hl : ∀ rs ∈ rest, rs.rows.length = rows.length) (hne : ∀ rs ∈ rest, ∀ x ∈ rs.rows, x ≠ []) :
    rest.foldl mergeNext (some rows) =
      some (rest.foldl (fun acc rs => List.zipWith (fun r x => r ++ later x) acc rs.rows) rows) := by
  induction rest generalizing rows with
  | nil => rfl
  | cons rs rest ih =>
    simp only [List.foldl_cons, mergeNext]
    rw [mergeRows_eq rows rs.rows (hl rs (by simp)) (hne rs (by simp))]
    apply ih
    · intro q hq
      rw [List.length_zipWith, hl rs (by simp), hl q (by simp [hq])]; omega
    · intro q hq; exact hne q (by simp [hq])

theorem mergeColumns_eq (rs : ResultSet V F) (rest : List (ResultSet V F)) (hne : ∀ q ∈ rest, q.columns ≠ []) :
    mergeColumns (rs :: rest) = some (rs.columns ++ rest.flatMap (fun q => q.columns.drop 1)) := by
  simp only [mergeColumns]
  generalize rs.columns = cs
  induction rest generalizing cs with
  | nil => simp
  | cons q rest ih =>
    simp only [List.foldl_cons]
    cases hq : q.columns with
    | nil => exact absurd hq (hne q (by simp))
    | cons c t =>
      simp only [List.flatMap_cons, hq]
      rw [ih (fun q h => hne q (by simp [h]))]
      simp

/-- Row `i` of the merged rows. -/
theorem mergeFold_get (rest : List (ResultSet V F)) (rows : List (List (Cell V F)))
    (hl : ∀ rs ∈ rest, rs.rows.length = rows.length) (i : Nat) (r : List (Cell V F)) (hr : rows[i]? = some r) :
    ∃ parts, Pairwise2 (fun (rs : ResultSet V F) p => rs.rows[i]? = some p) rest parts ∧
      (rest.foldl (fun acc rs => List.zipWith (fun r x => r ++ later x) acc rs.rows) rows)[i]? =
        some (r ++ parts.flatMap later) := by
  induction rest generalizing rows r with
  | nil => exact ⟨[], .nil, by simpa using hr⟩
  | cons rs rest ih =>
    have hi : i < rows.length := by
      rw [List.getElem?_eq_some_iff] at hr; exact hr.1
    have hrs := hl rs (by simp)
    have hx : rs.rows[i]? = some (rs.rows[i]'(by omega)) := List.getElem?_eq_getElem (by omega)
    have hz : (List.zipWith (fun r x => r ++ later x) rows rs.rows)[i]? = some (r ++ later (rs.rows[i]'(by omega))) := by
      rw [List.getElem?_zipWith, hr, hx]
    obtain ⟨parts, p1, p2⟩ := ih (List.zipWith (fun r x => r ++ later x) rows rs.rows) (by
      intro q hq; rw [List.length_zipWith, hrs, hl q (by simp [hq])]; omega) _ hz
    refine ⟨_ :: parts, .cons hx p1, ?_⟩
    rw [List.foldl_cons, p2]; simp

theorem mergeFold_length (rest : List (ResultSet V F)) (rows : List (List (Cell V F)))
    (hl : ∀ rs ∈ rest, rs.rows.length = rows.length) :
    (rest.foldl (fun acc rs => List.zipWith (fun r x => r ++ later x) acc rs.rows) rows).length = rows.length := by
  induction rest generalizing rows with
  | nil => rfl
  | cons rs rest ih =>
    rw [List.foldl_cons, ih]
    · rw [List.length_zipWith, hl rs (by simp)]; omega
    · intro q hq; rw [List.length_zipWith, hl rs (by simp), hl q (by simp [hq])]; omega

theorem finalizeAll_some {E : Env V F} (as : List (Choice × Aggr V F))
    (h : ∀ p ∈ as, ∃ rs, p.2.finalize E p.1 .none = some rs) :
    ∃ rss, finalizeAll E as = some rss ∧ Pairwise2 (fun p rs => Aggr.finalize E p.1 p.2 .none = some rs) as rss := by
  induction as with
  | nil => exact ⟨[], rfl, .nil⟩
  | cons p as ih =>
    obtain ⟨ch, a⟩ := p
    obtain ⟨rs, hrs⟩ := h (ch, a) (by simp)
    obtain ⟨rss, h1, h2⟩ := ih (fun p hp => h p (by simp [hp]))
    refine ⟨rs :: rss, ?_, .cons hrs h2⟩
    simp only at hrs
    simp [finalizeAll, hrs, h1]

/-- Any result of an aggregator reached from a started one. -/
theorem finalize_shape {E : Env V F} {b b' : Aggr V F} (hf : Fresh E b) (rows : List (List (Option V)))
    (h : feed E b rows = some b') (ch : Choice) (hc : Lawful ch) (ob : OrderBy) :
    ∃ outs, b'.finalize E ch ob = some { columns := b.columns, rows := outs } ∧
      (∀ o ∈ outs, o.length = b.columns.length) ∧
      (b.groupBys = [] → outs.length = 1) ∧
      (b.groupBys ≠ [] → Pairwise2 (fun k out => ∃ r rest, rowsWith E b.groupBys.length k rows = r :: rest ∧
        IsGroupRow E b.kind b.groupBys.length b.args.length (r.take b.groupBys.length) (r :: rest) out)
        (b'.orderedKeys E ch ob) outs) := by
  by_cases hg : b.groupBys = []
  · obtain ⟨m, hm, _⟩ := feed_ungrouped rows b b' hg hf.good.aggrs h
    obtain ⟨row, h1, h2, _⟩ := ungrouped_result hf hg rows h ch ob m hm
    exact ⟨[row], h1, by simpa using h2, fun _ => rfl, fun hn => absurd hg hn⟩
  · obtain ⟨outs, h1, h2, h3, h4⟩ := grouped_result hf hg rows h ch hc ob
    have hi := (feed_grouped hf.good.cols (by simpa using hg) rows [] b b' (ginv_fresh hf) h).1
    rw [List.nil_append] at hi
    refine ⟨outs, h1, ?_, fun e => absurd e hg, fun _ => pairwise2_imp h4 (fun k out _ _ ⟨r, rest, a, _, c⟩ => ⟨r, rest, a, c⟩)⟩
    intro o ho
    obtain ⟨k, hk, r, rest, hR, _, m, aggs, _, e, hal, _⟩ := pairwise2_right h4 o ho
    have hm : r ∈ rowsWith E b.groupBys.length k rows := by rw [hR]; simp
    have hlen := hi.len r (List.mem_filter.mp hm).1
    rw [e, List.length_append, List.length_map, List.length_take, hlen, hal, hf.good.cols]; omega

theorem keys_step {E : Env V F} {a a' : Aggr V F} {r : List (Option V)} (hg : a.groupBys ≠ [])
    (h : a.aggregateRow E r = (a', .ok ())) : ∃ key, keyOf E a.groupBys.length r = some key ∧
      a'.groupAggrs.keys = (if key ∈ a.groupAggrs.keys then a.groupAggrs.keys else a.groupAggrs.keys ++ [key]) ∧
      a'.groupBys = a.groupBys := by
  unfold Aggr.aggregateRow at h
  split at h
  · cases h
  rw [if_pos (by simpa using hg)] at h
  simp only at h
  split at h
  · cases h
  split at h
  · cases h
  · next key hkey =>
    refine ⟨key, hkey, ?_⟩
    have hens : (a.ensureGroup E key (r.take a.groupBys.length)).groupAggrs.keys =
        (if key ∈ a.groupAggrs.keys then a.groupAggrs.keys else a.groupAggrs.keys ++ [key]) ∧
        (a.ensureGroup E key (r.take a.groupBys.length)).groupBys = a.groupBys := by
      unfold Aggr.ensureGroup
      cases hk : a.groupAggrs.get? key with
      | some x =>
        rw [if_pos (by rw [GoMap.mem_keys_iff, hk]; rfl)]; exact ⟨rfl, rfl⟩
      | none =>
        rw [if_neg (by rw [GoMap.mem_keys_iff, hk]; simp)]
        exact ⟨GoMap.keys_set_of_not_mem _ _ _ hk, rfl⟩
    generalize a.ensureGroup E key (r.take a.groupBys.length) = c at hens h
    split at h
    · cases h
    · next accs haccs =>
      split at h
      · simp only [Prod.mk.injEq, and_true] at h
        rw [← h]
        simp only
        rw [GoMap.keys_set_of_mem _ _ _ (by rw [haccs]; rfl)]
        exact hens
      · next e he => exact absurd (congrArg Prod.snd h) (he ())

/-- Two aggregators with the same number of group columns fed the same rows hold the same groups in the same
insertion order. -/
theorem keys_eq {E : Env V F} (rows : List (List (Option V))) (a c a' c' : Aggr V F) (hg : a.groupBys ≠ [])
    (hn : a.groupBys.length = c.groupBys.length) (hk : a.groupAggrs.keys = c.groupAggrs.keys)
    (h1 : feed E a rows = some a') (h2 : feed E c rows = some c') : a'.groupAggrs.keys = c'.groupAggrs.keys := by
  induction rows generalizing a c with
  | nil => simp only [feed, Option.some.injEq] at h1 h2; rw [← h1, ← h2, hk]
  | cons r rows ih =>
    simp only [feed] at h1 h2
    split at h1
    · next ok1 =>
      split at h2
      · next ok2 =>
        obtain ⟨k1, e1, f1, g1⟩ := keys_step (a' := (a.aggregateRow E r).1) hg (Prod.ext rfl ok1)
        have hg' : c.groupBys ≠ [] := by
          intro e; rw [e] at hn; simp at hn; exact hg hn
        obtain ⟨k2, e2, f2, g2⟩ := keys_step (a' := (c.aggregateRow E r).1) hg' (Prod.ext rfl ok2)
        rw [← hn, e1] at e2
        cases e2
        refine ih _ _ (by rw [g1]; exact hg) (by rw [g1, g2]; exact hn) ?_ h1 h2
        rw [f1, f2, hk]
      · cases h2
    · cases h1

theorem pairwise2_zip {α β γ : Type} {R : α → β → Prop} {cs : List γ} {xs : List α} {ys : List β} (h : Pairwise2 R xs ys)
    (hl : cs.length = ys.length) (P : γ → Prop) (hP : ∀ c ∈ cs, P c) :
    Pairwise2 (fun x (p : γ × β) => R x p.2 ∧ P p.1) xs (cs.zip ys) := by
  induction h generalizing cs with
  | nil => simp; exact .nil
  | cons hr _ ih =>
    cases cs with
    | nil => simp at hl
    | cons c cs =>
      exact .cons ⟨hr, hP c (by simp)⟩ (ih (by simpa using hl) (fun c h => hP c (by simp [h])))

/-- The result of a set of aggregators, all with the same number of group columns, as individual results. -/
theorem set_results {E : Env V F} (as as' : List (Aggr V F)) (n : Nat) (hs : ∀ x ∈ as, Fresh E x)
    (hn : ∀ x ∈ as, x.groupBys.length = n) (rows : List (List (Option V))) (h : setFeed E as rows = some as')
    (chs : List Choice) (hcl : chs.length = as'.length) (hc : ∀ ch ∈ chs, Lawful ch) :
    ∃ rss N, finalizeAll E (chs.zip as') = some rss ∧
      Pairwise2 (fun (x : Aggr V F) (q : ResultSet V F) => q.columns = x.columns ∧ (∀ o ∈ q.rows, o.length = x.columns.length) ∧
        q.rows.length = N) as rss := by
  have hfeed := setFeed_feed rows as as' h
  have hz := pairwise2_zip hfeed hcl Lawful hc
  have hall : ∀ p ∈ chs.zip as', ∃ rs, Aggr.finalize E p.1 p.2 .none = some rs := by
    intro p hp
    obtain ⟨x, hx, hxp, hlaw⟩ := pairwise2_right hz p hp
    obtain ⟨outs, h1, _⟩ := finalize_shape (hs x hx) rows hxp p.1 hlaw .none
    exact ⟨_, h1⟩
  obtain ⟨rss, h1, h2⟩ := finalizeAll_some (E := E) _ hall
  -- the number of rows
  have hN : ∃ N, ∀ x ∈ as, ∀ x' ch rs, feed E x rows = some x' → Lawful ch → Aggr.finalize E ch x' .none = some rs → rs.rows.length = N := by
    cases as with
    | nil => exact ⟨0, by simp⟩
    | cons a as =>
      cases hfeed with
      | @cons _ a' _ _ ha _ =>
        refine ⟨if n = 0 then 1 else a'.groupAggrs.keys.length, ?_⟩
        intro x hx x' ch rs hxf hch hfin
        obtain ⟨outs, f1, f2, f3, f4⟩ := finalize_shape (hs x hx) rows hxf ch hch .none
        rw [f1, Option.some.injEq] at hfin
        subst hfin
        by_cases h0 : n = 0
        · rw [if_pos h0]
          exact f3 (by have := hn x hx; rw [h0] at this; simpa using this)
        · rw [if_neg h0]
          have hxg : x.groupBys ≠ [] := by
            intro e; apply h0; rw [← hn x hx, e]; rfl
          have hag : a.groupBys ≠ [] := by
            intro e; apply h0; rw [← hn a (by simp), e]; rfl
          have hpw := f4 hxg
          simp only
          rw [← pairwise2_length hpw, (orderedKeys_perm (E := E) hch x' .none).length_eq]
          rw [keys_eq (E := E) rows x a x' a' hxg (by rw [hn x hx, hn a (by simp)]) (by rw [(hs x hx).noAggrs, (hs a (by simp)).noAggrs]) hxf ha]
  obtain ⟨N, hN⟩ := hN
  refine ⟨rss, N, h1, ?_⟩
  have hmem : ∀ (xs : List (Aggr V F)) (ps : List (Choice × Aggr V F)),
      Pairwise2 (fun x (p : Choice × Aggr V F) => feed E x rows = some p.2 ∧ Lawful p.1) xs ps → (∀ x ∈ xs, x ∈ as) →
      Pairwise2 (fun x (p : Choice × Aggr V F) => x ∈ as ∧ feed E x rows = some p.2 ∧ Lawful p.1) xs ps := by
    intro xs ps hp hxs
    exact pairwise2_imp hp (fun x p hx _ hr => ⟨hxs x hx, hr⟩)
  refine pairwise2_trans (hmem _ _ hz (fun _ h => h)) h2 ?_
  rintro x ⟨ch, x'⟩ q ⟨hx, hxf, hch⟩ hq
  obtain ⟨outs, f1, f2, _⟩ := finalize_shape (hs x hx) rows hxf ch hch .none
  have hq' : Aggr.finalize E ch x' .none = some q := hq
  have hlen := hN x hx x' ch q hxf hch hq'
  rw [f1, Option.some.injEq] at hq'
  subst hq'
  exact ⟨rfl, f2, hlen⟩

theorem setFinalize_eq {E : Env V F} {as : List (Choice × Aggr V F)} {rs : ResultSet V F} {rest : List (ResultSet V F)}
    (h : finalizeAll E as = some (rs :: rest)) (hcol : ∀ q ∈ rest, q.columns ≠ [])
    (hl : ∀ q ∈ rest, q.rows.length = rs.rows.length) (hne : ∀ q ∈ rest, ∀ x ∈ q.rows, x ≠ []) :
    setFinalize E as = .ok ⟨rs.columns ++ rest.flatMap (fun q => q.columns.drop 1),
      rest.foldl (fun acc rs => List.zipWith (fun r x => r ++ later x) acc rs.rows) rs.rows, -1⟩ := by
  unfold setFinalize
  rw [h]
  simp only [mergeResults]
  rw [mergeColumns_eq rs rest hcol]
  simp only
  rw [mergeFold_eq rest rs.rows hl hne]

theorem length_flatMap_later {qs : List (ResultSet V F)} {parts : List (List (Cell V F))}
    (h : Pairwise2 (fun (q : ResultSet V F) (p : List (Cell V F)) => p.length = q.columns.length) qs parts) :
    (parts.flatMap later).length = (qs.flatMap (fun q => q.columns.drop 1)).length + (qs.filter (fun q => q.columns.length == 1)).length := by
  induction h with
  | nil => rfl
  | @cons q p qs ps hr _ ih =>
    simp only [List.flatMap_cons, List.length_append, List.filter_cons]
    rw [ih]
    unfold later
    by_cases h1 : q.columns.length = 1
    · rw [if_pos (hr.trans h1)]
      simp [h1, hr]; omega
    · rw [if_neg (by rw [hr]; exact h1)]
      have : (q.columns.length == 1) = false := by simpa using h1
      simp [this, hr]; omega

end Verif.Lemmas
