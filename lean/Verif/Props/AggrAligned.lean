import Verif.Props.AggrMore
/-! C38, exactly: the rows of an aggregator set when the aggregators enumerate their groups in any orders. -/
namespace Verif.Props
open Verif Verif.Fn Verif.Spec Verif.Lemmas
variable {V F : Type}

theorem pairwise2_zips {α β γ : Type} {R : α → β → Prop} {cs : List γ} {xs : List α} {ys : List β} (h : Pairwise2 R xs ys)
    (hl : cs.length = ys.length) : Pairwise2 (fun (p : α × γ) (q : γ × β) => R p.1 q.2 ∧ p.2 = q.1) (xs.zip cs) (cs.zip ys) := by
  induction h generalizing cs with
  | nil => simp; exact .nil
  | cons hr _ ih =>
    cases cs with
    | nil => simp at hl
    | cons c cs => exact .cons ⟨hr, rfl⟩ (ih (by simpa using hl))

/-- C38, exactly, for enumeration orders that may differ between the aggregators: all aggregators have the same keys, those of
the rows, and row `i` of the merge is the first aggregator's row for the key at place `i` of its own order followed by the
later aggregators' rows, each for the key at place `i` of its own order (without the first value, unless it is the only
one). So the rows are aligned where the orders have the same key. -/
theorem C38_exact (E : Env V F) (a : Aggr V F) (as as' : List (Aggr V F)) (hs : ∀ x ∈ a :: as, Started E x)
    (hg : a.groupBys ≠ []) (hn : ∀ x ∈ as, x.groupBys.length = a.groupBys.length) (rows : List (List (Option V)))
    (h : setFeed E (a :: as) rows = some as') (cs : List Choice) (hl : cs.length = as'.length) (hc : ∀ c ∈ cs, Lawful c) :
    ∃ (rs : ResultSet V F) (keys : List Str), setFinalize E (cs.zip as') = .ok rs ∧ keys.Nodup ∧
      (∀ k, k ∈ keys ↔ ∃ r ∈ rows, ∃ ts, Texts E (r.take a.groupBys.length) ts ∧ k = Str.join s%"," ts) ∧
      rs.rows.length = keys.length ∧
      ∀ (i : Nat), i < keys.length → ∃ o parts, rs.rows[i]? = some (o ++ parts.flatMap later) ∧
        Pairwise2 (fun (p : Aggr V F × Choice) out => ∃ k r rest, (p.2.enum keys)[i]? = some k ∧
          rowsWith E a.groupBys.length k rows = r :: rest ∧
          IsGroupRow E p.1.kind a.groupBys.length p.1.args.length (r.take a.groupBys.length) (r :: rest) out)
          ((a :: as).zip cs) (o :: parts) := by
  have hfeed := setFeed_feed rows (a :: as) as' h
  obtain ⟨rss, N, h1, h2⟩ := set_results (a :: as) as' a.groupBys.length (fun x hx => started_fresh (hs x hx))
    (by intro x hx; rcases List.mem_cons.mp hx with rfl | hx; exact rfl; exact hn x hx) rows h cs hl hc
  obtain ⟨a', ha'⟩ : ∃ a', feed E a rows = some a' := by
    cases hfeed with | cons hf _ => exact ⟨_, hf⟩
  have hxg : ∀ x ∈ a :: as, x.groupBys ≠ [] := by
    intro x hx e
    rcases List.mem_cons.mp hx with rfl | hx
    · exact hg e
    · have := hn x hx; rw [e] at this; exact hg (List.eq_nil_of_length_eq_zero this.symm)
  have hxn : ∀ x ∈ a :: as, x.groupBys.length = a.groupBys.length := by
    intro x hx; rcases List.mem_cons.mp hx with rfl | hx
    · rfl
    · exact hn x hx
  have hkeys : ∀ x ∈ a :: as, ∀ x', feed E x rows = some x' → ∀ c : Choice, x'.orderedKeys E c .none = c.enum a'.groupAggrs.keys := by
    intro x hx x' hxf c
    simp only [Aggr.orderedKeys]
    rw [keys_eq (E := E) rows x a x' a' (hxg x hx) (hxn x hx)
      (by rw [(started_fresh (hs x hx)).noAggrs, (started_fresh (hs a (by simp))).noAggrs]) hxf ha']
  have hres : Pairwise2 (fun (p : Aggr V F × Choice) (q : ResultSet V F) => Pairwise2 (fun k out => ∃ r rest,
      rowsWith E a.groupBys.length k rows = r :: rest ∧
      IsGroupRow E p.1.kind a.groupBys.length p.1.args.length (r.take a.groupBys.length) (r :: rest) out)
      (p.2.enum a'.groupAggrs.keys) q.rows) ((a :: as).zip cs) rss := by
    have hz : Pairwise2 (fun (p : Aggr V F × Choice) (q : Choice × Aggr V F) => p.1 ∈ a :: as ∧ Lawful q.1 ∧ feed E p.1 rows = some q.2 ∧
        p.2 = q.1) ((a :: as).zip cs) (cs.zip as') :=
      pairwise2_imp (pairwise2_zips hfeed hl) (fun p q hp hq hr => ⟨(List.of_mem_zip hp).1, hc _ (List.of_mem_zip hq).1, hr⟩)
    obtain ⟨rss', f1, f2⟩ := finalizeAll_some (E := E) (cs.zip as') (by
      intro q hq
      obtain ⟨p, _, hx, hlaw, hxf, _⟩ := pairwise2_right hz q hq
      obtain ⟨outs, h1, _⟩ := finalize_shape (started_fresh (hs p.1 hx)) rows hxf q.1 hlaw .none
      exact ⟨_, h1⟩)
    rw [h1, Option.some.injEq] at f1
    subst f1
    refine pairwise2_trans hz f2 ?_
    rintro ⟨x, c'⟩ ⟨c, x'⟩ q ⟨hx, hlaw, hxf, hch⟩ hq
    simp only at hch hq hxf hx hlaw
    subst hch
    obtain ⟨outs, g1, _, _, g4⟩ := finalize_shape (started_fresh (hs x hx)) rows hxf c' hlaw .none
    rw [g1, Option.some.injEq] at hq
    subst hq
    have := g4 (hxg x hx)
    rw [hkeys x hx x' hxf, hxn x hx] at this
    exact this
  cases cs with
  | nil => cases hfeed; simp at hl
  | cons c cs =>
  have hlc := hc c List.mem_cons_self
  obtain ⟨_, k1, k2, k3, _⟩ := grouped_result (started_fresh (hs a (by simp))) hg rows ha' c hlc .none
  rw [hkeys a (by simp) a' ha'] at k2 k3
  have hperm := hlc.1 a'.groupAggrs.keys
  have hkl : ∀ d ∈ c :: cs, (d.enum a'.groupAggrs.keys).length = a'.groupAggrs.keys.length := fun d hd => ((hc d hd).1 _).length_eq
  cases h2 with
  | @cons _ q _ qs hq hqs =>
    rw [List.zip_cons_cons] at hres
    cases hres with
    | cons hr0 hrs =>
      have hcol : ∀ p ∈ qs, p.columns ≠ [] := by
        intro p hp
        obtain ⟨x, hx, e, _⟩ := pairwise2_right hqs p hp
        rw [e]; exact (started_fresh (hs x (by simp [hx]))).ne
      have hlq : ∀ p ∈ qs, p.rows.length = q.rows.length := by
        intro p hp
        obtain ⟨x, hx, _, _, e⟩ := pairwise2_right hqs p hp
        rw [e, hq.2.2]
      have hne : ∀ p ∈ qs, ∀ o ∈ p.rows, o ≠ [] := by
        intro p hp o ho e
        obtain ⟨x, hx, ec, e2, _⟩ := pairwise2_right hqs p hp
        have := e2 o ho
        rw [e] at this
        exact (started_fresh (hs x (by simp [hx]))).ne (List.eq_nil_of_length_eq_zero this.symm)
      have hset := setFinalize_eq h1 hcol hlq hne
      refine ⟨_, a'.groupAggrs.keys, hset, hperm.nodup_iff.mp k2, ?_, ?_, ?_⟩
      · intro k
        rw [← hperm.mem_iff, k3]
        constructor
        · rintro ⟨r, hr, hk⟩; exact ⟨r, hr, (keyOf_iff E _ r k).mp hk⟩
        · rintro ⟨r, hr, hk⟩; exact ⟨r, hr, (keyOf_iff E _ r k).mpr hk⟩
      · simp only
        rw [mergeFold_length qs q.rows hlq, ← pairwise2_length hr0, hkl c List.mem_cons_self]
      · intro i hi
        have hget : ∀ (p : Aggr V F × Choice) (q : ResultSet V F) (o : List (Cell V F)), Pairwise2 (fun k out => ∃ r rest,
            rowsWith E a.groupBys.length k rows = r :: rest ∧
            IsGroupRow E p.1.kind a.groupBys.length p.1.args.length (r.take a.groupBys.length) (r :: rest) out)
            (p.2.enum a'.groupAggrs.keys) q.rows → q.rows[i]? = some o → ∃ k r rest, (p.2.enum a'.groupAggrs.keys)[i]? = some k ∧
            rowsWith E a.groupBys.length k rows = r :: rest ∧
            IsGroupRow E p.1.kind a.groupBys.length p.1.args.length (r.take a.groupBys.length) (r :: rest) o := by
          intro p q o hp ho
          generalize p.2.enum a'.groupAggrs.keys = ks at hp
          generalize q.rows = os at hp ho
          clear hset h1 hlq hi
          induction hp generalizing i with
          | nil => simp at ho
          | cons hr _ ih =>
            cases i with
            | zero =>
              simp at ho; subst ho
              obtain ⟨r, rest, r1, r2⟩ := hr
              exact ⟨_, r, rest, rfl, r1, r2⟩
            | succ i => simpa using ih i (by simpa using ho)
        have hi' : i < q.rows.length := by
          rw [← pairwise2_length hr0, hkl c List.mem_cons_self]
          exact hi
        obtain ⟨parts, p1, p2⟩ := mergeFold_get qs q.rows hlq i _ (List.getElem?_eq_getElem hi')
        refine ⟨_, parts, p2, .cons (hget (a, c) q _ hr0 (List.getElem?_eq_getElem hi')) ?_⟩
        exact pairwise2_trans hrs p1 (fun x p o hp ho => hget x p o hp ho)

example : (∀ x ∈ [exGrouped, exGroupedCount], x.groupBys ≠ []) ∧ (setFeed exEnv [exGrouped, exGroupedCount] exGroupRows).isSome = true ∧
    Lawful exChoice ∧ Lawful exReverse := ⟨by decide, by decide, exChoice_lawful, exReverse_lawful⟩

end Verif.Props
