import Verif.Lemmas.RsAggr
import Verif.Spec.AggrSels
/-! Several aggregate functions in one selection list. -/
namespace Verif.Lemmas
open Verif Verif.Fn Verif.Rs Verif.Spec
variable {V F T : Type}

/-- The new aggregator of a call. -/
def oneAggr (E : Env V F) (p : AggrId × Str) : Aggr V F :=
  { kind := p.1, name := p.1.name, args := [p.2], columns := [callText p.1.name p.2], aggrs := [p.1.init E] }

theorem selAggregators_many (E : Env V F) {ss : List (Sel V F T)} {ps : List (AggrId × Str)} (h : AggrSels ss ps) :
    selAggregators E ss = some (ps.map (oneAggr E)) := by
  induction h with
  | nil => rfl
  | col n h ih => simpa [selAggregators] using ih
  | call f k x hn ha ht he h ih =>
    simp only [selAggregators, hn, aggr_by_name, ih, ha]
    simp [newAggr, Aggr.applyOpts, Aggr.applyOpt, Aggr.resetCore, oneAggr]

theorem hasAggregator_many {ss : List (Sel V F T)} {p : AggrId × Str} {ps : List (AggrId × Str)} (h : AggrSels ss (p :: ps)) :
    hasAggregator ss = true := by
  generalize he : p :: ps = qs at h
  induction h with
  | nil => cases he
  | col n h ih => have := ih he; simpa [hasAggregator] using this
  | call f k x hn ha ht hx h ih => simp [hasAggregator, ht]

theorem setReset_many (E : Env V F) (ps : List (AggrId × Str)) : setReset E [] (ps.map (oneAggr E)) = (ps.map (oneAggr E), true) := by
  induction ps with
  | nil => rfl
  | cons p ps ih =>
    have : (oneAggr E p).reset E [] = (oneAggr E p, true) := by simp [Aggr.reset, Aggr.applyOpts, Aggr.resetCore, oneAggr]
    simp [setReset, this, ih]

/-- What one aggregator makes of some objects. -/
theorem oneAggr_result (E : Env V F) (p : AggrId × Str) (ms : List (GoMap Str (Option V))) (vs : List (Option V)) (ns : List F)
    (hv : ArgValues p.2 ms vs) (hns : Nums E vs ns) :
    ∃ a', feedMaps E [oneAggr E p] ms = .ok [a'] ∧ ∀ ch, a'.finalize E ch .none = some { columns := [callText p.1.name p.2], rows := [[aggValue E p.1 ns]] } := by
  have hfresh : Fresh E (oneAggr E p) := ⟨rfl, by simp [oneAggr], rfl, rfl, rfl, rfl⟩
  have hm : Pairwise2 (Nums E) (vs.map (fun v => [v])) (ns.map (fun n => [n])) := by
    clear hv
    induction hns with
    | nil => exact .nil
    | cons h _ ih => exact .cons (.cons h .nil) ih
  obtain ⟨a', hfeed⟩ := feed_ungrouped_ok (vs.map (fun v => [v])) (oneAggr E p) rfl rfl (by
    intro r hr
    obtain ⟨n, _, hn⟩ := pairwise2_left hm r hr
    obtain ⟨v, _, rfl⟩ := List.mem_map.mp hr
    exact ⟨rfl, n, hn⟩)
  refine ⟨a', feedMaps_single E (oneAggr E p) a' p.2 rfl _ vs hv hfeed rfl, fun ch => ?_⟩
  obtain ⟨arow, hfin, harl, har⟩ := ungrouped_result hfresh rfl _ hfeed ch .none _ hm
  have har0 : arow = [aggValue E p.1 ns] := by
    have h0 := har 0 (by simp [oneAggr])
    have hcol : column 0 (ns.map (fun n => [n])) = ns := by
      clear har hm hns hv h0
      induction ns with
      | nil => rfl
      | cons n ns ih => simp only [column, List.map_cons, List.filterMap_cons, List.getElem?_cons_zero] at *; rw [ih]
    rw [hcol] at h0
    match arow, harl, h0 with
    | [y], _, h0 => simpa [oneAggr] using h0
  rw [hfin, har0]
  rfl

theorem setAggregate_all (E : Env V F) (v : AggrIn V) (as : List (Aggr V F)) (h : ∀ a ∈ as, (a.aggregate E v).2 = .ok ()) :
    setAggregate E v as = (as.map (fun a => (a.aggregate E v).1), .ok ()) := by
  induction as with
  | nil => rfl
  | cons a as ih =>
    have h1 := h a (by simp)
    have h2 := ih (fun b hb => h b (by simp [hb]))
    simp [setAggregate, h1, h2]

theorem feedMaps_each (E : Env V F) (ms : List (GoMap Str (Option V))) (as as' : List (Aggr V F))
    (h : Pairwise2 (fun a a' => feedMaps E [a] ms = .ok [a']) as as') : feedMaps E as ms = .ok as' := by
  induction ms generalizing as with
  | nil =>
    have : as = as' := by
      induction h with
      | nil => rfl
      | cons h _ ih => simp only [feedMaps, Res.ok.injEq, List.cons.injEq, and_true] at h; rw [h, ih]
    rw [this]; rfl
  | cons m ms ih =>
    have h1 : ∀ a ∈ as, (a.aggregate E (.map m)).2 = .ok () := by
      intro a ha
      obtain ⟨a', -, h⟩ := pairwise2_left h a ha
      simp only [feedMaps, setAggregate] at h
      cases hr : (a.aggregate E (.map m)).2 with
      | ok u => cases u; rfl
      | err => rw [hr] at h; simp at h
      | panic => rw [hr] at h; simp at h
    rw [feedMaps, setAggregate_all E _ as h1]
    refine ih _ ?_
    have : ∀ {xs ys}, Pairwise2 (fun a a' => feedMaps E [a] (m :: ms) = .ok [a']) xs ys → (∀ a ∈ xs, (a.aggregate E (.map m)).2 = .ok ()) →
        Pairwise2 (fun a a' => feedMaps E [a] ms = .ok [a']) (xs.map (fun a => (a.aggregate E (.map m)).1)) ys := by
      intro xs ys h hx
      induction h with
      | nil => exact .nil
      | @cons a b l m' h hr ih =>
        refine .cons ?_ (ih (fun c hc => hx c (by simp [hc])))
        have h1 := hx a (by simp)
        simpa [feedMaps, setAggregate, h1] using h
    exact this h h1

/-- The results of ungrouped aggregators are put together to a row with all values, but the column of the first only. -/
theorem merge_ungrouped (c : Str) (v : Cell V F) (rest : List (Str × Cell V F)) :
    mergeResults ({ columns := [c], rows := [[v]] } :: rest.map (fun p => { columns := [p.1], rows := [[p.2]] }) : List (ResultSet V F)) =
      .ok { columns := [c], rows := [v :: rest.map (·.2)] } := by
  have h1 : ∀ (rest : List (Str × Cell V F)) (r : ResultSet V F),
      mergeColumns (r :: rest.map (fun p => ({ columns := [p.1], rows := [[p.2]] } : ResultSet V F))) = some r.columns := by
    intro rest
    induction rest with
    | nil => intro r; rfl
    | cons p rest ih =>
      intro r
      have := ih { r with columns := r.columns ++ [] }
      rw [show r.columns = r.columns ++ [] by simp]
      exact this
  have h2 : ∀ (rest : List (Str × Cell V F)) (row : List (Cell V F)),
      (rest.map (fun p => ({ columns := [p.1], rows := [[p.2]] } : ResultSet V F))).foldl mergeNext (some [row]) = some [row ++ rest.map (·.2)] := by
    intro rest
    induction rest with
    | nil => intro row; simp
    | cons p rest ih =>
      intro row
      simp only [List.map_cons, List.foldl_cons]
      have : mergeNext (some [row]) ({ columns := [p.1], rows := [[p.2]] } : ResultSet V F) = some [row ++ [p.2]] := rfl
      rw [this, ih]
      simp
  unfold mergeResults
  rw [h1]
  simp only [h2]
  rfl

theorem finalizeAll_each (E : Env V F) (chs : List Choice) (as : List (Aggr V F)) (rs : List (ResultSet V F)) (hl : chs.length = as.length)
    (h : Pairwise2 (fun (a : Aggr V F) r => ∀ ch, a.finalize E ch .none = some r) as rs) : finalizeAll E (chs.zip as) = some rs := by
  induction h generalizing chs with
  | nil => cases chs <;> rfl
  | cons h _ ih =>
    cases chs with
    | nil => simp at hl
    | cons ch chs =>
      simp only [List.zip_cons_cons, finalizeAll, h ch, ih chs (by simpa using hl)]
      rfl

/-- The columns of the schema of such a selection list: columns of the table, and functions without executor. -/
theorem schemaColumns_many (typed : Func V F T → Bool) (tbl : List (Col V F T)) {ss : List (Sel V F T)} {ps : List (AggrId × Str)}
    (h : AggrSels ss ps) (cs : List (Col V F T)) (hc : schemaColumns typed tbl ss = some cs) :
    (∀ c ∈ cs, c ∈ tbl ∨ ∃ f k x, c = { name := callOf (k, x), fn := some f } ∧ f.name = AggrId.name k ∧ f.executor = none) ∧
    ∀ p ∈ ps, ∃ c ∈ cs, c.name = callOf p := by
  induction h generalizing cs with
  | nil => cases hc; exact ⟨fun c h => (by cases h), fun p h => (by cases h)⟩
  | @col ss ps n h ih =>
    simp only [schemaColumns] at hc
    cases hsc : schemaColumn typed tbl (.col n) with
    | none => rw [hsc] at hc; cases hc
    | some c0 =>
      rw [hsc] at hc
      cases hr : schemaColumns typed tbl ss with
      | none => rw [hr] at hc; cases hc
      | some cs' =>
        rw [hr] at hc; cases hc
        obtain ⟨h1, h2⟩ := ih cs' hr
        refine ⟨fun c hc => ?_, fun p hp => ?_⟩
        · rcases List.mem_cons.mp hc with rfl | hc
          · exact Or.inl (List.mem_of_find?_eq_some hsc)
          · exact h1 c hc
        · obtain ⟨c, hc, e⟩ := h2 p hp
          exact ⟨c, List.mem_cons_of_mem _ hc, e⟩
  | @call ss ps f k x hn ha ht he h ih =>
    simp only [schemaColumns] at hc
    cases hsc : schemaColumn typed tbl (.fn f) with
    | none => rw [hsc] at hc; cases hc
    | some c0 =>
      rw [hsc] at hc
      cases hr : schemaColumns typed tbl ss with
      | none => rw [hr] at hc; cases hc
      | some cs' =>
        rw [hr] at hc; cases hc
        obtain ⟨h1, h2⟩ := ih cs' hr
        have e0 : c0 = { name := callOf (k, x), fn := some f } := by
          simp only [schemaColumn] at hsc
          split at hsc
          · cases hsc; simp [Sel.text, ha, Str.join, callOf, hn]
          · cases hsc
        refine ⟨fun c hc => ?_, fun p hp => ?_⟩
        · rcases List.mem_cons.mp hc with rfl | hc
          · exact Or.inr ⟨f, k, x, e0, hn, he⟩
          · exact h1 c hc
        · rcases List.mem_cons.mp hp with rfl | hp
          · exact ⟨c0, by simp, by rw [e0]⟩
          · obtain ⟨c, hc, e⟩ := h2 p hp
            exact ⟨c, List.mem_cons_of_mem _ hc, e⟩

end Verif.Lemmas
