import Verif.Lemmas.RsAggrMany
import Verif.Props.RsAggr
/-! C49: several aggregate functions. -/
namespace Verif.Props
open Verif Verif.Fn Verif.Rs Verif.Spec Verif.Lemmas
variable {V F T : Type}

/-- C49, exactly for selections with any number of aggregate functions and no grouping: when every row of the source has a
number (or null) under the arguments, the aggregated result set iterates over exactly one row. Its value under the text of
the first function is the aggregate of those numbers, and every other column, also that of every other function, is null. -/
theorem C49_ungrouped_partial (R : REnv V F T) (typed : Func V F T → Bool) (chs : List Choice) (tblName : Str) (tbl : List (Col V F T))
    (ss : List (Sel V F T)) (p : AggrId × Str) (ps : List (AggrId × Str)) (hss : AggrSels ss (p :: ps)) (hch : chs.length = ps.length + 1)
    (cols : List (Col V F T)) (hcols : schemaColumns typed tbl ss = some cols) (htbl : ∀ c ∈ tbl, c.fn = none ∧ c.name ≠ callOf p)
    (src : RSet V F T) (hsch : src.schema.isSome = true) (hcur : src.cursor = 0) (ho : src.offset + 1 < 2 ^ 64)
    (hl : src.offset + src.limit < 2 ^ 64) (hlen : src.rows.length < 2 ^ 63)
    (rows : List (Row V F T)) (hrows : window src.offset src.limit (allRows R src) = rows.map .ok)
    (ns : List F) (hns : ∃ vs, ArgValues p.2 (rows.map (fun r => r.getObject.2)) vs ∧ Nums R.E vs ns)
    (hps : ∀ q ∈ ps, ∃ vs ms, ArgValues q.2 (rows.map (fun r => r.getObject.2)) vs ∧ Nums R.E vs ms) (fuel : Nat) (hfuel : rows.length < fuel) :
    ∃ out row, newAggregatedResultSet R typed chs fuel tblName tbl ss none src = some (.ok out) ∧
      (∃ out', Loop RSet.next (RSet.row R) out [.ok row] out') ∧
      (row.valueBy (callOf p)).2 = .ok (R.boxC (aggValue R.E p.1 ns)) ∧
      ∀ c ∈ cols, c.name ≠ callOf p → (row.valueBy c.name).2 = .ok none := by
  obtain ⟨sch, hsch⟩ := Option.isSome_iff_exists.mp hsch
  have hagg := hasAggregator_many hss
  obtain ⟨src', hloop⟩ := (C45_window_partial R src hcur ho hl hlen).1
  rw [hrows] at hloop
  obtain ⟨vs, hvs, hns⟩ := hns
  obtain ⟨a', hfeed, hfin⟩ := oneAggr_result R.E p _ vs ns hvs hns
  -- the other aggregators
  have hothers : ∀ ps : List (AggrId × Str), (∀ q ∈ ps, ∃ vs ms, ArgValues q.2 (rows.map (fun r => r.getObject.2)) vs ∧ Nums R.E vs ms) →
      ∃ (as : List (Aggr V F)) (rest : List (Str × Cell V F)),
        Pairwise2 (fun a a' => feedMaps R.E [a] (rows.map (fun r => r.getObject.2)) = .ok [a']) (ps.map (oneAggr R.E)) as ∧
        Pairwise2 (fun (a : Aggr V F) (r : ResultSet V F) => ∀ ch, a.finalize R.E ch .none = some r) as (rest.map (fun p => { columns := [p.1], rows := [[p.2]] })) ∧
        as.length = ps.length := by
    intro ps
    induction ps with
    | nil => intro _; exact ⟨[], [], .nil, .nil, rfl⟩
    | cons q ps ih =>
      intro h
      obtain ⟨as, rest, h1, h2, h3⟩ := ih (fun r hr => h r (by simp [hr]))
      obtain ⟨ws, ms, h4, h5⟩ := h q (by simp)
      obtain ⟨b, h6, h7⟩ := oneAggr_result R.E q _ ws ms h4 h5
      exact ⟨b :: as, (callText q.1.name q.2, aggValue R.E q.1 ms) :: rest, .cons h6 h1, .cons h7 h2, by simp [h3]⟩
  obtain ⟨as, rest, has, hrs, hasl⟩ := hothers ps hps
  have hfm : feedMaps R.E ((p :: ps).map (oneAggr R.E)) (rows.map (fun r => r.getObject.2)) = .ok (a' :: as) :=
    feedMaps_each R.E _ _ _ (.cons hfeed has)
  have hal := aggrLoop_eq R hloop rows rfl fuel hfuel ((p :: ps).map (oneAggr R.E))
  rw [hfm] at hal
  have hsf : setFinalize R.E (chs.zip (a' :: as)) = .ok { columns := [callText p.1.name p.2], rows := [aggValue R.E p.1 ns :: rest.map (·.2)] } := by
    unfold setFinalize
    rw [finalizeAll_each R.E chs (a' :: as) _ (by simp [hch, hasl]) (.cons hfin hrs)]
    exact merge_ungrouped _ _ _
  -- the schema and the rows
  let s : Schema V F T := aggrSchema typed sch.database tblName tbl ss
  have hsc : s.columns = cols := by simp only [s, aggrSchema, hcols]; rfl
  let obj : GoMap Str (Option V) := [(callOf p, R.boxC (aggValue R.E p.1 ns))]
  let out : RSet V F T := { schema := some s, rows := [{ schema := some s, object := some obj }] }
  have hout : newAggregatedResultSet R typed chs fuel tblName tbl ss none src = some (.ok out) := by
    unfold newAggregatedResultSet
    rw [hagg, hsch]
    simp only [Bool.not_true, Bool.false_eq_true, if_false]
    unfold aggregateFrom
    rw [selAggregators_many R.E hss]
    simp only []
    rw [setReset_many]
    simp only [if_true]
    rw [hal]
    simp only []
    rw [hsf]
    simp only [aggrRows, List.map_cons, List.map_nil]
    rfl
  obtain ⟨hcm, hce⟩ := schemaColumns_many typed tbl hss cols hcols
  have hval : ∀ c ∈ cols, colValue R obj c = .ok (valueOf obj c.name) := by
    intro c hc
    rcases hcm c hc with h | ⟨f, k, x, rfl, hn, he⟩
    · simp [colValue, (htbl c h).1]
    · have : execOf R f = none := by
        simp [execOf, Func.getExecutor, he, hn, aggr_no_executor]
      simp [colValue, this]
  obtain ⟨m, hproj⟩ := (projectAll_exists R obj cols []).mpr (fun c hc => ⟨_, hval c hc⟩)
  have hget := (projectAll_ok R obj cols [] m hproj (fun c hc d hd h => by rw [hval c hc, hval d hd, h])).1
  let row : Row V F T := { schema := some s, object := some m }
  have hrow : newRowFromObject R (some s) obj = .ok row := (newRow_ok_iff R s obj row).mpr ⟨m, by rw [hsc]; exact hproj, rfl⟩
  refine ⟨out, row, hout, ?_, ?_, ?_⟩
  · obtain ⟨out', h⟩ := (C45_window_partial R out rfl (by show 0 + 1 < 2 ^ 64; decide) (by show 0 + 0 < 2 ^ 64; decide) (by show 1 < 2 ^ 63; decide)).1
    refine ⟨out', ?_⟩
    have : window out.offset out.limit (allRows R out) = [.ok row] := by
      simp only [window, out, allRows, List.map_cons, List.map_nil]
      simp only [Row.getObject, hrow, List.drop_zero, if_true]
    rw [this] at h; exact h
  · obtain ⟨c, hc, hcn⟩ := hce p (by simp)
    obtain ⟨v, hv1, hv2⟩ := hget c hc
    rw [hval c hc, hcn] at hv1
    cases hv1
    rw [hcn] at hv2
    show (match m.get? _ with | some v => (Res.ok v : Res (Option V)) | none => .err) = _
    rw [hv2]
    simp [valueOf, obj, GoMap.get?]
  · intro c hc hcf
    obtain ⟨v, hv1, hv2⟩ := hget c hc
    rw [hval c hc] at hv1
    cases hv1
    show (match m.get? _ with | some v => (Res.ok v : Res (Option V)) | none => .err) = _
    rw [hv2]
    simp [valueOf, obj, GoMap.get?, Ne.symm hcf]

/-- C49 is false of the code for every selection with two or more aggregate functions and no grouping: the value of every
function but the first (and those with the same text) is null in the aggregated result set, whatever the rows are, also if
the aggregate is a number. -/
theorem C49_others_fails (R : REnv V F T) (typed : Func V F T → Bool) (chs : List Choice) (tblName : Str) (tbl : List (Col V F T))
    (ss : List (Sel V F T)) (p : AggrId × Str) (ps : List (AggrId × Str)) (hss : AggrSels ss (p :: ps)) (hch : chs.length = ps.length + 1)
    (cols : List (Col V F T)) (hcols : schemaColumns typed tbl ss = some cols) (htbl : ∀ c ∈ tbl, c.fn = none ∧ c.name ≠ callOf p)
    (src : RSet V F T) (hsch : src.schema.isSome = true) (hcur : src.cursor = 0) (ho : src.offset + 1 < 2 ^ 64)
    (hl : src.offset + src.limit < 2 ^ 64) (hlen : src.rows.length < 2 ^ 63)
    (rows : List (Row V F T)) (hrows : window src.offset src.limit (allRows R src) = rows.map .ok)
    (hps : ∀ q ∈ p :: ps, ∃ vs ms, ArgValues q.2 (rows.map (fun r => r.getObject.2)) vs ∧ Nums R.E vs ms) (fuel : Nat) (hfuel : rows.length < fuel)
    (q : AggrId × Str) (hq : q ∈ ps) (hne : callOf q ≠ callOf p) (y : F) (vs : List (Option V)) (ms : List F)
    (_hv : ArgValues q.2 (rows.map (fun r => r.getObject.2)) vs) (_hm : Nums R.E vs ms) (ha : aggValue R.E q.1 ms = .num y) :
    ∃ out row, newAggregatedResultSet R typed chs fuel tblName tbl ss none src = some (.ok out) ∧
      (∃ out', Loop RSet.next (RSet.row R) out [.ok row] out') ∧ (row.valueBy (callOf q)).2 = .ok none ∧
      (row.valueBy (callOf q)).2 ≠ .ok (R.boxC (aggValue R.E q.1 ms)) := by
  obtain ⟨ws, ns, h1, h2⟩ := hps p (by simp)
  obtain ⟨out, row, h3, h4, -, h6⟩ := C49_ungrouped_partial R typed chs tblName tbl ss p ps hss hch cols hcols htbl src hsch hcur ho hl hlen rows hrows
    ns ⟨ws, h1, h2⟩ (fun q hq => hps q (by simp [hq])) fuel hfuel
  obtain ⟨c, hc, e⟩ := (schemaColumns_many typed tbl hss cols hcols).2 q (by simp [hq])
  have h7 := h6 c hc (by rw [e]; exact hne)
  rw [e] at h7
  refine ⟨out, row, h3, h4, h7, ?_⟩
  rw [h7, ha]
  simp [REnv.boxC]

example : AggrSels [.col s%"b", .fn rSum, .fn rMax] [(.sum, s%"a"), (.max, s%"a")] ∧
    (∃ cols, schemaColumns (fun _ => true) rSchema.columns [.col s%"b", .fn rSum, .fn rMax] = some cols) ∧
    callOf (.max, s%"a") ≠ callOf (.sum, s%"a") ∧ ∀ c ∈ rSchema.columns, c.fn = none ∧ c.name ≠ callOf (.sum, s%"a") := by
  refine ⟨.col _ (.call _ _ _ (by decide) rfl (by decide) rfl (.call _ _ _ (by decide) rfl (by decide) rfl .nil)), ⟨_, rfl⟩, by decide, ?_⟩
  intro c hc
  have : c.fn = none ∧ c.name.length = 1 := by
    simp [rSchema] at hc
    rcases hc with rfl | rfl <;> exact ⟨rfl, rfl⟩
  refine ⟨this.1, fun h => ?_⟩
  rw [h] at this
  exact absurd this.2 (by decide)

end Verif.Props
