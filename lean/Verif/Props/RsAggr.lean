import Verif.Lemmas.RsAggr
import Verif.Props.ResultSet
/-! C49: aggregated result sets. -/
namespace Verif.Props
open Verif Verif.Fn Verif.Rs Verif.Spec Verif.Lemmas
variable {V F T : Type}

/-- C49 for a selection with one aggregate function and no grouping: when every row of the source has a
number (or null) under the argument name, the aggregated result set iterates over exactly one row, whose value
under the function's text is the aggregate of those numbers, and whose value for every plain column is null.
`*` as argument counts every row. Missing: two or more aggregate functions (`C49_fails`), and grouping, which
is always an error when the source has a row (`C49_grouped_error`). -/
theorem C49_single_partial (R : REnv V F T) (typed : Func V F T → Bool) (ch : Choice) (tblName : Str)
    (tbl : List (Col V F T)) (pre post : List Str) (f : Func V F T) (k : AggrId) (x : Str)
    (hname : f.name = k.name) (hargs : f.args = [x]) (htype : f.type = .aggregate) (hex : f.executor = none)
    (cols : List (Col V F T))
    (hcols : schemaColumns typed tbl (pre.map Sel.col ++ [Sel.fn f] ++ post.map Sel.col) = some cols)
    (htbl : ∀ c ∈ tbl, c.fn = none ∧ c.name ≠ f.name ++ s%"(" ++ x ++ s%")")
    (src : RSet V F T) (hsch : src.schema.isSome = true) (hcur : src.cursor = 0) (ho : src.offset + 1 < 2 ^ 64)
    (hl : src.offset + src.limit < 2 ^ 64) (hlen : src.rows.length < 2 ^ 63)
    (rows : List (Row V F T)) (hrows : window src.offset src.limit (allRows R src) = rows.map .ok)
    (vs : List (Option V)) (ns : List F)
    (hvs : Pairwise2 (fun r v => (if x = s%"*" then some none else r.getObject.2.get? x) = some v) rows vs)
    (hns : Nums R.E vs ns) (fuel : Nat) (hfuel : rows.length < fuel) :
    ∃ out row, newAggregatedResultSet R typed [ch] fuel tblName tbl (pre.map Sel.col ++ [Sel.fn f] ++ post.map Sel.col) none src
        = some (.ok out) ∧
      (∃ out', Loop RSet.next (RSet.row R) out [.ok row] out') ∧
      (row.valueBy (f.name ++ s%"(" ++ x ++ s%")")).2 = .ok (R.boxC (aggValue R.E k ns)) ∧
      ∀ c ∈ cols, c.fn = none → (row.valueBy c.name).2 = .ok none := by
  obtain ⟨sch, hsch⟩ := Option.isSome_iff_exists.mp hsch
  have hagg : hasAggregator (pre.map Sel.col ++ [Sel.fn f] ++ post.map Sel.col) = true := by
    simp [hasAggregator, htype]
  obtain ⟨src', hloop⟩ := (C45_window_partial R src hcur ho hl hlen).1
  rw [hrows] at hloop
  -- the aggregator
  let a : Aggr V F := { kind := k, name := k.name, args := [x], columns := [callText k.name x], aggrs := [k.init R.E] }
  have hfresh : Fresh R.E a := ⟨rfl, by simp [a], rfl, rfl, rfl, rfl⟩
  have hreset : setReset R.E [] [a] = ([a], true) := by
    simp [setReset, Aggr.reset, Aggr.applyOpts, Aggr.resetCore, a]
  have hm : Pairwise2 (Nums R.E) (vs.map (fun v => [v])) (ns.map (fun n => [n])) := by
    clear hvs
    induction hns with
    | nil => exact .nil
    | cons h _ ih => exact .cons (.cons h .nil) ih
  obtain ⟨a', hfeed⟩ := feed_ungrouped_ok (vs.map (fun v => [v])) a rfl rfl (by
    intro r hr
    obtain ⟨n, _, hn⟩ := pairwise2_left hm r hr
    obtain ⟨v, _, rfl⟩ := List.mem_map.mp hr
    exact ⟨rfl, n, hn⟩)
  obtain ⟨arow, hfin, harl, har⟩ := ungrouped_result hfresh rfl _ hfeed ch .none _ hm
  have har0 : arow = [aggValue R.E k ns] := by
    have h0 := har 0 (by simp [a])
    have hcol : column 0 (ns.map (fun n => [n])) = ns := by
      clear har hm hns hvs h0
      induction ns with
      | nil => rfl
      | cons n ns ih => simp only [column, List.map_cons, List.filterMap_cons, List.getElem?_cons_zero] at *; rw [ih]
    rw [hcol] at h0
    match arow, harl, h0 with
    | [y], _, h0 => simpa using h0
  subst har0
  have hmaps : Pairwise2 (fun m v => (if x = s%"*" then some none else m.get? x) = some v)
      (rows.map (fun r => r.getObject.2)) vs := by
    clear hrows hloop hns hfeed hm hfuel har harl hfin
    induction hvs with
    | nil => exact .nil
    | cons h _ ih => exact .cons h ih
  have hfm := feedMaps_single R.E a a' x rfl _ vs hmaps hfeed rfl
  have hal := aggrLoop_eq R hloop rows rfl fuel hfuel [a]
  rw [hfm] at hal
  have hsf : setFinalize R.E [(ch, a')] = .ok { columns := a.columns, rows := [[aggValue R.E k ns]] } := by
    simp [setFinalize, finalizeAll, hfin, mergeResults, mergeColumns]
  -- the schema and the rows
  let s : Schema V F T := aggrSchema typed sch.database tblName tbl (pre.map Sel.col ++ [Sel.fn f] ++ post.map Sel.col)
  have hsc : s.columns = cols := by simp only [s, aggrSchema, hcols]; rfl
  let obj : GoMap Str (Option V) := [(callText k.name x, R.boxC (aggValue R.E k ns))]
  let out : RSet V F T := { schema := some s, rows := [{ schema := some s, object := some obj }] }
  have hout : newAggregatedResultSet R typed [ch] fuel tblName tbl (pre.map Sel.col ++ [Sel.fn f] ++ post.map Sel.col) none src
      = some (.ok out) := by
    unfold newAggregatedResultSet
    rw [hagg, hsch]
    simp only [Bool.not_true, Bool.false_eq_true, if_false]
    unfold aggregateFrom
    rw [selAggregators_single R.E pre post f k x hname hargs]
    simp only []
    rw [hreset]
    simp only [if_true]
    rw [hal]
    simp only [List.zip_cons_cons, List.zip_nil_left]
    rw [hsf]
    simp only [aggrRows, List.map_cons, List.map_nil]
    rfl
  -- columns of the schema
  have hcolsMem : ∀ c ∈ cols, (c.fn = none ∧ c.name ≠ f.name ++ s%"(" ++ x ++ s%")") ∨
      c = { name := f.name ++ s%"(" ++ x ++ s%")", fn := some f } := by
    have gen : ∀ (ss : List (Sel V F T)) (cs : List (Col V F T)), schemaColumns typed tbl ss = some cs →
        (∀ s ∈ ss, (∃ n, s = .col n) ∨ s = .fn f) → ∀ c ∈ cs, (c.fn = none ∧ c.name ≠ f.name ++ s%"(" ++ x ++ s%")") ∨
          c = { name := f.name ++ s%"(" ++ x ++ s%")", fn := some f } := by
      intro ss
      induction ss with
      | nil => intro cs h _ c hc; cases h; cases hc
      | cons s ss ih =>
        intro cs h hss c hc
        simp only [schemaColumns] at h
        cases hsc : schemaColumn typed tbl s with
        | none => rw [hsc] at h; cases h
        | some c0 =>
          rw [hsc] at h
          cases hr : schemaColumns typed tbl ss with
          | none => rw [hr] at h; cases h
          | some cs' =>
            rw [hr] at h; cases h
            rcases List.mem_cons.mp hc with rfl | hc
            · rcases hss s (by simp) with ⟨n, rfl⟩ | rfl
              · left; exact htbl c (List.mem_of_find?_eq_some hsc)
              · right
                simp only [schemaColumn] at hsc
                split at hsc
                · cases hsc; simp [Sel.text, hargs, Str.join]
                · cases hsc
            · exact ih cs' hr (fun s hs => hss s (List.mem_cons_of_mem _ hs)) c hc
    refine gen _ cols hcols ?_
    intro s hs
    simp only [List.mem_append, List.mem_map, List.mem_singleton] at hs
    rcases hs with (⟨n, _, rfl⟩ | rfl) | ⟨n, _, rfl⟩
    · exact Or.inl ⟨n, rfl⟩
    · exact Or.inr rfl
    · exact Or.inl ⟨n, rfl⟩
  have htext : callText k.name x = f.name ++ s%"(" ++ x ++ s%")" := by rw [hname]; rfl
  have hval : ∀ c ∈ cols, colValue R obj c = .ok (valueOf obj c.name) := by
    intro c hc
    rcases hcolsMem c hc with ⟨h, _⟩ | rfl
    · simp [colValue, h]
    · have : execOf R f = none := by
        simp [execOf, Func.getExecutor, hex, hname, aggr_no_executor]
      simp [colValue, this]
  obtain ⟨m, hproj⟩ := (projectAll_exists R obj cols []).mpr (fun c hc => ⟨_, hval c hc⟩)
  have hget := (projectAll_ok R obj cols [] m hproj (fun c hc d hd h => by rw [hval c hc, hval d hd, h])).1
  let row : Row V F T := { schema := some s, object := some m }
  have hrow : newRowFromObject R (some s) obj = .ok row := (newRow_ok_iff R s obj row).mpr ⟨m, by rw [hsc]; exact hproj, rfl⟩
  have hfm' : ∃ c ∈ cols, c.name = f.name ++ s%"(" ++ x ++ s%")" := by
    have gen : ∀ (ss : List (Sel V F T)) (cs : List (Col V F T)), schemaColumns typed tbl ss = some cs → Sel.fn f ∈ ss →
        ∃ c ∈ cs, c.name = f.name ++ s%"(" ++ x ++ s%")" := by
      intro ss
      induction ss with
      | nil => intro cs _ h; cases h
      | cons s ss ih =>
        intro cs h hm
        simp only [schemaColumns] at h
        cases hsc : schemaColumn typed tbl s with
        | none => rw [hsc] at h; cases h
        | some c0 =>
          rw [hsc] at h
          cases hr : schemaColumns typed tbl ss with
          | none => rw [hr] at h; cases h
          | some cs' =>
            rw [hr] at h; cases h
            rcases List.mem_cons.mp hm with rfl | hm
            · refine ⟨c0, by simp, ?_⟩
              simp only [schemaColumn] at hsc
              split at hsc
              · cases hsc; simp [Sel.text, hargs, Str.join]
              · cases hsc
            · obtain ⟨c, hc, hcn⟩ := ih cs' hr hm
              exact ⟨c, List.mem_cons_of_mem _ hc, hcn⟩
    exact gen _ cols hcols (by simp)
  refine ⟨out, row, hout, ?_, ?_, ?_⟩
  · obtain ⟨out', h⟩ := (C45_window_partial R out rfl (by show 0 + 1 < 2 ^ 64; decide) (by show 0 + 0 < 2 ^ 64; decide) (by show 1 < 2 ^ 63; decide)).1
    refine ⟨out', ?_⟩
    have : window out.offset out.limit (allRows R out) = [.ok row] := by
      simp only [window, out, allRows, List.map_cons, List.map_nil]
      simp only [Row.getObject, hrow, List.drop_zero, if_true]
    rw [this] at h; exact h
  · obtain ⟨c, hc, hcn⟩ := hfm'
    obtain ⟨v, hv1, hv2⟩ := hget c hc
    rw [hval c hc, hcn] at hv1
    cases hv1
    rw [hcn] at hv2
    show (match m.get? _ with | some v => (Res.ok v : Res (Option V)) | none => .err) = _
    rw [hv2]
    simp [valueOf, obj, GoMap.get?, htext]
  · intro c hc hcf
    obtain ⟨v, hv1, hv2⟩ := hget c hc
    rw [hval c hc] at hv1
    cases hv1
    show (match m.get? _ with | some v => (Res.ok v : Res (Option V)) | none => .err) = _
    rw [hv2]
    have : c.name ≠ callText k.name x := by
      rw [htext]
      rcases hcolsMem c hc with ⟨_, h⟩ | rfl
      · exact h
      · cases hcf
    simp [valueOf, obj, GoMap.get?, Ne.symm this]

/-- C49 with a GROUP BY column: as soon as the source has a row, aggregating it is an error, whatever the
selectors and the rows are. -/
theorem C49_grouped_error (R : REnv V F T) (typed : Func V F T → Bool) (chs : List Choice) (tblName : Str)
    (tbl : List (Col V F T)) (ss : List (Sel V F T)) (hagg : hasAggregator ss = true) (g : Str) (hg : g ≠ [])
    (src : RSet V F T) (hsch : src.schema.isSome = true) (hcur : src.cursor = 0) (ho : src.offset + 1 < 2 ^ 64)
    (hl : src.offset + src.limit < 2 ^ 64) (hlen : src.rows.length < 2 ^ 63)
    (rows : List (Row V F T)) (hrows : window src.offset src.limit (allRows R src) = rows.map .ok) (hne : rows ≠ [])
    (fuel : Nat) (hfuel : rows.length < fuel) :
    newAggregatedResultSet R typed chs fuel tblName tbl ss (some g) src = some .err := by
  obtain ⟨sch, hsch⟩ := Option.isSome_iff_exists.mp hsch
  obtain ⟨src', hloop⟩ := (C45_window_partial R src hcur ho hl hlen).1
  rw [hrows] at hloop
  unfold newAggregatedResultSet
  rw [hagg, hsch]
  simp only [Bool.not_true, Bool.false_eq_true, if_false]
  unfold aggregateFrom
  cases hsel : selAggregators R.E ss with
  | none => rfl
  | some as =>
    have hasne : as ≠ [] := by
      have : ∀ (ss : List (Sel V F T)) (as : List (Aggr V F)), hasAggregator ss = true → selAggregators R.E ss = some as → as ≠ [] := by
        intro ss
        induction ss with
        | nil => intro as h; simp [hasAggregator] at h
        | cons s ss ih =>
          intro as h1 h2
          cases s with
          | col n =>
            exact ih as (by simpa [hasAggregator] using h1) (by simpa [selAggregators] using h2)
          | fn f =>
            simp only [selAggregators] at h2
            repeat' split at h2
            · cases h2
            · cases h2
            · next a _ =>
              cases hr : selAggregators R.E ss with
              | none => rw [hr] at h2; cases h2
              | some as' => rw [hr] at h2; cases h2; simp
      exact this ss as hagg hsel
    simp only []
    cases as with
    | nil => exact absurd rfl hasne
    | cons a as =>
      cases hr : setReset R.E [.group g] (a :: as) with
      | mk as' ok =>
        cases ok with
        | false => rfl
        | true =>
          simp only [if_true]
          rw [aggrLoop_eq R hloop rows rfl fuel hfuel as']
          have hfm : feedMaps R.E as' (rows.map (fun r => r.getObject.2)) = .err := by
            cases rows with
            | nil => exact absurd rfl hne
            | cons r rows =>
              simp only [setReset] at hr
              cases ha : a.reset R.E [.group g] with
              | mk a1 ok1 =>
                rw [ha] at hr
                cases ok1 with
                | false => simp at hr
                | true =>
                  simp only [if_true, Prod.mk.injEq] at hr
                  have hf := fresh_of_reset ha
                  have hgb : a1.groupBys ≠ [] := by
                    have : a1.groupBys = [g] := by
                      have hgl : g.length ≠ 0 := by
                        intro h; exact hg (List.eq_nil_of_length_eq_zero h)
                      simp only [Aggr.reset, Aggr.applyOpts, Aggr.applyOpt, Aggr.setGroupBys, Aggr.resetCore] at ha
                      simp only [if_true] at ha
                      split at ha
                      · cases ha
                      · simp only [Prod.mk.injEq] at ha
                        rw [← ha.1]
                        simp [hgl]
                    rw [this]; simp
                  rw [← hr.1]
                  simp only [List.map_cons, feedMaps, setAggregate]
                  rw [aggregateMap_grouped R.E a1 hf.cols hgb]
          rw [hfm]

/-- Example selectors. -/
def rSum : Func Int Int Unit := newFunction s%"SUM" [s%"a"]
/-- Example selectors. -/
def rMax : Func Int Int Unit := newFunction s%"MAX" [s%"a"]

/-- C49, negation: SELECT SUM(a), MAX(a) over the rows 1, 2, 3 gives 6 for the sum but null for the
maximum. -/
theorem C49_fails : ∃ (out : RSet Int Int Unit) (row : Row Int Int Unit),
    newAggregatedResultSet rEnv (fun _ => true) [exChoice, exChoice] 9 s%"t" rSchema.columns [.fn rSum, .fn rMax] none (rSet 0 0) =
      some (.ok out) ∧
    (out.next.1.row rEnv).2 = .ok row ∧ (row.valueBy s%"SUM(a)").2 = .ok (some 6) ∧
    (row.valueBy s%"MAX(a)").2 = .ok none := by
  refine ⟨_, _, rfl, rfl, ?_, ?_⟩ <;> decide

example : (rSum.name = AggrId.sum.name ∧ rSum.args = [s%"a"] ∧ rSum.type = .aggregate) ∧
    (∃ cols, schemaColumns (fun _ => true) rSchema.columns ([s%"b"].map Sel.col ++ [Sel.fn rSum] ++ ([] : List Str).map Sel.col) = some cols) ∧
    ∃ rows : List (Row Int Int Unit), window (rSet 0 0).offset (rSet 0 0).limit (allRows rEnv (rSet 0 0)) = rows.map .ok ∧ rows.length = 3 := by
  refine ⟨by decide, ⟨_, rfl⟩, [_, _, _], rfl, rfl⟩
example : Nums rEnv.E [some 1, some 2, some 3] [1, 2, 3] := .cons (.val rfl) (.cons (.val rfl) (.cons (.val rfl) .nil))
example : hasAggregator [Sel.fn rSum] = true := rfl

end Verif.Props
