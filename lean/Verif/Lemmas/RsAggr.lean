import Verif.Lemmas.ResultSet
import Verif.Lemmas.AggrResult
/-! Lemmas about aggregated result sets. -/
namespace Verif.Lemmas
open Verif Verif.Fn Verif.Rs Verif.Spec
variable {V F T : Type}

/-- Feeding the objects of a list of rows to an aggregator set. -/
def feedMaps (E : Env V F) (as : List (Aggr V F)) : List (GoMap Str (Option V)) → Res (List (Aggr V F))
  | [] => .ok as
  | m :: ms => match (setAggregate E (.map m) as).2 with
    | .ok _ => feedMaps E (setAggregate E (.map m) as).1 ms
    | .err => .err
    | .panic => .panic

theorem aggrLoop_eq (R : REnv V F T) {src src' : RSet V F T} {l : List (Res (Row V F T))}
    (h : Loop RSet.next (RSet.row R) src l src') (rows : List (Row V F T)) (hl : l = rows.map .ok)
    (fuel : Nat) (hf : rows.length < fuel) (as : List (Aggr V F)) :
    aggrLoop R fuel src as = some (feedMaps R.E as (rows.map (fun r => r.getObject.2))) := by
  induction h generalizing rows fuel as with
  | stop hn =>
    cases rows with
    | cons _ _ => cases hl
    | nil =>
      cases fuel with
      | zero => omega
      | succ fuel => simp [aggrLoop, hn, feedMaps]
  | turn hn hr _ ih =>
    cases rows with
    | nil => cases hl
    | cons r rows =>
      simp only [List.map_cons, List.cons.injEq] at hl
      cases fuel with
      | zero => omega
      | succ fuel =>
        have hr2 := hl.1
        simp only [aggrLoop, hn, hr, hr2, if_true, List.map_cons, feedMaps]
        cases hs : (setAggregate R.E (.map r.getObject.2) as).2 with
        | ok u => simp only []; exact ih rows hl.2 fuel (by simp at hf; omega) _
        | err => rfl
        | panic => rfl

/-- A single ungrouped aggregator with one argument: objects are rows of one value. -/
theorem feedMaps_single (E : Env V F) (a a' : Aggr V F) (x : Str) (hx : a.args = [x]) (ms : List (GoMap Str (Option V)))
    (vs : List (Option V))
    (hv : Pairwise2 (fun m v => (if x = s%"*" then some none else m.get? x) = some v) ms vs)
    (h : feed E a (vs.map (fun v => [v])) = some a') (hg : a.groupBys = [])  :
    feedMaps E [a] ms = .ok [a'] := by
  induction hv generalizing a with
  | nil => simp [feed] at h; simp [feedMaps, h]
  | @cons m v ms vs hm hv ih =>
    simp only [List.map_cons, feed] at h
    have hmr : mapRow m a.args = some [v] := by rw [hx]; simp [mapRow, hm]
    have hag : a.aggregate E (.map m) = a.aggregateRow E [v] := by
      simp [Aggr.aggregate, Aggr.aggregateMap, hmr]
    cases hr : (a.aggregateRow E [v]).2 with
    | err => rw [hr] at h; cases h
    | panic => rw [hr] at h; cases h
    | ok u =>
      rw [hr] at h
      have hkeep : (a.aggregateRow E [v]).1.args = a.args ∧ (a.aggregateRow E [v]).1.groupBys = [] := by
        rw [aggregateRow_ungrouped hg] at hr ⊢
        repeat' split
        all_goals exact ⟨rfl, hg⟩
      simp only [feedMaps, setAggregate, hag, hr]
      exact ih _ (hkeep.1.trans hx) h hkeep.2

/-- With a group column the objects of a source can never be aggregated. -/
theorem aggregateMap_grouped (E : Env V F) (a : Aggr V F) (hf : a.columns = a.groupBys ++ a.args.map (callText a.name))
    (hg : a.groupBys ≠ []) (m : GoMap Str (Option V)) : (a.aggregate E (.map m)).2 = .err := by
  have hl : ∀ as row, mapRow m as = some row → row.length = as.length := by
    intro as
    induction as with
    | nil => intro row h; cases h; rfl
    | cons b as ih =>
      intro row h
      simp only [mapRow] at h
      split at h
      · cases h
      · cases hr : mapRow m as with
        | none => rw [hr] at h; cases h
        | some row' => rw [hr] at h; cases h; simp [ih row' hr]
  simp only [Aggr.aggregate, Aggr.aggregateMap]
  cases hr : mapRow m a.args with
  | none => rfl
  | some row =>
    have := hl _ _ hr
    simp only [Aggr.aggregateRow]
    rw [if_pos]
    rw [hf, List.length_append, List.length_map, this]
    have : 0 < a.groupBys.length := List.length_pos_iff.mpr hg
    omega

theorem aggr_no_executor (k : AggrId) : newExecutorForName k.name = none := by cases k <;> decide

theorem aggr_by_name (k : AggrId) : newAggregatorForName k.name = some k := by cases k <;> decide

/-- The aggregators of a selector list with exactly one function. -/
theorem selAggregators_single (E : Env V F) (pre post : List Str) (f : Func V F T) (k : AggrId) (x : Str)
    (hn : f.name = k.name) (ha : f.args = [x]) :
    selAggregators E (pre.map Sel.col ++ [Sel.fn f] ++ post.map Sel.col) =
      some [{ kind := k, name := k.name, args := [x], columns := [callText k.name x], aggrs := [k.init E] }] := by
  have hpost : selAggregators E (post.map (Sel.col (V := V) (F := F) (T := T))) = some [] := by
    induction post with
    | nil => rfl
    | cons _ _ ih => simpa [selAggregators] using ih
  induction pre with
  | nil =>
    simp only [List.map_nil, List.nil_append, List.singleton_append, selAggregators, hn, aggr_by_name, hpost, ha]
    simp [newAggr, Aggr.applyOpts, Aggr.applyOpt, Aggr.resetCore]
  | cons _ _ ih => simpa [selAggregators] using ih

end Verif.Lemmas
