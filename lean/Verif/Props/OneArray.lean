import Verif.Lemmas.FnReuse
import Verif.Props.AliasRow
/-! C123: what a caller sees that passes all rows in one array. -/
namespace Verif.Props
open Verif Verif.Fn Verif.Spec Verif.AliasRow Verif.Lemmas Verif.Lemmas.FnState

section
variable {V F : Type}

/-- The caller's arrays after the actions. -/
def memoryAfter : Rows V → List (Act V) → Rows V
  | m, [] => m
  | m, .new row :: as => memoryAfter (m ++ [row]) as
  | m, .write p i v :: as => memoryAfter (m.modify p (fun r => r.set i v)) as
  | m, _ :: as => memoryAfter m as

/-- All rows are passed in the array `p`, and neither maps are passed nor is the aggregator reset. -/
def OneArray (p : Nat) (as : List (Act V)) : Prop :=
  (∀ q, .row q ∈ as → q = p) ∧ (∀ o, .map o ∉ as) ∧ ∀ os, .reset os ∉ as

theorem acts_ne (E : Env V F) (as : List (Act V)) (m : Rows V) (s : RAggr V F) (ch : Choice) (ob : OrderBy) :
    acts E m s (as ++ [.finalize ch ob]) ≠ [] := by
  induction as generalizing m s with
  | nil => simp [acts, act]
  | cons a as ih =>
    intro h
    rw [List.cons_append, acts] at h
    exact ih _ _ (List.append_eq_nil_iff.mp h).2

theorem get?_in {α : Type} {m : GoMap Str α} {k : Str} {v : α} (h : m.get? k = some v) : ∃ e ∈ m, e.2 = v := by
  induction m with
  | nil => cases h
  | cons e m ih =>
    simp only [GoMap.get?] at h
    split at h
    · exact ⟨e, by simp, by simpa using h⟩
    · obtain ⟨x, h1, h2⟩ := ih h
      exact ⟨x, List.mem_cons_of_mem _ h1, h2⟩

theorem groupRows_all (E : Env V F) (a : Aggr V F) (vals : List (Option V)) (ha : ∀ k v, a.groupKeys.get? k = some v → v = vals)
    (ks : List Str) (rows : List (List (Cell V F))) (h : a.groupRows E ks = some rows) :
    ∀ out ∈ rows, ∃ aggs, out = vals.map Cell.ofAny ++ aggs := by
  induction ks generalizing rows with
  | nil => cases h; intro out ho; cases ho
  | cons k ks ih =>
    rw [Aggr.groupRows] at h
    split at h
    · cases h
    · rename_i r hr
      obtain ⟨rs, h1, rfl⟩ := Option.map_eq_some_iff.mp h
      intro out ho
      rcases List.mem_cons.mp ho with rfl | ho
      · unfold Aggr.groupRow at hr
        split at hr
        · rename_i vs accs n hv _ _
          cases hr
          rw [ha _ _ hv]
          exact ⟨_, rfl⟩
        · cases hr
      · exact ih rs h1 out ho

theorem one_array (E : Env V F) (p n : Nat) (hn : n ≠ 0) (as : List (Act V)) (ho : OneArray p as) (m : Rows V) (s : RAggr V F)
    (hs : ∀ e ∈ s.refs, e.2 = .shared p n) (hg : s.core.groupBys.length = n) (ch : Choice) (ob : OrderBy) (rs : ResultSet V F)
    (h : (acts E m s (as ++ [.finalize ch ob])).getLast? = some (.finalized (some rs))) :
    ∀ out ∈ rs.rows, ∃ aggs, out = ((((memoryAfter m as)[p]?).getD []).take n).map Cell.ofAny ++ aggs := by
  induction as generalizing m s with
  | nil =>
    have h : (s.read m).finalize E ch ob = some rs := by simpa [acts, act] using h
    unfold Aggr.finalize at h
    rw [if_pos (by show s.core.groupBys.length ≠ 0; omega)] at h
    obtain ⟨rows, h1, rfl⟩ := Option.map_eq_some_iff.mp h
    refine groupRows_all E _ _ ?_ _ _ h1
    intro k v hv
    have hv : (GoMap.get? s.refs k).map (fun r => r.read m) = some v := by rw [← hv]; exact (get?_map _ _ _).symm
    obtain ⟨r, h2, rfl⟩ := Option.map_eq_some_iff.mp hv
    obtain ⟨e, he, rfl⟩ := get?_in h2
    rw [hs e he]
    rfl
  | cons a as ih =>
    have ho' : OneArray p as := ⟨fun q hq => ho.1 q (List.mem_cons_of_mem _ hq), fun o hq => ho.2.1 o (List.mem_cons_of_mem _ hq),
      fun o hq => ho.2.2 o (List.mem_cons_of_mem _ hq)⟩
    rw [List.cons_append, acts, List.getLast?_append] at h
    replace h : (acts E (act E m s a).1.1 (act E m s a).1.2 (as ++ [.finalize ch ob])).getLast? = some (.finalized (some rs)) := by
      cases hl : (acts E (act E m s a).1.1 (act E m s a).1.2 (as ++ [.finalize ch ob])).getLast? with
      | none => exact absurd (List.getLast?_eq_none_iff.mp hl) (acts_ne E as _ _ ch ob)
      | some x => rw [hl] at h; exact h
    cases a with
    | new row => exact ih ho' _ _ hs hg h
    | write q i v => exact ih ho' _ _ hs hg h
    | finalize ch' ob' => exact ih ho' _ _ hs hg h
    | map o => exact absurd (by simp) (ho.2.1 o)
    | reset os => exact absurd (by simp) (ho.2.2 os)
    | row q =>
      have hq := ho.1 q (by simp)
      subst hq
      refine ih ho' m (s.aggregateRow E m q).1 ?_ ?_ h
      · intro e he
        rcases keep_mem E s _ _ e he with he | ⟨he, -⟩
        · exact hs e he
        · rw [he, hg]
      · rw [← hg]
        exact congrArg List.length (config_row E s.core _).groupBys

/-- C123 fails for every caller that passes all rows of a grouped aggregation in one array: whatever it wrote into the array before
each call, every row of the result begins with the group values that are in the array at the end, so all groups are shown as the same. -/
theorem C123_one_array_fails (E : Env V F) (a : Aggr V F) (hg : a.groupBys ≠ [])
    (p : Nat) (as : List (Act V)) (ho : OneArray p as) (m : Rows V) (ch : Choice) (ob : OrderBy) (rs : ResultSet V F)
    (hf : (acts E m { core := a } (as ++ [.finalize ch ob])).getLast? = some (.finalized (some rs))) :
    ∀ out ∈ rs.rows, ∃ aggs, out = ((((memoryAfter m as)[p]?).getD []).take a.groupBys.length).map Cell.ofAny ++ aggs :=
  one_array E p a.groupBys.length (by simpa using hg) as ho m { core := a } (by intro e he; cases he) rfl ch ob rs hf

example : ∃ a : Aggr ExV Nat, newAggr exEnv .sum [.args [s%"x"], .groupBys [s%"g"]] = some a ∧ a.groupBys ≠ [] ∧
    OneArray 0 exReuse.dropLast ∧ memoryAfter [] exReuse.dropLast = [[some (.t s%"b"), some (.n 2)]] ∧
    (acts exEnv [] { core := a } (exReuse.dropLast ++ [.finalize exChoice .none])).getLast? =
      some (.finalized (some ⟨[s%"g", s%"SUM(x)"], [[.val (.t s%"b"), .num 1], [.val (.t s%"b"), .num 2]], -1⟩)) :=
  ⟨_, rfl, by decide, ⟨by simp [exReuse], by simp [exReuse], by simp [exReuse]⟩, rfl, rfl⟩

end
end Verif.Props
