import Verif.Spec.Helpers
import Verif.Lemmas.AggrReset
import Verif.Lemmas.Str
import Verif.Props.QueryMore
import Verif.Props.Types
/-! C110, C111, C113–C115: aggregators of a SELECT, scanning rows, data types of values, executors by type, group
column texts. -/
namespace Verif.Props
open Verif Verif.Query Verif.Spec

/-! ### C113 -/

/-- C113: a data type is chosen for exactly the supported Go types. -/
theorem C113_supported (k : GoKind) : newDataTypeForValue k = none ↔ k = .other := by cases k <;> simp [newDataTypeForValue]

/-- C113 characterised: every value of a Go integer type fits the column type chosen for it exactly for the signed
types of a fixed size. -/
theorem C113_fits_iff (k : GoKind) (t : DataType) (a b : Int × Int) (ht : newDataTypeForValue k = some t)
    (ha : goRange k = some a) (hb : columnRange t = some b) :
    Within a b ↔ k = .int8 ∨ k = .int16 ∨ k = .int32 ∨ k = .int64 := by
  cases k <;> cases ht <;> cases ha <;> cases hb
  all_goals first
    | exact ⟨fun _ => by simp, fun _ v hv => hv⟩
    | exact ⟨fun h => absurd (h (2 ^ 64 - 1) (by decide)) (by decide), fun h => by simp at h⟩
    | exact ⟨fun h => absurd (h (2 ^ 63 - 1) (by decide)) (by decide), fun h => by simp at h⟩
    | exact ⟨fun h => absurd (h (2 ^ 32 - 1) (by decide)) (by decide), fun h => by simp at h⟩
    | exact ⟨fun h => absurd (h (2 ^ 16 - 1) (by decide)) (by decide), fun h => by simp at h⟩
    | exact ⟨fun h => absurd (h (2 ^ 8 - 1) (by decide)) (by decide), fun h => by simp at h⟩

/-- C113: an integer gets an integer type, and only an integer does. -/
theorem C113_class (k : GoKind) (t : DataType) (ht : newDataTypeForValue k = some t) :
    (columnRange t).isSome = (goRange k).isSome := by
  cases k <;> cases ht <;> rfl

/-- C113 as stated is false: a Go `int` gets the 32-bit type INT, and a `uint8` a type that ends at 127. -/
theorem C113_fails : newDataTypeForValue .int = some .int ∧ ¬ Within (-2 ^ 63, 2 ^ 63 - 1) (-2 ^ 31, 2 ^ 31 - 1) ∧
    newDataTypeForValue .uint8 = some .tinyInt ∧ ¬ Within (0, 2 ^ 8 - 1) (-2 ^ 7, 2 ^ 7 - 1) :=
  ⟨rfl, fun h => absurd (h (2 ^ 63 - 1) (by decide)) (by decide), rfl, fun h => absurd (h (2 ^ 8 - 1) (by decide)) (by decide)⟩

example : newDataTypeForValue .int16 = some .smallInt ∧ goRange .int16 = some (-2 ^ 15, 2 ^ 15 - 1) ∧
    columnRange .smallInt = some (-2 ^ 15, 2 ^ 15 - 1) := ⟨rfl, rfl, rfl⟩

/-! ### C114 -/

/-- C114, what the code does: `ExecutorsForType` returns, in order, the executors of that type of all functions in the
selection list, and is an error exactly if some function, an aggregate one for instance, has no executor. For every
selection list. -/
theorem C114_by_type_partial (t : Fn.FnType) (ss : List Selector) (es : List Exec) :
    executorsForType t ss = some es ↔
      ∃ all, Pointwise ExecutorOf (functionsOf ss) all ∧ es = all.filter (fun e => decide (e.typ = t)) := by
  induction ss generalizing es with
  | nil =>
    constructor
    · intro h; cases h; exact ⟨[], .nil, rfl⟩
    · rintro ⟨all, h, rfl⟩; cases h; rfl
  | cons s ss ih =>
    rw [executorsForType]
    cases hf : s.function with
    | none => simp only [functionsOf, List.filterMap_cons, hf]; exact ih es
    | some f =>
      simp only [functionsOf, List.filterMap_cons, hf]
      cases hg : f.getExecutor.2 with
      | none =>
        simp only
        constructor
        · intro h; cases h
        · rintro ⟨all, h, -⟩
          cases h with
          | cons h1 _ => rw [getExecutor_some.mpr h1] at hg; cases hg
      | some e =>
        simp only
        have ih' := fun es => ih es
        constructor
        · intro h
          by_cases ht : e.typ = t
          · rw [if_neg (by simp [ht]), Option.map_eq_some_iff] at h
            obtain ⟨es', h, rfl⟩ := h
            obtain ⟨all, h1, rfl⟩ := (ih es').mp h
            exact ⟨e :: all, .cons (getExecutor_some.mp hg) h1, by simp [ht]⟩
          · rw [if_pos ht] at h
            obtain ⟨all, h1, rfl⟩ := (ih es).mp h
            exact ⟨e :: all, .cons (getExecutor_some.mp hg) h1, by simp [ht]⟩
        · rintro ⟨all, h, rfl⟩
          cases h with
          | cons h1 h2 =>
            rw [getExecutor_some.mpr h1] at hg; cases hg
            rename_i all
            have := (ih (all.filter (fun e => decide (e.typ = t)))).mpr ⟨all, h2, rfl⟩
            by_cases ht : e.typ = t
            · rw [if_neg (by simp [ht]), this]; simp [ht]
            · rw [if_pos ht, this]; simp [ht]

/-- C114 as stated is false: `SELECT ABS(a), SUM(b)` has the executor of ABS, but asking for the mathematical
executors is an error because of the aggregate function. -/
theorem C114_by_type_fails :
    let ss : List Selector := [.fn (Function.named s%"ABS" [s%"a"]), .fn (Function.named s%"SUM" [s%"b"])]
    (executors ss).2 = some [{ name := s%"ABS", typ := .math, args := [s%"a"] }] ∧ executorsForType .math ss = none := by
  decide +kernel

/-- C114: `LookupExecutor` finds an executor exactly if there is a function of exactly that name and its executor can be
obtained; it is then the executor of the first such function. For every selection list and name. -/
theorem C114_lookup (ss : List Selector) (n : Str) (e : Exec) :
    lookupExecutor ss n = some e ↔ ∃ i f, FirstAt (fun f : Function => f.name = n) (functionsOf ss) i f ∧ ExecutorOf f e := by
  rw [lookupExecutor, Option.bind_eq_some_iff]
  constructor
  · rintro ⟨f, hf, he⟩
    obtain ⟨i, hi⟩ := ((C24_functions_partial ss).2.1 n f).mp hf
    exact ⟨i, f, hi, getExecutor_some.mp he⟩
  · rintro ⟨i, f, hi, he⟩
    exact ⟨f, ((C24_functions_partial ss).2.1 n f).mpr ⟨i, hi⟩, getExecutor_some.mpr he⟩

example : lookupExecutor [.col { name := s%"a" }, .fn (Function.named s%"ABS" [s%"a"])] s%"ABS" = some { name := s%"ABS", typ := .math, args := [s%"a"] } ∧
    executorsForType .math [.fn (Function.named s%"UPPER" [s%"b"]), .fn (Function.named s%"ABS" [s%"a"])] =
      some [{ name := s%"ABS", typ := .math, args := [s%"a"] }] := by decide +kernel

/-! ### C111 -/
section
open Verif.Rs
variable {V F T D : Type}

theorem scanInto_length (cast : Option V → D → D × Bool) (vs : List (Option V)) (ds : List D) :
    (scanInto cast vs ds).1.length = ds.length := by
  fun_induction scanInto cast vs ds with
  | case3 v vs d ds r h q ih => simpa using ih
  | _ => simp

/-- C111: `Scan` succeeds exactly if there are at most as many destinations as values and every destination's value
converts, and then each destination holds its converted value. For every row and all destinations. -/
theorem C111_scan (cast : Option V → D → D × Bool) (row : Row V F T) (ds : List D) :
    ((row.scan cast ds).2 = true ↔ ScanOk cast row.getValues.2 ds) ∧
    ((row.scan cast ds).2 = true → (row.scan cast ds).1.length = ds.length ∧
      ∀ (k : Nat) (v : Option V) (d : D), row.getValues.2[k]? = some v → ds[k]? = some d → (row.scan cast ds).1[k]? = some (cast v d).1) := by
  have key : ∀ vs : List (Option V), ((scanInto cast vs ds).2 = true ↔ ScanOk cast vs ds) ∧
      ((scanInto cast vs ds).2 = true → ∀ (k : Nat) (v : Option V) (d : D), vs[k]? = some v → ds[k]? = some d →
        (scanInto cast vs ds).1[k]? = some (cast v d).1) := by
    intro vs
    induction vs generalizing ds with
    | nil =>
      cases ds with
      | nil => simp [scanInto, ScanOk]
      | cons d ds => simp [scanInto, ScanOk]
    | cons v vs ih =>
      cases ds with
      | nil => simp [scanInto, ScanOk]
      | cons d ds =>
        have ih := ih ds
        simp only [scanInto]
        cases hc : (cast v d).2 with
        | false =>
          refine ⟨⟨fun h => by simp at h, fun h => ?_⟩, fun h => by simp at h⟩
          have := h.2 0 v d rfl rfl
          rw [hc] at this; cases this
        | true =>
          simp only [if_true]
          refine ⟨ih.1.trans ⟨fun h => ⟨by simpa using h.1, ?_⟩, fun h => ⟨by simpa using h.1, fun k => h.2 (k + 1)⟩⟩, fun h => ?_⟩
          · intro k v' d' hv hd
            cases k with
            | zero => cases hv; cases hd; exact hc
            | succ k => exact h.2 k v' d' hv hd
          · intro k v' d' hv hd
            cases k with
            | zero => cases hv; cases hd; rfl
            | succ k => exact ih.2 h k v' d' hv hd
  exact ⟨(key _).1, fun h => ⟨scanInto_length cast _ ds, (key _).2 h⟩⟩

/-- C111, what a failing `Scan` leaves behind: the destinations before the failure hold their converted values, and those
after it are untouched; the one at the failure is whatever the conversion left there. -/
theorem C111_failure_partial (cast : Option V → D → D × Bool) (row : Row V F T) (ds : List D) (h : (row.scan cast ds).2 = false) :
    ∃ n, n < ds.length ∧
      (∀ (k : Nat) (v : Option V) (d : D), k < n → row.getValues.2[k]? = some v → ds[k]? = some d →
        (cast v d).2 = true ∧ (row.scan cast ds).1[k]? = some (cast v d).1) ∧
      (∀ k, n < k → (row.scan cast ds).1[k]? = ds[k]?) ∧
      (row.getValues.2.length = n ∨ ∃ v d, row.getValues.2[n]? = some v ∧ ds[n]? = some d ∧ (cast v d).2 = false) := by
  have key : ∀ vs : List (Option V), (scanInto cast vs ds).2 = false → ∃ n, n < ds.length ∧
      (∀ (k : Nat) (v : Option V) (d : D), k < n → vs[k]? = some v → ds[k]? = some d →
        (cast v d).2 = true ∧ (scanInto cast vs ds).1[k]? = some (cast v d).1) ∧
      (∀ k, n < k → (scanInto cast vs ds).1[k]? = ds[k]?) ∧
      (vs.length = n ∨ ∃ v d, vs[n]? = some v ∧ ds[n]? = some d ∧ (cast v d).2 = false) := by
    clear h
    intro vs
    induction vs generalizing ds with
    | nil =>
      intro h
      cases ds with
      | nil => cases h
      | cons d ds => exact ⟨0, by simp, fun k v d hk => by omega, fun k _ => rfl, Or.inl rfl⟩
    | cons v vs ih =>
      intro h
      cases ds with
      | nil => cases h
      | cons d ds =>
        simp only [scanInto] at h ⊢
        cases hc : (cast v d).2 with
        | false =>
          refine ⟨0, by simp, fun k v d hk => by omega, ?_, Or.inr ⟨v, d, rfl, rfl, hc⟩⟩
          intro k hk
          cases k with
          | zero => omega
          | succ k => rfl
        | true =>
          simp only [hc, if_true] at h ⊢
          obtain ⟨n, h1, h2, h3, h4⟩ := ih ds h
          refine ⟨n + 1, by simpa using h1, ?_, ?_, ?_⟩
          · intro k v' d' hk hv hd
            cases k with
            | zero => cases hv; cases hd; exact ⟨hc, rfl⟩
            | succ k => exact h2 k v' d' (by omega) hv hd
          · intro k hk
            cases k with
            | zero => omega
            | succ k => exact h3 k (by omega)
          · rcases h4 with h4 | ⟨v', d', h4⟩
            · exact Or.inl (by simpa using h4)
            · exact Or.inr ⟨v', d', h4⟩
  exact key _ h

/-- C111 is false of the code as far as a failure should change nothing: with one value and two destinations the first
one is overwritten before the error. -/
theorem C111_fails : ∃ (row : Row Nat Nat Unit) (ds : List (Option Nat)),
    (row.scan (fun v _ => (v, true)) ds).2 = false ∧ (row.scan (fun v _ => (v, true)) ds).1 ≠ ds :=
  ⟨{ values := some [some 7] }, [none, none], by decide, by decide⟩

/-- C111: `ScanAt` converts the value at that position of the row; past the last one it is an error and before the first
one a panic, and the destination is left alone. -/
theorem C111_scan_at (cast : Option V → D → D × Bool) (row : Row V F T) (i : Int) (d : D) :
    (∀ (k : Nat) (v : Option V), i = k → row.getValues.2[k]? = some v →
      (row.scanAt cast i d).1 = (cast v d).1 ∧ ((row.scanAt cast i d).2 = .ok () ↔ (cast v d).2 = true)) ∧
    (row.getValues.2.length ≤ i → row.scanAt cast i d = (d, .err)) ∧
    (i < 0 → row.scanAt cast i d = (d, .panic)) := by
  refine ⟨?_, ?_, ?_⟩
  · rintro k v rfl hv
    have hk : k < row.getValues.2.length := (List.getElem?_eq_some_iff.mp hv).1
    have : (row.valueAt k).2 = .ok v := by
      show (if (row.getValues.2.length : Int) ≤ k then Res.err else _) = _
      rw [if_neg (by omega), if_neg (by omega), Int.toNat_natCast, hv]
    simp only [Row.scanAt, this]
    refine ⟨trivial, ?_⟩
    cases (cast v d).2 <;> simp
  · intro h
    have : (row.valueAt i).2 = .err := if_pos h
    simp only [Row.scanAt, this]
  · intro h
    have : (row.valueAt i).2 = .panic := by
      show (if (row.getValues.2.length : Int) ≤ i then Res.err else _) = _
      rw [if_neg (by omega), if_pos h]
    simp only [Row.scanAt, this]

/-- C111: `ScanBy` converts the value that `ValueBy` gives for that name, and is an error without touching the
destination if the row has no such name. -/
theorem C111_scan_by (cast : Option V → D → D × Bool) (row : Row V F T) (n : Str) (d : D) :
    (∀ v, row.getObject.2.get? n = some v →
      (row.scanBy cast n d).1 = (cast v d).1 ∧ ((row.scanBy cast n d).2 = .ok () ↔ (cast v d).2 = true)) ∧
    (row.getObject.2.get? n = none → row.scanBy cast n d = (d, .err)) := by
  constructor
  · intro v hv
    have : (row.valueBy n).2 = .ok v := by simp [Row.valueBy, hv]
    simp only [Row.scanBy, this]
    refine ⟨trivial, ?_⟩
    cases (cast v d).2 <;> simp
  · intro hv
    have : (row.valueBy n).2 = .err := by simp [Row.valueBy, hv]
    simp only [Row.scanBy, this]

example : (({ values := some [some 7, some 8] } : Row Nat Nat Unit).scan (fun v _ => (v, v.isSome)) [none, none]) = ([some 7, some 8], true) ∧
    (({ values := some [some 7, none, some 9] } : Row Nat Nat Unit).scan (fun v d => (if v.isSome then v else d, v.isSome)) [none, some 1, some 2]) =
      ([some 7, some 1, some 2], false) ∧
    (({ values := some [some 7, some 8] } : Row Nat Nat Unit).scanAt (fun v _ => (v, v.isSome)) 1 none).1 = some 8 ∧
    (({ object := some [(s%"a", some 7)] } : Row Nat Nat Unit).scanBy (fun v _ => (v, v.isSome)) s%"a" none).1 = some 7 := by
  decide +kernel

end

/-! ### C110 -/
section
open Verif.Rs Verif.Fn
variable {V F T : Type}

/-- The function selectors. -/
def selFunctions : List (Sel V F T) → List (Func V F T)
  | [] => []
  | .col _ :: ss => selFunctions ss
  | .fn f :: ss => f :: selFunctions ss

/-- The state of a new aggregator. -/
def freshAggr (E : Env V F) (k : AggrId) (as gs : List Str) : Aggr V F :=
  { kind := k, name := k.name, args := as, columns := gs ++ as.map (callText k.name), groupBys := gs,
    aggrs := List.replicate (gs ++ as.map (callText k.name)).length (k.init E) }

theorem newAggr_args (E : Env V F) (k : AggrId) (as : List Str) :
    newAggr E k [.args as] = if as = [] then none else some (freshAggr E k as []) := by
  simp only [newAggr, List.cons_append, List.nil_append, Aggr.applyOpts, Aggr.applyOpt, List.length_nil, Aggr.resetCore]
  simp only [show ¬ (1 < 0) by omega, if_false, if_true]
  cases as <;> simp [freshAggr]

theorem newAggr_args_group (E : Env V F) (k : AggrId) (as gs : List Str) (h : as ≠ []) :
    newAggr E k [.args as, .groupBys gs] = some (freshAggr E k as (gs.filter (fun g => !(g.length == 0)))) := by
  simp only [newAggr, List.cons_append, List.nil_append, Aggr.applyOpts, Aggr.applyOpt, List.length_nil, Aggr.setGroupBys, Aggr.resetCore]
  simp only [show ¬ (1 < 0) by omega, if_false, if_true]
  cases as with
  | nil => exact absurd rfl h
  | cons a as => simp [freshAggr]

theorem fresh_reset (E : Env V F) (k : AggrId) (as : List Str) (g : Str) (h : as ≠ []) :
    (freshAggr E k as []).reset E [.group g] = (freshAggr E k as ([g].filter (fun g => !(g.length == 0))), true) := by
  simp only [Aggr.reset, Aggr.applyOpts, Aggr.applyOpt, Aggr.setGroupBys, Aggr.resetCore, if_true]
  rw [if_neg (by cases as <;> simp_all [freshAggr])]
  rfl

/-- C110: a SELECT's `Aggregators` succeeds exactly if every function in its selection list is an aggregate function with
an argument, and then returns one aggregator per function, in order, namely the one that the constructor makes of the
function's arguments and the GROUP BY column. For every selection list and group column (empty for none). -/
theorem C110_aggregators (E : Env V F) (ss : List (Sel V F T)) (g : Str) (as : List (Aggr V F)) :
    selectAggregators E ss g = some as ↔
      Pointwise (fun (f : Func V F T) a => f.args ≠ [] ∧
        ∃ k, newAggregatorForName f.name = some k ∧ newAggr E k [.args f.args, .groupBys [g]] = some a) (selFunctions ss) as := by
  have h1 : ∀ bs, selAggregators E ss = some bs ↔ Pointwise (fun (f : Func V F T) b => f.args ≠ [] ∧
      ∃ k, newAggregatorForName f.name = some k ∧ b = freshAggr E k f.args []) (selFunctions ss) bs := by
    induction ss with
    | nil =>
      intro bs
      constructor
      · intro h; cases h; exact .nil
      · intro h; cases h; rfl
    | cons s ss ih =>
      intro bs
      cases s with
      | col n => exact ih bs
      | fn f =>
        rw [selAggregators, selFunctions]
        cases hk : newAggregatorForName f.name with
        | none =>
          constructor
          · intro h; cases h
          · intro h
            cases h with
            | cons h1 _ => obtain ⟨-, k, h1, -⟩ := h1; rw [hk] at h1; cases h1
        | some k =>
          simp only [newAggr_args]
          by_cases ha : f.args = []
          · rw [if_pos ha]
            constructor
            · intro h; cases h
            · intro h
              cases h with
              | cons h1 _ => exact absurd ha h1.1
          · rw [if_neg ha]
            simp only [Option.map_eq_some_iff]
            constructor
            · rintro ⟨l, hl, rfl⟩
              exact .cons ⟨ha, k, hk, rfl⟩ ((ih l).mp hl)
            · intro h
              cases h with
              | cons h1 h2 =>
                obtain ⟨-, k', hk', rfl⟩ := h1
                rw [hk] at hk'; cases hk'
                exact ⟨_, (ih _).mpr h2, rfl⟩
  have h2 : ∀ (fs : List (Func V F T)) bs, Pointwise (fun (f : Func V F T) b => f.args ≠ [] ∧
      ∃ k, newAggregatorForName f.name = some k ∧ b = freshAggr E k f.args []) fs bs →
      ∃ cs, setReset E [.group g] bs = (cs, true) ∧ Pointwise (fun (f : Func V F T) a => f.args ≠ [] ∧
        ∃ k, newAggregatorForName f.name = some k ∧ newAggr E k [.args f.args, .groupBys [g]] = some a) fs cs := by
    intro fs bs h
    induction h with
    | nil => exact ⟨[], rfl, .nil⟩
    | cons h1 _ ih =>
      obtain ⟨ha, k, hk, rfl⟩ := h1
      obtain ⟨cs, hc, hp⟩ := ih
      refine ⟨freshAggr E k _ ([g].filter (fun g => !(g.length == 0))) :: cs, ?_, .cons ⟨ha, k, hk, newAggr_args_group E k _ [g] ha⟩ hp⟩
      rw [setReset, fresh_reset E k _ g ha]
      simp [hc]
  rw [selectAggregators, Option.bind_eq_some_iff]
  have det : ∀ (fs : List (Func V F T)) xs ys, Pointwise (fun (f : Func V F T) a => f.args ≠ [] ∧
        ∃ k, newAggregatorForName f.name = some k ∧ newAggr E k [.args f.args, .groupBys [g]] = some a) fs xs →
      Pointwise (fun (f : Func V F T) a => f.args ≠ [] ∧
        ∃ k, newAggregatorForName f.name = some k ∧ newAggr E k [.args f.args, .groupBys [g]] = some a) fs ys → xs = ys := by
    intro fs xs ys hx
    induction hx generalizing ys with
    | nil => intro hy; cases hy; rfl
    | cons h1 _ ih =>
      intro hy
      cases hy with
      | cons h2 h3 =>
        obtain ⟨-, k, hk, ha⟩ := h1
        obtain ⟨-, k', hk', ha'⟩ := h2
        rw [hk] at hk'; cases hk'
        rw [ha] at ha'; cases ha'
        rw [ih _ h3]
  constructor
  · rintro ⟨bs, hb, hr⟩
    obtain ⟨cs, hc, hp⟩ := h2 _ bs ((h1 bs).mp hb)
    simp only [hc, if_true, Option.some.injEq] at hr
    rw [← hr]; exact hp
  · intro h
    have : ∃ bs, Pointwise (fun (f : Func V F T) b => f.args ≠ [] ∧
      ∃ k, newAggregatorForName f.name = some k ∧ b = freshAggr E k f.args []) (selFunctions ss) bs := by
      clear h1 h2 det
      generalize selFunctions ss = fs at h
      induction h with
      | nil => exact ⟨[], .nil⟩
      | cons h _ ih =>
        obtain ⟨ha, k, hk, -⟩ := h
        obtain ⟨bs, hb⟩ := ih
        exact ⟨_ :: bs, .cons ⟨ha, k, hk, rfl⟩ hb⟩
    obtain ⟨bs, hb⟩ := this
    obtain ⟨cs, hc, hp⟩ := h2 _ bs hb
    refine ⟨bs, (h1 bs).mpr hb, ?_⟩
    simp only [hc, if_true, Option.some.injEq]
    exact det _ _ _ hp h

/-- C110: the columns of such an aggregator are the GROUP BY column, if there is one, and then the call texts of its
arguments. -/
theorem C110_columns (E : Env V F) (ss : List (Sel V F T)) (g : Str) (as : List (Aggr V F)) (h : selectAggregators E ss g = some as)
    (i : Nat) (f : Func V F T) (hf : (selFunctions ss)[i]? = some f) : ∃ a k, as[i]? = some a ∧ newAggregatorForName f.name = some k ∧
      a.kind = k ∧ a.columns = (if g = [] then [] else [g]) ++ f.args.map (callText k.name) := by
  have hp := (C110_aggregators E ss g as).mp h
  clear h
  generalize selFunctions ss = fs at hp hf
  induction hp generalizing i with
  | nil => cases hf
  | cons h1 _ ih =>
    cases i with
    | zero =>
      cases hf
      obtain ⟨ha, k, hk, hn⟩ := h1
      rw [newAggr_args_group E k _ [g] ha] at hn
      cases hn
      refine ⟨_, k, rfl, hk, rfl, ?_⟩
      cases g <;> simp [freshAggr]
    | succ i => exact ih i hf

example : (selectAggregators (V := Unit) (F := Nat) (T := Unit)
      { zero := 0, add := (· + ·), div := (· / ·), lt := fun a b => decide (a < b), ofNat := id, maxFloat := 9, negInf := 0,
        toFloat := fun _ => none, toText := fun _ => none, cmp := fun _ _ => none }
      [.col s%"b", .fn (newFunction s%"SUM" [s%"a"]), .fn (newFunction s%"MAX" [s%"a"])] s%"b").map (·.map (·.columns)) =
    some [[s%"b", s%"SUM(a)"], [s%"b", s%"MAX(a)"]] := by decide +kernel

/-! ### C115 -/

theorem splitOn_ne (sep : Char) (s : Str) : splitOn sep s ≠ [] := by
  cases s with
  | nil => simp [splitOn]
  | cons c r =>
    rw [splitOn]
    split
    · simp
    · split <;> simp

theorem join_splitOn (sep : Char) (s : Str) : Str.join [sep] (splitOn sep s) = s := by
  induction s with
  | nil => rfl
  | cons c r ih =>
    rw [splitOn]
    split
    · rename_i h
      rw [Str.join_cons _ _ _ (splitOn_ne sep r), ih, h]; rfl
    · split
      · rename_i h; exact absurd h (splitOn_ne sep r)
      · rename_i w ws h
        rw [h] at ih
        cases ws with
        | nil => rw [← ih]; rfl
        | cons w' ws => rw [Str.join_cons_cons] at ih ⊢; rw [← ih]; rfl

theorem splitOn_noSep (sep : Char) (s : Str) : ∀ w, w ∈ splitOn sep s → sep ∉ w := by
  induction s with
  | nil => simp [splitOn]
  | cons c r ih =>
    rw [splitOn]
    split
    · simpa using ih
    · rename_i hc
      split
      · rename_i h; exact absurd h (splitOn_ne sep r)
      · rename_i w ws h
        rw [h] at ih
        intro x hx
        rcases List.mem_cons.mp hx with rfl | hx
        · have := ih w (List.mem_cons_self ..)
          simp [this, Ne.symm hc]
        · exact ih x (List.mem_cons_of_mem _ hx)

theorem splitOn_clean (sep : Char) (w : Str) (h : sep ∉ w) : splitOn sep w = [w] := by
  induction w with
  | nil => rfl
  | cons c r ih =>
    simp only [List.mem_cons, not_or] at h
    rw [splitOn, if_neg (Ne.symm h.1), ih h.2]

theorem splitOn_append (sep : Char) (w r : Str) (h : sep ∉ w) : splitOn sep (w ++ sep :: r) = w :: splitOn sep r := by
  induction w with
  | nil => simp [splitOn]
  | cons c w ih =>
    simp only [List.mem_cons, not_or] at h
    rw [List.cons_append, splitOn, if_neg (Ne.symm h.1), ih h.2]

theorem splitOn_joined (sep : Char) (xs : List Str) (hne : xs ≠ []) (h : ∀ x, x ∈ xs → sep ∉ x) : splitOn sep (Str.join [sep] xs) = xs := by
  induction xs with
  | nil => exact absurd rfl hne
  | cons x xs ih =>
    have hx := h x (List.mem_cons_self ..)
    cases xs with
    | nil => exact splitOn_clean sep x hx
    | cons y ys =>
      rw [Str.join_cons _ _ _ (by simp), List.append_assoc]
      show splitOn sep (x ++ sep :: Str.join [sep] (y :: ys)) = _
      rw [splitOn_append sep x _ hx, ih (by simp) (fun z hz => h z (List.mem_cons_of_mem _ hz))]

/-- C115: reading a group column text and writing it again gives the same text. For all texts. -/
theorem C115_text (s : Str) : newGroupBySet (newGroupBysFromGroupBySet s) = s := by
  unfold newGroupBysFromGroupBySet
  cases s with
  | nil => rfl
  | cons c r =>
    rw [if_neg (by simp), newGroupBySet, if_neg (by
      intro h
      exact splitOn_ne ',' (c :: r) (List.length_eq_zero_iff.mp h))]
    exact join_splitOn ',' _

/-- C115 characterised: writing a list of group columns as one text and reading it again gives the list exactly if no name
has a comma and the list is not one empty name. -/
theorem C115_names_iff (gs : List Str) :
    newGroupBysFromGroupBySet (newGroupBySet gs) = gs ↔ (∀ g, g ∈ gs → ',' ∉ g) ∧ gs ≠ [[]] := by
  cases gs with
  | nil => exact ⟨fun _ => ⟨by simp, by simp⟩, fun _ => rfl⟩
  | cons x xs =>
    have hb : newGroupBySet (x :: xs) = Str.join [','] (x :: xs) := if_neg (by simp)
    rw [hb]
    constructor
    · intro h
      refine ⟨?_, ?_⟩
      · unfold newGroupBysFromGroupBySet at h
        split at h
        · cases h
        · intro g hg
          rw [← h] at hg
          exact splitOn_noSep ',' _ g hg
      · intro he
        rw [he] at h
        cases h
    · rintro ⟨h1, h2⟩
      unfold newGroupBysFromGroupBySet
      split
      · rename_i hl
        exfalso
        cases xs with
        | nil =>
          rw [Str.join_single] at hl
          exact h2 (by rw [List.length_eq_zero_iff.mp hl])
        | cons y ys =>
          rw [Str.join_cons _ _ _ (by simp)] at hl
          simp at hl
      · exact splitOn_joined ',' _ (by simp) h1

/-- C115 as stated is false: a group column whose name has a comma is read as two. -/
theorem C115_fails : newGroupBysFromGroupBySet (newGroupBySet [s%"a,b"]) = [s%"a", s%"b"] := by decide

example : newGroupBysFromGroupBySet (newGroupBySet [s%"a", s%"b c", s%""]) = [s%"a", s%"b c", s%""] := by decide

/-- C115: `NewAggregatorSetForNames` makes one aggregator per name, in the order of the names, each as its own constructor
makes it with the options, and is an error exactly if one of them cannot be made. -/
theorem C115_aggregator_set {V F : Type} (E : Env V F) (os : List AggrOpt) (names : List Str) (as : List (Aggr V F)) :
    newAggregatorSetForNames E os names = some as ↔
      Pointwise (fun n a => ∃ k, newAggregatorForName n = some k ∧ newAggr E k os = some a) names as := by
  induction names generalizing as with
  | nil =>
    constructor
    · intro h; cases h; exact .nil
    · intro h; cases h; rfl
  | cons n ns ih =>
    rw [newAggregatorSetForNames]
    cases ha : (newAggregatorForName n).bind (fun k => newAggr E k os) with
    | none =>
      constructor
      · intro h; cases h
      · intro h
        cases h with
        | cons h1 _ =>
          obtain ⟨k, hk, hk'⟩ := h1
          rw [hk, Option.bind_some, hk'] at ha; cases ha
    | some a =>
      obtain ⟨k, hk, hk'⟩ := Option.bind_eq_some_iff.mp ha
      simp only [Option.map_eq_some_iff]
      constructor
      · rintro ⟨l, hl, rfl⟩
        exact .cons ⟨k, hk, hk'⟩ ((ih l).mp hl)
      · intro h
        cases h with
        | cons h1 h2 =>
          obtain ⟨k2, hk2, hk3⟩ := h1
          rw [hk] at hk2; cases hk2
          rw [hk'] at hk3; cases hk3
          exact ⟨_, (ih _).mpr h2, rfl⟩

end

end Verif.Props
