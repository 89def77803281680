import Verif.Props.RsSchema
import Verif.Props.QueryMore
import Verif.Props.Exec
import Verif.Props.Schema
import Verif.Model.System
/-! C175 to C178: lookups in the schemas of result sets, executors of a selection list, cast functions, qualified table
names. -/
namespace Verif.Props
open Verif Verif.Query Verif.Spec Verif.Lemmas

/-! ### C175 -/

/-- C175 for information_schema result sets: the lookup gives the first column so named, letter case aside, and fails
exactly if there is none. -/
theorem C175_system (cs : List Sys.SysColumn) (n : Str) :
    (∀ c, Sys.lookupColumn cs n = some c ↔ ∃ i, FirstAt (fun d : Sys.SysColumn => SameName d.name n) cs i c) ∧
    (Sys.lookupColumn cs n = none ↔ NoneOf (fun d : Sys.SysColumn => SameName d.name n) cs) := by
  have e : (fun d : Sys.SysColumn => SameName d.name n) = (fun d => Str.eqFold d.name n = true) :=
    funext fun d => propext (sameName_iff d.name n).symm
  rw [e]
  exact ⟨fun c => find?_iff_firstAt _ cs c, find?_none_iff _ cs⟩

/-- C175 for the schemas of result sets: the lookup gives the first column with exactly that name, and fails exactly if
there is none. Missing from the full statement: letter case matters, see `C175_case_fails`. -/
theorem C175_result_set_partial (s : Rs.RSchema) (n : Str) :
    (∀ c, s.lookupColumn n = some c ↔ ∃ i, FirstAt (fun d : Rs.AnyCol => d.name = n) s.columns i c) ∧
    (s.lookupColumn n = none ↔ NoneOf (fun d : Rs.AnyCol => d.name = n) s.columns) := by
  have e : (fun d : Rs.AnyCol => d.name = n) = (fun d => (d.name == n) = true) := funext fun d => by simp
  rw [e]
  exact ⟨fun c => find?_iff_firstAt _ s.columns c, find?_none_iff _ s.columns⟩

/-- C175, the same for the schema that the rows of a result set are read with. -/
theorem C175_rows_partial {V F T : Type} (s : Rs.Schema V F T) (n : Str) :
    (∀ c, s.lookupColumn n = some c ↔ ∃ i, FirstAt (fun d : Rs.Col V F T => d.name = n) s.columns i c) ∧
    (s.lookupColumn n = none ↔ NoneOf (fun d : Rs.Col V F T => d.name = n) s.columns) := by
  have e : (fun d : Rs.Col V F T => d.name = n) = (fun d => (d.name == n) = true) := funext fun d => by simp
  rw [e]
  exact ⟨fun c => find?_iff_firstAt _ s.columns c, find?_none_iff _ s.columns⟩

/-- C175 fails: a table finds its column `a` under the name `A`, and the result-set schema made from the table and from
a query that asks for `A` has a column, but it does not find it under the name that the query uses. -/
theorem C175_case_fails : lookupColumn tableA.columns s%"A" ≠ none ∧
    ∃ r, Rs.newSchemaFrom [.tableSchema (some tableA), .selectors [.col { name := s%"A" }]] = .ok r ∧ r.columns.length = 1 ∧
      r.lookupColumn s%"A" = none := by
  refine ⟨by decide +kernel, _, rfl, ?_, ?_⟩ <;> decide +kernel

/-- C175, what holds: under the table's own spelling, the result-set schema made of the columns of a table finds a column
exactly if the table has one of that spelling, and if the table has only one column of that name, letter case aside, both
find the same one. -/
theorem C175_table_partial (s : Query.Schema) (c : Column) (h : c ∈ s.columns)
    (hu : ∀ d, d ∈ s.columns → SameName d.name c.name → d = c) :
    Query.lookupColumn s.columns c.name = some c ∧
      ({ columns := Rs.newColumnsFrom s.columns } : Rs.RSchema).lookupColumn c.name = some (.query c) := by
  constructor
  · unfold Query.lookupColumn
    cases hf : s.columns.find? (fun d => Str.eqFold d.name c.name) with
    | none => exact absurd (List.find?_eq_none.mp hf c h) (by simp [Str.eqFold_refl])
    | some d =>
      have h1 := List.mem_of_find?_eq_some hf
      have h2 := List.find?_some hf
      rw [hu d h1 ((sameName_iff _ _).mp h2)]
  · unfold Rs.RSchema.lookupColumn Rs.newColumnsFrom
    cases hf : (s.columns.map Rs.AnyCol.query).find? (fun d => d.name == c.name) with
    | none =>
      exact absurd (List.find?_eq_none.mp hf _ (List.mem_map.mpr ⟨c, h, rfl⟩)) (by simp [Rs.AnyCol.name])
    | some d =>
      obtain ⟨x, hx, rfl⟩ := List.mem_map.mp (List.mem_of_find?_eq_some hf)
      have h2 := List.find?_some hf
      simp only [Rs.AnyCol.name, beq_iff_eq] at h2
      rw [hu x hx (by rw [h2]; exact rfl)]

example : (∃ c, c ∈ tableA.columns ∧ ∀ d, d ∈ tableA.columns → SameName d.name c.name → d = c) :=
  ⟨_, List.mem_singleton_self _, fun d h _ => List.mem_singleton.mp h⟩
example : ∃ i c, FirstAt (fun d : Rs.AnyCol => d.name = s%"b") (Rs.newColumnsFrom [{ name := s%"a" }, { name := s%"b" }]) i c :=
  ⟨1, _, rfl, rfl, by intro j y hj hg; match j, hj with | 0, _ => cases hg; decide⟩

/-! ### C176 -/

/-- C176: a selection list has an aggregator exactly if one of its functions has the aggregate type. -/
theorem C176_has_aggregator (ss : List Selector) : Query.hasAggregator ss = true ↔ ∃ f, f ∈ functionsOf ss ∧ f.typ = .aggregate := by
  unfold Query.hasAggregator hasFunctionWithType
  rw [List.any_eq_true]
  constructor
  · rintro ⟨s, hs, h⟩
    cases hf : s.function with
    | none => rw [hf] at h; cases h
    | some f => rw [hf] at h; exact ⟨f, List.mem_filterMap.mpr ⟨s, hs, hf⟩, by simpa using h⟩
  · rintro ⟨f, hf, ht⟩
    obtain ⟨s, hs, he⟩ := List.mem_filterMap.mp hf
    exact ⟨s, hs, by rw [he]; simp [ht]⟩

/-- C176, exactly when the answer is yes: some function is not an aggregate, and all of these have an executor. -/
theorem C176_has_executor_iff (ss : List Selector) : (hasExecutor ss).2 = true ↔
    (∃ f, f ∈ functionsOf ss ∧ f.typ ≠ .aggregate) ∧
      ∀ f, f ∈ functionsOf ss → f.typ ≠ .aggregate → ∃ e, ExecutorOf f e := by
  have key : ∀ (fs : List Function), (∃ es, Pointwise ExecutorOf fs es) ↔ ∀ f, f ∈ fs → ∃ e, ExecutorOf f e := by
    intro fs
    induction fs with
    | nil => exact ⟨fun _ => nofun, fun _ => ⟨[], .nil⟩⟩
    | cons f fs ih =>
      constructor
      · rintro ⟨es, h⟩
        cases h with
        | cons h1 h2 =>
          intro g hg
          rcases List.mem_cons.mp hg with rfl | hg
          · exact ⟨_, h1⟩
          · exact ih.mp ⟨_, h2⟩ g hg
      · intro h
        obtain ⟨e, he⟩ := h f (List.mem_cons_self ..)
        obtain ⟨es, hes⟩ := ih.mpr fun g hg => h g (List.mem_cons_of_mem _ hg)
        exact ⟨e :: es, .cons he hes⟩
  have len : ∀ (fs : List Function) (es : List Exec), Pointwise ExecutorOf fs es → fs.length = es.length := by
    intro fs es h
    induction h with
    | nil => rfl
    | cons _ _ ih => simp [ih]
  have hk := key ((functionsOf ss).filter (fun f => !(f.typ == .aggregate)))
  have hl := len ((functionsOf ss).filter (fun f => !(f.typ == .aggregate)))
  have hm : ∀ f, f ∈ (functionsOf ss).filter (fun f => !(f.typ == .aggregate)) ↔ f ∈ functionsOf ss ∧ f.typ ≠ .aggregate := by
    intro f; rw [List.mem_filter]; simp
  unfold hasExecutor
  cases hx : (executors ss).2 with
  | none =>
    simp only [hx, Bool.false_eq_true, false_iff]
    rintro ⟨-, h⟩
    obtain ⟨es, hes⟩ := hk.mpr fun f hf => h f ((hm f).mp hf).1 ((hm f).mp hf).2
    rw [(C94_executors ss es).mpr hes] at hx
    cases hx
  | some es =>
    have hp := (C94_executors ss es).mp hx
    simp only [hx, decide_eq_true_eq, ← hl es hp, List.length_pos_iff_exists_mem]
    constructor
    · rintro ⟨f, hf⟩
      exact ⟨⟨f, (hm f).mp hf⟩, fun g hg hn => hk.mp ⟨es, hp⟩ g ((hm g).mpr ⟨hg, hn⟩)⟩
    · rintro ⟨⟨f, hf⟩, -⟩
      exact ⟨f, (hm f).mpr hf⟩

/-- C176 as stated fails: with one function that is unknown the answer is no, though the list has a function with an
executor; and asking for the executors gives none of them. -/
theorem C176_fails : (∃ f, f ∈ functionsOf [Selector.fn (Function.named s%"ABS" [s%"x"]), .fn (Function.named s%"foo" [s%"y"])] ∧
      ∃ e, ExecutorOf f e) ∧
    (hasExecutor [.fn (Function.named s%"ABS" [s%"x"]), .fn (Function.named s%"foo" [s%"y"])]).2 = false ∧
    (executors [.fn (Function.named s%"ABS" [s%"x"]), .fn (Function.named s%"foo" [s%"y"])]).2 = none := by
  refine ⟨⟨_, List.mem_cons_self .., { name := s%"ABS", typ := .math, args := [s%"x"] }, .inr ⟨by decide, .abs, by decide, by decide⟩⟩, ?_, ?_⟩ <;>
    decide +kernel

/-- C176, what holds: the answer is right if every function that is not an aggregate has an executor. Missing: lists with
an unknown function. -/
theorem C176_has_executor_partial (ss : List Selector) (h : ∀ f, f ∈ functionsOf ss → f.typ ≠ .aggregate → ∃ e, ExecutorOf f e) :
    (hasExecutor ss).2 = true ↔ ∃ f e, f ∈ functionsOf ss ∧ f.typ ≠ .aggregate ∧ ExecutorOf f e := by
  rw [C176_has_executor_iff]
  constructor
  · rintro ⟨⟨f, hf, hn⟩, -⟩
    obtain ⟨e, he⟩ := h f hf hn
    exact ⟨f, e, hf, hn, he⟩
  · rintro ⟨f, e, hf, hn, -⟩
    exact ⟨⟨f, hf, hn⟩, h⟩

example : ∀ f, f ∈ functionsOf [Selector.fn (Function.named s%"ABS" [s%"x"]), .col { name := s%"y" }] → f.typ ≠ .aggregate →
    ∃ e, ExecutorOf f e := by
  intro f hf _
  cases List.mem_singleton.mp hf
  exact ⟨{ name := s%"ABS", typ := .math, args := [s%"x"] }, .inr ⟨by decide, .abs, by decide, by decide⟩⟩
example : Query.hasAggregator [Selector.fn (Function.named s%"SUM" [s%"x"])] = true := by decide

/-! ### C177 -/

section
open Verif.Fn
variable {V F T : Type}

/-- C177: a cast function given its argument directly, in an argument list or in a row gives the cast of that argument,
error or not; it has its name and the cast type. Given any other number of arguments it returns an error. Missing:
arguments given by name, see `C177_map_fails`. -/
theorem C177_cast_partial (env : XEnv V F T) (name : Str) (cast : Option V → Res (XVal V F T)) :
    (newCast name cast).name = name ∧ (newCast name cast).type = .cast ∧
    (∀ v, (newCast name cast).execute env (.args [v]) = cast v) ∧ (∀ v, (newCast name cast).execute env (.row [v]) = cast v) ∧
    (∀ v, (newCast name cast).execute env (.other v) = cast (some v)) ∧
    (∀ l, l.length ≠ 1 → (newCast name cast).execute env (.args l) = .err ∧ (newCast name cast).execute env (.row l) = .err) ∧
    (newCast name cast).execute env .nil = .err := by
  refine ⟨rfl, rfl, fun v => rfl, fun v => rfl, fun v => rfl, fun l h => ?_, rfl⟩
  match l, h with
  | [], _ => exact ⟨rfl, rfl⟩
  | _ :: _ :: _, _ => exact ⟨rfl, rfl⟩

/-- C177 fails for arguments given by name: a cast function has no argument names, and there is no option to give it any,
so on a map or an object it is always an error, whatever the cast and whatever the map. -/
theorem C177_map_fails (env : XEnv V F T) (name : Str) (cast : Option V → Res (XVal V F T)) (m : GoMap Str (Option V)) :
    (newCast name cast).execute env (.map m) = .err ∧ (newCast name cast).execute env (.obj m) = .err := ⟨rfl, rfl⟩

example : (newCast s%"INT" (fun v => match v with | some n => .ok (.num n) | none => .err) : Fn.Exec Int Int Unit).execute xEnv (.args [some 5]) =
    .ok (.num 5) := rfl
end

/-! ### C178 -/

/-- C178: a table with a schema, whose name has no dot in it, answers to exactly the names that consist of the schema, a
dot and the name, letter case aside. -/
theorem C178_qualified (t : Table) (hs : t.schema ≠ []) (hn : t.name ≠ []) (hd : '.' ∉ t.name) (n : Str) :
    t.isFullTableName n = true ↔ ∃ a b, n = a ++ '.' :: b ∧ SameName t.schema a ∧ SameName t.name b := by
  have hf : t.fullTableName = t.schema ++ '.' :: t.name := (C17_full_table_name t.schema t.name).2.2.1 hn hs hd
  unfold Table.isFullTableName
  rw [sameName_iff, hf]
  unfold SameName
  rw [List.map_append, List.map_cons]
  constructor
  · intro h
    obtain ⟨a, r, rfl, ha, hr⟩ := List.map_eq_append_iff.mp h.symm
    obtain ⟨c, b, rfl, hc, hb⟩ := List.map_eq_cons_iff.mp hr
    have : c = '.' := by
      have h1 : c.toLower.toNat = 46 := by rw [hc]; decide
      rw [Str.toLower_toNat] at h1
      have h2 : c.toNat = 46 := by split at h1 <;> omega
      exact Char.toNat_inj.mp h2
    exact ⟨a, b, by rw [this], ha.symm, hb.symm⟩
  · rintro ⟨a, b, rfl, ha, hb⟩
    rw [List.map_append, List.map_cons, ha, hb]

/-- C178: a table without a schema, or with a dot in its name, answers to exactly its name, letter case aside; a table
without a name answers to the empty name only. -/
theorem C178_plain (t : Table) (n : Str) :
    (t.name ≠ [] → t.schema = [] ∨ '.' ∈ t.name → (t.isFullTableName n = true ↔ SameName t.name n)) ∧
    (t.name = [] → (t.isFullTableName n = true ↔ n = [])) := by
  unfold Table.isFullTableName
  refine ⟨fun hn h => ?_, fun hn => ?_⟩
  · have hf : t.fullTableName = t.name := (C17_full_table_name t.schema t.name).2.1 hn h
    rw [sameName_iff, hf]
  · have hf : t.fullTableName = [] := (C17_full_table_name t.schema t.name).1 hn
    rw [sameName_iff, hf]
    unfold SameName
    cases n <;> simp

example : ({ schema := s%"s", name := s%"t" } : Table).isFullTableName s%"S.T" = true := by decide +kernel

end Verif.Props
