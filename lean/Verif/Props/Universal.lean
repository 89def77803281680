import Verif.Props.GroupKeys
import Verif.Props.Files
import Verif.Props.FnState
import Verif.Props.HelpersRow
import Verif.Props.RsSchema
import Verif.Props.Options
import Verif.Props.Lookups
/-! C34, C94, C111, C114, C142, C155, C158, C160, C163, C175: where the code departs from the claims, for all inputs instead of
one. -/
namespace Verif.Props
open Verif Verif.Spec Verif.Spec.FnState Verif.Lemmas Verif.Lemmas.Files Verif.FnState

/-! ### C34 -/

/-- C34 is false of the code for every two rows whose group values differ but have the same texts joined with commas: in the
one order the only result row shows the group values of the one, in the other order those of the other. -/
theorem C34_merged_fails {V F : Type} (E : Fn.Env V F) (b b' c' : Fn.Aggr V F) (hs : Started E b) (hg : b.groupBys ≠ []) (r s : List (Option V))
    (h : Fn.feed E b [r, s] = some b') (h' : Fn.feed E b [s, r] = some c') (ts us : List Str) (hr : Texts E (r.take b.groupBys.length) ts)
    (hu : Texts E (s.take b.groupBys.length) us) (he : Str.join s%"," ts = Str.join s%"," us)
    (hd : r.take b.groupBys.length ≠ s.take b.groupBys.length) (hlen : (r.take b.groupBys.length).length = (s.take b.groupBys.length).length)
    (ch ch' : Fn.Choice) (hc : Lawful ch) (hc' : Lawful ch') (ob ob' : Fn.OrderBy) :
    ∃ rs rs', b'.finalize E ch ob = some rs ∧ c'.finalize E ch' ob' = some rs' ∧ ¬ rs.rows.Perm rs'.rows := by
  obtain ⟨o1, e1, m1, a1, _, q1, _⟩ := C30_merged_fails E b b' hs hg r s h ts us hr hu he ch hc ob
  obtain ⟨o2, e2, m2, a2, _, q2, _⟩ := C30_merged_fails E b c' hs hg s r h' us ts hu hr he.symm ch' hc' ob'
  refine ⟨_, _, e1, e2, fun hp => hd ?_⟩
  have : o1 = o2 := by simpa using hp
  rw [q1, q2] at this
  have hm := (List.append_inj this (by simpa using hlen)).1
  refine (List.map_inj_right ?_).mp hm
  intro x y hxy
  cases x <;> cases y <;> simp_all [Fn.Cell.ofAny]

example : ∃ (b b' c' : Fn.Aggr ExV Nat) (r s : List (Option ExV)) (ts us : List Str), Started exEnv b ∧ b.groupBys ≠ [] ∧
    Fn.feed exEnv b [r, s] = some b' ∧ Fn.feed exEnv b [s, r] = some c' ∧ Texts exEnv (r.take b.groupBys.length) ts ∧
    Texts exEnv (s.take b.groupBys.length) us ∧ Str.join s%"," ts = Str.join s%"," us ∧
    r.take b.groupBys.length ≠ s.take b.groupBys.length ∧ (r.take b.groupBys.length).length = (s.take b.groupBys.length).length := by
  refine ⟨⟨.sum, s%"SUM", [s%"x"], [s%"g", s%"h", s%"SUM(x)"], [0, 0, 0], 0, [s%"g", s%"h"], [], [], []⟩, _, _, [some (.t s%"a,b"), some (.t s%"c"), some (.n 1)],
    [some (.t s%"a"), some (.t s%"b,c"), some (.n 2)], [s%"a,b", s%"c"], [s%"a", s%"b,c"],
    .inr ⟨.sum, [.args [s%"x"], .groupBys [s%"g", s%"h"]], rfl⟩, by decide, rfl, rfl, ?_, ?_, by decide, by decide, by decide⟩
  · exact .cons rfl (.cons rfl .nil)
  · exact .cons rfl (.cons rfl .nil)

/-! ### C94, C114 -/

theorem pointwise_left {α β : Type} {R : α → β → Prop} {l : List α} {m : List β} (h : Pointwise R l m) (a : α) (ha : a ∈ l) :
    ∃ b, R a b := by
  induction h with
  | nil => simp at ha
  | cons hr _ ih =>
    rcases List.mem_cons.mp ha with rfl | ha
    · exact ⟨_, hr⟩
    · exact ih ha

/-- C114 as stated is false for every selection list with a function that has no executor, every aggregate function for
instance: asking for the executors of whatever type is an error, whatever executors the others have. -/
theorem C114_any_fails (t : Fn.FnType) (ss : List Query.Selector) (f : Query.Function) (hf : f ∈ functionsOf ss) (h1 : f.executor = none)
    (h2 : Fn.newExecutorForName f.name = none) : Query.executorsForType t ss = none := by
  cases h : Query.executorsForType t ss with
  | none => rfl
  | some es =>
    obtain ⟨all, hp, _⟩ := (C114_by_type_partial t ss es).mp h
    obtain ⟨e, he⟩ := pointwise_left hp f hf
    rcases he with he | ⟨_, k, he, _⟩
    · rw [h1] at he; cases he
    · rw [h2] at he; cases he

/-- C94 is false as far as the aggregators of the aggregate functions are meant: every selection list with a function that is no
aggregate function has no aggregators at all, whatever others are in it. -/
theorem C94_any_fails (ss : List Query.Selector) (f : Query.Function) (hf : f ∈ functionsOf ss) (h1 : f.aggregator = none)
    (h2 : Fn.newAggregatorForName f.name = none) : (Query.aggregators ss).2 = none := by
  cases h : (Query.aggregators ss).2 with
  | none => rfl
  | some es =>
    obtain ⟨e, he⟩ := pointwise_left ((C94_aggregators ss es).mp h) f hf
    rcases he with he | ⟨_, he⟩
    · rw [h1] at he; cases he
    · rw [h2] at he; cases he

example : Fn.newExecutorForName s%"SUM" = none ∧ Fn.newAggregatorForName s%"ABS" = none := by decide +kernel
example : Query.Function.named s%"SUM" [s%"b"] ∈ functionsOf [.fn (Query.Function.named s%"ABS" [s%"a"]), .fn (Query.Function.named s%"SUM" [s%"b"])] := by
  simp [functionsOf, Query.Selector.function]

/-! ### C111 -/

/-- C111 is false as far as a failure should change nothing, for every row and all destinations of which there are more than
values: if each value converts, the scan is an error, but every destination that has a value holds it. -/
theorem C111_short_fails {V F T D : Type} (cast : Option V → D → D × Bool) (hc : ∀ v d, (cast v d).2 = true) (row : Rs.Row V F T) (ds : List D)
    (h : row.getValues.2.length < ds.length) :
    (row.scan cast ds).2 = false ∧
    ∀ (k : Nat) (v : Option V) (d : D), row.getValues.2[k]? = some v → ds[k]? = some d → (row.scan cast ds).1[k]? = some (cast v d).1 := by
  have hf : (row.scan cast ds).2 = false := by
    cases hb : (row.scan cast ds).2 with
    | false => rfl
    | true => have := ((C111_scan cast row ds).1.mp hb).1; omega
  refine ⟨hf, ?_⟩
  obtain ⟨n, _, h2, _, h4⟩ := C111_failure_partial cast row ds hf
  intro k v d hv hd
  have hk : k < row.getValues.2.length := by
    rcases Nat.lt_or_ge k row.getValues.2.length with h' | h'
    · exact h'
    · rw [List.getElem?_eq_none h'] at hv; cases hv
  rcases h4 with h4 | ⟨v', d', _, _, h4⟩
  · exact (h2 k v d (by omega) hv hd).2
  · rw [hc] at h4; cases h4

example : ∃ row : Rs.Row Nat Nat Unit, row.getValues.2.length < [none, some 3].length ∧ row.getValues.2 = [some 1] :=
  ⟨{ values := some [some 1] }, by decide, by decide⟩

/-! ### C142 -/

/-- C142 is false of the code for every selection list and every table: the list before the table is refused, and `NewSchema`
leaves it out. -/
theorem C142_selectors_fails (ss : List Query.Selector) (b : Query.Schema) :
    Rs.newSchemaFrom [.selectors ss, .tableSchema (some b)] = .err ∧
    Rs.newSchema [.selectors ss, .tableSchema (some b)] = Rs.newSchema [.tableSchema (some b)] := ⟨rfl, rfl⟩

/-! ### C155 -/

/-- C155 is false of the code for every function and every aggregator given to it: what `Aggregator` returns first, if anything,
is a new aggregator and none of those there were. -/
theorem C155_any_fails {V F T : Type} (E : Fn.Env V F) (h : Heap V F T) (r : Nat) (pre post : List (FnOption V F T)) (p : Nat) (hp : p < h.aggrs.length)
    (hf : h.fns[r]? = some (newFObj h.aggrs (pre ++ .aggregator p :: post))) (os : List Fn.AggrOpt) :
    (h.aggregator E r os).2 = none ∨ ∃ q, (h.aggregator E r os).2 = some q ∧ q ≠ p ∧ h.aggrs.length ≤ q := by
  have ha := (C155_options h.aggrs (pre ++ .aggregator p :: post)).2.2.2.2
  simp only [Heap.aggregator, hf, FObj.getAggregator, ha]
  split
  · exact .inl rfl
  · split
    · exact .inl rfl
    · exact .inr ⟨_, rfl, by omega, Nat.le_refl _⟩

example : ∃ h : Heap Int Int Unit, h.fns[0]? = some (newFObj h.aggrs ([.name s%"SUM"] ++ .aggregator 0 :: [.args [s%"x"]])) ∧ 0 < h.aggrs.length :=
  ⟨{ fns := [newFObj [_] ([.name s%"SUM"] ++ .aggregator 0 :: [.args [s%"x"]])], aggrs := [(Fn.newAggr rAggr .sum [.args [s%"x"]]).get rfl] }, rfl, by decide⟩

/-! ### C158, C160 -/

/-- C158 is false of the code for every directory given as a symbolic link: the link itself is listed, and nothing of what is in
the directory. -/
theorem C158_any_link_fails (path : Str) (t : Files.Node) (h : (Files.Node.link t).isDir = true) :
    Files.listFiles path (.link t) = .ok [(path, .link t)] := by
  simp [Files.listFiles, Files.listWithExt, h, Files.walk, Files.hasExt]

/-- C160, exactly: asked for an extension that is not empty, a file is listed if and only if its extension ends with what was
asked for. -/
theorem C160_exact (path : Str) (es : Files.Entries) (t : Str) (ht : t ≠ []) (l : List (Str × Files.Node))
    (h : Files.listWithExt path (.dir es) t = .ok l) (q : Str) (m : Files.Node) :
    (q, m) ∈ l ↔ Spec.Files.Below path (.dir es) q m ∧ Spec.Files.Leaf m ∧ ∃ pre, Spec.Files.IsExt q (pre ++ t) := by
  have hl : Files.listWithRegexp path (.dir es) (Files.hasExt t) = .ok l := by
    simpa [Files.listWithRegexp, Files.listWithExt] using h
  rw [C158_regexp_partial path es _ l hl q m]
  have : Files.hasExt t q = true ↔ ∃ pre, Spec.Files.IsExt q (pre ++ t) := by
    have hz : (t.length == 0) = false := by cases t <;> simp_all
    simp only [Files.hasExt, hz, Bool.false_or, Str.hasSuffix, List.isPrefixOf_iff_prefix, List.reverse_prefix]
    constructor
    · rintro ⟨pre, hp⟩
      exact ⟨pre, by rw [hp]; exact ext_spec q⟩
    · rintro ⟨pre, hp⟩
      exact ⟨pre, (ext_unique (ext_spec q) hp (by simp [ht])).symm⟩
  rw [this]

example : (Files.Node.link exTree).isDir = true ∧ ∃ l, Files.listWithExt s%"res" exTree s%"sql" = .ok l ∧ l.length = 2 := ⟨rfl, _, rfl, rfl⟩

/-! ### C163 -/

/-- C163 is false of the code for every list of options that has neither a definition nor a literal in it: if the column can be
made at all, asking for its data type, size, constraints, value or value type panics. -/
theorem C163_any_fails (os : List Query.ColOption) (hd : lastGiven colDataOf none os = none) (hl : lastGiven colLiteralOf none os = none)
    (c : Query.Column) (h : Query.newColumnWithOptions os = .ok c) :
    c.dataType = .panic ∧ c.dataTypeSize = .panic ∧ c.constraint = .panic ∧ c.value = .panic ∧ c.valueType = .panic := by
  have hx : .executor none ∉ os := fun hx => by
    rw [(C163_options os).1.mpr hx] at h; cases h
  obtain ⟨c', h1, _, h3, h4, _⟩ := (C163_options os).2 hx
  rw [h] at h1
  cases h1
  have ha := C163_asked c
  refine ⟨ha.1.mpr (h3.trans hd), ha.2.1.mpr (h3.trans hd), ha.2.2.1.mpr (h3.trans hd), ha.2.2.2.1.mpr ?_, ha.2.2.2.2.1.mpr ?_⟩ <;>
    simp [Query.Column.hasValue, h4.trans hl]

example : ∃ c, Query.newColumnWithOptions [.name s%"a", .args [s%"b"]] = .ok c ∧ lastGiven colDataOf none [.name s%"a", .args [s%"b"]] = none := ⟨_, rfl, rfl⟩

/-! ### C175 -/

/-- C175, exactly, for every table with one column of a name, letter case aside: the
table finds the column in whatever spelling, the result-set schema made of its columns finds it if and only if the spelling is
the same. -/
theorem C175_case_iff (s : Query.Schema) (c : Query.Column) (n : Str) (h : c ∈ s.columns) (hn : SameName c.name n)
    (hu : ∀ d, d ∈ s.columns → SameName d.name n → d = c) :
    Query.lookupColumn s.columns n = some c ∧
    (({ columns := Rs.newColumnsFrom s.columns } : Rs.RSchema).lookupColumn n ≠ none ↔ c.name = n) := by
  constructor
  · unfold Query.lookupColumn
    cases hf : s.columns.find? (fun d => Str.eqFold d.name n) with
    | none => exact absurd (List.find?_eq_none.mp hf c h) (by simp [(sameName_iff _ _).mpr hn])
    | some d =>
      have h2 := List.find?_some hf
      rw [hu d (List.mem_of_find?_eq_some hf) ((sameName_iff _ _).mp h2)]
  · unfold Rs.RSchema.lookupColumn Rs.newColumnsFrom
    rw [← Option.isSome_iff_ne_none, List.find?_isSome]
    constructor
    · rintro ⟨x, hx, hx'⟩
      obtain ⟨d, hd, rfl⟩ := List.mem_map.mp hx
      simp only [Rs.AnyCol.name, beq_iff_eq] at hx'
      rw [← hu d hd (by rw [hx']; exact rfl)]
      exact hx'
    · intro e
      exact ⟨_, List.mem_map.mpr ⟨c, h, rfl⟩, by simp [Rs.AnyCol.name, e]⟩

example : ∃ c, c ∈ tableA.columns ∧ SameName c.name s%"A" ∧ c.name ≠ s%"A" ∧ ∀ d, d ∈ tableA.columns → SameName d.name s%"A" → d = c :=
  ⟨_, List.mem_singleton_self _, by decide, by decide, fun d h _ => List.mem_singleton.mp h⟩

end Verif.Props
