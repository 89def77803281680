import Verif.Lemmas.Find
import Verif.Spec.Types
/-! Properties C21–C25 (data types, definitions, constraints, selectors) and C39–C41 (function names). -/
namespace Verif.Props
open Verif Verif.Util Verif.Query Verif.Spec Verif.Lemmas Verif.Fn

private theorem upper_of_same {a b : Str} (h : SameName a b) : Str.upper a = Str.upper b :=
  (Str.eqFold_iff _ _).mp ((sameName_iff a b).mpr h)

private theorem same_of_upper {a b : Str} (h : Str.upper a = Str.upper b) : SameName a b :=
  (sameName_iff a b).mp ((Str.eqFold_iff _ _).mpr h)

/-! ### C21 -/

private theorem removeAll_noSpaces (s : Str) : Str.removeAll ' ' s = noSpaces s := by
  induction s with
  | nil => rfl
  | cons c s ih =>
    unfold Str.removeAll at *
    by_cases h : c = ' '
    · rw [List.filter_cons_of_neg (by simp [h]), ih]; simp [noSpaces, h]
    · rw [List.filter_cons_of_pos (by simp [h]), ih]; simp [noSpaces, h]

private def typeHit (us : Str) (e : DataType × Str) : Bool := e.2 == us || Str.removeAll ' ' e.2 == us

private theorem table_unique : dataTypeStrings.all (fun e => dataTypeStrings.all (fun f =>
    e == f || !(e.2 == f.2 || Str.removeAll ' ' e.2 == f.2 || e.2 == Str.removeAll ' ' f.2 ||
      Str.removeAll ' ' e.2 == Str.removeAll ' ' f.2))) = true := by decide +kernel

private theorem table_upper : dataTypeStrings.all (fun e => Str.upper e.2 == e.2 &&
    Str.upper (Str.removeAll ' ' e.2) == Str.removeAll ' ' e.2 && decide (dataTypeStrings.lookup e.1 = some e.2)) = true := by
  decide +kernel

private theorem hit_unique {us : Str} {e f : DataType × Str} (he : e ∈ dataTypeStrings) (hf : f ∈ dataTypeStrings)
    (h1 : typeHit us e = true) (h2 : typeHit us f = true) : e = f := by
  have := List.all_eq_true.mp (List.all_eq_true.mp table_unique e he) f hf
  simp only [typeHit, Bool.or_eq_true, beq_iff_eq, Bool.not_eq_true', Bool.or_eq_false_iff, beq_eq_false_iff_ne] at *
  rcases this with h | ⟨⟨⟨a, b⟩, c⟩, d⟩
  · exact h
  · rcases h1 with h1 | h1 <;> rcases h2 with h2 | h2
    · exact absurd (h1.trans h2.symm) a
    · exact absurd (h1.trans h2.symm) c
    · exact absurd (h1.trans h2.symm) b
    · exact absurd (h1.trans h2.symm) d

private theorem mem_of_lookup {α β : Type} [BEq α] [LawfulBEq α] (l : List (α × β)) (a : α) (b : β)
    (h : l.lookup a = some b) : (a, b) ∈ l := by
  induction l with
  | nil => simp at h
  | cons x l ih =>
    obtain ⟨x1, x2⟩ := x
    simp only [List.lookup_cons] at h
    split at h
    · next hx => simp only [Option.some.injEq] at h; subst h; have := eq_of_beq hx; subst this; simp
    · exact List.mem_cons_of_mem _ (ih h)

private theorem toStr_mem (t : DataType) (h : t.toStr ≠ []) : (t, t.toStr) ∈ dataTypeStrings := by
  unfold DataType.toStr at *
  split at h
  · exact absurd rfl h
  · next s hs => exact mem_of_lookup _ _ _ hs

private theorem mem_toStr (t : DataType) (n : Str) (h : (t, n) ∈ dataTypeStrings) : t.toStr = n := by
  have := List.all_eq_true.mp table_upper _ h
  simp only [Bool.and_eq_true, decide_eq_true_eq] at this
  simp [DataType.toStr, this.2]

/-- C21: whatever the iteration order of the type table, the name of a named type, in any case, with or
without its inner spaces, parses to that type; and nothing else parses to it. -/
theorem C21_data_type_names (order : List (DataType × Str)) (hp : order.Perm dataTypeStrings)
    (t : DataType) (hn : t.toStr ≠ []) (s : Str) :
    newDataTypeFromStringIn order s = some t ↔ SameName s t.toStr ∨ SameName s (noSpaces t.toStr) := by
  have hmem := toStr_mem t hn
  have hup := List.all_eq_true.mp table_upper _ hmem
  simp only [Bool.and_eq_true, beq_iff_eq] at hup
  have key : (SameName s t.toStr ∨ SameName s (noSpaces t.toStr)) ↔ typeHit (Str.upper s) (t, t.toStr) = true := by
    simp only [typeHit, Bool.or_eq_true, beq_iff_eq]
    constructor
    · rintro (h | h)
      · left; rw [upper_of_same h, hup.1.1]
      · right; rw [upper_of_same h, ← removeAll_noSpaces, hup.1.2]
    · rintro (h | h)
      · left; apply same_of_upper; rw [← h, hup.1.1]
      · right; apply same_of_upper; rw [← h, ← removeAll_noSpaces, hup.1.2]
  rw [key]
  unfold newDataTypeFromStringIn
  rw [Option.map_eq_some_iff]
  constructor
  · rintro ⟨e, he, rfl⟩
    have h1 := List.find?_some he
    have h2 := hp.mem_iff.mp (List.mem_of_find?_eq_some he)
    have h3 : e.1.toStr = e.2 := mem_toStr e.1 e.2 h2
    rw [h3]; exact h1
  · intro h
    cases hf : order.find? (fun e => e.2 == Str.upper s || Str.removeAll ' ' e.2 == Str.upper s) with
    | none =>
      have := List.find?_eq_none.mp hf (t, t.toStr) (hp.mem_iff.mpr hmem)
      exact absurd h this
    | some e =>
      have h1 := List.find?_some hf
      have h2 := hp.mem_iff.mp (List.mem_of_find?_eq_some hf)
      have := hit_unique h2 hmem h1 h
      exact ⟨e, rfl, by rw [this]⟩

example : DataType.doublePrecision.toStr ≠ [] ∧ SameName s%"doublePrecision" (noSpaces DataType.doublePrecision.toStr) := by
  decide +kernel

/-- C21, corollary: two iteration orders never disagree. -/
theorem C21_order_irrelevant (o1 o2 : List (DataType × Str)) (h1 : o1.Perm dataTypeStrings)
    (h2 : o2.Perm dataTypeStrings) (s : Str) : newDataTypeFromStringIn o1 s = newDataTypeFromStringIn o2 s := by
  have named : ∀ o : List (DataType × Str), o.Perm dataTypeStrings → ∀ t, newDataTypeFromStringIn o s = some t → t.toStr ≠ [] := by
    intro o ho t ht
    unfold newDataTypeFromStringIn at ht
    obtain ⟨e, he, rfl⟩ := Option.map_eq_some_iff.mp ht
    have h2 := ho.mem_iff.mp (List.mem_of_find?_eq_some he)
    rw [mem_toStr e.1 e.2 h2]
    have hne : dataTypeStrings.all (fun e => e.2 != []) = true := by decide +kernel
    simpa using List.all_eq_true.mp hne e h2
  cases h : newDataTypeFromStringIn o1 s with
  | some t =>
    have hn := named o1 h1 t h
    exact (((C21_data_type_names o2 h2 t hn s).mpr ((C21_data_type_names o1 h1 t hn s).mp h))).symm
  | none =>
    cases h' : newDataTypeFromStringIn o2 s with
    | none => rfl
    | some t =>
      have hn := named o2 h2 t h'
      rw [(C21_data_type_names o1 h1 t hn s).mpr ((C21_data_type_names o2 h2 t hn s).mp h')] at h
      cases h

/-! ### C22 -/

/-- C22 as stated is false: a definition with length 0 prints without a length and reads back as −1, and
a list whose second token is not a parenthesis is accepted. -/
theorem C22_column_def_fails :
    (∃ d : ColumnDef, d.toStr = s%"INT" ∧ d.length = 0 ∧ newDataDefFromStrings (defTokens s%"INT" none) ≠ some d) ∧
    newDataDefFromStrings [s%"INT", s%"x", s%"5", s%")"] = some { typ := .int, length := 5 } ∧
    newDataDefFromStrings [s%"INT", s%"(", s%"5", s%"x"] = some { typ := .int, length := 5 } :=
  ⟨⟨{ typ := .int, length := 0 }, by decide +kernel⟩, by decide +kernel, by decide +kernel⟩

private theorem source_order (t : DataType) (hn : t.toStr ≠ []) : newDataTypeFromString t.toStr = some t :=
  (C21_data_type_names dataTypeStrings (List.Perm.refl _) t hn t.toStr).mpr (Or.inl rfl)

private theorem digits_of {d : Str} (h : Str.toNat? d ≠ none) : Digits d := by
  obtain ⟨hne, hd⟩ := Str.toNat?_isSome h
  refine ⟨hne, fun c hc => ?_⟩
  have := hd c hc
  simp only [Str.isDigit, Bool.and_eq_true, decide_eq_true_eq, Char.toNat] at this
  exact ⟨UInt32.le_iff_toNat_le.mpr this.1, UInt32.le_iff_toNat_le.mpr this.2⟩

private theorem intText_of {d : Str} (h : Str.atoi d ≠ none) : IntText d := by
  have hs : Str.signed? d ≠ none := fun e => h (by simp [Str.atoi, e])
  unfold Str.signed? at hs
  split at hs
  · exact .inr ⟨_, digits_of (fun e => hs (by simp [e])), .inl rfl⟩
  · exact .inr ⟨_, digits_of (fun e => hs (by simp [e])), .inr rfl⟩
  · exact .inl (digits_of (fun e => hs (by simp [e])))

/-- C22, the part that holds: for every named type and every positive length a 64-bit integer can hold, or
no length, the printed text is the concatenation of the tokens and the tokens read back to the same type
and length; a text between the parentheses that is not a decimal integer, or is too large for the
integer, is rejected. Missing: length 0 and unbalanced parentheses (false). -/
theorem C22_column_def_partial (t : DataType) (hn : t.toStr ≠ []) :
    (∀ n : Nat, 0 < n → n < 2 ^ 63 →
      ({ typ := t, length := n } : ColumnDef).toStr = (defTokens t.toStr (some (Str.ofNat n))).flatten ∧
      newDataDefFromStrings (defTokens t.toStr (some (Str.ofNat n))) = some { typ := t, length := n }) ∧
    (({ typ := t, length := -1 } : ColumnDef).toStr = (defTokens t.toStr none).flatten ∧
      newDataDefFromStrings (defTokens t.toStr none) = some { typ := t, length := -1 }) ∧
    (∀ d, ¬ IntText d → newDataDefFromStrings (defTokens t.toStr (some d)) = none) ∧
    (∀ n : Nat, 2 ^ 63 ≤ n → newDataDefFromStrings (defTokens t.toStr (some (Str.ofNat n))) = none) := by
  refine ⟨fun n h hm => ⟨?_, ?_⟩, ⟨?_, ?_⟩, fun d hd => ?_, fun n hn => ?_⟩
  · have : (0 : Int) < n := by omega
    simp only [ColumnDef.toStr, this, if_true, defTokens, Str.ofInt]
    simp
  · simp [defTokens, newDataDefFromStrings, Str.atoi_ofNat n hm, newDataDefFrom, source_order t hn]
  · simp [ColumnDef.toStr, defTokens]
  · simp [defTokens, newDataDefFromStrings, newDataDefFrom, source_order t hn]
  · have : Str.atoi d = none := Classical.byContradiction fun h => hd (intText_of h)
    simp [defTokens, newDataDefFromStrings, this]
  · simp [defTokens, newDataDefFromStrings, Str.atoi_ofNat_big n hn]

example : newDataDefFromStrings (defTokens s%"VARCHAR" (some s%"255")) = some { typ := .varChar, length := 255 } := by
  decide +kernel
example : ¬ IntText s%"1x" := by
  rintro (h | ⟨r, _, h | h⟩)
  · exact absurd (h.2 'x' (by decide)) (by decide)
  · exact absurd (List.cons.inj h).1 (by decide)
  · exact absurd (List.cons.inj h).1 (by decide)

/-! ### C23 -/

private theorem and_bit (c : BitVec 64) (i : Nat) (hi : i < 64) :
    (c &&& BitVec.twoPow 64 i != 0) = c.getLsbD i := by
  rw [BitVec.and_twoPow]
  cases h : c.getLsbD i with
  | false => simp
  | true =>
    simp only [if_true, bne_iff_ne, ne_eq]
    intro h0
    have := congrArg (fun b => b.getLsbD i) h0
    simp [hi] at this

/-- C23, the flags: each test reads exactly its own bit, whatever the other 63 are. -/
theorem C23_constraint_flags (c : Constraint) :
    Constraint.isPrimaryKey c = c.getLsbD 0 ∧ Constraint.isNotNull c = c.getLsbD 1 ∧
    Constraint.isUnique c = c.getLsbD 2 :=
  ⟨and_bit c 0 (by decide), and_bit c 1 (by decide), and_bit c 2 (by decide)⟩

/-- C23, the text, is false of combinations: they print nothing. -/
theorem C23_constraint_text_fails : ∃ c : Constraint,
    Constraint.isPrimaryKey c = true ∧ Constraint.isNotNull c = true ∧ Constraint.toStr c = [] :=
  ⟨3, by decide +kernel⟩

/-- C23, the text, characterised: something is printed exactly for the three single flags, and it is the
text of that flag. Missing: combinations (false). -/
theorem C23_constraint_text_partial (c : Constraint) :
    (Constraint.toStr c = s%"PRIMARY KEY" ↔ c = 1) ∧ (Constraint.toStr c = s%"NOT NULL" ↔ c = 2) ∧
    (Constraint.toStr c = s%"UNIQUE" ↔ c = 4) ∧ (Constraint.toStr c = [] ↔ c ≠ 1 ∧ c ≠ 2 ∧ c ≠ 4) := by
  by_cases h1 : c = 1
  · subst h1; decide
  by_cases h2 : c = 2
  · subst h2; decide
  by_cases h4 : c = 4
  · subst h4; decide
  have : Constraint.toStr c = [] := by unfold Constraint.toStr; rw [if_neg h1, if_neg h2, if_neg h4]
  rw [this]; exact ⟨by simpa using h1, by simpa using h2, by simpa using h4, by simpa using ⟨h1, h2, h4⟩⟩

/-! ### C24, C25 -/

private theorem isFn_iff (s : Selector) : IsFn s ↔ s.function.isSome = true := by
  cases s with
  | col c => simp [IsFn, Selector.function, Option.isSome_iff_ne_none]
  | fn f => simp [IsFn, Selector.function]

/-- C24, HasFunction characterised: it is true exactly when some selector is *not* a function. -/
theorem C24_has_function_iff (ss : List Selector) : hasFunction ss = true ↔ ∃ s ∈ ss, ¬ IsFn s := by
  simp [hasFunction, isFn_iff]

/-- C24 as stated is false, both ways: a function alone gives false, a plain column alone gives true. -/
theorem C24_has_function_fails :
    (∃ ss, (∃ s ∈ ss, IsFn s) ∧ hasFunction ss = false) ∧ (∃ ss, (∀ s ∈ ss, ¬ IsFn s) ∧ hasFunction ss = true) :=
  ⟨⟨[.fn (Function.named s%"SUM" [s%"a"])], ⟨_, List.mem_singleton_self _, trivial⟩, by decide +kernel⟩,
   ⟨[.col { name := s%"a" }], by simp [IsFn], by decide +kernel⟩⟩

private theorem lookupFunction_eq (ss : List Selector) (n : Str) :
    lookupFunction ss n = (functions ss).find? (fun f => f.name == n) := by
  induction ss with
  | nil => rfl
  | cons s ss ih =>
    simp only [lookupFunction, functions, List.filterMap_cons] at *
    cases hs : s.function with
    | none => exact ih
    | some f =>
      by_cases h : f.name = n
      · simp [h, Function.isName]
      · simp [h, Function.isName, ih]

private theorem fnsOf_functions (ss : List Selector) : FnsOf ss (functions ss) := by
  induction ss with
  | nil => exact .nil
  | cons s ss ih =>
    cases s with
    | fn f => simpa [functions, Selector.function] using FnsOf.fn ih
    | col c =>
      cases hc : c.fn with
      | none => simpa [functions, Selector.function, hc] using FnsOf.plain hc ih
      | some f => simpa [functions, Selector.function, hc] using FnsOf.calc hc ih

/-- C24, the parts that hold: Functions lists exactly the functions, in order; LookupFunction returns the
first of them with exactly that name and fails when there is none; HasFunctionWithType looks at exactly
these functions. Missing: HasFunction (false). -/
theorem C24_functions_partial (ss : List Selector) :
    FnsOf ss (functions ss) ∧
    (∀ n f, lookupFunction ss n = some f ↔ ∃ i, FirstAt (fun g : Function => g.name = n) (functions ss) i f) ∧
    (∀ n, lookupFunction ss n = none ↔ NoneOf (fun g : Function => g.name = n) (functions ss)) ∧
    (∀ t, hasFunctionWithType ss t = true ↔ ∃ f ∈ functions ss, f.typ = t) := by
  have hl := lookupFunction_eq ss
  refine ⟨?_, ?_, ?_, ?_⟩
  · exact fnsOf_functions ss
  · intro n f; rw [hl n, find?_iff_firstAt]; simp
  · intro n; rw [hl n, find?_none_iff]; simp
  · intro t
    simp only [hasFunctionWithType, functions, List.any_eq_true, List.mem_filterMap]
    constructor
    · rintro ⟨s, hs, h⟩
      split at h
      · next f hf => exact ⟨f, ⟨s, hs, hf⟩, by simpa using h⟩
      · cases h
    · rintro ⟨f, ⟨s, hs, hf⟩, ht⟩
      exact ⟨s, hs, by simp [hf, ht]⟩

example : lookupFunction [.col { name := s%"a" }, .fn (Function.named s%"max" [s%"a"])] s%"MAX"
    = some (Function.named s%"max" [s%"a"]) := by decide +kernel

/-- C25: IsAsterisk holds exactly for the empty list and the single `*`, for selectors and columns. -/
theorem C25_is_asterisk :
    (∀ ss : List Selector, selectorsIsAsterisk ss = true ↔ ss = [] ∨ ∃ s, ss = [s] ∧ s.name = s%"*") ∧
    (∀ cs : List Column, columnsIsAsterisk cs = true ↔ cs = [] ∨ ∃ c, cs = [c] ∧ c.name = s%"*") := by
  constructor
  · intro ss
    match ss with
    | [] => simp [selectorsIsAsterisk]
    | [s] => simp [selectorsIsAsterisk]
    | _ :: _ :: _ => simp [selectorsIsAsterisk]
  · intro cs
    match cs with
    | [] => simp [columnsIsAsterisk]
    | [s] => simp [columnsIsAsterisk]
    | _ :: _ :: _ => simp [columnsIsAsterisk]

/-! ### C39–C41 -/

private theorem startsWith_iff (s p : Str) (hp : Str.upper p = p) :
    StartsWith s p ↔ Str.hasPrefix (Str.upper s) p = true := by
  unfold StartsWith Str.hasPrefix
  rw [List.isPrefixOf_iff_prefix, List.prefix_iff_eq_take]
  have hm : (Str.upper s).take p.length = Str.upper (s.take p.length) := by simp [Str.upper]
  rw [hm]
  constructor
  · intro h; rw [upper_of_same h, hp]
  · intro h; apply same_of_upper; rw [hp]; exact h.symm

private theorem aggr_upper (a : AggrId) : Str.upper a.name = a.name := by cases a <;> decide +kernel

private theorem prefix_excl {s p q : Str} (h1 : Str.hasPrefix s p = true) (h2 : Str.hasPrefix s q = true) :
    p.isPrefixOf q = true ∨ q.isPrefixOf p = true := by
  simp only [Str.hasPrefix, List.isPrefixOf_iff_prefix] at *
  rcases Nat.le_total p.length q.length with h | h
  · left; exact List.prefix_of_prefix_length_le h1 h2 h
  · right; exact List.prefix_of_prefix_length_le h2 h1 h

/-- C39 characterised: the aggregator found is the one whose name *begins* the given name, ignoring case. -/
theorem C39_aggregator_iff (s : Str) (a : AggrId) : newAggregatorForName s = some a ↔ StartsWith s a.name := by
  rw [startsWith_iff _ _ (aggr_upper a)]
  unfold newAggregatorForName
  constructor
  · intro h; exact List.find?_some (p := fun a : AggrId => Str.hasPrefix (Str.upper s) a.name) h
  · intro h
    cases hf : aggrCases.find? (fun a => Str.hasPrefix (Str.upper s) a.name) with
    | none =>
      have := List.find?_eq_none.mp hf a (by cases a <;> decide)
      exact absurd h this
    | some b =>
      have hb := List.find?_some (p := fun a : AggrId => Str.hasPrefix (Str.upper s) a.name) hf
      have := prefix_excl h hb
      revert this
      cases a <;> cases b <;> first | (intro _; rfl) | (intro h; exact absurd h (by decide +kernel))

/-- C39 as stated is false: `SUMMARY` names the SUM aggregator. -/
theorem C39_aggregator_names_fails : ∃ s, newAggregatorForName s ≠ none ∧ ∀ a : AggrId, ¬ SameName s a.name :=
  ⟨s%"SUMMARY", by decide +kernel, fun a => by cases a <;> decide +kernel⟩

/-- C39, the part that holds: each of the five names in any case finds its own aggregator, and every name
that does not begin with one of them is rejected. Missing: rejection of longer names (false). -/
theorem C39_aggregator_names_partial (s : Str) :
    (∀ a : AggrId, SameName s a.name → newAggregatorForName s = some a) ∧
    ((∀ a : AggrId, ¬ StartsWith s a.name) → newAggregatorForName s = none) := by
  constructor
  · intro a h
    rw [C39_aggregator_iff]
    have hl : s.length = a.name.length := by have := congrArg List.length h; simpa using this
    unfold StartsWith
    rw [← hl, List.take_length]; exact h
  · intro h
    cases hf : newAggregatorForName s with
    | none => rfl
    | some a => exact absurd ((C39_aggregator_iff s a).mp hf) (h a)

example : SameName s%"Avg" AggrId.avg.name := by decide +kernel

private theorem exec_upper (k : ExecId) : Str.upper k.name = k.name := by cases k <;> decide +kernel

/-- C40 as stated is false: `LOG10` gives the natural logarithm, `PINK` gives PI. -/
theorem C40_executor_lookup_fails :
    newExecutorForName s%"LOG10" = some .log ∧ newExecutorForName s%"PINK" = some .pi := by decide +kernel

/-- C40: LOG10 can never be obtained by name. -/
theorem C40_log10_unreachable (s : Str) : newExecutorForName s ≠ some .log10 := by
  intro h
  unfold newExecutorForName at h
  obtain ⟨e, he, he1⟩ := Option.map_eq_some_iff.mp h
  obtain ⟨e1, e2⟩ := e
  simp only at he1; subst he1
  obtain ⟨hp, l, r, hl, hno⟩ := List.find?_eq_some_iff_append.mp he
  have hlen : ∀ (l r : List (ExecId × Bool)), execCases = l ++ (.log10, e2) :: r → (ExecId.log, true) ∈ l := by
    intro l r hlr
    have h6 : l.length = 6 := by
      have hi : execCases.findIdx? (fun e => e.1 == .log10) = some l.length := by
        rw [hlr, List.findIdx?_append]
        have hnl : l.findIdx? (fun e => e.1 == .log10) = none := by
          rw [List.findIdx?_eq_none_iff]
          intro x hx
          rw [Bool.eq_false_iff]; intro hx'
          have hnd : (execCases.map (·.1)).Nodup := by decide +kernel
          rw [hlr] at hnd
          simp only [List.map_append, List.map_cons, List.nodup_append] at hnd
          exact hnd.2.2 x.1 (List.mem_map_of_mem hx) .log10 (by simp) (eq_of_beq hx')
        rw [hnl]; simp [List.findIdx?_cons]
      have hi' : execCases.findIdx? (fun e => e.1 == .log10) = some 6 := by decide +kernel
      rw [hi] at hi'; simpa using hi'
    have : l = execCases.take 6 := by rw [hlr, ← h6]; simp
    rw [this]; decide +kernel
  have hm := hno _ (hlen l r hl)
  simp only [execCaseHit] at hp hm
  have h10 : Str.hasPrefix (Str.upper s) s%"LOG10" = true := by
    cases e2 with
    | true => exact hp
    | false =>
      simp only [Bool.false_eq_true, if_false] at hp
      rw [Str.eqFold_iff, Str.upper_upper] at hp
      have : Str.upper (ExecId.name .log10) = s%"LOG10" := by decide +kernel
      rw [this] at hp
      simp [Str.hasPrefix, hp]
  rw [Str.hasPrefix_iff] at h10
  obtain ⟨t, ht⟩ := h10
  have : Str.hasPrefix (Str.upper s) (ExecId.name .log) = true := by
    rw [Str.hasPrefix_iff]; exact ⟨s%"10" ++ t, by rw [ht]; rfl⟩
  simp [this] at hm

/-- C40, the part that holds: every supported name except LOG10 finds its executor in any case, and the
executor found always has a name the given one begins with. Missing: LOG10 and longer names (false). -/
theorem C40_executor_lookup_partial (s : Str) :
    (∀ k : ExecId, k ≠ .log10 → SameName s k.name → newExecutorForName s = some k) ∧
    (∀ k : ExecId, newExecutorForName s = some k → StartsWith s k.name) := by
  constructor
  · intro k hk h
    unfold newExecutorForName
    rw [upper_of_same h, exec_upper]
    revert hk
    cases k <;> decide +kernel
  · intro k h
    rw [startsWith_iff _ _ (exec_upper k)]
    unfold newExecutorForName at h
    obtain ⟨e, he, rfl⟩ := Option.map_eq_some_iff.mp h
    have := List.find?_some he
    simp only [execCaseHit] at this
    split at this
    · exact this
    · rw [Str.eqFold_iff, Str.upper_upper, exec_upper] at this
      simp [Str.hasPrefix, this]

example : SameName s%"Floor" ExecId.floor.name ∧ ExecId.floor ≠ .log10 := by decide +kernel

/-- C41 as stated is false: anything ending in `)` is a registered function. -/
theorem C41_registered_fails :
    (∀ s : Str, isRegisteredFunction (s ++ s%")") = true) ∧
    ∃ s, isRegisteredFunction s = true ∧ ∀ f ∈ registeredFunctionNames, ¬ SameName s f ∧ ¬ CallOf s f := by
  have h : ∀ s : Str, isRegisteredFunction (s ++ s%")") = true := by
    intro s
    unfold isRegisteredFunction
    have hs : Str.hasSuffix (Str.upper (s ++ s%")")) s%")" = true := by
      rw [Str.hasSuffix_iff]
      exact ⟨Str.upper s, by rw [Str.upper_append]; rfl⟩
    simp only [List.length_append, List.length_singleton, Nat.add_eq_zero_iff, Nat.one_ne_zero, and_false,
      beq_iff_eq, if_false, List.any_eq_true]
    exact ⟨s%"ABS", by decide +kernel, by unfold registeredHit; rw [hs]; simp⟩
  refine ⟨h, s%"x)", h s%"x", ?_⟩
  intro f hf
  constructor
  · revert f; decide +kernel
  · rintro ⟨n, args, he, _⟩
    have : '(' ∈ (s%"x)" : Str) := by rw [he]; simp
    revert this; decide

/-- C41 characterised: accepted are exactly the registered names in any case, the texts that begin with a
registered name of several letters and `(`, and the texts that end with `)`. Missing from the claim as
stated: the last two should be one condition on one name (false, see above). -/
theorem C41_registered_partial (s : Str) :
    isRegisteredFunction s = true ↔
      (∃ f ∈ registeredFunctionNames, SameName s f) ∨
      (∃ f ∈ registeredFunctionNames, f.length ≠ 1 ∧ StartsWith s (f ++ s%"(")) ∨
      (∃ t, s = t ++ s%")") := by
  have hup : ∀ f ∈ registeredFunctionNames, Str.upper f = f ∧ Str.upper (f ++ s%"(") = f ++ s%"(" ∧ f ≠ [] := by
    decide +kernel
  have hsuf : Str.hasSuffix (Str.upper s) s%")" = true ↔ ∃ t, s = t ++ s%")" := by
    rw [Str.hasSuffix_iff]
    constructor
    · rintro ⟨r, hr⟩
      have hne : s ≠ [] := by rintro rfl; simp at hr
      refine ⟨s.dropLast, ?_⟩
      have hl := List.dropLast_concat_getLast hne
      have : Str.upC (s.getLast hne) = ')' := by
        rw [← hl, Str.upper_append] at hr
        have := congrArg List.getLast? hr
        simpa using this
      have h2 : s.getLast hne = ')' := by
        generalize s.getLast hne = c at this
        apply Str.char_ext
        have h3 := congrArg Char.toNat this
        rw [Str.upC_toNat] at h3
        have h4 : (')' : Char).toNat = 41 := by decide
        rw [h4] at h3 ⊢
        split at h3
        · omega
        · exact h3
      rw [h2] at hl; exact hl.symm
    · rintro ⟨t, rfl⟩; exact ⟨Str.upper t, by rw [Str.upper_append]; rfl⟩
  unfold isRegisteredFunction
  by_cases hs : s = []
  · subst hs
    simp only [List.length_nil, beq_self_eq_true, if_true, Bool.false_eq_true, false_iff]
    rintro (⟨f, hf, h⟩ | ⟨f, hf, _, h⟩ | ⟨t, h⟩)
    · have := congrArg List.length h
      simp at this; exact (hup f hf).2.2 (List.length_eq_zero_iff.mp this.symm)
    · have := congrArg List.length h
      simp at this
    · simp at h
  · have hl : (s.length == 0) = false := by simp [hs]
    simp only [hl, Bool.false_eq_true, if_false, List.any_eq_true]
    constructor
    · rintro ⟨f, hf, h⟩
      unfold registeredHit at h
      split at h
      · left; exact ⟨f, hf, same_of_upper (by rw [(hup f hf).1]; simpa using h)⟩
      · next hlen =>
        simp only [Bool.or_eq_true, Bool.and_eq_true, beq_iff_eq] at h
        rcases h with ⟨_, h⟩ | h | h
        · left; exact ⟨f, hf, same_of_upper (by rw [(hup f hf).1]; exact h)⟩
        · right; left
          exact ⟨f, hf, by simpa using hlen, (startsWith_iff _ _ (hup f hf).2.1).mpr h⟩
        · right; right; exact hsuf.mp h
    · rintro (⟨f, hf, h⟩ | ⟨f, hf, hlen, h⟩ | h)
      · refine ⟨f, hf, ?_⟩
        have := upper_of_same h
        rw [(hup f hf).1] at this
        unfold registeredHit
        rw [this]
        split <;> simp
      · refine ⟨f, hf, ?_⟩
        unfold registeredHit
        rw [if_neg (by simpa using hlen)]
        simp [(startsWith_iff _ _ (hup f hf).2.1).mp h]
      · refine ⟨s%"ABS", by decide +kernel, ?_⟩
        simp [registeredHit, hsuf.mpr h]

end Verif.Props
