import Verif.Model.Options
import Verif.Model.Schema
import Verif.Model.Aggr
import Verif.Model.Bind
import Verif.Props.Exec
/-! C93–C96, C98, C99: ALTER TABLE clauses, selector executors, column access and copies, aggregator arguments,
parameter texts. -/
namespace Verif.Props
open Verif Verif.Query

/-! ### C93 -/

/-- One clause of an ALTER TABLE statement. -/
inductive Clause | addColumn (c : Column) | addIndex (i : Index) | dropColumn (n : Str) | dropIndex (n : Str) | rename

/-- The clauses of a statement, in the order in which they are to be performed. -/
def clausesOf (a : AlterTable) : List Clause :=
  (a.addColumn.map .addColumn).toList ++ (a.addIndex.map .addIndex).toList ++
  (a.dropColumn.map (fun c => .dropColumn c.name)).toList ++ (a.dropIndex.map (fun i => .dropIndex i.name)).toList ++
  (if a.renameTo.isSome ∨ (a.renameColumnFrom.isSome ∧ a.renameColumnTo.isSome) then [.rename] else [])

/-- Performing one clause with the schema's own operations; a rename is not supported. -/
def performClause (s : Schema) : Clause → Schema × Bool
  | .addColumn c => (s.addColumn c, true)
  | .addIndex i => (s.addIndex i, true)
  | .dropColumn n => s.dropColumn n
  | .dropIndex n => s.dropIndex n
  | .rename => (s, false)

/-- Performing clauses up to the first failure. -/
def perform (s : Schema) : List Clause → Schema × Bool
  | [] => (s, true)
  | c :: cs => if (performClause s c).2 then perform (performClause s c).1 cs else ((performClause s c).1, false)

theorem perform_ok {s s' : Schema} {c : Clause} (h : performClause s c = (s', true)) (cs : List Clause) :
    perform s (c :: cs) = perform s' cs := by rw [perform, h]; simp

theorem perform_fail {s s' : Schema} {c : Clause} (h : performClause s c = (s', false)) (cs : List Clause) :
    perform s (c :: cs) = (s', false) := by rw [perform, h]; simp

theorem clause_dropIndex {s : Schema} {n : Str} {r : Schema × Bool} (h : s.dropIndex n = r) : performClause s (.dropIndex n) = r := h
theorem clause_dropColumn {s : Schema} {n : Str} {r : Schema × Bool} (h : s.dropColumn n = r) : performClause s (.dropColumn n) = r := h

theorem alterRename_perform (s : Schema) (a : AlterTable) :
    (s.alterRename a).1 = s ∧ ((s.alterRename a).2 = .ok () ↔
      ¬ (a.renameTo.isSome ∨ (a.renameColumnFrom.isSome ∧ a.renameColumnTo.isSome))) := by
  have hr : renameError a ≠ .ok () := by unfold renameError; split <;> simp
  unfold Schema.alterRename
  cases a.renameTo <;> cases a.renameColumnFrom <;> cases a.renameColumnTo <;> simp [hr]

theorem alterDropIndex_perform (s : Schema) (a : AlterTable) :
    (s.alterDropIndex a).1 = (perform s ((a.dropIndex.map (fun i => Clause.dropIndex i.name)).toList ++
      (if a.renameTo.isSome ∨ (a.renameColumnFrom.isSome ∧ a.renameColumnTo.isSome) then [.rename] else []))).1 ∧
    ((s.alterDropIndex a).2 = .ok () ↔ (perform s ((a.dropIndex.map (fun i => Clause.dropIndex i.name)).toList ++
      (if a.renameTo.isSome ∨ (a.renameColumnFrom.isSome ∧ a.renameColumnTo.isSome) then [.rename] else []))).2 = true) := by
  have hend : ∀ s : Schema, (s.alterRename a).1 = (perform s (if a.renameTo.isSome ∨ (a.renameColumnFrom.isSome ∧ a.renameColumnTo.isSome) then [.rename] else [])).1 ∧
      ((s.alterRename a).2 = .ok () ↔ (perform s (if a.renameTo.isSome ∨ (a.renameColumnFrom.isSome ∧ a.renameColumnTo.isSome) then [.rename] else [])).2 = true) := by
    intro s
    obtain ⟨h1, h2⟩ := alterRename_perform s a
    split
    · next h => simp only [perform, performClause, Bool.false_eq_true, if_false]; exact ⟨h1, by rw [h2]; simp [h]⟩
    · next h => simp only [perform]; exact ⟨h1, by rw [h2]; simp [h]⟩
  unfold Schema.alterDropIndex
  cases a.dropIndex with
  | none => exact hend s
  | some i =>
    simp only [Option.map_some, Option.toList_some, List.cons_append, List.nil_append]
    rcases hd : s.dropIndex i.name with ⟨s', b⟩
    cases b with
    | true => rw [perform_ok (clause_dropIndex hd)]; exact hend s'
    | false => rw [perform_fail (clause_dropIndex hd)]; simp

/-- C93: an ALTER TABLE statement performs exactly its clauses, in the order ADD column, ADD index, DROP column,
DROP index, RENAME, with the effect of the corresponding schema calls; it stops with an error at the first clause
that fails. For every schema and statement. -/
theorem C93_clauses (s : Schema) (a : AlterTable) :
    (s.alter a).1 = (perform s (clausesOf a)).1 ∧ ((s.alter a).2 = .ok () ↔ (perform s (clausesOf a)).2 = true) := by
  have hdrop : ∀ s : Schema, (s.alterDropColumn a).1 = (perform s ((a.dropColumn.map (fun c => Clause.dropColumn c.name)).toList ++
      ((a.dropIndex.map (fun i => Clause.dropIndex i.name)).toList ++
      (if a.renameTo.isSome ∨ (a.renameColumnFrom.isSome ∧ a.renameColumnTo.isSome) then [.rename] else [])))).1 ∧
      ((s.alterDropColumn a).2 = .ok () ↔ (perform s ((a.dropColumn.map (fun c => Clause.dropColumn c.name)).toList ++
      ((a.dropIndex.map (fun i => Clause.dropIndex i.name)).toList ++
      (if a.renameTo.isSome ∨ (a.renameColumnFrom.isSome ∧ a.renameColumnTo.isSome) then [.rename] else [])))).2 = true) := by
    intro s
    unfold Schema.alterDropColumn
    cases a.dropColumn with
    | none => exact alterDropIndex_perform s a
    | some c =>
      simp only [Option.map_some, Option.toList_some, List.cons_append, List.nil_append]
      rcases hd : s.dropColumn c.name with ⟨s', b⟩
      cases b with
      | true => rw [perform_ok (clause_dropColumn hd)]; exact alterDropIndex_perform s' a
      | false => rw [perform_fail (clause_dropColumn hd)]; simp
  unfold Schema.alter clausesOf
  simp only [List.append_assoc]
  cases a.addColumn with
  | none =>
    cases a.addIndex with
    | none => exact hdrop s
    | some i =>
      simp only [Option.map_some, Option.toList_some, List.cons_append, List.nil_append, Option.map_none, Option.toList_none]
      rw [perform_ok rfl]; exact hdrop _
  | some c =>
    cases a.addIndex with
    | none =>
      simp only [Option.map_some, Option.toList_some, List.cons_append, List.nil_append, Option.map_none, Option.toList_none]
      rw [perform_ok rfl]; exact hdrop _
    | some i =>
      simp only [Option.map_some, Option.toList_some, List.cons_append, List.nil_append]
      rw [perform_ok rfl]
      rw [perform_ok rfl]; exact hdrop _

/-- C93: a statement fails with a panic exactly when it renames, also adds a column without a definition, and the
clauses before the rename succeed. -/
theorem C93_panic_iff (s : Schema) (a : AlterTable) :
    (s.alter a).2 = .panic ↔
      ((a.renameTo.isSome ∨ (a.renameColumnFrom.isSome ∧ a.renameColumnTo.isSome)) ∧
       (∃ c, a.addColumn = some c ∧ c.def_ = none) ∧
       (perform s (clausesOf { a with renameTo := none, renameColumnFrom := none })).2 = true) := by
  have hre : renameError a = .panic ↔ ∃ c, a.addColumn = some c ∧ c.def_ = none := by
    unfold renameError AlterTable.toStr
    cases hc : a.addColumn with
    | none => simp
    | some c =>
      cases hd : c.def_ with
      | none => simp [addColumnClause, hd]
      | some d => simp [addColumnClause, hd]
  have hren : ∀ s : Schema, (s.alterRename a).2 = .panic ↔
      ((a.renameTo.isSome ∨ (a.renameColumnFrom.isSome ∧ a.renameColumnTo.isSome)) ∧ ∃ c, a.addColumn = some c ∧ c.def_ = none) := by
    intro s
    unfold Schema.alterRename
    cases a.renameTo <;> cases a.renameColumnFrom <;> cases a.renameColumnTo <;> simp [hre]
  have hdi : ∀ s : Schema, (s.alterDropIndex a).2 = .panic ↔
      (((a.renameTo.isSome ∨ (a.renameColumnFrom.isSome ∧ a.renameColumnTo.isSome)) ∧ ∃ c, a.addColumn = some c ∧ c.def_ = none) ∧
       (perform s (a.dropIndex.map (fun i => Clause.dropIndex i.name)).toList).2 = true) := by
    intro s
    unfold Schema.alterDropIndex
    cases a.dropIndex with
    | none => simp only [Option.map_none, Option.toList_none, perform, and_true]; exact hren s
    | some i =>
      simp only [Option.map_some, Option.toList_some]
      rcases hd : s.dropIndex i.name with ⟨s', b⟩
      cases b with
      | true => rw [perform_ok (clause_dropIndex hd)]; simp only [if_true, perform, and_true]; exact hren s'
      | false => rw [perform_fail (clause_dropIndex hd)]; simp
  have hdc : ∀ s : Schema, (s.alterDropColumn a).2 = .panic ↔
      (((a.renameTo.isSome ∨ (a.renameColumnFrom.isSome ∧ a.renameColumnTo.isSome)) ∧ ∃ c, a.addColumn = some c ∧ c.def_ = none) ∧
       (perform s ((a.dropColumn.map (fun c => Clause.dropColumn c.name)).toList ++ (a.dropIndex.map (fun i => Clause.dropIndex i.name)).toList)).2 = true) := by
    intro s
    unfold Schema.alterDropColumn
    cases a.dropColumn with
    | none => exact hdi s
    | some c =>
      simp only [Option.map_some, Option.toList_some, List.cons_append, List.nil_append]
      rcases hd : s.dropColumn c.name with ⟨s', b⟩
      cases b with
      | true => rw [perform_ok (clause_dropColumn hd)]; exact hdi s'
      | false => rw [perform_fail (clause_dropColumn hd)]; simp
  have hcl : clausesOf { a with renameTo := none, renameColumnFrom := none } =
      (a.addColumn.map Clause.addColumn).toList ++ ((a.addIndex.map Clause.addIndex).toList ++
      ((a.dropColumn.map (fun c => Clause.dropColumn c.name)).toList ++ (a.dropIndex.map (fun i => Clause.dropIndex i.name)).toList)) := by
    simp [clausesOf]
  rw [hcl, ← and_assoc]
  unfold Schema.alter
  simp only
  rw [hdc]
  cases a.addColumn with
  | none =>
    cases a.addIndex with
    | none => simp
    | some i => simp only [Option.map_some, Option.toList_some, Option.map_none, Option.toList_none, List.cons_append, List.nil_append]; rw [perform_ok rfl]
  | some c =>
    cases a.addIndex with
    | none => simp only [Option.map_some, Option.toList_some, Option.map_none, Option.toList_none, List.cons_append, List.nil_append]; rw [perform_ok rfl]
    | some i => simp only [Option.map_some, Option.toList_some, List.cons_append, List.nil_append]; rw [perform_ok rfl, perform_ok rfl]

example : let s := newSchemaWith s%"t" [{ name := s%"a" }, { name := s%"b" }]
    let a : AlterTable := { table := { name := s%"t" }, addIndex := some (newSecondaryIndexWith s%"i" [{ name := s%"a" }]), dropColumn := some { name := s%"a" } }
    (s.alter a).2 = .ok () ∧ (s.alter a).1.indexes.length = 1 := by decide

/-! ### C94 -/

/-- The functions among the selectors, in order. -/
def functionsOf (ss : List Selector) : List Function := ss.filterMap (·.function)

/-- `e` is an executor for `f`: the one obtained before, or a new one named like the function reading its
arguments. -/
def ExecutorOf (f : Function) (e : Exec) : Prop :=
  f.executor = some e ∨ (f.executor = none ∧ ∃ k, Fn.newExecutorForName f.name = some k ∧ e = { name := k.name, typ := k.type, args := f.args })

/-- `l'` has at each position an element related to that of `l`. -/
inductive Pointwise {α β : Type} (R : α → β → Prop) : List α → List β → Prop
  | nil : Pointwise R [] []
  | cons {a b l l'} : R a b → Pointwise R l l' → Pointwise R (a :: l) (b :: l')

theorem getExecutor_some {f : Function} {e : Exec} : f.getExecutor.2 = some e ↔ ExecutorOf f e := by
  unfold Function.getExecutor ExecutorOf
  cases f.executor with
  | some e' => simp
  | none =>
    cases Fn.newExecutorForName f.name with
    | none => simp
    | some k => simp [eq_comm]

/-- C94: `Executors` returns one executor per function selector that is not an aggregate, in selector order, each
named like its function and reading its arguments. For every selector list. -/
theorem C94_executors (ss : List Selector) (es : List Exec) :
    (executors ss).2 = some es ↔ Pointwise ExecutorOf ((functionsOf ss).filter (fun f => !(f.typ == .aggregate))) es := by
  induction ss generalizing es with
  | nil =>
    simp only [executors, functionsOf, List.filterMap_nil, List.filter_nil, Option.some.injEq]
    constructor
    · rintro rfl; exact .nil
    · intro h; cases h; rfl
  | cons s ss ih =>
    unfold executors
    cases hf : s.function with
    | none =>
      have : functionsOf (s :: ss) = functionsOf ss := by simp [functionsOf, hf]
      rw [this]; exact ih es
    | some f =>
      have : functionsOf (s :: ss) = f :: functionsOf ss := by simp [functionsOf, hf]
      rw [this]
      by_cases hagg : f.isAggregator = true
      · have ht : f.typ = .aggregate := by simpa [Function.isAggregator] using hagg
        simp only [hagg, if_true]
        rw [List.filter_cons_of_neg (by simp [ht])]
        exact ih es
      · have ht : ¬ f.typ = .aggregate := by simpa [Function.isAggregator] using hagg
        rw [List.filter_cons_of_pos (by simp [ht])]
        simp only [hagg, Bool.false_eq_true, if_false]
        cases hg : f.getExecutor.2 with
        | none =>
          simp only [reduceCtorEq, false_iff]
          intro h; cases h with
          | cons h1 _ => rw [getExecutor_some.mpr h1] at hg; cases hg
        | some e =>
          simp only [Option.map_eq_some_iff]
          constructor
          · rintro ⟨es', h1, rfl⟩
            exact .cons (getExecutor_some.mp hg) ((ih es').mp h1)
          · intro h
            cases h with
            | cons h1 h2 =>
              rw [getExecutor_some.mpr h1] at hg; cases hg
              exact ⟨_, (ih _).mpr h2, rfl⟩

/-- `k` is the aggregator of `f`: the one obtained before, or the one of that name. -/
def AggregatorOf (f : Function) (k : Fn.AggrId) : Prop :=
  f.aggregator = some k ∨ (f.aggregator = none ∧ Fn.newAggregatorForName f.name = some k)

theorem getAggregator_some {f : Function} {k : Fn.AggrId} : f.getAggregator.2 = some k ↔ AggregatorOf f k := by
  unfold Function.getAggregator AggregatorOf
  cases f.aggregator with
  | some e' => simp
  | none => cases Fn.newAggregatorForName f.name <;> simp

/-- C94: `Aggregators` returns one aggregator per function selector, in selector order; it is an error if some
function selector is not an aggregate function. For every selector list. -/
theorem C94_aggregators (ss : List Selector) (ks : List Fn.AggrId) :
    (aggregators ss).2 = some ks ↔ Pointwise AggregatorOf (functionsOf ss) ks := by
  induction ss generalizing ks with
  | nil =>
    simp only [aggregators, functionsOf, List.filterMap_nil, Option.some.injEq]
    constructor
    · rintro rfl; exact .nil
    · intro h; cases h; rfl
  | cons s ss ih =>
    unfold aggregators
    cases hf : s.function with
    | none =>
      have : functionsOf (s :: ss) = functionsOf ss := by simp [functionsOf, hf]
      rw [this]; exact ih ks
    | some f =>
      have : functionsOf (s :: ss) = f :: functionsOf ss := by simp [functionsOf, hf]
      rw [this]
      cases hg : f.getAggregator.2 with
      | none =>
        simp only [hg, reduceCtorEq, false_iff]
        intro h; cases h with
        | cons h1 _ => rw [getAggregator_some.mpr h1] at hg; cases hg
      | some e =>
        simp only [hg, Option.map_eq_some_iff]
        constructor
        · rintro ⟨es', h1, rfl⟩
          exact .cons (getAggregator_some.mp hg) ((ih es').mp h1)
        · intro h
          cases h with
          | cons h1 h2 =>
            rw [getAggregator_some.mpr h1] at hg; cases hg
            exact ⟨_, (ih _).mpr h2, rfl⟩

/-- C94, negation of "the aggregators of the aggregate functions": a selector list with an aggregate and another
function has no aggregators at all. -/
theorem C94_mixed_fails :
    (aggregators [.fn (Function.named s%"SUM" [s%"x"]), .fn (Function.named s%"ABS" [s%"y"])]).2 = none ∧
    (executors [.fn (Function.named s%"SUM" [s%"x"]), .fn (Function.named s%"ABS" [s%"y"])]).2 =
      some [{ name := s%"ABS", typ := .math, args := [s%"y"] }] := by decide

example : Pointwise ExecutorOf [Function.named s%"abs" [s%"y"], Function.named s%"PI" []]
    [{ name := s%"ABS", typ := .math, args := [s%"y"] }, { name := s%"PI", typ := .math, args := [] }] := by
  refine .cons ?_ (.cons ?_ .nil)
  · exact .inr ⟨by decide, .abs, by decide, by decide⟩
  · exact .inr ⟨by decide, .pi, by decide, by decide⟩
example : Pointwise AggregatorOf [Function.named s%"SUM" [s%"y"]] [.sum] := .cons (.inr ⟨by decide, by decide⟩) .nil

/-! ### C95, C96 -/

/-- C95: `ColumnAt` returns the column at every position of the list, and an error beyond it. Missing: negative
positions, see `C95_fails`. -/
theorem C95_column_at_partial (cs : List Column) (n : Nat) :
    (∀ c, cs[n]? = some c → columnAt cs n = .ok c) ∧ (cs.length ≤ n → columnAt cs n = .err) := by
  constructor
  · intro c h
    have hn : n < cs.length := (List.getElem?_eq_some_iff.mp h).1
    unfold columnAt
    rw [if_neg (by omega), if_neg (by omega)]
    simp [h]
  · intro h
    unfold columnAt
    rw [if_pos (by omega)]

/-- C95, negation: every negative position panics. -/
theorem C95_fails (cs : List Column) (n : Int) (h : n < 0) : columnAt cs n = .panic := by
  unfold columnAt
  rw [if_neg (by omega), if_pos h]

example : ([{ name := s%"a" }, { name := s%"b" }] : List Column)[1]? = some { name := s%"b" } ∧
    columnAt [{ name := s%"a" }, { name := s%"b" }] 1 = .ok { name := s%"b" } := by decide

/-- C96: a copy of a column has the same name, definition and literal, so the same name, definition and value
texts. Missing: its function and arguments, see `C96_fails`. -/
theorem C96_copy_partial (c : Column) :
    c.copy.name = c.name ∧ c.copy.def_ = c.def_ ∧ c.copy.lit = c.lit ∧ c.copy.toStr = c.toStr ∧
    c.copy.definitionString = c.definitionString ∧ (c.fn = none → c.args = [] → c.copy = c) := by
  refine ⟨rfl, rfl, rfl, rfl, rfl, ?_⟩
  intro h1 h2
  cases c
  simp only at h1 h2
  subst h1 h2
  rfl

/-- C96 for lists: the copies are as many, in the same order, each the copy of the column at its place. So the names stay,
and a list of columns without functions and arguments is copied to itself. -/
theorem C96_columns_partial (cs : List Column) :
    (∀ (i : Nat), (copyColumns cs)[i]? = (cs[i]?).map (·.copy)) ∧ (copyColumns cs).map (·.name) = cs.map (·.name) ∧
    ((∀ c, c ∈ cs → c.fn = none ∧ c.args = []) → copyColumns cs = cs) := by
  refine ⟨fun i => by simp [copyColumns], by simp [copyColumns, Function.comp_def, (C96_copy_partial _).1], fun h => ?_⟩
  unfold copyColumns
  conv => rhs; rw [← List.map_id cs]
  exact List.map_congr_left fun c hc => (C96_copy_partial c).2.2.2.2.2 (h c hc).1 (h c hc).2

/-- C96, negation: the copy of a column with a function has none; the assignment `a = b + 1` is copied to one
that prints as `a = `. -/
theorem C96_fails :
    (∀ c : Column, c.fn.isSome → c.copy ≠ c ∧ c.copy.fn = none) ∧
    ∃ c : Column, c.setString = s%"a = b + 1" ∧ c.copy.setString = s%"a = " := by
  constructor
  · intro c h
    refine ⟨fun e => ?_, rfl⟩
    rw [← e] at h
    cases h
  · exact ⟨{ name := s%"a", fn := some (Function.named s%"+" [s%"b", s%"1"]), args := [s%"b", s%"1"] }, by decide⟩

example : ({ name := s%"a", lit := some { v := .i64 1 } } : Column).fn = none ∧
    ({ name := s%"a", fn := some (Function.named s%"+" []) } : Column).fn.isSome := by decide

/-! ### C98 -/

section
open Verif.Fn
variable {V F : Type}

/-- Some argument list of at least two names is followed by another argument list. -/
def ArgsAgain (os : List AggrOpt) : Prop :=
  ∃ pre as mid as' post, os = pre ++ .args as :: mid ++ .args as' :: post ∧ 2 ≤ as.length ∧ ∀ x, .args x ∉ mid

theorem applyOpts_ok (os : List AggrOpt) (a : Aggr V F) :
    (a.applyOpts os).2 = false ↔ (.other ∈ os ∨ ArgsAgain os ∨
      (2 ≤ a.args.length ∧ ∃ x, .args x ∈ os)) := by
  induction os generalizing a with
  | nil =>
    simp only [Aggr.applyOpts, Bool.true_eq_false, List.not_mem_nil, false_or, false_iff]
    rintro (⟨pre, as, mid, as', post, h, _⟩ | ⟨_, x, h⟩)
    · simp at h
    · exact h
  | cons o os ih =>
    have same : ∀ a' : Aggr V F, a'.args = a.args → (∀ x, o ≠ .args x) → o ≠ .other →
        ((a'.applyOpts os).2 = false ↔ (.other ∈ o :: os ∨ ArgsAgain (o :: os) ∨
          (2 ≤ a.args.length ∧ ∃ x, .args x ∈ o :: os))) := by
      intro a' ha ho hoo
      rw [ih, ha]
      have h1 : AggrOpt.other ∈ o :: os ↔ AggrOpt.other ∈ os := by
        simp only [List.mem_cons]; constructor
        · rintro (h | h)
          · exact absurd h.symm hoo
          · exact h
        · exact .inr
      have h2 : (∃ x, AggrOpt.args x ∈ o :: os) ↔ ∃ x, AggrOpt.args x ∈ os := by
        constructor
        · rintro ⟨x, h⟩
          rcases List.mem_cons.mp h with h | h
          · exact absurd h.symm (ho x)
          · exact ⟨x, h⟩
        · rintro ⟨x, h⟩; exact ⟨x, List.mem_cons_of_mem _ h⟩
      have h3 : ArgsAgain (o :: os) ↔ ArgsAgain os := by
        constructor
        · rintro ⟨pre, as, mid, as', post, h, h'⟩
          cases pre with
          | nil => simp at h; exact absurd h.1 (ho as)
          | cons p pre => simp at h; exact ⟨pre, as, mid, as', post, by simp [h.2], h'⟩
        · rintro ⟨pre, as, mid, as', post, h, h'⟩
          exact ⟨o :: pre, as, mid, as', post, by simp [h], h'⟩
      rw [h1, h2, h3]
    unfold Aggr.applyOpts
    cases o with
    | name n => exact same _ rfl (by simp) (by simp)
    | groupBys gs => exact same _ rfl (by simp) (by simp)
    | groupList gs => exact same _ rfl (by simp) (by simp)
    | group g => exact same _ rfl (by simp) (by simp)
    | other => simp [Aggr.applyOpt]
    | args as =>
      by_cases h : 1 < a.args.length
      · have e : a.applyOpt (.args as) = (a, false) := by simp [Aggr.applyOpt, h]
        rw [e]
        simp only [Bool.false_eq_true, if_false, true_iff]
        exact .inr (.inr ⟨h, as, by simp⟩)
      · have e : a.applyOpt (.args as) = ({ a with args := as }, true) := by simp [Aggr.applyOpt, h]
        rw [e]
        simp only [if_true]
        rw [ih]
        simp only
        have key : (ArgsAgain os ∨ (2 ≤ as.length ∧ ∃ x, AggrOpt.args x ∈ os)) ↔
            (ArgsAgain (.args as :: os) ∨ (2 ≤ a.args.length ∧ ∃ x, AggrOpt.args x ∈ AggrOpt.args as :: os)) := by
          constructor
          · rintro (⟨pre, bs, mid, as', post, e, e'⟩ | ⟨h2, x, hx⟩)
            · exact .inl ⟨.args as :: pre, bs, mid, as', post, by simp [e], e'⟩
            · -- the first argument list after this one
              obtain ⟨mid, y, post, e, hm⟩ : ∃ mid y post, os = mid ++ AggrOpt.args y :: post ∧ ∀ x, AggrOpt.args x ∉ mid := by
                clear ih h2 same
                induction os with
                | nil => cases hx
                | cons o os ih =>
                  by_cases ho : ∃ y, o = .args y
                  · obtain ⟨y, rfl⟩ := ho
                    exact ⟨[], y, os, rfl, by simp⟩
                  · rcases List.mem_cons.mp hx with hx | hx
                    · exact absurd ⟨x, hx.symm⟩ ho
                    · obtain ⟨mid, y, post, e, hm⟩ := ih hx
                      refine ⟨o :: mid, y, post, by simp [e], ?_⟩
                      intro z hz
                      rcases List.mem_cons.mp hz with hz | hz
                      · exact ho ⟨z, hz.symm⟩
                      · exact hm z hz
              exact .inl ⟨[], as, mid, y, post, by simp [e], h2, hm⟩
          · rintro (⟨pre, bs, mid, as', post, e, e', e''⟩ | ⟨h2, _⟩)
            · cases pre with
              | nil =>
                simp at e
                obtain ⟨rfl, rfl⟩ := e
                exact .inr ⟨e', as', by simp⟩
              | cons p pre => simp at e; exact .inl ⟨pre, bs, mid, as', post, by simp [e.2], e', e''⟩
            · exact absurd h2 (by omega)
        rw [key]
        simp

/-- C98: setting an aggregator's options fails exactly for an option of another kind, or when an argument list is
given after one with two or more arguments. Missing: a list of several arguments is itself accepted, see
`C98_fails`. -/
theorem C98_options_partial (k : AggrId) (os : List AggrOpt) :
    (({ kind := k } : Aggr V F).applyOpts os).2 = false ↔ (.other ∈ os ∨ ArgsAgain os) := by
  rw [applyOpts_ok]; simp

/-- C98, negation: an aggregator of two arguments is created without an error, for every aggregate function. -/
theorem C98_fails (E : Env V F) (k : AggrId) (x y : Str) :
    ∃ a, newAggr E k [.args [x, y]] = some a ∧ a.args = [x, y] := by
  refine ⟨_, rfl, ?_⟩
  simp [Aggr.resetCore, Aggr.applyOpts, Aggr.applyOpt]

example : ArgsAgain [.args [s%"a", s%"b"], .group s%"g", .args [s%"c"]] :=
  ⟨[], _, [.group s%"g"], _, [], rfl, by decide, by simp⟩
end

/-! ### C99 -/

section
open Verif.Bind
variable {T F V : Type}

/-- C99: the text of a parameter. A string is written between single quotes as it is; a time without a fraction
of a second in the format without fraction, otherwise in the one with, between single quotes; other values
without quotes. -/
theorem C99_text (B : BEnv T F V) :
    (∀ s, (Param.str s : Param T F V).text B = some (s%"'" ++ s ++ s%"'")) ∧
    (∀ t, B.nanos t = 0 → (Param.time t : Param T F V).text B = some (s%"'" ++ B.seconds t ++ s%"'")) ∧
    (∀ t, B.nanos t ≠ 0 → (Param.time t : Param T F V).text B = some (s%"'" ++ B.micros t ++ s%"'")) ∧
    (∀ f, (Param.float f : Param T F V).text B = some (B.float f)) ∧
    (∀ v, (Param.other v : Param T F V).text B = B.other v) := by
  refine ⟨fun s => rfl, ?_, ?_, fun _ => rfl, fun _ => rfl⟩
  · intro t h; simp [Param.text, h]
  · intro t h; simp [Param.text, h]
end

end Verif.Props
