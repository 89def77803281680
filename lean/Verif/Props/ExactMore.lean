import Verif.Props.ResultSet
import Verif.Props.System
import Verif.Props.Options
import Verif.Props.RsSchema
import Verif.Props.LostValue
import Verif.Props.Helpers
import Verif.Props.QueryMore
import Verif.Props.ExecValues
/-! Exact conditions for properties that hold in part: C45, C47, C61, C96, C97, C98, C112, C145, C165. -/
namespace Verif.Props
open Verif Verif.Fn Verif.Rs Verif.Spec Verif.Lemmas

section
variable {V F T : Type}

/-- C45, exactly: the loop of a new result set ends and visits the rows of the window if and only if the offset is not the
largest number, and the sum of offset and limit does not wrap around or the window is empty. -/
theorem C45_iff (R : REnv V F T) (rs : RSet V F T) (h0 : rs.cursor = 0) (ho : rs.offset < 2 ^ 64) (hl : rs.limit < 2 ^ 64)
    (hn : rs.rows.length < 2 ^ 63) :
    (∃ rs', Loop RSet.next (RSet.row R) rs (window rs.offset rs.limit (allRows R rs)) rs') ↔
      rs.offset + 1 < 2 ^ 64 ∧ (rs.offset + rs.limit < 2 ^ 64 ∨ window rs.offset rs.limit (allRows R rs) = []) := by
  constructor
  · rintro ⟨rs', h⟩
    have h1 : rs.offset + 1 < 2 ^ 64 := by
      rcases Nat.lt_or_ge (rs.offset + 1) (2 ^ 64) with h1 | h1
      · exact h1
      · exact absurd h (C45_diverges R rs h0 (by omega) _ _)
    refine ⟨h1, ?_⟩
    rcases Nat.lt_or_ge (rs.offset + rs.limit) (2 ^ 64) with h2 | h2
    · exact .inl h2
    · exact .inr (C45_overflow R rs h0 h1 hl h2 _ _ h)
  · rintro ⟨h1, h2⟩
    rcases Nat.lt_or_ge (rs.offset + rs.limit) (2 ^ 64) with h3 | h3
    · exact (C45_window_partial R rs h0 h1 h3 hn).1
    · have hw : window rs.offset rs.limit (allRows R rs) = [] := h2.resolve_left (by omega)
      rw [hw]
      refine ⟨rs.next.1, .stop ?_⟩
      refine Prod.ext rfl ?_
      unfold RSet.next
      have h4 : (if rs.cursor < rs.offset then rs.offset else rs.cursor) = rs.offset := by split <;> omega
      simp only [h4, uadd]
      rw [Nat.mod_eq_of_lt h1]
      have : (rs.offset + rs.limit) % 2 ^ 64 = rs.offset + rs.limit - 2 ^ 64 := by
        rw [Nat.mod_eq_sub_mod h3, Nat.mod_eq_of_lt (by omega)]
      rw [this, if_pos (by omega)]

/-- C47, exactly: for a row built from an object, position and name give the same value of a column if and only if the object
has the column; for a row built from values, if and only if there is a value at its position. -/
theorem C47_agree_iff (s : Schema V F T) (hn : (s.columns.map (·.name)).Nodup) (i : Nat) (c : Col V F T) (hc : s.columns[i]? = some c) :
    (∀ (o : GoMap Str (Option V)) (row : Row V F T), row = { object := some o, schema := some s } →
      ((∃ v, (row.valueAt i).2 = .ok v ∧ (row.valueBy c.name).2 = .ok v) ↔ (o.get? c.name).isSome = true)) ∧
    (∀ (vs : List (Option V)) (row : Row V F T), row = { values := some vs, schema := some s } →
      ((∃ v, (row.valueAt i).2 = .ok v ∧ (row.valueBy c.name).2 = .ok v) ↔ i < vs.length)) := by
  constructor
  · rintro o _ rfl
    obtain ⟨h1, h2⟩ := C47_from_object o s i c hc
    rw [h1, h2]
    cases ho : o.get? c.name with
    | none => simp
    | some v => simp [Option.join]
  · rintro vs _ rfl
    obtain ⟨h1, h2⟩ := C47_from_values vs s hn i c hc
    rw [h1, h2]
    cases hv : vs[i]? with
    | none =>
      have := List.getElem?_eq_none_iff.mp hv
      simp; omega
    | some v =>
      have := (List.getElem?_eq_some_iff.mp hv).1
      simp [Option.join, this]

end

section
open Verif.Query

/-- C96, exactly: the copy of a column is the column if and only if it has neither a function nor arguments. -/
theorem C96_copy_iff (c : Column) : c.copy = c ↔ c.fn = none ∧ c.args = [] := by
  constructor
  · intro h
    exact ⟨by rw [← h]; rfl, by rw [← h]; rfl⟩
  · rintro ⟨h1, h2⟩
    exact (C96_copy_partial c).2.2.2.2.2 h1 h2

/-- C96, exactly, for lists: the copies are the columns if and only if no column has a function or arguments. -/
theorem C96_columns_iff (cs : List Column) : copyColumns cs = cs ↔ ∀ c ∈ cs, c.fn = none ∧ c.args = [] := by
  constructor
  · intro h c hc
    obtain ⟨i, hi⟩ := List.mem_iff_getElem?.mp hc
    have := (C96_columns_partial cs).1 i
    rw [h, hi, Option.map_some, Option.some.injEq] at this
    exact (C96_copy_iff c).mp this.symm
  · exact (C96_columns_partial cs).2.2

end

section
open Verif.Query Verif.Lex Verif.Gram Verif.Parse
variable {sp : Spelling}

/-- C112 for UPDATE, exactly: asking a reported column for its value panics if and only if the value assigned is not a
literal. For every UPDATE, in every spelling and layout. -/
theorem C112_update_iff (toUint : Str → Option Nat) (hg : sp.Good) (q : Str) (u : ChangeS) (n : Nat)
    (h : Writes q (u.toks sp ++ List.replicate n (kw sp .SCOL))) : ∃ v : Update, parseQuery toUint q = .ok [.update v] ∧
      v.columns.length = (u.asg :: u.asgs).length ∧
      ∀ (j : Nat) (a : AssignS), (u.asg :: u.asgs)[j]? = some a → ∃ c, v.columns[j]? = some c ∧ c.name = a.col ∧
        (c.value = .panic ↔ ∀ l, a.val ≠ .lit l) := by
  obtain ⟨v, h1, h2, h3⟩ := C132_reported_iff toUint hg q u n h
  refine ⟨v, h1, h2, fun j a ha => ?_⟩
  obtain ⟨c, c1, c2, c3, _⟩ := h3 j a ha
  refine ⟨c, c1, c2, ?_⟩
  rw [(C112_accessors c).2.2.1]
  have : c.hasValue = c.lit.isSome := rfl
  rw [this]
  constructor
  · intro hc l hl
    rw [c3.mpr ⟨l, hl⟩] at hc
    cases hc
  · intro hx
    cases hs : c.lit.isSome with
    | false => rfl
    | true =>
      obtain ⟨l, hl⟩ := c3.mp hs
      exact absurd hl (hx l)

end

section
variable {V F T : Type}

/-- C98 is false of the code for every list of arguments: an aggregator is created of all of them, unless there is none. -/
theorem C98_any_fails (E : Env V F) (k : AggrId) (l : List Str) :
    (l ≠ [] → ∃ a, newAggr E k [.args l] = some a ∧ a.args = l) ∧ newAggr E k [.args []] = none := by
  constructor
  · intro hl
    cases l with
    | nil => exact absurd rfl hl
    | cons x l =>
      refine ⟨_, rfl, ?_⟩
      simp [Aggr.resetCore, Aggr.applyOpts, Aggr.applyOpt]
  · rfl

/-- C97 is false of the code for every other spelling of every documented function: the name is registered and its executor
or aggregator is found, but it has no type. -/
theorem C97_spelling_fails (f n : Str) (t : FnType) (hf : (f, t) ∈ documented) (hs : SameName n f) (hne : n ≠ f) :
    isRegisteredFunction n = true ∧ newExecutorForName n = newExecutorForName f ∧ newAggregatorForName n = newAggregatorForName f ∧
    newFunctionTypeForName n = none := by
  have hu : Str.upper n = Str.upper f := (Str.eqFold_iff n f).mp ((sameName_iff n f).mpr hs)
  have hup : ∀ e ∈ documented, Str.upper e.1 = e.1 := by decide
  have hlen : n.length = f.length := by
    have := congrArg List.length hs
    simpa using this
  refine ⟨?_, ?_, ?_, ?_⟩
  · have := ((C97_known f).1 t hf).1
    unfold isRegisteredFunction at this ⊢
    rw [hu, hlen]
    exact this
  · unfold newExecutorForName; rw [hu]
  · unfold newAggregatorForName; rw [hu]
  · cases ht : newFunctionTypeForName n with
    | none => rfl
    | some t' =>
      have h1 := hup _ ((C97_known n).2 t' ht)
      have h2 := hup _ hf
      simp only at h1 h2
      exact absurd (by rw [← h1, hu, h2]) hne

/-- C145, up to the order of the columns: whatever order Go yields the keys of an object in, the schema is refused or made
all the same, with the same columns up to their order; it is the same schema if and only if names and types come in the
same order. -/
theorem C145_order_iff (o o' : List (Str × Query.GoKind)) (hp : o.Perm o') :
    (newSchemaFrom [.rowObject o] = .err ↔ newSchemaFrom [.rowObject o'] = .err) ∧
    ∀ r, newSchemaFrom [.rowObject o] = .ok r → ∃ r', newSchemaFrom [.rowObject o'] = .ok r' ∧ r.columns.Perm r'.columns ∧
      r'.database = r.database ∧ r'.table = r.table ∧ r'.base = r.base ∧
      (r' = r ↔ o.map (fun e => (e.1, Query.newDataTypeForValue e.2)) = o'.map (fun e => (e.1, Query.newDataTypeForValue e.2))) := by
  have hcols : ∀ (l : List (Str × Query.GoKind)) (cols : List AnyCol),
      Pairwise2 (fun (e : Str × Query.GoKind) c => ∃ t, Query.newDataTypeForValue e.2 = some t ∧ c = AnyCol.own { name := e.1, typ := t }) l cols ↔
      (∀ e ∈ l, Query.newDataTypeForValue e.2 ≠ none) ∧
        cols.map some = l.map (fun e => (Query.newDataTypeForValue e.2).map (fun t => AnyCol.own { name := e.1, typ := t })) := by
    intro l
    induction l with
    | nil =>
      intro cols
      constructor
      · intro h; cases h; exact ⟨by simp, rfl⟩
      · rintro ⟨_, h⟩
        cases cols with
        | nil => exact .nil
        | cons c cols => simp at h
    | cons e l ih =>
      intro cols
      constructor
      · intro h
        cases h with
        | cons h1 h2 =>
          obtain ⟨t, ht, rfl⟩ := h1
          obtain ⟨i1, i2⟩ := (ih _).mp h2
          refine ⟨?_, by simp [ht, i2]⟩
          intro e' he'
          rcases List.mem_cons.mp he' with rfl | he'
          · rw [ht]; simp
          · exact i1 e' he'
      · rintro ⟨h1, h2⟩
        cases cols with
        | nil => simp at h2
        | cons c cols =>
          simp only [List.map_cons, List.cons.injEq] at h2
          refine .cons ?_ ((ih cols).mpr ⟨fun e' he' => h1 e' (List.mem_cons_of_mem _ he'), h2.2⟩)
          cases ht : Query.newDataTypeForValue e.2 with
          | none => exact absurd ht (h1 e List.mem_cons_self)
          | some t =>
            rw [ht] at h2
            exact ⟨t, rfl, by simpa using h2.1⟩
  refine ⟨?_, ?_⟩
  · rw [(C145_object_partial o).2, (C145_object_partial o').2]
    constructor
    · rintro ⟨e, he, h⟩; exact ⟨e, hp.mem_iff.mp he, h⟩
    · rintro ⟨e, he, h⟩; exact ⟨e, hp.mem_iff.mpr he, h⟩
  · intro r hr
    obtain ⟨r1, r2, r3, r4⟩ := ((C145_object_partial o).1 r).mp hr
    obtain ⟨c1, c2⟩ := (hcols o r.columns).mp r4
    let h : Str × Query.GoKind → Option AnyCol := fun e => (Query.newDataTypeForValue e.2).map (fun t => AnyCol.own { name := e.1, typ := t })
    have hfm : ∀ l : List (Str × Query.GoKind), (∀ e ∈ l, Query.newDataTypeForValue e.2 ≠ none) → (l.filterMap h).map some = l.map h := by
      intro l
      induction l with
      | nil => intro _; rfl
      | cons e l ih =>
        intro hl
        cases ht : Query.newDataTypeForValue e.2 with
        | none => exact absurd ht (hl e List.mem_cons_self)
        | some t =>
          have he : h e = some (AnyCol.own { name := e.1, typ := t }) := by simp only [h, ht, Option.map_some]
          rw [List.filterMap_cons, he]
          simp only [List.map_cons, he]
          rw [ih fun e' he' => hl e' (List.mem_cons_of_mem _ he')]
    have c1' : ∀ e ∈ o', Query.newDataTypeForValue e.2 ≠ none := fun e he => c1 e (hp.mem_iff.mpr he)
    have hr' : r.columns = o.filterMap h := by
      have : r.columns.map some = (o.filterMap h).map some := by rw [hfm o c1]; exact c2
      exact (List.map_inj_right (fun _ _ e => Option.some.inj e)).mp this
    refine ⟨{ columns := o'.filterMap h }, ((C145_object_partial o').1 _).mpr ⟨rfl, rfl, rfl, (hcols o' _).mpr ⟨c1', hfm o' c1'⟩⟩,
      by rw [hr']; exact hp.filterMap h, r1.symm, r2.symm, r3.symm, ?_⟩
    let inv : Option AnyCol → Str × Option Query.DataType
      | some (.own c) => (c.name, some c.typ)
      | _ => ([], none)
    have hinv : ∀ l : List (Str × Query.GoKind), (∀ e ∈ l, Query.newDataTypeForValue e.2 ≠ none) →
        l.map (fun e => (e.1, Query.newDataTypeForValue e.2)) = (l.map h).map inv := by
      intro l hl
      rw [List.map_map]
      apply List.map_congr_left
      intro e he
      cases ht : Query.newDataTypeForValue e.2 with
      | none => exact absurd ht (hl e he)
      | some t => simp only [Function.comp, h, ht, Option.map_some, inv]
    have hto : ∀ l : List (Str × Query.GoKind), l.map h = (l.map (fun e => (e.1, Query.newDataTypeForValue e.2))).map
        (fun k => k.2.map (fun t => AnyCol.own { name := k.1, typ := t })) := fun l => by rw [List.map_map]; rfl
    constructor
    · intro e
      have e' : o'.filterMap h = o.filterMap h := by rw [← hr', ← e]
      rw [hinv o c1, hinv o' c1', ← hfm o c1, ← hfm o' c1', e']
    · intro e
      have e' : (o'.filterMap h).map some = (o.filterMap h).map some := by rw [hfm o c1, hfm o' c1', hto o, hto o', e]
      have e'' := (List.map_inj_right (fun _ _ e => Option.some.inj e)).mp e'
      cases r
      simp only at r1 r2 r3 hr'
      subst r1 r2 r3 hr'
      rw [e'']

/-- C61, the table name, exactly: the rows name the tables that their columns belong to if and only if every table that has
columns is itself named COLUMNS. -/
theorem C61_names_iff (R : REnv V F T) (hinj : ∀ a b, R.X.ofText a = R.X.ofText b → a = b) (schemas : List Query.Schema)
    (hd : ∀ s ∈ schemas, ∀ c ∈ s.columns, c.def_ ≠ none) (hn : (columnsOf schemas).length < 2 ^ 63) :
    ∃ rs : RSet V F T, Sys.fromSchemas R.X.ofText schemas = .ok rs ∧ (∃ l rs', Loop RSet.next (RSet.row R) rs l rs') ∧
      ∀ l rs', Loop RSet.next (RSet.row R) rs l rs' →
        (l.map (readRow [s%"TABLE_NAME"]) = (columnsOf schemas).map (fun p => [.ok (some (R.X.ofText p.1.table.name))]) ↔
          ∀ s ∈ schemas, s.columns ≠ [] → s.table.name = s%"COLUMNS") := by
  obtain ⟨rs, h1, h2, h3⟩ := C61_rows_partial R schemas hd hn
  refine ⟨rs, h1, h2, fun l rs' hl => ?_⟩
  have hlen : l.length = (columnsOf schemas).length := by
    have := congrArg List.length (h3 l rs' hl)
    simpa using this
  have hc : l.map (readRow [s%"TABLE_NAME"]) = List.replicate (columnsOf schemas).length [.ok (some (R.X.ofText s%"COLUMNS"))] := by
    rw [← hlen]
    refine List.eq_replicate_iff.mpr ⟨by simp, ?_⟩
    intro x hx
    obtain ⟨r, hr, rfl⟩ := List.mem_map.mp hx
    have h4 := C61_constant R schemas rs rs' l h1 hn hl r hr
    cases r with
    | ok row => simp only [readRow, List.map_cons, List.map_nil, List.cons.injEq] at h4 ⊢; exact h4.2.2
    | err => simp [readRow] at h4
    | panic => simp [readRow] at h4
  rw [hc, eq_comm, List.map_eq_replicate_iff]
  constructor
  · intro h s hs hne
    cases hcs : s.columns with
    | nil => exact absurd hcs hne
    | cons c cs =>
      have := h (s, c) (by
        unfold columnsOf
        exact List.mem_flatMap.mpr ⟨s, hs, List.mem_map.mpr ⟨c, by rw [hcs]; exact List.mem_cons_self, rfl⟩⟩)
      simp only [List.cons.injEq, Res.ok.injEq, Option.some.injEq, and_true] at this
      exact hinj _ _ this
  · intro h p hp
    unfold columnsOf at hp
    obtain ⟨s, hs, hp⟩ := List.mem_flatMap.mp hp
    obtain ⟨c, hc, rfl⟩ := List.mem_map.mp hp
    simp only
    rw [h s hs (by intro e; rw [e] at hc; cases hc)]

/-- C165 fails for every word that names no format: the COPY is made with the format of the options before it, TEXT if they
name none. -/
theorem C165_any_fails (n src w : Str) (os : List Query.CopyOption) (hw : namedFormat w = none) :
    (Query.newCopyWith n src (os ++ [.format w])).format = (Query.newCopyWith n src os).format ∧
    (Query.newCopyWith n src [.format w]).format = .text := by
  rw [(C165_options n src _).2.2.2, (C165_options n src os).2.2.2, (C165_options n src _).2.2.2]
  unfold FnState.lastGiven
  rw [List.filterMap_append]
  simp [copyFormatOf, hw]

example : (s%"SQRT", FnType.math) ∈ documented ∧ SameName s%"sqrt" s%"SQRT" ∧ s%"sqrt" ≠ s%"SQRT" := by decide
example : [(s%"a", Query.GoKind.int), (s%"b", .string)].Perm [(s%"b", .string), (s%"a", .int)] := List.Perm.swap _ _ _
example : namedFormat s%"CVS" = none := by decide
example : (rSet 1 (2 ^ 64 - 1)).cursor = 0 ∧ (rSet 1 (2 ^ 64 - 1)).offset < 2 ^ 64 ∧ (rSet 1 (2 ^ 64 - 1)).limit < 2 ^ 64 := by decide
example : (rSchema.columns.map (·.name)).Nodup ∧ rSchema.columns.length = 2 := by decide
example : ({ name := s%"a" } : Query.Column).copy = { name := s%"a" } := rfl

end

end Verif.Props
