import Verif.Lemmas.ResultSet
import Verif.Props.Exec
import Verif.Props.Aggr
/-! C45–C48: iteration of result sets, rows and projection. -/
namespace Verif.Props
open Verif Verif.Fn Verif.Rs Verif.Spec Verif.Lemmas
variable {V F T : Type}

/-- Example environment for aggregators over integers. -/
def rAggr : Env Int Int where
  zero := 0
  add := (· + ·)
  div := (· / ·)
  lt a b := decide (a < b)
  ofNat n := n
  maxFloat := 1000
  negInf := -1000
  toFloat v := if v = 99 then none else some v
  toText | none => some [] | some v => some (Str.ofInt v)
  cmp | some a, some b => some (if a < b then -1 else if b < a then 1 else 0) | _, _ => none

/-- Example environment. -/
def rEnv : REnv Int Int Unit := ⟨rAggr, xEnv, id, id, fun _ => 0⟩

/-- Example schema with columns a and b. -/
def rSchema : Schema Int Int Unit := { columns := [{ name := s%"a" }, { name := s%"b" }] }

/-- Example row with a given value of column a and nothing else. -/
def rRow (v : Int) : Row Int Int Unit := { object := some [(s%"a", some v)] }

/-- Example result set of three rows. -/
def rSet (offset limit : Nat) : RSet Int Int Unit :=
  { schema := some rSchema, rows := [rRow 1, rRow 2, rRow 3], offset := offset, limit := limit }

/-! ### C45 -/

/-- The rows `Row` would return at each position, in order. -/
def allRows (R : REnv V F T) (rs : RSet V F T) : List (Res (Row V F T)) :=
  rs.rows.map (fun row => newRowFromObject R rs.schema row.getObject.2)

/-- C45 where no unsigned sum wraps around: a new result set's `for Next { Row }` loop ends, and the rows it
visits are exactly the window: those after the first `offset`, at most `limit` of them, all if the limit is
zero, in order. Missing from the full statement: offset + limit of 2^64 or more, see `C45_fails` and
`C45_overflow`, `C45_diverges`. -/
theorem C45_window_partial (R : REnv V F T) (rs : RSet V F T) (h0 : rs.cursor = 0)
    (ho : rs.offset + 1 < 2 ^ 64) (hl : rs.offset + rs.limit < 2 ^ 64) (hn : rs.rows.length < 2 ^ 63) :
    (∃ rs', Loop RSet.next (RSet.row R) rs (window rs.offset rs.limit (allRows R rs)) rs') ∧
    (∀ l rs', Loop RSet.next (RSet.row R) rs l rs' → l = window rs.offset rs.limit (allRows R rs)) := by
  obtain ⟨rs', hl', _⟩ := loop_exists R _ rs ⟨ho, hl, by omega⟩ (by omega) rfl
  rw [h0, Nat.zero_max, window_eq rs (proj R rs) (by simp [proj])] at hl'
  exact ⟨⟨rs', hl'⟩, fun l rs'' h => (loop_det h hl').1⟩

/-- C45 after the loop: the same loop once more visits nothing (with the loop's calls below 2^63). -/
theorem C45_exhausted (R : REnv V F T) (rs rs' : RSet V F T) (l : List (Res (Row V F T))) (h0 : rs.cursor = 0)
    (ho : rs.offset + 1 < 2 ^ 63) (hl : rs.offset + rs.limit < 2 ^ 64) (hn : rs.rows.length < 2 ^ 63)
    (h : Loop RSet.next (RSet.row R) rs l rs') : ∃ rs'', Loop RSet.next (RSet.row R) rs' [] rs'' := by
  obtain ⟨r1, hl1, c1, c2, c3, c4, c5⟩ := loop_exists R _ rs ⟨by omega, hl, by omega⟩ (by omega) rfl
  have := (loop_det h hl1).2; subst this
  have hle : wend rs ≤ rs.rows.length := by unfold wend; split <;> omega
  have hwe : wend rs' = wend rs := by simp only [wend, c2, c3, c4]
  obtain ⟨r2, hl2, _⟩ := loop_exists R 0 rs' ⟨by omega, by omega, by omega⟩ (by omega) (by omega)
  rw [List.drop_eq_nil_of_le (by rw [List.length_take]; omega)] at hl2
  exact ⟨r2, hl2⟩

/-- C45, when offset + limit wraps around (limit not zero): no row at all is visited. -/
theorem C45_overflow (R : REnv V F T) (rs : RSet V F T) (h0 : rs.cursor = 0) (ho : rs.offset + 1 < 2 ^ 64)
    (hl : rs.limit < 2 ^ 64) (hw : 2 ^ 64 ≤ rs.offset + rs.limit) (l : List (Res (Row V F T))) (rs' : RSet V F T)
    (h : Loop RSet.next (RSet.row R) rs l rs') : l = [] := by
  have hne : rs.next = ({ rs with cursor := rs.offset + 1 }, false) := by
    unfold RSet.next
    have h1 : (if rs.cursor < rs.offset then rs.offset else rs.cursor) = rs.offset := by split <;> omega
    simp only [h1, uadd]
    rw [Nat.mod_eq_of_lt ho]
    have : (rs.offset + rs.limit) % 2 ^ 64 = rs.offset + rs.limit - 2 ^ 64 := by
      rw [Nat.mod_eq_sub_mod hw, Nat.mod_eq_of_lt (by omega)]
    rw [this, if_pos (by omega)]
  cases h with
  | stop h => rfl
  | turn h _ _ => rw [hne] at h; cases h

/-- C45, with the largest offset: the loop never ends (each `Next` returns true and wraps the cursor to zero,
where `Row` reports an error). -/
theorem C45_diverges (R : REnv V F T) (rs : RSet V F T) (h0 : rs.cursor = 0) (ho : rs.offset + 1 = 2 ^ 64)
    (l : List (Res (Row V F T))) (rs' : RSet V F T) : ¬ Loop RSet.next (RSet.row R) rs l rs' := by
  intro h
  have key : ∀ s : RSet V F T, s.cursor = 0 → s.offset + 1 = 2 ^ 64 →
      s.next = (s, true) ∧ s.row R = (s, .err) := by
    intro s h0 ho
    constructor
    · unfold RSet.next
      rw [if_pos (by omega)]
      simp only [uadd, ho, Nat.mod_self, Nat.not_lt_zero, and_false, if_false, Nat.zero_le, decide_true]
      cases s; simp_all
    · unfold RSet.row; rw [if_pos (Or.inl h0)]
  induction h with
  | stop hs => rw [(key _ h0 ho).1] at hs; cases hs
  | turn hs hr _ ih =>
    rw [(key _ h0 ho).1] at hs; cases hs
    rw [(key _ h0 ho).2] at hr; cases hr
    exact ih h0 ho

/-- C45, negation: with offset 1 and the largest limit the loop visits nothing, although the window has two
rows. -/
theorem C45_fails : ∃ rs : RSet Int Int Unit, rs.cursor = 0 ∧ rs.offset = 1 ∧ rs.limit = 2 ^ 64 - 1 ∧
    (∃ rs', Loop RSet.next (RSet.row rEnv) rs [] rs') ∧ (window rs.offset rs.limit (allRows rEnv rs)).length = 2 := by
  refine ⟨rSet 1 (2 ^ 64 - 1), rfl, rfl, rfl, ⟨(rSet 1 (2 ^ 64 - 1)).next.1, .stop ?_⟩, by decide⟩
  exact Prod.ext rfl (by decide)

example : (rSet 1 1).cursor = 0 ∧ (rSet 1 1).offset + 1 < 2 ^ 64 ∧ (rSet 1 1).offset + (rSet 1 1).limit < 2 ^ 64 ∧
    (rSet 1 1).rows.length < 2 ^ 63 ∧ (window 1 1 (allRows rEnv (rSet 1 1))).length = 1 := by decide
example : (rSet (2 ^ 64 - 1) 0).cursor = 0 ∧ (rSet (2 ^ 64 - 1) 0).offset + 1 = 2 ^ 64 := by decide
example : (rSet 5 (2 ^ 64 - 2)).offset + 1 < 2 ^ 64 ∧ 2 ^ 64 ≤ (rSet 5 (2 ^ 64 - 2)).offset + (rSet 5 (2 ^ 64 - 2)).limit := by decide

/-! ### C46 -/

/-- C46 (before the first Next): `Row` returns an error and changes nothing. -/
theorem C46_before_next (R : REnv V F T) (rs : RSet V F T) (h0 : rs.cursor = 0) : rs.row R = (rs, .err) := by
  unfold RSet.row; rw [if_pos (Or.inl h0)]

/-- C46 (after Next returned false), exactly: `Row` finds no row if and only if the cursor has not stopped
inside the rows because of the limit. -/
theorem C46_after_false_iff (R : REnv V F T) (rs rs' : RSet V F T) (hw : rs.offset + rs.limit < 2 ^ 64)
    (h : rs.next = (rs', false)) :
    rs'.row R = (rs', .err) ∨ (∃ row, rs.rows[rs'.cursor - 1]? = some row ∧
      (rs'.row R).2 = newRowFromObject R rs.schema row.getObject.2 ∧ 0 < rs.limit ∧
      rs.offset + rs.limit < rs'.cursor ∧ rs'.cursor ≤ rs.rows.length) := by
  unfold RSet.next at h
  simp only [Prod.mk.injEq] at h
  obtain ⟨h1, h2⟩ := h
  subst h1
  rw [uadd, Nat.mod_eq_of_lt hw] at h2
  unfold RSet.row
  simp only []
  generalize hc : uadd (if rs.cursor < rs.offset then rs.offset else rs.cursor) 1 = c at *
  by_cases hx : c = 0 ∨ rs.rows.length < c
  · left; rw [if_pos hx]
  · right
    rw [if_neg hx]
    have hi : c - 1 < rs.rows.length := by omega
    refine ⟨rs.rows[c - 1], List.getElem?_eq_getElem hi, ?_, ?_⟩
    · rw [List.getElem?_eq_getElem hi]
    · by_cases hl : 0 < rs.limit ∧ rs.offset + rs.limit < c
      · exact ⟨hl.1, hl.2, by omega⟩
      · rw [if_neg hl] at h2
        have := of_decide_eq_false h2
        omega

/-- C46 without a limit: after `Next` has returned false, `Row` returns an error. Missing: result sets stopped
by their limit, see `C46_fails`. -/
theorem C46_no_limit_partial (R : REnv V F T) (rs rs' : RSet V F T) (hl : rs.limit = 0) (h : rs.next = (rs', false)) :
    rs'.row R = (rs', .err) := by
  unfold RSet.next at h
  simp only [Prod.mk.injEq, hl, Nat.lt_irrefl, false_and, if_false] at h
  obtain ⟨h1, h2⟩ := h
  have := of_decide_eq_false h2
  unfold RSet.row
  rw [if_pos (Or.inr _)]
  rw [← h1]; simp only []; omega

/-- C46, negation: three rows with limit 1; Next returns true, then false, and Row still returns a row. -/
theorem C46_fails : ∃ (rs rs1 rs2 : RSet Int Int Unit) (row : Row Int Int Unit), rs.cursor = 0 ∧
    rs.next = (rs1, true) ∧ rs1.next = (rs2, false) ∧ (rs2.row rEnv).2 = .ok row ∧
    (row.valueBy s%"a").2 = .ok (some 2) :=
  ⟨rSet 0 1, (rSet 0 1).next.1, (rSet 0 1).next.1.next.1,
    { schema := some rSchema, object := some [(s%"a", some 2), (s%"b", none)] }, rfl, rfl, rfl, rfl, rfl⟩

example : (rSet 0 0).limit = 0 := rfl
example : (rSet 2 0).next.1.next.2 = false := rfl

/-! ### C47 -/

/-- C47: reads never change later reads. For every row, however built, and every sequence of calls, each call
returns what it would return on the row as built. -/
theorem C47_stable (row : Row V F T) (cs : List RowRead) :
    (rowReads row cs).2 = cs.map (fun c => (rowRead row c).2) := rowReads_eq row cs

/-- C47 for rows built from an object: the value at a column's position is the object's value of that name,
nil when the object has none; the value by name is the same, except that it is an error when the object has
none. -/
theorem C47_from_object (o : GoMap Str (Option V)) (s : Schema V F T) (i : Nat) (c : Col V F T) (hc : s.columns[i]? = some c) :
    let row : Row V F T := { object := some o, schema := some s }
    (row.valueAt i).2 = .ok (o.get? c.name).join ∧
    (row.valueBy c.name).2 = (match o.get? c.name with | some v => .ok v | none => .err) := by
  refine ⟨?_, rfl⟩
  rw [valueAt_nat, values_of_object _ o rfl rfl]
  simp only [Row.namesForObject, List.getElem?_map, hc, Option.map_some, valueOf]
  cases o.get? c.name <;> rfl

/-- C47 for rows built from values, with distinct column names: the value by a column's name is the value at
its position, nil when there are too few values; the value by position is the same, except that it is an error
when there are too few values. -/
theorem C47_from_values (vs : List (Option V)) (s : Schema V F T) (hn : (s.columns.map (·.name)).Nodup)
    (i : Nat) (c : Col V F T) (hc : s.columns[i]? = some c) :
    let row : Row V F T := { values := some vs, schema := some s }
    (row.valueBy c.name).2 = .ok (vs[i]?).join ∧
    (row.valueAt i).2 = (match vs[i]? with | some v => .ok v | none => .err) := by
  constructor
  · have : (s.columns.map (·.name))[i]? = some c.name := by rw [List.getElem?_map, hc]; rfl
    show (match (objectOf (s.columns.map (·.name)) vs).get? c.name with
      | some v => (Res.ok v : Res (Option V))
      | none => .err) = _
    rw [objectOf_get _ hn vs i c.name this]
  · rw [valueAt_nat]; rfl

/-- C47 as far as it holds: position and name give the same value for a row built from an object holding every
column, or from at least as many values as columns. Missing: rows lacking a column, see `C47_fails`. -/
theorem C47_agree_partial (s : Schema V F T) (hn : (s.columns.map (·.name)).Nodup) (row : Row V F T)
    (hs : row.schema = some s)
    (hb : (∃ o, row.object = some o ∧ row.values = none ∧ ∀ c ∈ s.columns, (o.get? c.name).isSome = true) ∨
      (∃ vs, row.object = none ∧ row.values = some vs ∧ s.columns.length ≤ vs.length))
    (i : Nat) (c : Col V F T) (hc : s.columns[i]? = some c) :
    ∃ v, (row.valueAt i).2 = .ok v ∧ (row.valueBy c.name).2 = .ok v := by
  obtain ⟨ro, rsch, rv⟩ := row
  simp only at hs hb
  subst hs
  rcases hb with ⟨o, rfl, rfl, h⟩ | ⟨vs, rfl, rfl, h⟩
  · obtain ⟨h1, h2⟩ := C47_from_object o s i c hc
    obtain ⟨v, hv⟩ := Option.isSome_iff_exists.mp (h c (List.mem_of_getElem? hc))
    rw [hv] at h1 h2
    exact ⟨v, h1, h2⟩
  · obtain ⟨h1, h2⟩ := C47_from_values vs s hn i c hc
    have hi := (List.getElem?_eq_some_iff.mp hc).1
    rw [List.getElem?_eq_getElem (by omega)] at h1 h2
    exact ⟨_, h2, h1⟩

/-- C47, negation: a row built from an object without column b has nil at b's position but an error by its
name; a row built from one value has nil by b's name but an error at its position. -/
theorem C47_fails :
    (let row : Row Int Int Unit := { object := some [(s%"a", some 1)], schema := some rSchema }
     (row.valueAt 1).2 = .ok none ∧ (row.valueBy s%"b").2 = .err) ∧
    (let row : Row Int Int Unit := { values := some [some 1], schema := some rSchema }
     (row.valueAt 1).2 = .err ∧ (row.valueBy s%"b").2 = .ok none) := by
  refine ⟨⟨rfl, rfl⟩, rfl, rfl⟩

/-- C47 for the rows a result set hands out: position and name always agree, because the row holds a value
for every column. -/
theorem C47_result_rows (R : REnv V F T) (s : Schema V F T) (obj : GoMap Str (Option V)) (row : Row V F T)
    (hcons : ∀ c ∈ s.columns, ∀ d ∈ s.columns, c.name = d.name → c.fn = d.fn)
    (h : newRowFromObject R (some s) obj = .ok row) (i : Nat) (c : Col V F T) (hc : s.columns[i]? = some c) :
    ∃ v, (row.valueAt i).2 = .ok v ∧ (row.valueBy c.name).2 = .ok v := by
  obtain ⟨m, hp, rfl⟩ := (newRow_ok_iff R s obj row).mp h
  · obtain ⟨v, _, hg⟩ := (projectAll_ok R obj s.columns [] m hp
      (fun a ha b hb hab => by simp only [colValue, hcons a ha b hb hab, hab])).1 c (List.mem_of_getElem? hc)
    obtain ⟨h1, h2⟩ := C47_from_object m s i c hc
    rw [hg] at h1 h2
    exact ⟨v, h1, h2⟩

example : (rSchema.columns.map (·.name)).Nodup ∧ rSchema.columns[1]?.map (·.name) = some s%"b" := by decide
example : ∀ c ∈ rSchema.columns, ∀ d ∈ rSchema.columns, c.name = d.name → c.fn = d.fn := by
  intro c hc d hd h
  simp only [rSchema, List.mem_cons, List.not_mem_nil, or_false] at hc hd
  rcases hc with rfl | rfl <;> rcases hd with rfl | rfl <;> rfl

/-! ### C48 -/

/-- How the projection executes a function: `none` when the function has no executor. -/
def executeOn (R : REnv V F T) (f : Func V F T) : Option (GoMap Str (Option V) → Res (Option V)) :=
  match (f.getExecutor R.X []).2 with
  | none => none
  | some ex => some (fun obj => match ex.execute R.X (.map obj) with
    | .ok x => .ok (R.boxX x)
    | .err => .err
    | .panic => .panic)

theorem executeOn_eq (R : REnv V F T) : executeOn R = execOf R := rfl

/-- C48: a row built from an object with a selector list has one value per selector, in selector order, each
the value the selector contributes; selectors of the same name are taken to be the same selector. -/
theorem C48_values (R : REnv V F T) (s : Schema V F T) (obj : GoMap Str (Option V)) (hn : obj.keys.Nodup) (row : Row V F T)
    (hcons : ∀ c ∈ s.columns, ∀ d ∈ s.columns, c.name = d.name → c.fn = d.fn)
    (h : newRowFromObject R (some s) obj = .ok row) :
    (row.getValues.2).length = s.columns.length ∧
    ∀ (i : Nat) (c : Col V F T), s.columns[i]? = some c →
      ∃ v, (row.getValues.2)[i]? = some v ∧ Projects (executeOn R) obj c v := by
  obtain ⟨m, hp, rfl⟩ := (newRow_ok_iff R s obj row).mp h
  · have hv := values_of_object ({ schema := some s, object := some m } : Row V F T) m rfl rfl
    rw [hv]
    refine ⟨by simp [Row.namesForObject], ?_⟩
    intro i c hc
    obtain ⟨v, hcv, hg⟩ := (projectAll_ok R obj s.columns [] m hp
      (fun a ha b hb hab => by simp only [colValue, hcons a ha b hb hab, hab])).1 c (List.mem_of_getElem? hc)
    refine ⟨v, ?_, ?_⟩
    · simp only [Row.namesForObject, List.getElem?_map, hc, Option.map_some, valueOf, hg]
    · rw [executeOn_eq]; exact (colValue_iff R obj hn c v).mp hcv

/-- C48: the row is built exactly when every selector has a value (only the execution of a function can
fail). -/
theorem C48_built_iff (R : REnv V F T) (s : Schema V F T) (obj : GoMap Str (Option V)) (hn : obj.keys.Nodup) :
    (∃ row, newRowFromObject R (some s) obj = .ok row) ↔ ∀ c ∈ s.columns, ∃ v, Projects (executeOn R) obj c v := by
  have : (∃ row, newRowFromObject R (some s) obj = .ok row) ↔ ∃ m, projectAll R obj [] s.columns = .ok m := by
    simp only [newRow_ok_iff]
    exact ⟨fun ⟨_, m, hm, _⟩ => ⟨m, hm⟩, fun ⟨m, hm⟩ => ⟨_, m, hm, rfl⟩⟩
  rw [this, projectAll_exists]
  constructor
  · intro h c hc
    obtain ⟨v, hv⟩ := h c hc
    exact ⟨v, by rw [executeOn_eq]; exact (colValue_iff R obj hn c v).mp hv⟩
  · intro h c hc
    obtain ⟨v, hv⟩ := h c hc
    exact ⟨v, (colValue_iff R obj hn c v).mpr (by rw [← executeOn_eq]; exact hv)⟩

/-- Example: SELECT a, ABS(a), b. -/
def rProj : Schema Int Int Unit :=
  { columns := [{ name := s%"a" }, { name := s%"ABS(a)", fn := some (newFunction s%"abs" [s%"a"]) }, { name := s%"b" }] }

example : ∃ row, newRowFromObject rEnv (some rProj) [(s%"a", some (-4))] = .ok row ∧
    row.getValues.2 = [some (-4), some 4, none] := ⟨_, rfl, by decide⟩

end Verif.Props
