import Verif.Spec.ResultSet
import Verif.Lemmas.Exec
/-! Lemmas about rows and result sets. -/
namespace Verif.Lemmas
open Verif Verif.Fn Verif.Rs Verif.Spec
variable {V F T : Type}

/-! ### Rows -/

/-- One call on a row of the model. -/
def rowRead (row : Row V F T) : RowRead → Row V F T × RowOut V
  | .object => let r := row.getObject; (r.1, .object r.2)
  | .values => let r := row.getValues; (r.1, .values r.2)
  | .valueAt i => let r := row.valueAt i; (r.1, .value r.2)
  | .valueBy n => let r := row.valueBy n; (r.1, .value r.2)

/-- A sequence of calls on a row. -/
def rowReads (row : Row V F T) : List RowRead → Row V F T × List (RowOut V)
  | [] => (row, [])
  | c :: cs => let r := rowRead row c; let r' := rowReads r.1 cs; (r'.1, r.2 :: r'.2)

/-- Two rows that answer every read in the same way and keep doing so. -/
structure SameReads (a b : Row V F T) : Prop where
  obj : a.getObject.2 = b.getObject.2
  val : a.getValues.2 = b.getValues.2

theorem rowRead_out {a b : Row V F T} (h : SameReads a b) (c : RowRead) : (rowRead a c).2 = (rowRead b c).2 := by
  cases c with
  | object => simp [rowRead, h.obj]
  | values => simp [rowRead, h.val]
  | valueAt i => simp [rowRead, Row.valueAt, h.val]
  | valueBy n => simp [rowRead, Row.valueBy, h.obj]

theorem values_of_object (row : Row V F T) (o : GoMap Str (Option V)) (h : row.object = some o) (hv : row.values = none) :
    row.getValues.2 = (row.namesForObject o).map (valueOf o) := by
  simp only [Row.getValues, hv, h]
  rw [foldl_append_map]; rfl

theorem getObject_same (row : Row V F T) : SameReads row.getObject.1 row := by
  unfold Row.getObject
  cases ho : row.object with
  | some o => exact ⟨by simp, rfl⟩
  | none =>
    cases hv : row.values with
    | none => exact ⟨by simp [Row.getObject, ho, hv], rfl⟩
    | some vs => exact ⟨by simp [Row.getObject, ho, hv], by simp [Row.getValues, hv]⟩

theorem getValues_same (row : Row V F T) : SameReads row.getValues.1 row := by
  unfold Row.getValues
  cases hv : row.values with
  | some vs => exact ⟨rfl, by simp⟩
  | none =>
    cases ho : row.object with
    | none => exact ⟨rfl, by simp [Row.getValues, ho, hv]⟩
    | some o => exact ⟨by simp [Row.getObject, ho], by simp [Row.getValues, ho, hv]⟩

theorem rowRead_same (row : Row V F T) (c : RowRead) : SameReads (rowRead row c).1 row := by
  cases c with
  | object => exact getObject_same row
  | values => exact getValues_same row
  | valueAt i => exact getValues_same row
  | valueBy n => exact getObject_same row

theorem SameReads.trans {a b c : Row V F T} (h : SameReads a b) (h' : SameReads b c) : SameReads a c :=
  ⟨h.obj.trans h'.obj, h.val.trans h'.val⟩

theorem rowReads_eq (row : Row V F T) (cs : List RowRead) : (rowReads row cs).2 = cs.map (fun c => (rowRead row c).2) := by
  suffices h : ∀ a : Row V F T, SameReads a row → (rowReads a cs).2 = cs.map (fun c => (rowRead row c).2) from
    h row ⟨rfl, rfl⟩
  induction cs with
  | nil => intro a _; rfl
  | cons c cs ih =>
    intro a h
    simp only [rowReads, List.map_cons]
    rw [rowRead_out h c, ih _ ((rowRead_same a c).trans h)]

theorem valueAt_nat (row : Row V F T) (i : Nat) :
    (row.valueAt i).2 = match row.getValues.2[i]? with | some v => .ok v | none => .err := by
  unfold Row.valueAt
  cases h : row.getValues.2[i]? with
  | some v =>
    have hl := (List.getElem?_eq_some_iff.mp h).1
    simp only [Int.toNat_natCast, h]
    rw [if_neg (by omega), if_neg (by omega)]
  | none =>
    have hl := List.getElem?_eq_none_iff.mp h
    simp only []
    rw [if_pos (by omega)]

theorem objectOf_get (names : List Str) (hn : names.Nodup) (vs : List (Option V)) (i : Nat) (n : Str)
    (h : names[i]? = some n) : (objectOf names vs).get? n = some (vs[i]?.join) := by
  have key : ∀ (cs : List (Str × Nat)) (m : GoMap Str (Option V)), (cs.map (·.1)).Nodup →
      (∀ c i, (c, i) ∈ cs → (cs.foldl (fun m e => m.set e.1 (if e.2 < vs.length then vs[e.2]?.join else none)) m).get? c =
        some (vs[i]?.join)) ∧
      (∀ c, c ∉ cs.map (·.1) →
        (cs.foldl (fun m e => m.set e.1 (if e.2 < vs.length then vs[e.2]?.join else none)) m).get? c = m.get? c) := by
    intro cs
    induction cs with
    | nil => intro m _; exact ⟨by simp, by simp⟩
    | cons e cs ih =>
      obtain ⟨c0, i0⟩ := e
      intro m hd
      simp only [List.map_cons, List.nodup_cons] at hd
      obtain ⟨h1, h2⟩ := ih (m.set c0 (if i0 < vs.length then vs[i0]?.join else none)) hd.2
      refine ⟨?_, ?_⟩
      · intro c i hmem
        rcases List.mem_cons.mp hmem with h | h
        · cases h
          simp only [List.foldl_cons]
          rw [h2 c0 hd.1, GoMap.get?_set_self]
          split
          · rfl
          · next hl => rw [List.getElem?_eq_none (by omega)]; rfl
        · exact h1 c i h
      · intro c hc
        simp only [List.map_cons, List.mem_cons, not_or] at hc
        simp only [List.foldl_cons]
        rw [h2 c hc.2, GoMap.get?_set_ne _ _ (Ne.symm hc.1)]
  have hz : names.zipIdx.map (·.1) = names := List.zipIdx_map_fst 0 names
  obtain ⟨h1, _⟩ := key names.zipIdx [] (by rw [hz]; exact hn)
  exact h1 n i (by rw [List.mk_mem_zipIdx_iff_getElem?]; exact h)

/-! ### Projection -/

/-- The execution of a function selector, as the projection sees it. -/
def execOf (R : REnv V F T) (f : Func V F T) : Option (GoMap Str (Option V) → Res (Option V)) :=
  match (f.getExecutor R.X []).2 with
  | none => none
  | some ex => some (fun obj => match ex.execute R.X (.map obj) with
    | .ok x => .ok (R.boxX x)
    | .err => .err
    | .panic => .panic)

/-- The value of one column. -/
def colValue (R : REnv V F T) (obj : GoMap Str (Option V)) (c : Col V F T) : Res (Option V) :=
  match c.fn with
  | none => .ok (valueOf obj c.name)
  | some f => match execOf R f with
    | none => .ok (valueOf obj c.name)
    | some g => g obj

theorem set_set (m : GoMap Str (Option V)) (k : Str) (v w : Option V) : (m.set k v).set k w = m.set k w := by
  induction m with
  | nil => simp [GoMap.set]
  | cons e m ih =>
    obtain ⟨k0, v0⟩ := e
    simp only [GoMap.set]
    split
    · next h => simp [GoMap.set, h]
    · next h => simp [GoMap.set, h, ih]

theorem projectOne_eq (R : REnv V F T) (obj m : GoMap Str (Option V)) (c : Col V F T) :
    projectOne R obj m c = match colValue R obj c with
      | .ok v => .ok (m.set c.name v)
      | .err => .err
      | .panic => .panic := by
  have hp : (match obj.get? c.name with
      | some v => (Res.ok ((m.set c.name none).set c.name v) : Res (GoMap Str (Option V)))
      | none => .ok (m.set c.name none)) = .ok (m.set c.name (valueOf obj c.name)) := by
    unfold valueOf
    cases obj.get? c.name with
    | none => rfl
    | some v => simp only [set_set]
  unfold projectOne colValue
  cases hf : c.fn with
  | none => exact hp
  | some f =>
    simp only [execOf]
    cases he : (f.getExecutor R.X []).2 with
    | none => exact hp
    | some ex =>
      simp only []
      cases ex.execute R.X (.map obj) with
      | ok x => simp only [set_set]
      | err => rfl
      | panic => rfl

theorem colValue_iff (R : REnv V F T) (obj : GoMap Str (Option V)) (hn : obj.keys.Nodup) (c : Col V F T) (v : Option V) :
    colValue R obj c = .ok v ↔ Projects (execOf R) obj c v := by
  have hv : ∀ (h : ∀ f, c.fn = some f → execOf R f = none), valueOf obj c.name = v ↔ Projects (execOf R) obj c v := by
    intro h
    constructor
    · rintro rfl
      unfold valueOf
      cases hg : obj.get? c.name with
      | some w => exact .found h (mem_of_get? hg)
      | none =>
        refine .absent h ?_
        intro w hw
        rw [get?_eq_some_of_mem hn hw] at hg; cases hg
    · intro hp
      cases hp with
      | found _ hm => unfold valueOf; rw [get?_eq_some_of_mem hn hm]
      | absent _ hm =>
        unfold valueOf
        cases hg : obj.get? c.name with
        | some w => exact absurd (mem_of_get? hg) (hm w)
        | none => rfl
      | func hf he _ => rw [h _ hf] at he; cases he
  unfold colValue
  cases hf : c.fn with
  | none =>
    simp only [Res.ok.injEq]
    exact hv (by intro f h; rw [hf] at h; cases h)
  | some f =>
    cases he : execOf R f with
    | none =>
      simp only [he, Res.ok.injEq]
      refine hv ?_
      intro f' h; rw [hf] at h; cases h; exact he
    | some g =>
      simp only [he]
      constructor
      · intro h; exact .func hf he h
      · intro hp
        cases hp with
        | found h _ => rw [h f hf] at he; cases he
        | absent h _ => rw [h f hf] at he; cases he
        | func hf' he' hg => rw [hf] at hf'; cases hf'; rw [he] at he'; cases he'; exact hg

theorem projectAll_ok (R : REnv V F T) (obj : GoMap Str (Option V)) (cs : List (Col V F T)) (m m' : GoMap Str (Option V))
    (h : projectAll R obj m cs = .ok m')
    (hc : ∀ c ∈ cs, ∀ d ∈ cs, c.name = d.name → colValue R obj c = colValue R obj d) :
    (∀ c ∈ cs, ∃ v, colValue R obj c = .ok v ∧ m'.get? c.name = some v) ∧
    (∀ n, n ∉ cs.map (·.name) → m'.get? n = m.get? n) := by
  induction cs generalizing m with
  | nil => cases h; exact ⟨by simp, fun _ _ => rfl⟩
  | cons c cs ih =>
    simp only [projectAll] at h
    rw [projectOne_eq] at h
    cases hv : colValue R obj c with
    | err => rw [hv] at h; cases h
    | panic => rw [hv] at h; cases h
    | ok v =>
      rw [hv] at h
      obtain ⟨h1, h2⟩ := ih _ h (fun a ha b hb => hc a (List.mem_cons_of_mem _ ha) b (List.mem_cons_of_mem _ hb))
      refine ⟨?_, ?_⟩
      · intro d hd
        rcases List.mem_cons.mp hd with rfl | hd
        · refine ⟨v, hv, ?_⟩
          by_cases hm : d.name ∈ cs.map (·.name)
          · obtain ⟨e, he, hen⟩ := List.mem_map.mp hm
            obtain ⟨w, hw, hg⟩ := h1 e he
            have := hc e (List.mem_cons_of_mem _ he) d (by simp) hen
            rw [hw, hv] at this; cases this
            rw [← hen]; exact hg
          · rw [h2 _ hm, GoMap.get?_set_self]
        · exact h1 d hd
      · intro n hn
        simp only [List.map_cons, List.mem_cons, not_or] at hn
        rw [h2 n hn.2, GoMap.get?_set_ne _ _ (Ne.symm hn.1)]

theorem projectAll_keys (R : REnv V F T) (obj : GoMap Str (Option V)) (cs : List (Col V F T)) (m m' : GoMap Str (Option V))
    (h : projectAll R obj m cs = .ok m') (hn : m.keys.Nodup) : m'.keys.Nodup := by
  induction cs generalizing m with
  | nil => cases h; exact hn
  | cons c cs ih =>
    simp only [projectAll] at h
    rw [projectOne_eq] at h
    cases hv : colValue R obj c with
    | err => rw [hv] at h; cases h
    | panic => rw [hv] at h; cases h
    | ok v => rw [hv] at h; exact ih _ h (GoMap.nodup_keys_set _ _ _ hn)

theorem projectAll_exists (R : REnv V F T) (obj : GoMap Str (Option V)) (cs : List (Col V F T)) (m : GoMap Str (Option V)) :
    (∃ m', projectAll R obj m cs = .ok m') ↔ ∀ c ∈ cs, ∃ v, colValue R obj c = .ok v := by
  induction cs generalizing m with
  | nil => simp [projectAll]
  | cons c cs ih =>
    simp only [projectAll, List.mem_cons, forall_eq_or_imp]
    rw [projectOne_eq]
    cases hv : colValue R obj c with
    | err => simp
    | panic => simp
    | ok v => simp only [Res.ok.injEq, exists_eq', true_and]; exact ih _

theorem newRow_ok_iff (R : REnv V F T) (s : Schema V F T) (obj : GoMap Str (Option V)) (row : Row V F T) :
    newRowFromObject R (some s) obj = .ok row ↔
      ∃ m, projectAll R obj [] s.columns = .ok m ∧ row = { schema := some s, object := some m } := by
  unfold newRowFromObject
  simp only []
  cases projectAll R obj [] s.columns with
  | ok m => simp [eq_comm]
  | err => simp
  | panic => simp

/-! ### The cursor -/

/-- What `Row` returns at each position. -/
def proj (R : REnv V F T) (rs : RSet V F T) : List (Res (Row V F T)) :=
  rs.rows.map (fun row => newRowFromObject R rs.schema row.getObject.2)

/-- The end of the window. -/
def wend (rs : RSet V F T) : Nat :=
  if rs.limit = 0 then rs.rows.length else min rs.rows.length (rs.offset + rs.limit)

/-- No `uint` sum wraps around. -/
structure NoWrap (rs : RSet V F T) : Prop where
  off : rs.offset + 1 < 2 ^ 64
  lim : rs.offset + rs.limit < 2 ^ 64
  len : rs.rows.length + 1 < 2 ^ 64

theorem next_eq (rs : RSet V F T) (hw : NoWrap rs) (hc : rs.cursor + 1 < 2 ^ 64) :
    rs.next = ({ rs with cursor := max rs.cursor rs.offset + 1 }, decide (max rs.cursor rs.offset < wend rs)) := by
  have h1 : (if rs.cursor < rs.offset then rs.offset else rs.cursor) = max rs.cursor rs.offset := by
    split <;> omega
  have hm : max rs.cursor rs.offset + 1 < 2 ^ 64 := by have := hw.off; omega
  unfold RSet.next
  simp only [h1, uadd]
  rw [Nat.mod_eq_of_lt hm, Nat.mod_eq_of_lt hw.lim]
  congr 1
  unfold wend
  by_cases hl : rs.limit = 0
  · simp only [hl, Nat.lt_irrefl, false_and, if_false, if_true]
    exact decide_eq_decide.mpr (by omega)
  · by_cases hx : rs.offset + rs.limit < max rs.cursor rs.offset + 1
    · rw [if_pos ⟨by omega, hx⟩, if_neg hl]; symm; rw [decide_eq_false_iff_not]; omega
    · rw [if_neg (by omega), if_neg hl]; exact decide_eq_decide.mpr (by omega)

theorem row_proj (R : REnv V F T) (rs : RSet V F T) (i : Nat) (hi : i < rs.rows.length) (hc : rs.cursor = i + 1) :
    ∃ rs', rs.row R = (rs', (proj R rs)[i]'(by simpa [proj] using hi)) ∧ proj R rs' = proj R rs ∧
      rs'.cursor = rs.cursor ∧ rs'.offset = rs.offset ∧ rs'.limit = rs.limit ∧ rs'.rows.length = rs.rows.length ∧
      rs'.schema = rs.schema := by
  refine ⟨{ rs with rows := rs.rows.set i rs.rows[i].getObject.1 }, ?_, ?_, rfl, rfl, rfl, by simp, rfl⟩
  · unfold RSet.row
    rw [if_neg (by omega)]
    simp only [hc, Nat.add_sub_cancel, List.getElem?_eq_getElem hi]
    simp [proj]
  · simp only [proj]
    apply List.ext_getElem
    · simp
    · intro j h1 h2
      simp only [List.getElem_map, List.getElem_set]
      split
      · next h => subst h; rw [(getObject_same _).obj]
      · rfl

theorem loop_exists (R : REnv V F T) (n : Nat) : ∀ rs : RSet V F T, NoWrap rs → rs.cursor + 1 < 2 ^ 64 →
    wend rs - max rs.cursor rs.offset = n →
    ∃ rs', Loop RSet.next (RSet.row R) rs (((proj R rs).take (wend rs)).drop (max rs.cursor rs.offset)) rs' ∧
      rs'.cursor = max (max rs.cursor rs.offset) (wend rs) + 1 ∧ rs'.offset = rs.offset ∧ rs'.limit = rs.limit ∧
      rs'.rows.length = rs.rows.length ∧ proj R rs' = proj R rs := by
  have hlen : ∀ rs : RSet V F T, (proj R rs).length = rs.rows.length := by intro rs; simp [proj]
  have hle : ∀ rs : RSet V F T, wend rs ≤ rs.rows.length := by intro rs; unfold wend; split <;> omega
  induction n with
  | zero =>
    intro rs hw hc hn
    have hne := next_eq rs hw hc
    rw [decide_eq_false (by omega)] at hne
    refine ⟨{ rs with cursor := max rs.cursor rs.offset + 1 }, ?_, ?_, rfl, rfl, rfl, rfl⟩
    · rw [List.drop_eq_nil_of_le (by rw [List.length_take]; omega)]
      exact .stop hne
    · show _ + 1 = _; omega
  | succ n ih =>
    intro rs hw hc hn
    have hne := next_eq rs hw hc
    rw [decide_eq_true (by omega)] at hne
    have hi : max rs.cursor rs.offset < rs.rows.length := by have := hle rs; omega
    obtain ⟨rs2, hr, hp, h1, h2, h3, h4, h5⟩ :=
      row_proj R { rs with cursor := max rs.cursor rs.offset + 1 } (max rs.cursor rs.offset) hi rfl
    simp only at h1 h2 h3 h4
    have hwe : wend rs2 = wend rs := by simp only [wend, h2, h3, h4]
    have hm : max rs2.cursor rs2.offset = max rs.cursor rs.offset + 1 := by rw [h1, h2]; omega
    have hw2 : NoWrap rs2 := ⟨by rw [h2]; exact hw.off, by rw [h2, h3]; exact hw.lim, by rw [h4]; exact hw.len⟩
    have hpe : proj R { rs with cursor := max rs.cursor rs.offset + 1 } = proj R rs := rfl
    obtain ⟨rs', hl, c1, c2, c3, c4, c5⟩ := ih rs2 hw2 (by rw [h1]; have := hw.len; omega) (by rw [hwe, hm]; omega)
    refine ⟨rs', ?_, ?_, c2.trans h2, c3.trans h3, c4.trans h4, c5.trans (hp.trans hpe)⟩
    · rw [hwe, hm, hp, hpe] at hl
      have hd : ((proj R rs).take (wend rs)).drop (max rs.cursor rs.offset) =
          (proj R rs)[max rs.cursor rs.offset]'(by rw [hlen]; exact hi) ::
            ((proj R rs).take (wend rs)).drop (max rs.cursor rs.offset + 1) := by
        rw [List.drop_eq_getElem_cons (by rw [List.length_take, hlen]; omega)]
        rw [List.getElem_take]
      rw [hd]
      exact .turn hne hr hl
    · rw [c1, hm, hwe]; omega

theorem loop_det {S ρ : Type} {next : S → S × Bool} {row : S → S × ρ} {s s1 s2 : S} {l1 l2 : List ρ}
    (h1 : Loop next row s l1 s1) (h2 : Loop next row s l2 s2) : l1 = l2 ∧ s1 = s2 := by
  induction h1 generalizing l2 s2 with
  | stop h =>
    cases h2 with
    | stop h' => rw [h] at h'; cases h'; exact ⟨rfl, rfl⟩
    | turn h' _ _ => rw [h] at h'; cases h'
  | turn h hr _ ih =>
    cases h2 with
    | stop h' => rw [h] at h'; cases h'
    | turn h' hr' hl' =>
      rw [h] at h'; cases h'
      rw [hr] at hr'; cases hr'
      obtain ⟨a, b⟩ := ih hl'
      exact ⟨by rw [a], b⟩

theorem window_eq {α : Type} (rs : RSet V F T) (l : List α) (h : l.length = rs.rows.length) :
    (l.take (wend rs)).drop rs.offset = window rs.offset rs.limit l := by
  unfold wend window
  split
  · rw [← h, List.take_length]
  · rw [List.drop_take, ← h]
    rw [List.take_eq_take_iff, List.length_drop]
    omega

end Verif.Lemmas
