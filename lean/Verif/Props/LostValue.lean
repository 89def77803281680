import Verif.Props.LostCond
import Verif.Lemmas.LostValue
/-! C69, C132, C133: which values of INSERT and UPDATE are not reported, whatever surrounds them. -/
namespace Verif.Props
open Verif Verif.Lex Verif.Gram Verif.Spec Verif.Query Verif.Parse

variable {sp : Spelling}

/-! ### What the row reports -/

theorem putRow_literals (names : List Str) (vs : List ValueS) (h : ∀ x ∈ vs, ¬ x.isCmp) (hp : ∀ x ∈ vs, x.Plain) :
    putRow sp names vs = List.zipWith (fun n l => { name := n, lit := some (l.value sp) }) names (vs.filterMap (·.lit?)) := by
  induction vs generalizing names with
  | nil => cases names <;> simp [putRow]
  | cons x vs ih =>
    have ih := fun names => ih names (fun y hy => h y (List.mem_cons_of_mem _ hy)) (fun y hy => hp y (List.mem_cons_of_mem _ hy))
    have hx := h x (List.mem_cons_self ..)
    have hpx := hp x (List.mem_cons_self ..)
    cases x with
    | lit l =>
      cases names with
      | nil => rw [putRow, ih]; simp
      | cons n ns => rw [putRow, ih, litV_plain hpx]; rfl
    | cond c =>
      cases c with
      | one c => exact absurd trivial hx
      | _ => cases names <;> exact ih _
    | _ => cases names <;> exact ih _

theorem putRow_cmp (names : List Str) (xs ys : List ValueS) (c : CmpS) (h : ∀ x ∈ xs, ¬ x.isCmp) (hp : ∀ x ∈ xs, x.Plain) (hc : c.lit.Plain) :
    putRow sp names (xs ++ .cond (.one c) :: ys) =
      List.zipWith (fun n l => { name := n, lit := some (l.value sp) }) names (xs.filterMap (·.lit?)) ++
        { name := c.col, lit := some (c.lit.value sp) } :: putRow sp (names.drop (xs.filterMap (·.lit?)).length) ys := by
  induction xs generalizing names with
  | nil => cases names <;> simp [putRow, litV_plain hc]
  | cons x vs ih =>
    have ih := fun names => ih names (fun y hy => h y (List.mem_cons_of_mem _ hy)) (fun y hy => hp y (List.mem_cons_of_mem _ hy))
    have hx := h x (List.mem_cons_self ..)
    have hpx := hp x (List.mem_cons_self ..)
    rw [List.cons_append]
    cases x with
    | lit l =>
      cases names with
      | nil => rw [putRow, ih]; simp
      | cons n ns => rw [putRow, ih, litV_plain hpx]; rfl
    | cond c =>
      cases c with
      | one c => exact absurd trivial hx
      | _ => cases names <;> exact ih _
    | _ => cases names <;> exact ih _

/-- C69, exact for rows with any values but comparisons: an INSERT with a column list reports for every row the names in
order, each with the next of the literals of the row. So the pairing is the one written just if all literals come first.
Without a column list (`names` empty) nothing is reported of any row. -/
theorem C69_shift (toUint : Str → Option Nat) (hg : sp.Good) (q : Str) (i : PutS) (n : Nat)
    (h : Writes q (i.toks sp ++ List.replicate n (kw sp .SCOL)))
    (hc : ∀ r ∈ i.row :: i.rows, ∀ x ∈ r.all, ¬ x.isCmp ∧ x.Plain) : ∃ v : Insert, parseQuery toUint q = .ok [.insert v] ∧
      v.values = (i.row :: i.rows).map (fun r =>
        List.zipWith (fun c l => { name := c, lit := some (l.value sp) }) i.names (r.all.filterMap (·.lit?))) := by
  obtain ⟨ts, h1, h2⟩ := writes_lex.mp h
  refine ⟨putV sp i, parse_put toUint hg h1 i [] n (by rw [h2]; simp [moreToks]), ?_⟩
  refine List.map_congr_left ?_
  intro r hr
  exact putRow_literals i.names r.all (fun x hx => (hc r hr x hx).1) (fun x hx => (hc r hr x hx).2)

/-- C69 is false of the code for every row in which something other than a literal or comparison stands before a literal:
what is reported for the column of the first such element is a later value. -/
theorem C69_shift_fails (toUint : Str → Option Nat) (hg : sp.Good) (q : Str) (i : PutS) (n : Nat)
    (h : Writes q (i.toks sp ++ List.replicate n (kw sp .SCOL)))
    (hc : ∀ r ∈ i.row :: i.rows, ∀ x ∈ r.all, ¬ x.isCmp ∧ x.Plain) (j : Nat) (r : ValuesS) (hr : (i.row :: i.rows)[j]? = some r)
    (xs : List Lit) (x : ValueS) (ys : List ValueS) (hx : x.lit? = none) (l : Lit) (ls : List Lit)
    (ha : r.all = xs.map .lit ++ x :: ys) (hl : ys.filterMap (·.lit?) = l :: ls) (c : Str) (hn : i.names[xs.length]? = some c) :
    ∃ v : Insert, parseQuery toUint q = .ok [.insert v] ∧ ∃ cols, v.values[j]? = some cols ∧
      cols[xs.length]? = some { name := c, lit := some (l.value sp) } := by
  obtain ⟨v, hv, he⟩ := C69_shift toUint hg q i n h hc
  refine ⟨v, hv, ?_⟩
  rw [he]
  simp only [List.getElem?_map, hr, Option.map_some]
  refine ⟨_, rfl, ?_⟩
  have hm : (xs.map ValueS.lit).filterMap (·.lit?) = xs := by
    rw [List.filterMap_map]
    exact List.filterMap_some
  have hf : r.all.filterMap (·.lit?) = xs ++ l :: ls := by
    rw [ha, List.filterMap_append, hm, List.filterMap_cons_none hx, hl]
  rw [hf, List.getElem?_zipWith, hn, List.getElem?_append_right (Nat.le_refl _), Nat.sub_self]
  rfl

/-- C69 is false of the code for every INSERT without a column list: the rows are reported, each without any value. -/
theorem C69_unlisted_fails (toUint : Str → Option Nat) (hg : sp.Good) (q : Str) (i : PutS) (hi : i.names = []) (n : Nat)
    (h : Writes q (i.toks sp ++ List.replicate n (kw sp .SCOL)))
    (hc : ∀ r ∈ i.row :: i.rows, ∀ x ∈ r.all, ¬ x.isCmp ∧ x.Plain) : ∃ v : Insert, parseQuery toUint q = .ok [.insert v] ∧
      v.values = List.replicate (i.row :: i.rows).length [] := by
  obtain ⟨v, hv, he⟩ := C69_shift toUint hg q i n h hc
  refine ⟨v, hv, ?_⟩
  rw [he, hi]
  exact List.map_const' ..

/-- C133 is false of the code for every row with a comparison: it is reported as a value of the column it names, whatever
its operator and whether the column is in the list or not, behind the pairs of the literals before it. -/
theorem C133_comparison_fails (toUint : Str → Option Nat) (hg : sp.Good) (q : Str) (i : PutS) (n : Nat)
    (h : Writes q (i.toks sp ++ List.replicate n (kw sp .SCOL))) (j : Nat) (r : ValuesS) (hr : (i.row :: i.rows)[j]? = some r)
    (xs : List ValueS) (c : CmpS) (ys : List ValueS) (ha : r.all = xs ++ .cond (.one c) :: ys) (hc : ∀ x ∈ xs, ¬ x.isCmp ∧ x.Plain)
    (hp : c.lit.Plain) : ∃ v : Insert, parseQuery toUint q = .ok [.insert v] ∧ ∃ cols, v.values[j]? = some cols ∧
      cols[min i.names.length (xs.filterMap (·.lit?)).length]? = some { name := c.col, lit := some (c.lit.value sp) } := by
  obtain ⟨ts, h1, h2⟩ := writes_lex.mp h
  refine ⟨putV sp i, parse_put toUint hg h1 i [] n (by rw [h2]; simp [moreToks]), ?_⟩
  show ∃ cols, ((i.row :: i.rows).map (fun r => putRow sp i.names r.all))[j]? = some cols ∧ _
  rw [List.getElem?_map, hr]
  refine ⟨_, rfl, ?_⟩
  show (putRow sp i.names r.all)[_]? = _
  rw [ha, putRow_cmp i.names xs ys c (fun x hx => (hc x hx).1) (fun x hx => (hc x hx).2) hp,
    List.getElem?_append_right (by simp [List.length_zipWith])]
  simp [List.length_zipWith]

/-- C132 is false of the code for every assignment whose value is a column, a call, a list in parentheses, two literals
with `||`, a condition or a test, in every UPDATE: the query is accepted, and the column is reported without a value. -/
theorem C132_lost_fails (toUint : Str → Option Nat) (hg : sp.Good) (q : Str) (u : ChangeS) (n : Nat)
    (h : Writes q (u.toks sp ++ List.replicate n (kw sp .SCOL))) (j : Nat) (a : AssignS) (ha : (u.asg :: u.asgs)[j]? = some a)
    (hl : a.val.lit? = none) (hx : ∀ c o x, a.val ≠ .arith c o x) : ∃ v : Update, parseQuery toUint q = .ok [.update v] ∧
      v.columns.length = (u.asg :: u.asgs).length ∧ v.columns[j]? = some { name := a.col } := by
  obtain ⟨ts, h1, h2⟩ := writes_lex.mp h
  refine ⟨changeV sp u, parse_change toUint hg h1 u [] n (by rw [h2]; simp [moreToks]), by simp [changeV], ?_⟩
  show ((u.asg :: u.asgs).map (assignV sp))[j]? = _
  rw [List.getElem?_map, ha]
  obtain ⟨col, x⟩ := a
  cases x with
  | lit l => cases hl
  | arith c o y => exact absurd rfl (hx c o y)
  | _ => rfl

/-- Exactly the literals and the calculations with a column are reported as values of an assignment. -/
theorem C132_reported_iff (toUint : Str → Option Nat) (hg : sp.Good) (q : Str) (u : ChangeS) (n : Nat)
    (h : Writes q (u.toks sp ++ List.replicate n (kw sp .SCOL))) : ∃ v : Update, parseQuery toUint q = .ok [.update v] ∧
      v.columns.length = (u.asg :: u.asgs).length ∧
      ∀ (j : Nat) (a : AssignS), (u.asg :: u.asgs)[j]? = some a → ∃ c, v.columns[j]? = some c ∧ c.name = a.col ∧
        ((c.lit.isSome ↔ ∃ l, a.val = .lit l) ∧ (c.fn.isSome ↔ ∃ b o x, a.val = .arith b o x)) := by
  obtain ⟨ts, h1, h2⟩ := writes_lex.mp h
  refine ⟨changeV sp u, parse_change toUint hg h1 u [] n (by rw [h2]; simp [moreToks]), by simp [changeV], ?_⟩
  intro j a ha
  refine ⟨assignV sp a, ?_, ?_⟩
  · show ((u.asg :: u.asgs).map (assignV sp))[j]? = _
    rw [List.getElem?_map, ha]; rfl
  · obtain ⟨col, x⟩ := a
    cases x <;> simp [assignV, setV]

/-- The words of the examples. -/
def valueSp : Spelling
  | .PIPE2 => s%"||"
  | t => lostSp t

theorem valueSp_good : valueSp.Good := ⟨rfl, rfl, rfl, rfl, rfl, rfl, rfl, rfl, rfl, rfl, rfl, rfl, rfl⟩

set_option maxRecDepth 10000 in
example : ∃ v : Insert, parseQuery (fun _ => none) s%"INSERT INTO t (a, b) VALUES (f(1), 2), (3, x)" = .ok [.insert v] ∧
    v.values = [[{ name := s%"a", lit := some { v := .str s%"2" } }], [{ name := s%"a", lit := some { v := .str s%"3" } }]] :=
  C69_shift (sp := valueSp) (fun _ => none) valueSp_good _ ⟨s%"t", [s%"a", s%"b"], ⟨.call s%"f" (.list (.lit (.num s%"1")) []), [.lit (.num s%"2")]⟩,
    [⟨.lit (.num s%"3"), [.col s%"x"]⟩]⟩ 0 (writes_of (by decide +kernel))
    (by intro r hr x hx; simp at hr; rcases hr with rfl | rfl <;> simp [ValuesS.all] at hx <;> rcases hx with rfl | rfl <;> exact ⟨id, trivial⟩)
set_option maxRecDepth 10000 in
example : ∃ v : Insert, parseQuery (fun _ => none) s%"INSERT INTO t (a, b, c) VALUES (1, (2), 3)" = .ok [.insert v] ∧
    ∃ cols, v.values[0]? = some cols ∧ cols[1]? = some { name := s%"b", lit := some { v := .str s%"3" } } :=
  C69_shift_fails (sp := valueSp) (fun _ => none) valueSp_good _ ⟨s%"t", [s%"a", s%"b", s%"c"], ⟨.lit (.num s%"1"), [.list (.num s%"2") [], .lit (.num s%"3")]⟩, []⟩ 0
    (writes_of (by decide +kernel))
    (by intro r hr x hx; simp at hr; subst hr; simp [ValuesS.all] at hx; rcases hx with rfl | rfl | rfl <;> exact ⟨id, trivial⟩)
    0 _ rfl [.num s%"1"] (.list (.num s%"2") []) [.lit (.num s%"3")] rfl (.num s%"3") [] rfl rfl _ rfl
set_option maxRecDepth 10000 in
example : ∃ v : Insert, parseQuery (fun _ => none) s%"INSERT INTO t VALUES (1, 'x' || 'y'), (a IN (1), ?);" = .ok [.insert v] ∧ v.values = [[], []] :=
  C69_unlisted_fails (sp := valueSp) (fun _ => none) valueSp_good _ ⟨s%"t", [], ⟨.lit (.num s%"1"), [.cat (.str s%"'x'") (.str s%"'y'")]⟩,
    [⟨.test (.isIn s%"a" (.num s%"1") []), [.lit (.bind s%"?")]⟩]⟩ rfl 1 (writes_of (by decide +kernel))
    (by intro r hr x hx; simp at hr; rcases hr with rfl | rfl <;> simp [ValuesS.all] at hx <;> rcases hx with rfl | rfl <;> exact ⟨id, trivial⟩)
set_option maxRecDepth 10000 in
example : ∃ v : Insert, parseQuery (fun _ => none) s%"INSERT INTO t (a, b) VALUES (1, x < 2)" = .ok [.insert v] ∧
    ∃ cols, v.values[0]? = some cols ∧ cols[1]? = some { name := s%"x", lit := some { v := .str s%"2" } } :=
  C133_comparison_fails (sp := valueSp) (fun _ => none) valueSp_good _ ⟨s%"t", [s%"a", s%"b"], ⟨.lit (.num s%"1"), [.cond (.one ⟨s%"x", .lt, .num s%"2"⟩)]⟩, []⟩ 0
    (writes_of (by decide +kernel)) 0 _ rfl [.lit (.num s%"1")] ⟨s%"x", .lt, .num s%"2"⟩ [] rfl
    (by intro x hx; simp at hx; subst hx; exact ⟨id, trivial⟩) trivial
set_option maxRecDepth 10000 in
example : ∃ v : Update, parseQuery (fun _ => none) s%"UPDATE t SET a = 1, b = c, d = f() WHERE e = 2" = .ok [.update v] ∧ v.columns.length = 3 ∧
    v.columns[1]? = some { name := s%"b" } :=
  C132_lost_fails (sp := valueSp) (fun _ => none) valueSp_good _ ⟨s%"t", ⟨s%"a", .lit (.num s%"1")⟩, [⟨s%"b", .col s%"c"⟩, ⟨s%"d", .call s%"f" .none⟩],
    some (.one ⟨s%"e", .eq, .num s%"2"⟩)⟩ 0 (writes_of (by decide +kernel)) 1 _ rfl rfl (by intro c o x h; cases h)

set_option maxRecDepth 10000 in
example : ∃ v : Update, parseQuery (fun _ => none) s%"UPDATE t SET a = a + 1, b = (2)" = .ok [.update v] ∧
    ∃ c, v.columns[0]? = some c ∧ c.lit = none ∧ c.fn.isSome := by
  obtain ⟨v, h1, _, h2⟩ := C132_reported_iff (sp := valueSp) (fun _ => none) valueSp_good s%"UPDATE t SET a = a + 1, b = (2)" ⟨s%"t", ⟨s%"a", .arith s%"a" .add (.lit (.num s%"1"))⟩, [⟨s%"b", .list (.num s%"2") []⟩],
    none⟩ 0 (writes_of (by decide +kernel))
  obtain ⟨c, hc, _, hl, hf⟩ := h2 0 _ rfl
  refine ⟨v, h1, c, hc, ?_, hf.mpr ⟨_, _, _, rfl⟩⟩
  cases hx : c.lit with
  | none => rfl
  | some l =>
    obtain ⟨_, h⟩ := hl.mp (by rw [hx]; rfl)
    cases h

end Verif.Props
