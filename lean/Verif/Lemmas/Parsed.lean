import Verif.Lemmas.VisitAll
import Verif.Props.Parser
/-! What holds of every statement the parser reports: postconditions of the visitor's functions. -/
namespace Verif

/-- `P` holds of the result, if there is one. -/
def Res.Post {α : Type} (P : α → Prop) (x : Res α) : Prop := ∀ a, x = .ok a → P a

theorem Res.Post.ok {α : Type} {P : α → Prop} {a : α} (h : P a) : Res.Post P (.ok a) := by
  intro b hb; cases hb; exact h

theorem Res.Post.panic {α : Type} {P : α → Prop} : Res.Post P (.panic : Res α) := by intro b hb; cases hb

theorem Res.Post.bind {α β : Type} {Q : α → Prop} {P : β → Prop} {x : Res α} {f : α → Res β} (hx : x.Post Q)
    (hf : ∀ a, Q a → (f a).Post P) : (x.bind f).Post P := by
  cases x with
  | ok a => exact hf a (hx a rfl)
  | _ => intro b hb; cases hb

theorem Res.Post.any {α : Type} (x : Res α) : x.Post (fun _ => True) := fun _ _ => trivial

theorem Res.Post.mono {α : Type} {P Q : α → Prop} {x : Res α} (hx : x.Post P) (h : ∀ a, P a → Q a) : x.Post Q :=
  fun a ha => h a (hx a ha)

/-- Sequencing when nothing is needed of the first result. -/
theorem Res.Post.next {α β : Type} {P : β → Prop} {x : Res α} {f : α → Res β} (hf : ∀ a, (f a).Post P) : (x.bind f).Post P :=
  (Res.Post.any x).bind (fun a _ => hf a)

theorem Res.Post.all {α β : Type} {P : β → Prop} {f : α → Res β} {l : List α} (h : ∀ a, a ∈ l → (f a).Post P) :
    (Res.all f l).Post (fun bs => ∀ b, b ∈ bs → P b) := by
  induction l with
  | nil => exact .ok (fun b hb => by cases hb)
  | cons a l ih =>
    refine (h a (List.mem_cons_self ..)).bind (fun b hb => (ih (fun x hx => h x (List.mem_cons_of_mem _ hx))).bind (fun bs hbs => .ok ?_))
    intro c hc
    rcases List.mem_cons.mp hc with rfl | hc
    · exact hb
    · exact hbs c hc

theorem Res.all_mem {α β : Type} {f : α → Res β} {l : List α} {bs : List β} (h : Res.all f l = .ok bs) {b : β} (hb : b ∈ bs) :
    ∃ a, a ∈ l ∧ f a = .ok b :=
  Res.Post.all (P := fun b => ∃ a, a ∈ l ∧ f a = .ok b) (fun a ha _ hc => ⟨a, ha, hc⟩) bs h b hb

namespace Lemmas
open Verif.Lex Verif.Gram Verif.Visit Verif.Query Verif.Parse Verif.Props Verif.Spec

/-- Every reported statement is what the function of its kind makes of a tree of the grammar. -/
theorem parsed_object {toUint : Str → Option Nat} {q : Str} {l : List Statement} (h : parseQuery toUint q = .ok l)
    {s : Statement} (hs : s ∈ l) :
    ∃ t r cs f, treeOf q = some t ∧ (r, cs) ∈ queryStmts t ∧ Sound (.node r cs) ∧ (r, f) ∈ handlers toUint ∧ f (.node r cs) = .ok s := by
  rw [parseQuery, Parser.parseString] at h
  cases he : isEmptyQuery q with
  | true => simp [he] at h
  | false =>
    cases ht : treeOf q with
    | none => simp [he, ht] at h
    | some t =>
      have h' : Visit.statements toUint t = .ok l := by simpa [he, ht, newParser] using h
      have hso := treeOf_sound ht
      obtain ⟨h1, h2⟩ := statements_object toUint hso.1 hso.2
      rw [h1] at h'
      cases ha : Res.all (object toUint) (queryStmts t) with
      | err => rw [ha] at h'; cases h'
      | panic => rw [ha] at h'; cases h'
      | ok os =>
        rw [ha] at h'
        have h' : Res.ok (os.filterMap id) = Res.ok l := h'
        cases h'
        obtain ⟨o, ho, rfl⟩ := List.mem_filterMap.mp hs
        obtain ⟨⟨r, cs⟩, hx, hobj⟩ := Res.all_mem ha ho
        simp only [object] at hobj
        cases hl : (handlers toUint).lookup r with
        | none => rw [hl] at hobj; cases hobj
        | some f =>
          rw [hl] at hobj
          simp only at hobj
          cases hf : f (.node r cs) with
          | ok s' =>
            rw [hf] at hobj
            cases hobj
            exact ⟨t, r, cs, f, rfl, hx, (h2 _ hx).2, lookup_mem hl, hf⟩
          | err => rw [hf] at hobj; cases hobj
          | panic => rw [hf] at hobj; cases hobj

/-! ### Columns -/

/-- A column with a definition and nothing else. -/
def Defined (c : Column) : Prop := c.def_.isSome = true ∧ c.lit = none
/-- A column with a name only. -/
def Bare (c : Column) : Prop := c.lit = none ∧ c.def_ = none

theorem columnWith_post (t : Tree) : (columnWith t).Post (fun o => ∀ c, o = some c → Defined c) := by
  refine .next fun n => ?_
  simp only
  split
  · exact .ok (by simp)
  · split
    · exact .ok (by simp)
    · split
      · exact .ok (by simp)
      · exact .ok (by rintro c ⟨⟩; exact ⟨rfl, rfl⟩)

theorem columnStep_post (t : Tree) (acc : List Column × List Index) (h : ∀ c, c ∈ acc.1 → Defined c)
    (hi : ∀ i, i ∈ acc.2 → ∀ c, c ∈ i.columns → Defined c) :
    (columnStep t acc).Post (fun a => (∀ c, c ∈ a.1 → Defined c) ∧ ∀ i, i ∈ a.2 → ∀ c, c ∈ i.columns → Defined c) := by
  refine (columnWith_post t).bind (fun o ho => ?_)
  cases o with
  | none => exact .ok ⟨h, hi⟩
  | some c =>
    refine .ok ⟨?_, ?_⟩
    · intro x hx
      rcases List.mem_append.mp hx with hx | hx
      · exact h x hx
      · rw [List.mem_singleton.mp hx]; exact ho c rfl
    · intro i hx x hc
      rcases List.mem_append.mp hx with hx | hx
      · exact hi i hx x hc
      · obtain ⟨_, -, rfl⟩ := List.mem_map.mp hx
        rw [List.mem_singleton.mp hc]; exact ho c rfl

theorem lookupColumn_mem {cs : List Column} {n : Str} {c : Column} (h : lookupColumn cs n = some c) : c ∈ cs :=
  List.mem_of_find?_eq_some h

theorem primaryScan_mem {cs : List Column} {ws : List Str} {i : Str} {c : Column} (h : primaryScan cs ws = some (i, c)) : c ∈ cs := by
  fun_induction primaryScan cs ws with
  | case1 w r c' hc => cases h; exact lookupColumn_mem hc
  | case2 w r hc ih => exact ih h
  | case3 v w r hv ih => exact ih h
  | case4 => cases h

theorem keyScan_mem {cs : List Column} {ws : List Str} {i : Str} {c : Column} (h : keyScan cs ws = some (i, c)) : c ∈ cs := by
  unfold keyScan at h
  split at h
  · obtain ⟨x, hx, he⟩ := Option.map_eq_some_iff.mp h
    cases he; exact lookupColumn_mem hx
  · cases h

theorem indexScan_mem {cs : List Column} {ws : List Str} {i : Str} {c : Column} (h : indexScan cs ws = some (i, c)) : c ∈ cs := by
  fun_induction indexScan cs ws with
  | case1 v w r x hx =>
    cases h
    split at hx
    · exact primaryScan_mem hx
    · split at hx
      · exact keyScan_mem hx
      · cases hx
  | case2 v w r hx ih => exact ih h
  | case3 => cases h

theorem indexStep_post (t : Tree) (acc : List Column × List Index) (h : ∀ c, c ∈ acc.1 → Defined c)
    (hi : ∀ i, i ∈ acc.2 → ∀ c, c ∈ i.columns → Defined c) :
    (indexStep t acc).Post (fun a => (∀ c, c ∈ a.1 → Defined c) ∧ ∀ i, i ∈ a.2 → ∀ c, c ∈ i.columns → Defined c) := by
  have add : ∀ (x : Index) (c : Column), x.columns = [c] → Defined c → ∀ i, i ∈ acc.2 ++ [x] → ∀ c, c ∈ i.columns → Defined c := by
    intro x c hx hc i hm y hy
    rcases List.mem_append.mp hm with hm | hm
    · exact hi i hm y hy
    · rw [List.mem_singleton.mp hm, hx] at hy
      rw [List.mem_singleton.mp hy]; exact hc
  refine .next fun n => ?_
  split
  · refine .next fun ds => ?_
    split
    · rename_i c hs
      exact .ok ⟨h, add _ c rfl (h c (indexScan_mem hs))⟩
    · exact .ok ⟨h, hi⟩
  · split
    · refine .next fun ds => ?_
      split
      · rename_i c hs
        exact .ok ⟨h, add _ c rfl (h c (indexScan_mem hs))⟩
      · exact .ok ⟨h, hi⟩
    · exact .ok ⟨h, hi⟩

theorem columnDefs_post (l : List Tree) (acc : List Column × List Index) (h : ∀ c, c ∈ acc.1 → Defined c)
    (hi : ∀ i, i ∈ acc.2 → ∀ c, c ∈ i.columns → Defined c) :
    (columnDefs acc l).Post (fun a => (∀ c, c ∈ a.1 → Defined c) ∧ ∀ i, i ∈ a.2 → ∀ c, c ∈ i.columns → Defined c) := by
  induction l generalizing acc with
  | nil => exact .ok ⟨h, hi⟩
  | cons t r ih =>
    exact (columnStep_post t acc h hi).bind (fun a ha => (indexStep_post t a ha.1 ha.2).bind (fun b hb => ih b hb.1 hb.2))

theorem tableKeys_post (t : Tree) : (tableKeys t).Post (fun ks => ∀ i, i ∈ ks → ∀ c, c ∈ i.columns → Defined c) := by
  refine Res.Post.all (fun p _ => ?_)
  refine (Res.Post.all (P := Defined) (fun x _ => ?_)).bind (fun cs hcs => .ok hcs)
  exact .next fun n => .ok ⟨rfl, rfl⟩

/-- All columns and index columns of a reported table definition have a data type. -/
theorem tableSchema_post (t : Tree) :
    (tableSchema t).Post (fun s => (∀ c, c ∈ s.columns → Defined c) ∧ ∀ i, i ∈ s.indexes → ∀ c, c ∈ i.columns → Defined c) := by
  refine .next fun n => ?_
  refine (columnDefs_post _ ([], []) (fun c hc => by cases hc) (fun c hc => by cases hc)).bind (fun a ha => ?_)
  refine (tableKeys_post t).bind (fun ks hks => .ok ⟨ha.1, ?_⟩)
  intro i hi
  rcases List.mem_append.mp hi with hi | hi
  · exact ha.2 i hi
  · exact hks i hi

theorem selector_post (t : Tree) : (selector t).Post (fun s => ∀ c, s = .col c → Bare c) := by
  unfold selector
  split
  · exact .next fun n => .ok (by intro c hc; cases hc)
  · exact .ok (by intro c hc; cases hc; exact ⟨rfl, rfl⟩)

theorem select_post (toUint : Str → Option Nat) (t : Tree) :
    (Visit.select toUint t).Post (fun s => ∃ x, s = .select x ∧ ∀ c, .col c ∈ x.selectors → Bare c) := by
  unfold Visit.select
  split
  · exact .next fun os => .ok ⟨_, rfl, fun c hc => by cases hc⟩
  · refine (Res.Post.all (fun x _ => selector_post x)).bind (fun ss hss => .next fun w => .next fun os => .ok ⟨_, rfl, ?_⟩)
    exact fun c hc => hss _ hc c rfl

/-- Every value of a reported row has a literal. -/
theorem insertRow_post (names : List Str) (k : Nat) (es : List Tree)
    (h : ∀ e, e ∈ es → ∃ ds, e = .node .expr ds ∧ Sound (.node .expr ds)) :
    (insertRow names k es).Post (fun cs => ∀ c, c ∈ cs → c.lit.isSome = true ∧ c.def_ = none) := by
  induction es generalizing k with
  | nil => exact .ok (fun c hc => by cases hc)
  | cons e r ih =>
    obtain ⟨ds, rfl, hs⟩ := h e (List.mem_cons_self ..)
    have ih := fun k => ih k (fun x hx => h x (List.mem_cons_of_mem _ hx))
    have add : ∀ {c : Column} {cs : List Column}, c.lit.isSome = true ∧ c.def_ = none → (∀ c, c ∈ cs → c.lit.isSome = true ∧ c.def_ = none) →
        ∀ x, x ∈ c :: cs → x.lit.isSome = true ∧ x.def_ = none := by
      intro c cs hc hcs x hx
      rcases List.mem_cons.mp hx with rfl | hx
      · exact hc
      · exact hcs x hx
    unfold insertRow
    split
    · rename_i v hv
      obtain ⟨vs, rfl, hvs⟩ := hs.childOf hv
      obtain ⟨ls, hl⟩ := hvs.has (q := .literal_value) (by decide) rfl
      exact .next fun n => (ih k).bind (fun cs hcs => .ok (add (by rw [hl]; exact ⟨rfl, rfl⟩) hcs))
    · split
      · split
        · exact (ih (k + 1)).bind (fun cs hcs => .ok (add ⟨rfl, rfl⟩ hcs))
        · exact ih k
      · exact ih k

theorem insert_post (cs : List Tree) (h : Sound (.node .insert_stmt cs)) :
    (Visit.insert (.node .insert_stmt cs)).Post (fun s => ∃ x, s = .insert x ∧ ∀ r, r ∈ x.values → ∀ c, c ∈ r → c.lit.isSome = true ∧ c.def_ = none) := by
  refine .next fun n => ?_
  cases hv : (Tree.node .insert_stmt cs).child .values_clause with
  | none => exact .panic
  | some v =>
    obtain ⟨vs, rfl, hvs⟩ := h.childOf hv
    refine (Res.Post.all (fun row hr => ?_)).bind (fun rows hrows => .ok ⟨_, rfl, hrows⟩)
    obtain ⟨rs, rfl, hrs⟩ := hvs.allOf hr
    exact insertRow_post _ 0 _ (fun e he => hrs.allOf he)

/-- The column of a reported ADD COLUMN has a data type. -/
theorem alterTable_post (t : Tree) : (Visit.alterTable t).Post (fun s => ∃ a, s = .alterTable a ∧ ∀ c, a.addColumn = some c → Defined c) := by
  refine .next fun rt => .next fun rc => ?_
  refine Res.Post.bind (Q := fun o : Option (Option Column) => ∀ c, o = some (some c) → Defined c) ?_ (fun ac hac => ?_)
  · unfold whenChild
    split
    · exact .ok (by simp)
    · exact Res.Post.bind (Q := fun o : Option Column => ∀ c, o = some c → Defined c) (.next fun d => columnWith_post d)
        (fun a ha => .ok (by intro c hc; cases hc; exact ha c rfl))
  · refine .next fun ai => .next fun n => .ok ⟨_, rfl, fun c hc => hac c ?_⟩
    cases ac with
    | none => cases hc
    | some o => exact congrArg some hc

end Lemmas
end Verif
