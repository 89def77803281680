import Verif.Spec.Prepared
import Verif.Spec.Bind
import Verif.Model.Bind
import Verif.Lemmas.Str
import Verif.Lemmas.Lexer
/-! The text of a template is the text of the statement with question marks for values. -/
namespace Verif.Lemmas
open Verif Verif.Query Verif.Spec Verif.Util Verif.Lex

/-- The second text is the first one with its question marks replaced by the given texts. -/
inductive Subst : Str → Str → List Str → Prop
  | nil : Subst [] [] []
  | char {c : Char} {a b : Str} {vs : List Str} (h : c ≠ '?') : Subst a b vs → Subst (c :: a) (c :: b) vs
  | hole (v : Str) {a b : Str} {vs : List Str} : Subst a b vs → Subst ('?' :: a) (v ++ b) (v :: vs)

theorem Subst.same {x : Str} (h : '?' ∉ x) : Subst x x [] := by
  induction x with
  | nil => exact .nil
  | cons c x ih =>
    simp only [List.mem_cons, not_or] at h
    exact .char (fun e => h.1 e.symm) (ih h.2)

theorem Subst.app {a b a' b' : Str} {vs vs' : List Str} (h : Subst a b vs) (h' : Subst a' b' vs') :
    Subst (a ++ a') (b ++ b') (vs ++ vs') := by
  induction h with
  | nil => exact h'
  | char h _ ih => exact .char h ih
  | hole v _ ih => rw [List.append_assoc]; exact .hole v ih

theorem Subst.marked {a b : Str} {vs : List Str} (h : Subst a b vs) :
    ∃ p ps, a = marked p ps ∧ b = filled p ps vs ∧ '?' ∉ p ∧ (∀ x ∈ ps, '?' ∉ x) ∧ vs.length = ps.length := by
  induction h with
  | nil => exact ⟨[], [], rfl, rfl, by simp, by simp, rfl⟩
  | @char c a b vs h _ ih =>
    obtain ⟨p, ps, rfl, rfl, h1, h2, h3⟩ := ih
    refine ⟨c :: p, ps, ?_, ?_, ?_, h2, h3⟩
    · cases ps <;> rfl
    · cases ps <;> cases vs <;> rfl
    · simp [h1, h.symm]
  | @hole v a b vs _ ih =>
    obtain ⟨p, ps, rfl, rfl, h1, h2, h3⟩ := ih
    exact ⟨[], p :: ps, rfl, rfl, by simp, by simpa using ⟨h1, h2⟩, by simp [h3]⟩

theorem Subst.hole_one (v : Str) : Subst s%"?" v [v] := by
  have := Subst.hole v .nil
  simpa using this

theorem Subst.join {α : Type} {β : Type} {R : α → α → List β → Prop} (f : α → Str) (g : β → Str) {sep : Str} (hs : '?' ∉ sep)
    (hr : ∀ a b x, R a b x → Subst (f a) (f b) (x.map g)) {l m : List α} {x : List β} (h : Along R l m x) :
    Subst (Str.join sep (l.map f)) (Str.join sep (m.map f)) (x.map g) := by
  induction h with
  | nil => exact .nil
  | @cons a b l m x y h1 h2 ih =>
    cases h2 with
    | nil => simpa [Str.join] using hr _ _ _ h1
    | cons h3 h4 =>
      rw [List.map_append]
      exact ((hr _ _ _ h1).app (Subst.same hs)).app ih |> fun h => by simpa [Str.join] using h

/-- The text of a value. -/
def litText (l : Literal) : Str := Literal.valueString (some l)

theorem hole_subst {a b : Literal} {ls : List Literal} (h : Hole a b ls) : Subst (litText a) (litText b) (ls.map litText) := by
  cases h with
  | keep _ h => exact .same h
  | hole => exact .hole_one _

theorem column_subst {a b : Column} {ls : List Literal} (h : ColumnHole a b ls) :
    Subst (Literal.valueString a.lit) (Literal.valueString b.lit) (ls.map litText) := by
  cases h with
  | value n _ h => exact hole_subst h

theorem set_subst {a b : Column} {ls : List Literal} (h : SetHole a b ls) (hp : PrintableSet b) :
    Subst a.setString b.setString (ls.map litText) := by
  have main : ∀ n : Str, '?' ∉ n → ∀ x y : Str, Subst x y (ls.map litText) →
      Subst (n ++ s%" = " ++ x) (n ++ s%" = " ++ y) (ls.map litText) := by
    intro n hn x y h
    exact ((Subst.same hn).app (Subst.same (by decide : '?' ∉ s%" = "))).app h
  cases h with
  | value h =>
    cases h with
    | value n hn h =>
      exact main n hn _ _ (hole_subst h)
  | @arith n c e a b ls hn hc ha hb h =>
    have he : e ∈ [.opAdd, .opSub, .opMul, .opDiv, .opMod] := by
      generalize hx : ({ name := n, fn := some (arithFunction e [c, b.v.print]), args := [c, b.v.print] } : Column) = k at hp
      cases hp with
      | lit h =>
        have := congrArg Column.fn h.plain
        rw [← hx] at this
        cases this
      | @arith n' c' x' e' h1 h2 h3 h4 =>
        injection hx with e1 e2 e3 e4 e5
        injection e4 with e4
        injection e5 with e6 e7
        injection e4 with _ e8 e9
        have he : e.name = e'.name := e8
        have : ∀ e : Fn.ExecId, e.name ∈ [s%"+", s%"-", s%"*", s%"/", s%"%"] → e ∈ [Fn.ExecId.opAdd, .opSub, .opMul, .opDiv, .opMod] := by
          intro e; cases e <;> decide
        apply this
        rw [he]
        revert h4
        cases e' <;> decide
    have ht : ∀ l : Literal, l.t = .unknown → litText l = l.v.print := by
      intro l hl; cases l; cases hl; rfl
    have hs := hole_subst h
    rw [ht a ha, ht b hb] at hs
    have ho : '?' ∉ e.name := by
      revert he; cases e <;> decide
    have key : ∀ x : Str, Column.setString { name := n, fn := some (arithFunction e [c, x]), args := [c, x] } =
        n ++ s%" = " ++ (c ++ s%" " ++ (e.name ++ s%" " ++ x)) := fun x => rfl
    rw [key, key]
    exact main n hn _ _ (((Subst.same hc).app (Subst.same (by decide : '?' ∉ s%" "))).app
      (((Subst.same ho).app (Subst.same (by decide : '?' ∉ s%" "))).app hs))

theorem cmp_subst {op : CmpOp} {n : Str} {a b : Literal} {ls : List Literal} (h : Hole a b ls) (hn : '?' ∉ n) :
    Subst (Cmp.toStr ⟨op, { name := n }, some a⟩) (Cmp.toStr ⟨op, { name := n }, some b⟩) (ls.map litText) := by
  have ho : '?' ∉ op.toStr := by cases op <;> decide
  have hb : '?' ∉ s%" " := by decide
  exact ((((Subst.same hn).app (Subst.same hb)).app (Subst.same ho)).app (Subst.same hb)).app (hole_subst h)

theorem expr_subst {a b : Expr} {ls : List Literal} (h : ExprHole a b ls) :
    Subst a.toStr b.toStr (ls.map litText) := by
  induction h with
  | cmp op n hn h => exact cmp_subst h hn
  | and _ _ ih1 ih2 =>
    rw [List.map_append]
    have := (ih1.app (Subst.same (by decide : '?' ∉ s%" AND "))).app ih2
    simpa [Expr.toStr] using this
  | or _ _ ih1 ih2 =>
    rw [List.map_append]
    have := (ih1.app (Subst.same (by decide : '?' ∉ s%" OR "))).app ih2
    simpa [Expr.toStr] using this

theorem _root_.Verif.Spec.Along.append {α β : Type} {R : α → α → List β → Prop} {l m l' m' : List α} {x y : List β} (h : Along R l m x) (h' : Along R l' m' y) :
    Along R (l ++ l') (m ++ m') (x ++ y) := by
  induction h with
  | nil => exact h'
  | cons h1 _ ih => rw [List.append_assoc]; exact .cons h1 ih

theorem along_same {l : List Str} (h : ∀ x ∈ l, '?' ∉ x) : Along Subst l l [] := by
  induction l with
  | nil => exact .nil
  | cons a l ih => exact .cons (Subst.same (h a (by simp))) (ih fun x hx => h x (by simp [hx]))

theorem join_pieces {sep : Str} (hs : '?' ∉ sep) {l m : List Str} {x : List Str} (h : Along Subst l m x) :
    Subst (Str.join sep l) (Str.join sep m) x := by
  have := Subst.join (fun x : Str => x) (fun x : Str => x) hs (fun a b x (h : Subst a b x) => by simpa using h) h
  simpa using this

theorem join_no_mark {sep : Str} {l : List Str} (h : '?' ∉ Str.join sep l) : ∀ x ∈ l, '?' ∉ x := by
  induction l with
  | nil => nofun
  | cons a l ih =>
    cases l with
    | nil => intro x hx; cases List.mem_singleton.mp hx; exact h
    | cons b l =>
      simp only [Str.join, List.mem_append, not_or] at h
      intro x hx
      rcases List.mem_cons.mp hx with rfl | hx
      · exact h.1.1
      · exact ih h.2 x hx

theorem cond_pieces {c d : Condition} {ls : List Literal} (h : CondHole c d ls) :
    Along Subst (if Condition.hasConditions c then [s%"WHERE", Condition.toStr c] else [])
      (if Condition.hasConditions d then [s%"WHERE", Condition.toStr d] else []) (ls.map litText) := by
  cases h with
  | none => exact .nil
  | @some a b ls h =>
    have h1 := expr_subst h
    have : Along Subst [s%"WHERE", a.toStr] [s%"WHERE", b.toStr] ([] ++ (ls.map litText ++ [])) :=
      .cons (Subst.same (by decide)) (.cons h1 .nil)
    simp only [List.nil_append, List.append_nil] at this
    exact this

theorem names_eq {R : Column → Column → List Literal → Prop} (hr : ∀ a b x, R a b x → a.name = b.name) {l m : List Column} {x : List Literal}
    (h : Along R l m x) : l.map (·.name) = m.map (·.name) := by
  induction h with
  | nil => rfl
  | cons h1 _ ih => simp [hr _ _ _ h1, ih]

theorem bare_name (n : Str) : ({ name := n } : Table).fullTableName = n := by
  cases n <;> simp [Table.fullTableName]

/-- The columns of a row with placeholders have no question mark in their names. -/
theorem row_names {a b : List Column} {ls : List Literal} (h : Along ColumnHole a b ls) : ∀ c ∈ b, '?' ∉ c.name := by
  induction h with
  | nil => intro c hc; cases hc
  | cons h1 _ ih =>
    intro c hc
    rcases List.mem_cons.mp hc with rfl | hc
    · cases h1; assumption
    · exact ih c hc

theorem row_subst {a b : List Column} {ls : List Literal} (h : Along ColumnHole a b ls) :
    Subst (s%"(" ++ columnsValueString a ++ s%")") (s%"(" ++ columnsValueString b ++ s%")") (ls.map litText) := by
  have h1 := Subst.join (fun c : Column => Literal.valueString c.lit) litText (sep := s%", ") (by decide) (fun _ _ _ h => column_subst h) h
  have := ((Subst.same (by decide : '?' ∉ s%"(")).app h1).app (Subst.same (by decide : '?' ∉ s%")"))
  simpa [columnsValueString, joinWithComma] using this

/-- Assignments with the property of the new ones kept. -/
theorem sets_subst {a b : List Column} {ls : List Literal} (h : Along SetHole a b ls) (hp : ∀ c ∈ b, PrintableSet c) :
    Along (fun (x y : Column) ls => SetHole x y ls ∧ PrintableSet y) a b ls := by
  induction h with
  | nil => exact .nil
  | cons h1 _ ih => exact .cons ⟨h1, hp _ (by simp)⟩ (ih fun c hc => hp c (by simp [hc]))

/-- The text of a template is that of the statement with question marks for the values, and it begins with a letter. -/
theorem template_text {s t : Statement} {ls : List Literal} (h : Template s t ls) (hp : PrintableRows t) :
    ∃ q r, s.toStr = .ok q ∧ t.toStr = .ok r ∧ Subst q r (ls.map litText) ∧ ∃ c w, q = c :: w ∧ c ≠ '?' := by
  have kw : ∀ x ∈ [s%"INSERT", s%"INTO", s%"VALUES", s%"UPDATE", s%"SET", s%"DELETE", s%"FROM", s%" ", s%", ", s%"(", s%")"], '?' ∉ x := by decide
  cases h with
  | @insert t v w ls ht h =>
    cases hp with
    | insert hp =>
      obtain ⟨n, hn, rfl⟩ := hp.table
      obtain ⟨r, rs, hv, -, -⟩ := hp.row
      refine ⟨_, _, rfl, rfl, ?_, 'I', _, rfl, by decide⟩
      have hnames : columnsNameString (Insert.columns ⟨{ name := n }, v⟩) = columnsNameString (Insert.columns ⟨{ name := n }, w⟩) := by
        cases h with
        | nil => rfl
        | cons h1 _ =>
          have := names_eq (fun a b x h => by cases h; rfl) h1
          simp [Insert.columns, columnsNameString, this]
      have hcols : '?' ∉ s%"(" ++ columnsNameString (Insert.columns ⟨{ name := n }, w⟩) ++ s%")" := by
        have h1 : ∀ l : List Column, (∀ c ∈ l, '?' ∉ c.name) → '?' ∉ columnsNameString l := by
          intro l
          unfold columnsNameString joinWithComma
          induction l with
          | nil => intro _; simp
          | cons a l ih =>
            intro hl
            cases l with
            | nil => simpa [Str.join] using hl a (by simp)
            | cons b l =>
              have := ih fun c hc => hl c (by simp [hc])
              simp only [List.map_cons, Str.join, List.mem_append, not_or] at this ⊢
              exact ⟨⟨hl a (by simp), by decide⟩, this⟩
        simp only [List.mem_append, not_or]
        refine ⟨⟨by decide, h1 _ ?_⟩, by decide⟩
        cases h with
        | nil => intro c hc; cases hc
        | cons h1 _ => exact row_names h1
      have hrows := Subst.join (fun r => s%"(" ++ columnsValueString r ++ s%")") litText (sep := s%", ") (by decide) (fun _ _ _ h => row_subst h) h
      unfold Insert.toStr
      rw [hnames]
      have hs : Along Subst _ _ ([] ++ (ls.map litText ++ [])) := (along_same (l := [s%"INSERT", s%"INTO", ({ name := n } : Table).fullTableName,
        s%"(" ++ columnsNameString (Insert.columns ⟨{ name := n }, w⟩) ++ s%")", s%"VALUES"]) (by
          intro x hx
          simp only [List.mem_cons, List.not_mem_nil, or_false] at hx
          rcases hx with rfl | rfl | rfl | rfl | rfl
          · exact kw _ (by simp)
          · exact kw _ (by simp)
          · rw [bare_name]; exact ht
          · exact hcols
          · exact kw _ (by simp))).append (.cons hrows .nil)
      have := join_pieces (sep := s%" ") (by decide) hs
      simpa [joinWithSpace, joinWithComma] using this
  | @update t v w c d ls ms ht h hc =>
    cases hp with
    | update hp =>
      obtain ⟨n, hn, rfl⟩ := hp.table
      refine ⟨_, _, rfl, rfl, ?_, 'U', _, rfl, by decide⟩
      have hsets := Subst.join Column.setString litText (sep := s%", ") (by decide) (fun a b x h => set_subst h.1 h.2) (sets_subst h hp.columns)
      have hs : Along Subst _ _ ([] ++ (ls.map litText ++ []) ++ ms.map litText) := ((along_same (l := [s%"UPDATE", ({ name := n } : Table).fullTableName, s%"SET"]) (by
          intro x hx
          simp only [List.mem_cons, List.not_mem_nil, or_false] at hx
          rcases hx with rfl | rfl | rfl
          · exact kw _ (by simp)
          · rw [bare_name]; exact ht
          · exact kw _ (by simp))).append (.cons hsets .nil)).append (cond_pieces hc)
      have := join_pieces (sep := s%" ") (by decide) hs
      simpa [Update.toStr, joinWithSpace, joinWithComma] using this
  | @delete t c d ls ht hc =>
    cases hp with
    | delete hp =>
      obtain ⟨n, hn, rfl⟩ := hp.table
      refine ⟨_, _, rfl, rfl, ?_, 'D', _, rfl, by decide⟩
      have hs : Along Subst _ _ ([] ++ ls.map litText) := (along_same (l := [s%"DELETE", s%"FROM", ({ name := n } : Table).fullTableName]) (by
          intro x hx
          simp only [List.mem_cons, List.not_mem_nil, or_false] at hx
          rcases hx with rfl | rfl | rfl
          · exact kw _ (by simp)
          · exact kw _ (by simp)
          · rw [bare_name]; exact ht)).append (cond_pieces hc)
      have := join_pieces (sep := s%" ") (by decide) hs
      simpa [Delete.toStr, joinWithSpace] using this
  | @select s c d ls h hc =>
    cases hp with
    | select hp =>
      refine ⟨_, _, rfl, rfl, ?_, 'S', _, rfl, by decide⟩
      have h1 := join_no_mark h
      have hpre := along_same (l := [s%"SELECT", if 0 < s.selectors.length then selectorsString s.selectors else s%"*", s%"FROM", tablesString s.tables])
        fun x hx => h1 x (by simp only [List.mem_append]; exact .inl (.inl (.inl (.inl hx))))
      have hpost := along_same (l := (if 0 < (orderByString s.orderBy).length then [orderByString s.orderBy] else []) ++
          (if 0 < s.limit.toStr.length then [s.limit.toStr] else []) ++ (if 0 < (groupByString s.groupBy).length then [groupByString s.groupBy] else []))
        fun x hx => h1 x (by
          simp only [List.mem_append] at hx ⊢
          rcases hx with (hx | hx) | hx
          · exact .inl (.inl (.inr hx))
          · exact .inl (.inr hx)
          · exact .inr hx)
      have := join_pieces (sep := s%" ") (by decide) ((hpre.append (cond_pieces hc)).append hpost)
      simpa [Select.toStr, joinWithSpace] using this

end Verif.Lemmas
