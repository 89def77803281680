import Verif.Lemmas.TailNo
import Verif.Props.DmlText
import Verif.Props.AlterRefused
/-! C10: assignments of functions whose texts are syntax errors. -/
namespace Verif.Gram
open Verif Verif.Lex Verif.Spec Verif.Visit Verif.Query Verif.Parse

variable {β : Type} {k : List Token → Option β} {sp : Spelling}

theorem set_function_no (t : TabS) (n a f : Str) (r : List Token) (hq : Quiet k) :
    No (.nt .sql_stmt) k (kw sp .UPDATE_ :: (t.toks sp ++ kw sp .SET_ :: ident n :: kw sp .ASSIGN :: ident a :: ident f :: r)) := by
  obtain ⟨_ | s, m⟩ := t <;> simp only [TabS.toks, List.cons_append, List.nil_append]
  · exact No.allRests [ident f :: r, ident f :: r] (by krfl) (fun us hm => by simp at hm; subst hm; exact hq .IDENTIFIER (by krfl) _ _ rfl)
  · exact No.allRests [ident f :: r, ident f :: r] (by krfl) (fun us hm => by simp at hm; subst hm; exact hq .IDENTIFIER (by krfl) _ _ rfl)

theorem set_where_no (t : TabS) (n c : Str) (r : List Token) (hq : Quiet k) :
    No (.nt .sql_stmt) k (kw sp .UPDATE_ :: (t.toks sp ++ kw sp .SET_ :: ident n :: kw sp .ASSIGN :: kw sp .WHERE_ :: ident c :: r)) := by
  obtain ⟨_ | s, m⟩ := t <;> simp only [TabS.toks, List.cons_append, List.nil_append]
  · exact No.allRests [ident c :: r, ident c :: r] (by krfl) (fun us hm => by simp at hm; subst hm; exact hq .IDENTIFIER (by krfl) _ _ rfl)
  · exact No.allRests [ident c :: r, ident c :: r] (by krfl) (fun us hm => by simp at hm; subst hm; exact hq .IDENTIFIER (by krfl) _ _ rfl)

theorem set_comma_no (t : TabS) (n : Str) (r : List Token) :
    No (.nt .sql_stmt) k (kw sp .UPDATE_ :: (t.toks sp ++ kw sp .SET_ :: ident n :: kw sp .ASSIGN :: kw sp .COMMA :: r)) := by
  obtain ⟨_ | s, m⟩ := t <;> simp only [TabS.toks, List.cons_append, List.nil_append]
  · exact No.allRests [] (by krfl) (by simp)
  · exact No.allRests [] (by krfl) (by simp)

theorem set_end_no (t : TabS) (n : Str) : parseTree (kw sp .UPDATE_ :: (t.toks sp ++ [kw sp .SET_, ident n, kw sp .ASSIGN])) = none := by
  obtain ⟨_ | s, m⟩ := t <;> simp only [TabS.toks, List.cons_append, List.nil_append] <;> krfl

end Verif.Gram

namespace Verif.Props
open Verif Verif.Lex Verif.Gram Verif.Spec Verif.Query Verif.Parse

theorem target_writing {t : Table} (h : ReadableTarget t) : ∃ T : TabS, Writing t.fullTableName (T.toks .std) := by
  rcases h with ⟨n, hn, ht⟩ | ht
  · refine ⟨⟨none, n⟩, ?_⟩
    rw [ht, Writing.fullTableName_any hn]
    exact Writing.anyName hn
  · exact ⟨tabOf t, tabOf_writing ht⟩

theorem refused_lx (toUint : Str → Option Nat) {q : Str} {x : Token} {ts : List Token} (h : Lx q (x :: ts)) (hs : x.kind ∈ startToks)
    (hno : ∀ {γ : Type} {k : List Token → Option γ}, Quiet k → No (.nt .sql_stmt) k (x :: ts)) : parseQuery toUint q = .err :=
  parse_none toUint h (query_no (fun y l' e => by rw [← (List.cons.inj e).1]; exact hs) (by simp) hno)

/-- The text of an UPDATE from its first value on. -/
theorem update_first_text (u : Update) (c : Column) (cs : List Column) (hc : u.columns = c :: cs) :
    u.toStr = Util.joinWithSpace [s%"UPDATE", u.table.fullTableName, s%"SET", c.name, s%"="] ++ ' ' :: (c.updatorString ++
      ((if cs = [] then [] else ',' :: ' ' :: Util.joinWithComma (cs.map (·.setString))) ++
       (match u.cond with
        | none => []
        | some e => ' ' :: (s%"WHERE" ++ ' ' :: e.toStr)))) := by
  have h1 : Util.joinWithComma ((c :: cs).map (·.setString)) = c.setString ++ (if cs = [] then [] else ',' :: ' ' :: Util.joinWithComma (cs.map (·.setString))) := by
    cases cs with
    | nil => simp [Util.joinWithComma, Str.join]
    | cons d cs => simp [Util.joinWithComma, Str.join]
  rw [Update.toStr, hc, h1]
  cases u.cond with
  | none => simp [Util.joinWithSpace, Str.join, Column.setString, Condition.hasConditions]
  | some e => simp [Util.joinWithSpace, Str.join, Column.setString, Condition.hasConditions, Condition.toStr]

/-- C10 is false of the code for all UPDATE statements whose first assignment is a function with an executor that is a name,
like ABS: the text is a syntax error, with a column as the first argument whatever follows, and without arguments if the
condition is one of the grammar. -/
theorem C10_function_fails (toUint : Str → Option Nat) (u : Update) (ht : ReadableTarget u.table) (c : Column) (cs : List Column)
    (hc : u.columns = c :: cs) (hn : AnyName c.name) (e : Exec) (he : executorOf c = some e) (hf : Name e.name) :
    (∀ a as, c.args = a :: as → AnyName a → parseQuery toUint u.toStr = .err) ∧
    (c.args = [] → ReadableCond u.cond → parseQuery toUint u.toStr = .err) := by
  obtain ⟨T, hT⟩ := target_writing ht
  have hu : c.updatorString = Str.join s%" " (weaveArgs e.name c.args) := by
    rw [Column.updatorString]
    rw [executorOf] at he
    rw [he]
  have hass : Writing s%"=" [kw .std .ASSIGN] := Writing.op rfl (by decide) (by decide +kernel) (by decide +kernel)
  have hA := Writing.spaces (.cons (Writing.keyword .UPDATE_ (by decide +kernel)) (.cons hT (.cons (Writing.keyword .SET_ (by decide +kernel)) (.cons (Writing.anyName hn) (.one hass)))))
  have hst : (kw .std .UPDATE_).kind ∈ startToks := by decide
  rw [update_first_text u c cs hc, hu]
  constructor
  · intro a as ha han
    rw [ha]
    obtain ⟨r, hr, hs⟩ : ∃ r, Str.join s%" " (weaveArgs e.name (a :: as)) = a ++ ' ' :: (e.name ++ r) ∧ sepStart r = true := by
      cases as with
      | nil => exact ⟨[], by simp [weaveArgs, Str.join], rfl⟩
      | cons b as => exact ⟨' ' :: Str.join s%" " (b :: as), by simp [weaveArgs, Str.join], rfl⟩
    rw [hr]
    have hs' : ∀ x y : Str, sepStart x = true → sepStart y = true → sepStart (x ++ y) = true := by
      intro x y hx hy
      cases x with
      | nil => exact hy
      | cons a x => exact hx
    have hs1 : sepStart (if cs = [] then [] else ',' :: ' ' :: Util.joinWithComma (cs.map (·.setString))) = true := by
      split <;> rfl
    have hs2 : sepStart (match u.cond with | none => [] | some e => ' ' :: (s%"WHERE" ++ ' ' :: e.toStr)) = true := by
      split <;> rfl
    have hz := hs' _ _ hs (hs' _ _ hs1 hs2)
    obtain ⟨ts, hts⟩ := lx_any (r ++ ((if cs = [] then [] else ',' :: ' ' :: Util.joinWithComma (cs.map (·.setString))) ++
      (match u.cond with | none => [] | some e => ' ' :: (s%"WHERE" ++ ' ' :: e.toStr))))
    have hW := Writing.space hA (Writing.space (Writing.anyName han) (Writing.name hf))
    have := hW _ ts hz hts
    simp only [List.append_assoc, List.cons_append, List.nil_append] at this ⊢
    exact refused_lx toUint this hst (fun hq => set_function_no T c.name a e.name ts hq)
  · intro ha hcond
    rw [ha]
    have h0 : Str.join s%" " (weaveArgs e.name []) = [] := rfl
    rw [h0, List.nil_append]
    by_cases hcs : cs = []
    · rw [if_pos hcs, List.nil_append]
      cases hcd : u.cond with
      | none =>
        have := hA (' ' :: []) [] rfl (Lx.space Lx.nil)
        refine parse_none toUint this ?_
        simpa using set_end_no (sp := .std) T c.name
      | some x =>
        obtain ⟨p1, _, p3⟩ := exprRead_ok (hcond x hcd)
        obtain ⟨s, hw, _⟩ := Writing.expr p1
        rw [p3] at hw
        obtain ⟨b, r, hb⟩ := cond_head (sp := .std) s
        rw [hb] at hw
        have h1 := Writing.space (Writing.keyword .WHERE_ (by decide +kernel)) hw
        have h2 := h1 [] [] rfl Lx.nil
        have := hA (' ' :: ' ' :: (s%"WHERE" ++ ' ' :: x.toStr)) _ rfl (Lx.space (Lx.space (by simpa [Spelling.std] using h2)))
        simp only [List.append_assoc, List.cons_append, List.nil_append] at this
        refine refused_lx toUint this hst (fun hq => ?_)
        simpa using set_where_no T c.name b r hq
    · rw [if_neg hcs]
      obtain ⟨ts, hts⟩ := lx_any (' ' :: (Util.joinWithComma (cs.map (·.setString)) ++ (match u.cond with | none => [] | some e => ' ' :: (s%"WHERE" ++ ' ' :: e.toStr))))
      have h1 := Lx.cons (longest_comma _) rfl hts
      have := hA _ _ rfl (Lx.space h1)
      simp only [List.append_assoc, List.cons_append, List.nil_append] at this ⊢
      refine refused_lx toUint this hst (fun hq => ?_)
      exact set_comma_no T c.name ts

/-! ### Statements that meet the hypotheses -/

example (toUint : Str → Option Nat) : parseQuery toUint
    (Update.toStr { table := { name := s%"t" }, columns := [{ name := s%"a", fn := some (Function.named s%"ABS" [s%"a"]), args := [s%"a"] }], cond := none }) = .err :=
  (C10_function_fails toUint { table := { name := s%"t" }, columns := [{ name := s%"a", fn := some (Function.named s%"ABS" [s%"a"]), args := [s%"a"] }], cond := none }
    (.inl ⟨_, any_of (n := s%"t") (by decide +kernel), rfl⟩) { name := s%"a", fn := some (Function.named s%"ABS" [s%"a"]), args := [s%"a"] } [] rfl (any_of (by decide +kernel))
    { name := s%"ABS", typ := .math, args := [s%"a"] } (by decide +kernel) (name_of (by decide +kernel))).1 _ _ rfl (any_of (by decide +kernel))
example (toUint : Str → Option Nat) : parseQuery toUint
    (Update.toStr { table := { name := s%"t" }, columns := [{ name := s%"a", fn := some (Function.named s%"RAND" []) }], cond := some (cmpOne s%"b") }) = .err :=
  (C10_function_fails toUint { table := { name := s%"t" }, columns := [{ name := s%"a", fn := some (Function.named s%"RAND" []) }], cond := some (cmpOne s%"b") }
    (.inl ⟨_, any_of (n := s%"t") (by decide +kernel), rfl⟩) { name := s%"a", fn := some (Function.named s%"RAND" []) } [] rfl (any_of (by decide +kernel))
    { name := s%"RAND", typ := .math } (by decide +kernel) (name_of (by decide +kernel))).2 rfl
    (fun e he => by injection he with he; subst he; exact .one ⟨any_of (by decide +kernel), by simp, _, rfl, printable_i64 _⟩)

end Verif.Props
