import Verif.Lemmas.Prepared
import Verif.Props.Bind
import Verif.Props.RoundTrip
/-! C179: prepared statements, from the text with placeholders to the reported statement. -/
namespace Verif.Props
open Verif Verif.Query Verif.Parse Verif.Bind Verif.Spec Verif.Lemmas
variable {T F V : Type}

/-- C179, with the conditions the code needs: a statement with placeholders for some of its values is printed, parameters
whose texts are those of the values are bound, and the result is parsed. If the statement with the values in place can be
read back and only the last value has a question mark, what is reported is exactly that statement. Missing: strings with
quotes or question marks and names with question marks, see `C179_injection_fails`, `C179_mark_fails`,
`C179_quote_fails` and `C179_name_fails`. -/
theorem C179_bound_partial (toUint : Str → Option Nat) (hu : ReadsNumbers toUint) (B : BEnv T F V) {s t : Statement}
    {ls : List Literal} (h : Template s t ls) (hr : PrintableRows t) (params : List (Param T F V))
    (hp : params.map (Param.text B) = ls.map fun l => some (Literal.valueString (some l)))
    (hq : ∀ l ∈ ls.dropLast, '?' ∉ Literal.valueString (some l)) :
    ∃ q text, s.toStr = .ok q ∧ bindText B q params = some text ∧ parseQuery toUint text = .ok [rowsAsText t] := by
  obtain ⟨q, r, hs, ht, hsub, c, w, hc, hc'⟩ := template_text h hr
  obtain ⟨p, ps, rfl, hf, h1, h2, h3⟩ := hsub.marked
  have hne : p ≠ [] := by
    rintro rfl
    cases ps with
    | nil => cases hc
    | cons p₁ ps => simp only [marked, List.nil_append] at hc; injection hc with hc; exact hc' hc.symm
  have hp' : params.map (Param.text B) = (ls.map litText).map some := by rw [hp, List.map_map]; rfl
  have hq' : ∀ v ∈ (ls.map litText).dropLast, '?' ∉ v := by
    intro v hv
    rw [← List.map_dropLast] at hv
    obtain ⟨l, hl, rfl⟩ := List.mem_map.mp hv
    exact hq l hl
  have hb := (C50_bind_partial B (fun _ => (none : Option Unit)) p ps params (ls.map litText) hne h1 h2 hp' hq' (by omega)).1
  refine ⟨_, _, hs, hb, ?_⟩
  rw [← hf]
  cases hr with
  | insert hi => injection ht with ht; subst ht; exact C09_roundtrip_partial toUint _ hi
  | update hi => injection ht with ht; subst ht; exact C10_update_partial toUint _ hi
  | delete hi => injection ht with ht; subst ht; exact C10_delete_partial toUint _ hi
  | select hi => injection ht with ht; subst ht; exact C08_roundtrip_partial toUint hu _ hi

/-- C179 for strings: the reported statement has exactly the bound strings as values. -/
theorem C179_strings_partial (toUint : Str → Option Nat) (hu : ReadsNumbers toUint) (B : BEnv T F V) {s t : Statement} (vs : List Str)
    (h : Template s t (vs.map fun v => { v := .str v, t := .string })) (hr : PrintableRows t) (hq : ∀ v ∈ vs.dropLast, '?' ∉ v) :
    ∃ q text, s.toStr = .ok q ∧ bindText B q (vs.map .str) = some text ∧ parseQuery toUint text = .ok [rowsAsText t] := by
  refine C179_bound_partial toUint hu B h hr _ ?_ ?_
  · rw [List.map_map, List.map_map]; rfl
  · intro l hl
    rw [← List.map_dropLast] at hl
    obtain ⟨v, hv, rfl⟩ := List.mem_map.mp hl
    have := hq v hv
    show '?' ∉ ('\'' :: v ++ ['\''])
    simpa using this

/-- The comparison of a column with a string. -/
def isString (a x : Str) : Expr := .cmp ⟨.eq, { name := a }, some { v := .str x, t := .string }⟩

/-- C179 fails when a string has quotes, whatever the names are, as long as they have no
question mark: a string that closes its quotes adds a condition. -/
theorem C179_injection_fails (toUint : Str → Option Nat) (B : BEnv T F V) {t a b : Str} (ht : AnyName t ∧ '?' ∉ t) (ha : AnyName a ∧ '?' ∉ a)
    (hb : AnyName b)
    {x y : Str} (hx : '\'' ∉ x ∧ '"' ∉ x) (hy : '\'' ∉ y ∧ '"' ∉ y) :
    ∃ text, bindText B (s%"DELETE FROM " ++ t ++ s%" WHERE " ++ a ++ s%" = ?") [.str (x ++ s%"' OR " ++ b ++ s%" = '" ++ y)] = some text ∧
      parseQuery toUint text = .ok [.delete { table := { name := t }, cond := some (.or (isString a x) (isString b y)) }] := by
  have hm : '?' ∉ s%"DELETE FROM " ++ t ++ s%" WHERE " ++ a ++ s%" = " := by
    simp only [List.mem_append, not_or]
    exact ⟨⟨⟨⟨by decide, ht.2⟩, by decide⟩, ha.2⟩, by decide⟩
  have h2 := C10_delete_partial toUint { table := { name := t }, cond := some (.or (isString a x) (isString b y)) }
    ⟨⟨t, ht.1, rfl⟩, fun e he => by
      cases he
      exact .or ⟨rfl, ha.1, ⟨nofun, nofun⟩, _, rfl, printable_str hx.1 hx.2⟩ ⟨rfl, hb, ⟨nofun, nofun⟩, _, rfl, printable_str hy.1 hy.2⟩⟩
  have he : (({ table := { name := t }, cond := some (.or (isString a x) (isString b y)) } : Delete)).toStr =
      filled (s%"DELETE FROM " ++ t ++ s%" WHERE " ++ a ++ s%" = ") [[]] ['\'' :: (x ++ s%"' OR " ++ b ++ s%" = '" ++ y) ++ ['\'']] := by
    have hc : ∀ n : Str, ({ name := n } : Column).toStr = n := fun _ => rfl
    simp [Delete.toStr, bare_name, Util.joinWithSpace, Str.join, hc, Util.escapeString, Condition.hasConditions, Condition.toStr, isString, Expr.toStr, Cmp.toStr, filled, marked,
      Literal.valueString, CmpOp.toStr, Val.print]
  have h := (C50_bind_partial B (fun _ => (none : Option Unit)) (s%"DELETE FROM " ++ t ++ s%" WHERE " ++ a ++ s%" = ") [[]]
    [.str (x ++ s%"' OR " ++ b ++ s%" = '" ++ y)] ['\'' :: (x ++ s%"' OR " ++ b ++ s%" = '" ++ y) ++ ['\'']]
    (by simp) hm (by simp) rfl (by simp) (by simp)).1
  refine ⟨_, ?_, h2⟩
  rw [he, ← h]
  simp [marked]

/-- The UPDATE that sets one column to a string where another one is equal to a placeholder. -/
def shifted (t a b v : Str) : Update :=
  { table := { name := t }, columns := [{ name := a, lit := some { v := .str v, t := .string } }],
    cond := some (.cmp ⟨.eq, { name := b }, some placeholder⟩) }

/-- C179 fails when a string that is not the last one has a question mark, whatever the names are, as long as they have none:
the next value is put into the string, and its own placeholder stays in the condition. -/
theorem C179_mark_fails (toUint : Str → Option Nat) (B : BEnv T F V) {t a b : Str} (ht : AnyName t ∧ '?' ∉ t) (ha : AnyName a ∧ '?' ∉ a)
    (hb : AnyName b)
    {x y w : Str} (hx : '?' ∉ x ∧ '\'' ∉ x ∧ '"' ∉ x) (hy : '\'' ∉ y ∧ '"' ∉ y) (hw : '\'' ∉ w ∧ '"' ∉ w) (p : Param T F V) (hp : p.text B = some w) :
    ∃ text, bindText B (s%"UPDATE " ++ t ++ s%" SET " ++ a ++ s%" = ? WHERE " ++ b ++ s%" = ?") [.str (x ++ '?' :: y), p] = some text ∧
      parseQuery toUint text = .ok [.update (shifted t a b (x ++ w ++ y))] := by
  let u : Update := shifted t a b (x ++ w ++ y)
  have hm : '?' ∉ s%"UPDATE " ++ t ++ s%" SET " ++ a ++ s%" = " := by
    simp only [List.mem_append, not_or]
    exact ⟨⟨⟨⟨by decide, ht.2⟩, by decide⟩, ha.2⟩, by decide⟩
  have hm' : '?' ∉ s%"UPDATE " ++ t ++ s%" SET " ++ a ++ s%" = " ++ '\'' :: x := by
    simp only [List.mem_append, List.mem_cons, not_or] at hm ⊢
    exact ⟨hm, by decide, hx.1⟩
  have h2 := C10_update_partial toUint u ⟨⟨t, ht.1, rfl⟩, by simp [u, shifted], fun c hc => by
      cases List.mem_singleton.mp hc
      refine .lit ⟨rfl, ha.1, _, rfl, printable_str ?_ ?_⟩ <;> simp [hx, hy, hw], fun e he => by
      cases he
      exact .one ⟨rfl, hb, ⟨nofun, nofun⟩, _, rfl, .bind (x := []) (.inl rfl) nofun⟩⟩
  have h1 := bindOne_mark (s%"UPDATE " ++ t ++ s%" SET " ++ a ++ s%" = ") (s%" WHERE " ++ b ++ s%" = ?") ('\'' :: (x ++ '?' :: y) ++ ['\'']) 0 hm (by simp)
  have h3 := bindOne_mark (s%"UPDATE " ++ t ++ s%" SET " ++ a ++ s%" = " ++ '\'' :: x) (y ++ s%"' WHERE " ++ b ++ s%" = ?") w 1 hm' (by simp)
  have he : u.toStr = s%"UPDATE " ++ t ++ s%" SET " ++ a ++ s%" = " ++ '\'' :: x ++ w ++ (y ++ s%"' WHERE " ++ b ++ s%" = ?") := by
    have hc : ∀ n : Str, ({ name := n } : Column).toStr = n := fun _ => rfl
    have hs : ∀ (n : Str) (l : Literal), ({ name := n, lit := some l } : Column).setString = n ++ s%" = " ++ Literal.valueString (some l) := fun _ _ => rfl
    simp [u, shifted, hs, Update.toStr, bare_name, Util.joinWithSpace, Util.joinWithComma, Str.join, hc, Util.escapeString, Condition.hasConditions, Condition.toStr,
      Expr.toStr, Cmp.toStr, Literal.valueString, CmpOp.toStr, Val.print, placeholder]
  refine ⟨u.toStr, ?_, h2⟩
  have e1 : s%"UPDATE " ++ t ++ s%" SET " ++ a ++ s%" = ? WHERE " ++ b ++ s%" = ?" =
      (s%"UPDATE " ++ t ++ s%" SET " ++ a ++ s%" = ") ++ '?' :: (s%" WHERE " ++ b ++ s%" = ?") := by simp
  have e2 : (s%"UPDATE " ++ t ++ s%" SET " ++ a ++ s%" = ") ++ ('\'' :: (x ++ '?' :: y) ++ ['\'']) ++ (s%" WHERE " ++ b ++ s%" = ?") =
      (s%"UPDATE " ++ t ++ s%" SET " ++ a ++ s%" = " ++ '\'' :: x) ++ '?' :: (y ++ s%"' WHERE " ++ b ++ s%" = ?") := by simp
  unfold bindText
  rw [e1, bindLoop, show Param.text B (.str (x ++ '?' :: y)) = some ('\'' :: (x ++ '?' :: y) ++ ['\'']) from rfl]
  simp only [h1]
  rw [e2, bindLoop, hp]
  simp only [h3, bindLoop, he]

/-- C179 fails when a quoted name has a question mark: the value is put into the name, and its own placeholder stays in
the condition. -/
theorem C179_name_fails (toUint : Str → Option Nat) (B : BEnv T F V) {x y w a : Str} (hx : '?' ∉ x ∧ '"' ∉ x) (hy : '"' ∉ y) (hw : '"' ∉ w)
    (ha : AnyName a) (p : Param T F V) (hp : p.text B = some w) :
    ∃ text, bindText B (s%"DELETE FROM \"" ++ x ++ '?' :: y ++ s%"\" WHERE " ++ a ++ s%" = ?") [p] = some text ∧
      parseQuery toUint text = .ok [.delete { table := { name := '"' :: (x ++ w ++ y) ++ ['"'] }, cond := some (.cmp ⟨.eq, { name := a }, some placeholder⟩) }] := by
  let d : Delete := { table := { name := '"' :: (x ++ w ++ y) ++ ['"'] }, cond := some (.cmp ⟨.eq, { name := a }, some placeholder⟩) }
  have hm : '?' ∉ s%"DELETE FROM \"" ++ x := by
    simp only [List.mem_append, not_or]
    exact ⟨by decide, hx.1⟩
  have h2 := C10_delete_partial toUint d ⟨⟨_, .inr (.double (.of_not_mem (by simp [hx, hy, hw]))), rfl⟩, fun e he => by
      cases he
      exact .one ⟨rfl, ha, ⟨nofun, nofun⟩, _, rfl, .bind (x := []) (.inl rfl) nofun⟩⟩
  have h1 := bindOne_mark (s%"DELETE FROM \"" ++ x) (y ++ s%"\" WHERE " ++ a ++ s%" = ?") w 0 hm (by simp)
  have he : d.toStr = s%"DELETE FROM \"" ++ x ++ w ++ (y ++ s%"\" WHERE " ++ a ++ s%" = ?") := by
    have hc : ∀ n : Str, ({ name := n } : Column).toStr = n := fun _ => rfl
    simp only [d, Delete.toStr, bare_name]
    simp [Util.joinWithSpace, Str.join, hc, Util.escapeString, Condition.hasConditions, Condition.toStr, Expr.toStr, Cmp.toStr, Literal.valueString, CmpOp.toStr,
      Val.print, placeholder]
  refine ⟨d.toStr, ?_, h2⟩
  have e1 : s%"DELETE FROM \"" ++ x ++ '?' :: y ++ s%"\" WHERE " ++ a ++ s%" = ?" = (s%"DELETE FROM \"" ++ x) ++ '?' :: (y ++ s%"\" WHERE " ++ a ++ s%" = ?") := by simp
  unfold bindText
  rw [e1, bindLoop, hp]
  simp only [h1, bindLoop, he]

example : bindText bEnv s%"DELETE FROM \"who?\" WHERE a = ?" [.str s%"x"] = some s%"DELETE FROM \"who'x'\" WHERE a = ?" := by decide +kernel

/-! ### Examples -/

/-- An INSERT with two placeholders, for a string and a number. -/
def twoHoles : Insert :=
  { table := { name := s%"t" }, values := [[{ name := s%"a", lit := some placeholder }, { name := s%"b", lit := some { v := .i64 1 } },
      { name := s%"c", lit := some placeholder }]] }

/-- The INSERT with the values. -/
def twoFilled : Insert :=
  { table := { name := s%"t" }, values := [[{ name := s%"a", lit := some { v := .str s%"x y", t := .string } }, { name := s%"b", lit := some { v := .i64 1 } },
      { name := s%"c", lit := some { v := .i64 12 } }]] }

theorem twoHoles_template : Template (.insert twoHoles) (.insert twoFilled) [{ v := .str s%"x y", t := .string }, { v := .i64 12 }] :=
  .insert _ (ls := [_] ++ ([] ++ ([_] ++ [])) ++ []) (by decide) (.cons (.cons (.value _ (by decide) (.hole _)) (.cons (.value _ (by decide) (.keep _ (by decide +kernel)))
    (.cons (.value _ (by decide) (.hole _)) .nil))) .nil)

theorem twoFilled_printable : PrintableRows (.insert twoFilled) := .insert
  { table := ⟨s%"t", kept_of (by decide +kernel), rfl⟩
    row := ⟨_, _, rfl, by simp, by simp⟩
    values := by
      intro r hr c hc
      cases List.mem_singleton.mp hr
      simp only [List.mem_cons, List.not_mem_nil, or_false] at hc
      rcases hc with rfl | rfl | rfl
      · exact ⟨rfl, any_of (by decide +kernel), _, rfl, printable_str (by decide) (by decide)⟩
      · exact ⟨rfl, any_of (by decide +kernel), _, rfl, printable_i64 1⟩
      · exact ⟨rfl, any_of (by decide +kernel), _, rfl, printable_i64 12⟩ }

example : ∃ q text, Statement.toStr (.insert twoHoles) = .ok q ∧ bindText bEnv q [.str s%"x y", .other (some 12)] = some text ∧
    parseQuery (fun _ => none) text = .ok [rowsAsText (.insert twoFilled)] :=
  ⟨s%"INSERT INTO t (a, b, c) VALUES (?, 1, ?)", s%"INSERT INTO t (a, b, c) VALUES ('x y', 1, 12)", by decide +kernel, by decide +kernel, by krfl⟩
example : ([.str s%"x y", .other (some 12)] : List (Param Nat Nat (Option Nat))).map (Param.text bEnv) =
    ([{ v := .str s%"x y", t := .string }, { v := .i64 12 }] : List Literal).map fun l => some (Literal.valueString (some l)) := by decide +kernel
example : bindText bEnv s%"DELETE FROM t WHERE a = ?" [.str s%"x' OR b = 'y"] = some s%"DELETE FROM t WHERE a = 'x' OR b = 'y'" := by decide +kernel
example : bindText bEnv s%"UPDATE t SET a = ? WHERE b = ?" [.str s%"who?", .other (some 7)] = some s%"UPDATE t SET a = 'who7' WHERE b = ?" := by decide +kernel

set_option maxRecDepth 10000 in
/-- C179 fails for a string with one quote: nothing can be parsed. With the quote doubled, both quotes are reported. -/
theorem C179_quote_fails :
    (bindText bEnv s%"DELETE FROM t WHERE a = ?" [.str s%"O'Brien"] = some s%"DELETE FROM t WHERE a = 'O'Brien'" ∧
      parseQuery (fun _ => none) s%"DELETE FROM t WHERE a = 'O'Brien'" = .err) ∧
    parseQuery (fun _ => none) s%"DELETE FROM t WHERE a = 'O''Brien'" = .ok [.delete { table := { name := s%"t" }, cond := some (isString s%"a" s%"O''Brien") }] :=
  ⟨⟨by decide +kernel, by krfl⟩, by krfl⟩

end Verif.Props
