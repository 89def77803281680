import Verif.Spec.TestHelper
import Verif.Spec.RoundTrip
import Verif.Lemmas.Str
import Verif.Lemmas.Parsed
/-! Lemmas about the test helpers. -/
namespace Verif.Spec.TestHelper
open Verif Verif.Query Verif.TestHelper Verif.Parse

def isBlank (c : Char) : Bool := blanks.contains c

theorem nonBlank_eq (s : Str) : nonBlank s = s.filter (fun c => !(isBlank c)) := rfl

theorem isSpace_blank (c : Char) : isSpace c = isBlank c := by
  simp only [isSpace, isBlank, blanks, List.contains_cons, List.contains_nil, Bool.or_false]
  cases c == ' ' <;> cases c == '\t' <;> cases c == '\n' <;> cases c == '\r' <;> cases c == Char.ofNat 12 <;> rfl

theorem nonBlank_cons_of {c : Char} {s : Str} (h : isBlank c = true) : nonBlank (c :: s) = nonBlank s := by
  simp [nonBlank_eq, h]

theorem nonBlank_cons {c : Char} {s : Str} (h : isBlank c = false) : nonBlank (c :: s) = c :: nonBlank s := by
  simp [nonBlank_eq, h]

@[simp] theorem nonBlank_nil : nonBlank [] = [] := rfl

theorem nonBlank_append (s t : Str) : nonBlank (s ++ t) = nonBlank s ++ nonBlank t := by simp [nonBlank]

theorem nonBlank_congr {c : Char} {s t : Str} (h : nonBlank s = nonBlank t) : nonBlank (c :: s) = nonBlank (c :: t) := by
  rw [show c :: s = [c] ++ s from rfl, show c :: t = [c] ++ t from rfl, nonBlank_append, nonBlank_append, h]

theorem nonBlank_squeezeFrom (s : Str) : nonBlank (squeezeFrom s none) = nonBlank s ∧
    ∀ p, isBlank p = true → nonBlank (squeezeFrom s (some p)) = nonBlank s := by
  induction s with
  | nil => exact ⟨rfl, fun p hp => nonBlank_cons_of hp⟩
  | cons c s ih =>
    refine ⟨?_, fun p hp => ?_⟩
    · rw [squeezeFrom]
      split
      · rename_i h
        rw [isSpace_blank] at h
        rw [ih.2 c h, nonBlank_cons_of h]
      · exact nonBlank_congr ih.1
    · rw [squeezeFrom]
      split
      · rename_i h
        rw [isSpace_blank] at h
        rw [ih.2 ' ' rfl, nonBlank_cons_of h]
      · rw [nonBlank_cons_of hp]
        exact nonBlank_congr ih.1

theorem nonBlank_replaceChar {a b : Char} (ha : isBlank a = true) (hb : isBlank b = true) (s : Str) :
    nonBlank (replaceChar a b s) = nonBlank s := by
  induction s with
  | nil => rfl
  | cons c s ih =>
    rw [replaceChar, List.map_cons]
    split
    · subst c
      rw [nonBlank_cons_of hb, nonBlank_cons_of ha]; exact ih
    · exact nonBlank_congr ih

theorem nonBlank_replacePair {a b new : Char} (h : nonBlank [new] = nonBlank [a, b]) (s : Str) :
    nonBlank (replacePair a b new s) = nonBlank s := by
  fun_induction replacePair a b new s with
  | case1 => rfl
  | case2 => rfl
  | case3 c d s hc ih =>
    obtain ⟨rfl, rfl⟩ := hc
    rw [show new :: replacePair c d new s = [new] ++ replacePair c d new s from rfl, nonBlank_append, ih, h,
      ← nonBlank_append]; rfl
  | case4 c d s hc ih => exact nonBlank_congr ih

theorem takeWhile_all {α : Type} {p : α → Bool} {f : α → Bool} (h : ∀ a, p a = true → f a = false) (l : List α) :
    (l.takeWhile p).filter f = [] := by
  rw [List.filter_eq_nil_iff]
  intro a ha
  have := Str.of_mem_takeWhile p l a ha
  simp [h a this]

theorem nonBlank_trim {cut : Str} (h : ∀ c ∈ cut, isBlank c = true) (s : Str) : nonBlank (Str.trim cut s) = nonBlank s := by
  have key : ∀ l : Str, (l.dropWhile (fun c => cut.contains c)).filter (fun c => !(isBlank c)) = l.filter (fun c => !(isBlank c)) := by
    intro l
    conv => rhs; rw [← List.takeWhile_append_dropWhile (p := fun c => cut.contains c) (l := l)]
    rw [List.filter_append, takeWhile_all, List.nil_append]
    intro a ha
    simp [h a (by simpa using ha)]
  rw [nonBlank_eq, nonBlank_eq, Str.trim, Str.trimRight, List.filter_reverse, key, ← List.filter_reverse, List.reverse_reverse,
    Str.trimLeft, key]

theorem takeWhile_replicate (p : Char → Bool) (x : Char) (h : ∀ c, p c = true → c = x) (l : Str) :
    ∃ n, l.takeWhile p = List.replicate n x :=
  ⟨_, List.eq_replicate_iff.mpr ⟨rfl, fun b hb => h b (Str.of_mem_takeWhile p l b hb)⟩⟩

theorem trim_semicolon (s : Str) : ∃ a b, s = List.replicate a ';' ++ Str.trim s%";" s ++ List.replicate b ';' := by
  have hp : ∀ c : Char, List.contains s%";" c = true → c = ';' := by intro c hc; simpa using hc
  obtain ⟨a, ha⟩ := takeWhile_replicate _ ';' hp s
  obtain ⟨b, hb⟩ := takeWhile_replicate _ ';' hp ((s.dropWhile (fun c => List.contains s%";" c)).reverse)
  refine ⟨a, b, ?_⟩
  rw [Str.trim, Str.trimRight, Str.trimLeft, ← ha, ← List.reverse_replicate, ← hb, List.append_assoc, ← List.reverse_append,
    List.takeWhile_append_dropWhile, List.reverse_reverse, List.takeWhile_append_dropWhile]

/-- Formalizing keeps everything but white space and the semicolons at the ends. -/
theorem nonBlank_formalize (q : Str) : ∃ a b, nonBlank q =
    List.replicate a ';' ++ nonBlank (formalizeQuery q) ++ List.replicate b ';' := by
  obtain ⟨a, b, h⟩ := trim_semicolon q
  refine ⟨a, b, ?_⟩
  rw [formalizeQuery, nonBlank_replacePair rfl, nonBlank_replacePair rfl, nonBlank_replaceChar rfl rfl, nonBlank_replaceChar rfl rfl,
    (nonBlank_squeezeFrom _).1, trimQuery, nonBlank_trim (by decide), nonBlank_trim (by decide)]
  have hr : ∀ n, nonBlank (List.replicate n ';') = List.replicate n ';' := by
    intro n
    induction n with
    | zero => rfl
    | succ n ih => rw [List.replicate_succ, nonBlank_cons rfl, ih]
  conv => lhs; rw [h]
  rw [nonBlank_append, nonBlank_append, hr, hr]

theorem isBlank_upC (c : Char) : isBlank (Str.upC c) = isBlank c := by
  by_cases h : Str.upC c = c
  · rw [h]
  · have h1 := Str.upC_toNat c
    have hl : 97 ≤ c.toNat ∧ c.toNat ≤ 122 := by
      by_cases hc : 97 ≤ c.toNat ∧ c.toNat ≤ 122
      · exact hc
      · exact absurd (by unfold Str.upC; rw [if_neg hc]) h
    have h2 : (Str.upC c).toNat = c.toNat - 32 := by rw [h1, if_pos hl]
    have hne : ∀ d : Char, 32 < d.toNat → isBlank d = false := by
      intro d hd
      rw [isBlank, blanks]
      have e : ∀ x : Char, x.toNat ≤ 32 → (d == x) = false := by
        intro x hx
        rw [beq_eq_false_iff_ne]
        rintro rfl
        omega
      simp only [List.contains_cons, List.contains_nil, e ' ' (by decide), e '\t' (by decide), e '\n' (by decide), e '\r' (by decide),
        e (Char.ofNat 12) (by decide), Bool.or_false]
    rw [hne _ (by omega), hne _ (by omega)]

theorem upper_nonBlank (s : Str) : Str.upper (nonBlank s) = nonBlank (Str.upper s) := by
  induction s with
  | nil => rfl
  | cons c s ih =>
    rw [Str.upper_cons]
    cases h : isBlank c with
    | true => rw [nonBlank_cons_of h, nonBlank_cons_of (by rw [isBlank_upC, h]), ih]
    | false => rw [nonBlank_cons h, nonBlank_cons (by rw [isBlank_upC, h]), Str.upper_cons, ih]

/-- Equal after formalizing: the same text. -/
theorem sameText_of {q p : Str} (h : Str.eqFold (formalizeQuery q) (formalizeQuery p) = true) : SameText q p := by
  rw [Str.eqFold_iff] at h
  obtain ⟨a, b, hq⟩ := nonBlank_formalize q
  obtain ⟨c, d, hp⟩ := nonBlank_formalize p
  exact ⟨_, _, a, b, c, d, hq, hp, by rw [upper_nonBlank, upper_nonBlank, h]⟩

theorem sameText_formalized {q p : Str} (h : SameText (formalizeQuery q) p) : SameText q p := by
  obtain ⟨x, y, a, b, c, d, hq, hp, he⟩ := h
  obtain ⟨a', b', h'⟩ := nonBlank_formalize q
  refine ⟨x, y, a' + a, b + b', c, d, ?_, hp, he⟩
  rw [h', hq]
  simp only [← List.replicate_append_replicate, List.append_assoc]

theorem formalized_sameText {p q : Str} (h : SameText p (formalizeQuery q)) : SameText p q := by
  obtain ⟨x, y, a, b, c, d, hp, hq, he⟩ := h
  exact let ⟨x', y', a', b', c', d', h1, h2, h3⟩ := sameText_formalized ⟨y, x, c, d, a, b, hq, hp, he.symm⟩
    ⟨y', x', c', d', a', b', h2, h1, h3.symm⟩

/-! ### Files -/

theorem trimQuery_newlines (n : Nat) : trimQuery (List.replicate n '\n') = [] := by
  have h1 : Str.trim s%";" (List.replicate n '\n') = List.replicate n '\n' := by
    apply Str.trim_eq_self_of
    · intro a r h
      cases n with
      | zero => cases h
      | succ n => rw [List.replicate_succ] at h; cases h; rfl
    · intro r a h
      have : a ∈ List.replicate n '\n' := by rw [h]; simp
      rw [List.eq_of_mem_replicate this]; rfl
  have h2 : Str.trim s%"\n" (List.replicate n '\n') = [] := by
    rw [Str.trim, Str.trimLeft, Str.trimRight]
    have : List.dropWhile (fun c => List.contains s%"\n" c) (List.replicate n '\n') = [] := by
      clear h1
      induction n with
      | zero => rfl
      | succ n ih => rw [List.replicate_succ]; exact ih
    rw [this]; rfl
  rw [trimQuery, h1, h2]; rfl

theorem trim_newlines (n : Nat) {q : Str} (h1 : ∀ a r, q = a :: r → a ≠ '\n') (h2 : ∀ a r, q = r ++ [a] → a ≠ '\n') :
    Str.trim s%"\n" (List.replicate n '\n' ++ q) = q := by
  induction n with
  | zero =>
    refine Str.trim_eq_self_of _ _ (fun a r h => ?_) (fun r a h => ?_)
    · simpa using h1 a r h
    · simpa using h2 a r h
  | succ n ih =>
    rw [List.replicate_succ, List.cons_append]
    exact ih

theorem trimQuery_query (n : Nat) {q : Str} (h : FileQuery q) : trimQuery (List.replicate n '\n' ++ q) = q := by
  have h1 : Str.trim s%";" (List.replicate n '\n' ++ q) = List.replicate n '\n' ++ q := by
    have hmem : ∀ a, a ∈ List.replicate n '\n' ++ q → List.contains s%";" a = false := by
      intro a ha
      have : a ≠ ';' := by
        rintro rfl
        rcases List.mem_append.mp ha with h' | h'
        · exact absurd (List.eq_of_mem_replicate h') (by decide)
        · exact h.no_semicolon h'
      simpa using this
    exact Str.trim_eq_self_of _ _ (fun a r e => hmem a (by rw [e]; simp)) (fun r a e => hmem a (by rw [e]; simp))
  rw [trimQuery, h1, trim_newlines n (fun a r e => (h.first a r e).2.1) (fun a r e => (h.last a r e).2)]
  exact Str.trim_eq_self_of _ _ (fun a r e => by simpa using (h.first a r e).1) (fun r a e => by simpa using (h.last a r e).1)

theorem queriesOf_fileOf (l : List (Str × Nat)) (h : ∀ x ∈ l, FileQuery x.1) (n : Nat) :
    queriesOf (List.replicate n '\n' ++ fileOf l) = l.map (·.1) := by
  have hn : ∀ n, ';' ∉ List.replicate n '\n' := fun n hm => absurd (List.eq_of_mem_replicate hm) (by decide)
  induction l generalizing n with
  | nil =>
    rw [fileOf, List.append_nil, queriesOf, Str.splitOn_of_not_mem _ _ (hn n), List.map_singleton, trimQuery_newlines]
    rfl
  | cons x l ih =>
    obtain ⟨q, m⟩ := x
    have hq := h (q, m) (by simp)
    have hx : ';' ∉ List.replicate n '\n' ++ q := by
      intro hm
      rcases List.mem_append.mp hm with h' | h'
      · exact hn n h'
      · exact hq.no_semicolon h'
    have ih' := ih (fun y hy => h y (List.mem_cons_of_mem _ hy)) m
    rw [queriesOf] at ih' ⊢
    rw [fileOf, ← List.append_assoc, Str.splitOn_append _ _ _ hx, List.map_cons, trimQuery_query n hq, List.filter_cons, ih']
    have hk : (!(q.length == 0 || Str.hasPrefix q s%"#")) = true := by
      cases q with
      | nil => exact absurd rfl hq.some
      | cons c r =>
        have := (hq.first c r rfl).2.2
        simp [Str.hasPrefix, List.isPrefixOf, Ne.symm this]
    rw [if_pos hk, List.map_cons]

/-! ### Texts of statements with their literals as texts -/

open Verif.Spec

theorem valueString_asText (l : Option Literal) : Literal.valueString (l.map litAsText) = Literal.valueString l := by
  cases l with
  | none => rfl
  | some l => cases h : l.t <;> simp [Literal.valueString, litAsText, h, Val.print]

theorem cmp_asText (c : Cmp) : (cmpAsText c).toStr = c.toStr := by
  simp only [Cmp.toStr, cmpAsText, valueString_asText]

theorem expr_asText (e : Expr) : (exprAsText e).toStr = e.toStr := by
  induction e with
  | cmp c => exact cmp_asText c
  | and l r hl hr => simp only [exprAsText, Expr.toStr, hl, hr]
  | or l r hl hr => simp only [exprAsText, Expr.toStr, hl, hr]

theorem cond_asText (c : Condition) : Condition.toStr (c.map exprAsText) = Condition.toStr c ∧
    Condition.hasConditions (c.map exprAsText) = Condition.hasConditions c := by
  cases c with
  | none => exact ⟨rfl, rfl⟩
  | some e => exact ⟨expr_asText e, rfl⟩

theorem select_asText (s : Select) : (selectAsText s).toStr = s.toStr := by
  simp only [Select.toStr, selectAsText, (cond_asText s.cond).1, (cond_asText s.cond).2]
  rfl

theorem delete_asText (d : Delete) : (deleteAsText d).toStr = d.toStr := by
  simp only [Delete.toStr, deleteAsText, (cond_asText d.cond).1, (cond_asText d.cond).2]

theorem column_asText (c : Column) : (columnAsText c).setString = c.setString ∧
    Literal.valueString (columnAsText c).lit = Literal.valueString c.lit ∧ (columnAsText c).name = c.name := by
  refine ⟨?_, valueString_asText _, rfl⟩
  simp only [Column.setString, Column.updatorString, columnAsText, valueString_asText]

theorem update_asText (u : Update) : (updateAsText u).toStr = u.toStr := by
  simp only [Update.toStr, updateAsText, (cond_asText u.cond).1, (cond_asText u.cond).2, List.map_map, Function.comp_def,
    (column_asText _).1]

theorem insert_asText (i : Insert) : (insertAsText i).toStr = i.toStr := by
  have hc : columnsNameString (insertAsText i).columns = columnsNameString i.columns := by
    cases h : i.values with
    | nil => simp only [Insert.columns, insertAsText, h, List.map_nil]
    | cons r rs => simp only [Insert.columns, insertAsText, h, List.map_cons, columnsNameString, List.map_map, Function.comp_def,
        (column_asText _).2.2]
  rw [Insert.toStr, hc]
  simp only [Insert.toStr, insertAsText, columnsValueString, List.map_map, Function.comp_def, (column_asText _).2.1]

end Verif.Spec.TestHelper
