import Verif.Lemmas.TailNo
import Verif.Props.DmlText
import Verif.Props.SetRefused
/-! C08: SELECT statements whose texts are syntax errors. -/
namespace Verif.Spec
open Verif Verif.Query

/-- SELECT statements whose parts can be read, whatever the directions of the ordering, the limit, the offset and the
grouping are. -/
structure SelectParts (s : Select) : Prop where
  selectors : ∀ x ∈ s.selectors, ReadableSelector x
  some_table : s.tables ≠ []
  tables : ∀ t ∈ s.tables, ReadableTable t
  cond : ReadableCond s.cond
  orders : ∀ o ∈ s.orderBy, AnyName o.column
  limit : s.limit.limit < 2 ^ 64 ∧ s.limit.offset < 2 ^ 64
  group : s.groupBy = [] ∨ AnyName s.groupBy

/-- Every term of the ordering has a direction, an offset has a limit, and a grouping stands alone. -/
structure ClausesFit (s : Select) : Prop where
  directions : ∀ o ∈ s.orderBy, o.order ≠ .none
  offset : s.limit.limit = 0 → s.limit.offset = 0
  group : s.groupBy = [] ∨ (s.orderBy = [] ∧ s.limit = { offset := 0, limit := 0 })

end Verif.Spec

namespace Verif.Props
open Verif Verif.Lex Verif.Gram Verif.Spec Verif.Query Verif.Parse

/-- The words of a SELECT before its ordering. -/
def headWords (s : Select) : List Str :=
  [s%"SELECT", if 0 < s.selectors.length then selectorsString s.selectors else s%"*", s%"FROM", tablesString s.tables] ++
    Writing.whereParts s.cond

/-- The words of a SELECT from its ordering on. -/
def tailWords (s : Select) : List Str :=
  (if 0 < (orderByString s.orderBy).length then [orderByString s.orderBy] else []) ++
    ((if 0 < s.limit.toStr.length then [s.limit.toStr] else []) ++
     (if 0 < (groupByString s.groupBy).length then [groupByString s.groupBy] else []))

theorem select_words (s : Select) : s.toStr = Util.joinWithSpace (headWords s ++ tailWords s) := by
  simp [Select.toStr, headWords, tailWords, Writing.whereParts]

theorem head_parts {s : Select} (h : SelectParts s) : ∃ (i : ItemS) (is : List ItemS) (T : List TabS) (c : Option CondS),
    Writing.Parts (headWords s) (kw .std .SELECT_ :: (i.toks .std ++ (tailToks .std (ItemS.toks .std) is ++
      (fromToks .std T ++ whereToks .std c)))) ∧ (c = none → s.cond = none) := by
  obtain ⟨c1, c2, c3, c4⟩ := condRead_ok h.cond
  obtain ⟨c, hcp, hcv⟩ := Writing.cond c1
  have hcp' : Writing.Parts (Writing.whereParts s.cond) (whereToks .std c) := by
    have : Writing.whereParts (s.cond.map exprRead) = Writing.whereParts s.cond := by simp only [Writing.whereParts, c3, c4]
    rwa [this] at hcp
  have hsel : ∀ x ∈ s.selectors, ∃ y : ItemS, Writing x.text (y.toks .std) := by
    intro x hx
    obtain ⟨a, b⟩ := selectorRead_ok (h.selectors x hx)
    obtain ⟨y, hy, -⟩ := Writing.selector a
    exact ⟨y, b ▸ hy⟩
  have htab : ∀ x ∈ s.tables, ∃ y : TabS, Writing x.fullTableName (y.toks .std) := by
    intro x hx
    obtain ⟨a, b⟩ := tableRead_ok (h.tables x hx)
    obtain ⟨y, hy, -⟩ := Writing.table a
    exact ⟨y, b ▸ hy⟩
  obtain ⟨f, hf⟩ := Writing.choice hsel
  obtain ⟨g, hg⟩ := Writing.choice htab
  have h2 := Writing.commas s.tables Table.fullTableName (fun x => (g x).toks .std) hg
  have h3 : fromToks .std (s.tables.map g) = kw .std .FROM_ :: Spec.commas .std (s.tables.map (fun x => (g x).toks .std)) := by
    cases ht : s.tables with
    | nil => exact absurd ht h.some_table
    | cons t ts => simp [fromToks, Function.comp_def]
  have hstar : Writing s%"*" [kw .std .STAR] := Writing.tok rfl (fun rest _ => longest_star rest)
  have h1 : ∃ (i : ItemS) (is : List ItemS), Writing (if 0 < s.selectors.length then selectorsString s.selectors else s%"*")
      (i.toks .std ++ tailToks .std (ItemS.toks .std) is) := by
    cases hs : s.selectors with
    | nil => exact ⟨.star, [], by simpa [tailToks, ItemS.toks] using hstar⟩
    | cons x xs =>
      rw [hs] at hf
      refine ⟨f x, xs.map f, ?_⟩
      have := Writing.commas (x :: xs) Selector.text (fun x => (f x).toks .std) hf
      rw [show (x :: xs).map (fun x => (f x).toks .std) = (f x :: xs.map f).map (ItemS.toks .std) from by simp, commas_map] at this
      rw [if_pos (by simp)]
      exact this
  obtain ⟨i, is, h1⟩ := h1
  refine ⟨i, is, s.tables.map g, c, ?_, ?_⟩
  rotate_left
  · rintro rfl
    have : s.cond.map exprRead = none := by simpa using hcv.symm
    simpa using this
  have := Writing.Parts.append (.cons (Writing.keyword .SELECT_ (by decide +kernel)) (.cons h1 (.cons (Writing.keyword .FROM_ (by decide +kernel)) (.one h2)))) hcp'
  rw [h3]
  simpa [headWords, tablesString, Spelling.std] using this

/-- The tokens of a term of an ordering; none without a direction. -/
def termToks (o : Order) : List Token :=
  match o.order with
  | .none => []
  | .asc => OrderS.toks .std ⟨o.column, some .asc⟩
  | .desc => OrderS.toks .std ⟨o.column, some .desc⟩

/-- The tokens of the limit and the offset. -/
def limitToks (l : Limit) : List Token :=
  (if 0 < l.limit then [kw .std .LIMIT_, number (Str.ofNat l.limit)] else []) ++
  (if 0 < l.offset then [kw .std .OFFSET_, number (Str.ofNat l.offset)] else [])

theorem term_writing {o : Order} (h : AnyName o.column) : Writing o.toStr (termToks o) := by
  obtain ⟨c, d⟩ := o
  cases d with
  | none => exact Writing.nil
  | asc => exact Writing.spaces (.cons (Writing.anyName h) (.one (Writing.keyword .ASC_ (by decide +kernel))))
  | desc => exact Writing.spaces (.cons (Writing.anyName h) (.one (Writing.keyword .DESC_ (by decide +kernel))))

theorem order_parts {os : List Order} (h : ∀ o ∈ os, AnyName o.column) :
    Writing.Parts (if 0 < (orderByString os).length then [orderByString os] else [])
      (if os = [] then [] else kw .std .ORDER_ :: kw .std .BY_ :: Spec.commas .std (os.map termToks)) := by
  cases os with
  | nil => exact .nil
  | cons o os =>
    have e : orderByString (o :: os) = Util.joinWithSpace [s%"ORDER", s%"BY", Util.joinWithComma ((o :: os).map (·.toStr))] := by
      simp [orderByString, Util.joinWithSpace, Str.join]
    rw [if_pos (by rw [e]; simp [Util.joinWithSpace, Str.join]), e, if_neg (by simp)]
    have hc := Writing.commas (o :: os) (·.toStr) termToks (fun x hx => term_writing (h x hx))
    have := Writing.Parts.one (Writing.spaces (.cons (Writing.keyword .ORDER_ (by decide +kernel)) (.cons (Writing.keyword .BY_ (by decide +kernel)) (.one hc))))
    simpa [Spelling.std] using this

theorem limit_parts (l : Limit) : Writing.Parts (if 0 < l.toStr.length then [l.toStr] else []) (limitToks l) := by
  have hn := fun n => Writing.num (Writing.ofNat_number n)
  obtain ⟨o, n⟩ := l
  by_cases h1 : 0 < n <;> by_cases h2 : 0 < o
  · rw [show Limit.toStr ⟨o, n⟩ = Util.joinWithSpace [s%"LIMIT", Str.ofNat n, s%"OFFSET", Str.ofNat o] by simp [Limit.toStr, h1, h2],
      if_pos (by simp [Util.joinWithSpace, Str.join])]
    simp only [limitToks, if_pos h1, if_pos h2]
    have := Writing.Parts.one (Writing.spaces (.cons (Writing.keyword .LIMIT_ (by decide +kernel)) (.cons (hn n) (.cons (Writing.keyword .OFFSET_ (by decide +kernel)) (.one (hn o))))))
    simpa [Spelling.std] using this
  · rw [show Limit.toStr ⟨o, n⟩ = Util.joinWithSpace [s%"LIMIT", Str.ofNat n] by simp [Limit.toStr, h1, h2],
      if_pos (by simp [Util.joinWithSpace, Str.join])]
    simp only [limitToks, if_pos h1, if_neg h2]
    have := Writing.Parts.one (Writing.spaces (.cons (Writing.keyword .LIMIT_ (by decide +kernel)) (.one (hn n))))
    simpa [Spelling.std] using this
  · rw [show Limit.toStr ⟨o, n⟩ = Util.joinWithSpace [s%"OFFSET", Str.ofNat o] by simp [Limit.toStr, h1, h2],
      if_pos (by simp [Util.joinWithSpace, Str.join])]
    simp only [limitToks, if_neg h1, if_pos h2]
    have := Writing.Parts.one (Writing.spaces (.cons (Writing.keyword .OFFSET_ (by decide +kernel)) (.one (hn o))))
    simpa [Spelling.std] using this
  · rw [show Limit.toStr ⟨o, n⟩ = [] by simp [Limit.toStr, h1, h2, Util.joinWithSpace]]
    simp only [limitToks, if_neg h1, if_neg h2]
    exact .nil

/-- The tokens of the grouping. -/
def byToks (g : Str) : List Token := if g = [] then [] else [kw .std .GROUP_, kw .std .BY_, ident g]

theorem group_parts {g : Str} (h : g = [] ∨ AnyName g) :
    Writing.Parts (if 0 < (groupByString g).length then [groupByString g] else []) (byToks g) := by
  rcases h with rfl | h
  · exact .nil
  · have hl : g.length ≠ 0 := by simpa using Writing.anyName_ne h
    have e : groupByString g = Util.joinWithSpace [s%"GROUP", s%"BY", g] := by
      rw [groupByString, if_neg hl]
      simp [Util.joinWithSpace, Str.join]
    rw [if_pos (by rw [e]; simp [Util.joinWithSpace, Str.join]), e, byToks, if_neg (by simpa using hl)]
    exact .one (Writing.spaces (.cons (Writing.keyword .GROUP_ (by decide +kernel)) (.cons (Writing.keyword .BY_ (by decide +kernel)) (.one (Writing.anyName h)))))

theorem rest_bad (l : Limit) (g : Str) : BadTerm (limitToks l ++ byToks g) := by
  unfold limitToks byToks
  split
  · exact BadTerm.limit _
  · split
    · exact BadTerm.offset _
    · split
      · exact BadTerm.nil
      · exact BadTerm.group

theorem directed {o : Order} (h : o.order ≠ .none) : ∃ x : OrderS, termToks o = x.toks .std := by
  obtain ⟨c, d⟩ := o
  cases d with
  | none => exact absurd rfl h
  | asc => exact ⟨_, rfl⟩
  | desc => exact ⟨_, rfl⟩

/-- The terms before the first one without a direction, and what comes after that. -/
theorem split_terms {os : List Order} (h : ∃ o ∈ os, o.order = .none) : ∃ (xs : List OrderS) (post : List Order),
    os.map termToks = xs.map (OrderS.toks .std) ++ [] :: post.map termToks := by
  induction os with
  | nil => obtain ⟨o, ho, -⟩ := h; cases ho
  | cons o os ih =>
    by_cases ho : o.order = .none
    · exact ⟨[], os, by simp [termToks, ho]⟩
    · obtain ⟨x, hx⟩ := directed ho
      obtain ⟨y, hy, hyn⟩ := h
      rcases List.mem_cons.mp hy with rfl | hy
      · exact absurd hyn ho
      obtain ⟨xs, post, e⟩ := ih ⟨y, hy, hyn⟩
      exact ⟨x :: xs, post, by rw [List.map_cons, hx, e]; rfl⟩

theorem all_terms {os : List Order} (h : ∀ o ∈ os, o.order ≠ .none) : ∃ xs : List OrderS, os.map termToks = xs.map (OrderS.toks .std) := by
  induction os with
  | nil => exact ⟨[], rfl⟩
  | cons o os ih =>
    obtain ⟨x, hx⟩ := directed (h o (by simp))
    obtain ⟨xs, e⟩ := ih (fun o ho => h o (by simp [ho]))
    exact ⟨x :: xs, by rw [List.map_cons, hx, e]; rfl⟩

/-- The tokens of the clauses. -/
def clauses (s : Select) : List Token :=
  (if s.orderBy = [] then [] else kw .std .ORDER_ :: kw .std .BY_ :: Spec.commas .std (s.orderBy.map termToks)) ++
    (limitToks s.limit ++ byToks s.groupBy)

theorem gap_bad (post : List Order) {r : List Token} (h : BadTerm r) :
    BadTerm ((post.map termToks).flatMap (fun x => kw .std .COMMA :: x) ++ r) := by
  cases post with
  | nil => exact h
  | cons => exact BadTerm.comma

theorem limit_toks {m : Limit} (h : m.limit = 0 → m.offset = 0) :
    ∃ l : LimitS, limitToks m = l.toks .std ∧ (l = .none → m = { offset := 0, limit := 0 }) := by
  obtain ⟨o, n⟩ := m
  by_cases h1 : 0 < n
  · by_cases h2 : 0 < o
    · exact ⟨.offset (Str.ofNat n) (Str.ofNat o), by simp [limitToks, h1, h2, LimitS.toks], by simp⟩
    · exact ⟨.only (Str.ofNat n), by simp [limitToks, h1, h2, LimitS.toks], by simp⟩
  · have hn : n = 0 := by omega
    have h0 : o = 0 := h hn
    subst hn; subst h0
    exact ⟨.none, rfl, fun _ => rfl⟩

theorem order_toks {os : List Order} (h : ∀ o ∈ os, o.order ≠ .none) : ∃ xs : List OrderS,
    (if os = [] then [] else kw .std .ORDER_ :: kw .std .BY_ :: Spec.commas .std (os.map termToks)) = ordersToks .std xs ∧ (xs = [] → os = []) := by
  obtain ⟨xs, e⟩ := all_terms h
  refine ⟨xs, ?_, ?_⟩
  · rw [e]
    cases xs with
    | nil => rw [if_pos (by simpa using e)]; rfl
    | cons x xs => rw [if_neg (by rintro h0; rw [h0] at e; cases e)]; rfl
  · rintro rfl
    simpa using e

theorem clauses_bad {s : Select} (h : ¬ ClausesFit s) : BadTail (clauses s) := by
  unfold clauses
  by_cases hd : ∃ o ∈ s.orderBy, o.order = .none
  · obtain ⟨xs, post, e⟩ := split_terms hd
    rw [if_neg (by rintro h0; rw [h0] at hd; simp at hd), e]
    have hb : BadTerm ((post.map termToks).flatMap (fun x => kw .std .COMMA :: x) ++ (limitToks s.limit ++ byToks s.groupBy)) := gap_bad post (rest_bad s.limit s.groupBy)
    cases xs with
    | nil =>
      have := BadTail.first (sp := .std) hb
      simpa [Spec.commas] using this
    | cons x xs =>
      have := BadTail.gap (sp := .std) x xs hb
      simpa [Spec.commas, ordersToks] using this
  · have hd : ∀ o ∈ s.orderBy, o.order ≠ .none := fun o ho hn => hd ⟨o, ho, hn⟩
    obtain ⟨xs, e1, e2⟩ := order_toks hd
    rw [e1]
    by_cases ho : s.limit.limit = 0 → s.limit.offset = 0
    · have hg : ¬ (s.groupBy = [] ∨ (s.orderBy = [] ∧ s.limit = { offset := 0, limit := 0 })) := fun hg => h ⟨hd, ho, hg⟩
      have hg1 : s.groupBy ≠ [] := fun h1 => hg (.inl h1)
      obtain ⟨l, hl, hl0⟩ := limit_toks ho
      rw [hl, byToks, if_neg hg1]
      refine BadTail.group (sp := .std) xs l ?_
      by_cases hx : xs = []
      · right; intro hn; exact hg (.inr ⟨e2 hx, hl0 hn⟩)
      · exact .inl hx
    · have h1 : s.limit.limit = 0 := Classical.byContradiction fun hn => ho (fun h0 => absurd h0 hn)
      have h2 : 0 < s.limit.offset := Nat.pos_of_ne_zero (fun h0 => ho (fun _ => h0))
      rw [limitToks, if_neg (by omega), if_pos h2]
      exact BadTail.offset (sp := .std) xs _

/-- C08 for the SELECT statements whose clauses do not fit: with a term of the ordering without a direction, an offset
without a limit, or a grouping besides an ordering or a limit, the text is a syntax error, whatever is selected from
whatever tables under whatever condition. -/
theorem C08_refused_fails (toUint : Str → Option Nat) (s : Select) (h : SelectParts s) (hf : ¬ ClausesFit s) :
    parseQuery toUint s.toStr = .err := by
  obtain ⟨i, is, T, c, hp, -⟩ := head_parts h
  have ht : Writing.Parts (tailWords s) (clauses s) := (order_parts h.orders).append ((limit_parts s.limit).append (group_parts h.group))
  have hw := Writing.spaces (hp.append ht) [] [] rfl Lx.nil
  rw [← select_words, List.append_nil, List.append_nil] at hw
  refine refused_lx toUint (x := kw .std .SELECT_) (ts := i.toks .std ++ (tailToks .std (ItemS.toks .std) is ++
      (fromToks .std T ++ (whereToks .std c ++ clauses s)))) (by simpa using hw) (by decide) ?_
  intro γ k hq
  exact select_tail_no (sp := .std) i is T c (clauses_bad hf) hq

theorem parts_readable {s : Select} (h : SelectParts s) (hf : ClausesFit s) : ReadableSelect s where
  selectors := h.selectors
  some_table := h.some_table
  tables := h.tables
  cond := h.cond
  orders := fun o ho => ⟨h.orders o ho, hf.directions o ho⟩
  limit := h.limit
  offset := hf.offset
  group := by
    rcases hf.group with hg | hg
    · exact .inl hg
    · rcases h.group with h0 | h0
      · exact .inl h0
      · exact .inr ⟨h0, hg⟩

/-- C08 for all SELECT statements with readable parts: the text is accepted exactly if the clauses fit, and then read as
the SELECT with what its text says. -/
theorem C08_accepted_iff (toUint : Str → Option Nat) (hu : ReadsNumbers toUint) (s : Select) (h : SelectParts s) :
    (parseQuery toUint s.toStr = .ok [.select (selectRead s)] ↔ ClausesFit s) ∧ (parseQuery toUint s.toStr = .err ↔ ¬ ClausesFit s) := by
  by_cases hf : ClausesFit s
  · rw [C08_exact toUint hu s (parts_readable h hf)]
    simp [hf]
  · rw [C08_refused_fails toUint s h hf]
    simp [hf]

/-- A SELECT with a condition, an ordering in which the second term has no direction, a limit and a grouping. -/
def selectMisfit : Select :=
  { selectors := [.col { name := s%"a" }], tables := [{ name := s%"t" }], cond := some (cmpOne s%"a"), orderBy := [⟨s%"a", .asc⟩, ⟨s%"b", .none⟩], limit := ⟨3, 0⟩, groupBy := s%"c" }

theorem selectMisfit_parts : SelectParts selectMisfit where
  selectors := by
    intro x hx
    simp only [selectMisfit, List.mem_singleton] at hx
    subst hx
    exact .column (.inl (any_of (by decide +kernel)))
  some_table := by simp [selectMisfit]
  tables := by
    intro t ht
    simp only [selectMisfit, List.mem_singleton] at ht
    subst ht
    exact .kept (.bare (any_of (by decide +kernel)))
  cond := by
    intro e he
    injection he with he
    subst he
    exact .one ⟨any_of (by decide +kernel), by decide, _, rfl, printable_i64 1⟩
  orders := by
    intro o ho
    simp only [selectMisfit, List.mem_cons, List.not_mem_nil, or_false] at ho
    rcases ho with rfl | rfl <;> exact any_of (by decide +kernel)
  limit := by decide
  group := .inr (any_of (by decide +kernel))

example (toUint : Str → Option Nat) : selectMisfit.toStr = s%"SELECT a FROM t WHERE a = 1 ORDER BY a ASC,  OFFSET 3 GROUP BY c" ∧
    parseQuery toUint selectMisfit.toStr = .err :=
  ⟨by decide +kernel, C08_refused_fails toUint selectMisfit selectMisfit_parts (fun h => absurd (h.offset rfl) (by decide))⟩
example (toUint : Str → Option Nat) (hu : ReadsNumbers toUint) :
    parseQuery toUint { selectMisfit with orderBy := [], limit := ⟨0, 0⟩ }.toStr = .ok [.select (selectRead { selectMisfit with orderBy := [], limit := ⟨0, 0⟩ })] :=
  ((C08_accepted_iff toUint hu { selectMisfit with orderBy := [], limit := ⟨0, 0⟩ } ⟨selectMisfit_parts.selectors, selectMisfit_parts.some_table, selectMisfit_parts.tables,
    selectMisfit_parts.cond, by simp, by decide, selectMisfit_parts.group⟩).1).mpr ⟨by simp, fun _ => rfl, .inr ⟨rfl, rfl⟩⟩

end Verif.Props
