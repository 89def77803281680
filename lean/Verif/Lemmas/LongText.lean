import Verif.Lemmas.LongCond
import Verif.Lemmas.Writing
import Verif.Spec.LongCond
import Verif.Props.RoundTrip
/-! Texts of conditions that no statement has. -/
namespace Verif.Props
open Verif Verif.Lex Verif.Gram Verif.Parse Verif.Spec Verif.Query

/-- The text writes tokens that start no condition, whatever separated text follows. -/
def WritesBad (b : Str) : Prop := ∀ x ts, sepStart x = true → Lx x ts → ∃ tb, Lx (b ++ x) tb ∧ BadCond tb
/-- The text writes tokens that start no comparison, whatever separated text follows. -/
def WritesBadCmp (b : Str) : Prop := ∀ x ts, sepStart x = true → Lx x ts → ∃ tb, Lx (b ++ x) tb ∧ BadCmp tb

theorem join_tok {w : Str} (h : JoinWord w) : ∃ t ∈ joins, Writing w [kw .std t] := by
  cases h with
  | and => exact ⟨.AND_, by decide, Writing.keywords_and⟩
  | or => exact ⟨.OR_, by decide, Writing.keywords_or⟩

theorem in_writing : Writing s%"IN" [⟨.IN_, s%"IN"⟩] := by
  have h := Writing.word (w := s%"IN") (by decide +kernel)
  have e : wordKind s%"IN" = .IN_ := by decide +kernel
  rwa [e] at h

theorem badCmp_text {b : Str} (h : NoComparison b) : WritesBadCmp b := by
  intro x ts hx hl
  cases h with
  | columns ha ho hb =>
    obtain ⟨s, hs, -⟩ := Writing.cmpOp ho
    exact ⟨_, Writing.space (Writing.anyName ha) (Writing.space hs (Writing.anyName hb)) x ts hx hl, BadCmp.columns (sp := .std) _ s _⟩
  | qualified ht hc ho =>
    obtain ⟨s, hs, -⟩ := Writing.cmpOp ho
    have := Writing.space (Writing.dotted ht hc) hs x ts hx hl
    simp only [List.append_assoc, List.cons_append] at this ⊢
    exact ⟨_, this, BadCmp.qualified (sp := .std) _ _⟩
  | number hn ho =>
    obtain ⟨s, hs, -⟩ := Writing.cmpOp ho
    exact ⟨_, Writing.space (Writing.num hn) hs x ts hx hl, BadCmp.number _⟩

theorem bad_text {b : Str} (h : NoCondition b) : WritesBad b := by
  intro x ts hx hl
  cases h with
  | first h =>
    cases h with
    | columns ha ho hb =>
      obtain ⟨s, hs, -⟩ := Writing.cmpOp ho
      exact ⟨_, Writing.space (Writing.anyName ha) (Writing.space hs (Writing.anyName hb)) x ts hx hl, BadCond.columns (sp := .std) _ s _⟩
    | qualified ht hc ho =>
      obtain ⟨s, hs, -⟩ := Writing.cmpOp ho
      have := Writing.space (Writing.dotted ht hc) hs x ts hx hl
      simp only [List.append_assoc, List.cons_append] at this ⊢
      exact ⟨_, this, BadCond.qualified (sp := .std) _ _ s⟩
    | number hn ho =>
      obtain ⟨s, hs, -⟩ := Writing.cmpOp ho
      exact ⟨_, Writing.space (Writing.num hn) hs x ts hx hl, BadCond.number (sp := .std) _ s⟩
  | second ha hw hb =>
    obtain ⟨t, ht, hwt⟩ := join_tok hw
    obtain ⟨a, haw, -⟩ := Writing.cmp ha
    obtain ⟨tb, hb, hbad⟩ := badCmp_text hb x ts hx hl
    refine ⟨_, ?_, BadCond.second (sp := .std) a ht hbad⟩
    have := haw _ _ rfl (Lx.space (hwt _ _ rfl (Lx.space hb)))
    simpa using this
  | @secondIn _ _ c ha hw hc =>
    obtain ⟨t, ht, hwt⟩ := join_tok hw
    obtain ⟨a, haw, -⟩ := Writing.cmp ha
    refine ⟨_, ?_, BadCond.second (sp := .std) a ht (BadCmp.isIn c (y := ⟨.IN_, s%"IN"⟩) (rest := ts) rfl)⟩
    have := haw _ _ rfl (Lx.space (hwt _ _ rfl (Lx.space (Writing.space (Writing.anyName hc) in_writing x ts hx hl))))
    simpa using this
  | third ha hw hb hv =>
    obtain ⟨t, ht, hwt⟩ := join_tok hw
    obtain ⟨u, hu, hvt⟩ := join_tok hv
    obtain ⟨a, haw, -⟩ := Writing.cmp ha
    obtain ⟨b, hbw, -⟩ := Writing.cmp hb
    refine ⟨_, ?_, BadCond.second (sp := .std) a ht (BadCmp.more (sp := .std) b (y := kw .std u) (rest := ts) hu)⟩
    have := haw _ _ rfl (Lx.space (hwt _ _ rfl (Lx.space (Writing.space hbw hvt x ts hx hl))))
    simpa using this
  | join hc =>
    exact ⟨_, Writing.space Writing.keywords_and (Writing.anyName hc) x ts hx hl, BadCond.join (sp := .std) _⟩

/-- The tokens of what comes before WHERE. -/
inductive BeforeToks : List Token → Prop
  | delete (n : Str) : BeforeToks [kw .std .DELETE_, kw .std .FROM_, ident n]
  | update (n : Str) (s : SetS) (ss : List SetS) :
      BeforeToks (kw .std .UPDATE_ :: ident n :: kw .std .SET_ :: (s.toks .std ++ tailToks .std (SetS.toks .std) ss))
  | select (i : ItemS) (is : List ItemS) (ts : List TabS) :
      BeforeToks (kw .std .SELECT_ :: (i.toks .std ++ (tailToks .std (ItemS.toks .std) is ++ fromToks .std ts)))

theorem before_writing {p : Str} (h : BeforeWhere p) : ∃ tp, Writing p tp ∧ BeforeToks tp := by
  cases h with
  | @delete d h hc =>
    obtain ⟨D, hw, hv⟩ := Writing.delete h
    have : D.cond = none := by
      have := congrArg Delete.cond hv
      simpa [deleteV, deleteAsText, hc] using this
    refine ⟨_, hw, ?_⟩
    rw [DeleteS.toks, this]
    exact .delete _
  | @update u h hc =>
    obtain ⟨U, hw, hv⟩ := Writing.update h
    have : U.cond = none := by
      have := congrArg Update.cond hv
      simpa [updateV, updateAsText, hc] using this
    refine ⟨_, hw, ?_⟩
    rw [UpdateS.toks, this, commas_map]
    simp only [whereToks, List.append_nil]
    exact .update _ _ _
  | @select s h hc ho hl hg =>
    obtain ⟨f, hf⟩ := Writing.choice (fun x hx => Writing.selector (h.selectors x hx))
    obtain ⟨k, hk⟩ := Writing.choice (fun x hx => Writing.table (h.tables x hx))
    cases hs : s.selectors with
    | nil => exact absurd hs h.selected
    | cons x xs =>
      rw [hs] at hf
      have h1 := Writing.commas (x :: xs) Selector.text (fun x => (f x).toks .std) (fun y hy => (hf y hy).1)
      have h2 := Writing.commas s.tables Table.fullTableName (fun x => (k x).toks .std) (fun y hy => (hk y hy).1)
      have h3 : fromToks .std (s.tables.map k) = kw .std .FROM_ :: Spec.commas .std (s.tables.map (fun x => (k x).toks .std)) := by
        cases ht : s.tables with
        | nil => exact absurd ht h.some_table
        | cons t ts => simp [fromToks, Function.comp_def]
      have e : s.toStr = Util.joinWithSpace [s%"SELECT", Util.joinWithComma ((x :: xs).map Selector.text), s%"FROM",
          Util.joinWithComma (s.tables.map Table.fullTableName)] := by
        rw [Select.toStr, hs, hc, ho, hl, hg]
        simp [selectorsString, tablesString, Condition.hasConditions, orderByString, groupByString, Limit.toStr]
        rfl
      have := Writing.spaces (.cons (Writing.keyword .SELECT_ (by decide +kernel)) (.cons h1 (.cons (Writing.keyword .FROM_ (by decide +kernel)) (.one h2))))
      rw [e]
      refine ⟨_, this, ?_⟩
      have key := BeforeToks.select (f x) (xs.map f) (s.tables.map k)
      rw [h3] at key
      rw [show (fun x => (f x).toks .std) = (fun y => ItemS.toks .std y) ∘ f from rfl, ← List.map_map, List.map_cons, commas_map]
      simpa [Function.comp_def, Spelling.std] using key

theorem bad_query {tp tb : List Token} (h : BeforeToks tp) (hb : BadCond tb) : parseTree (tp ++ kw .std .WHERE_ :: tb) = none := by
  cases h with
  | delete n => exact query_no Heads.kw (by simp) (fun hq => delete_no n hb hq)
  | update n s ss =>
    simp only [List.cons_append, List.append_assoc]
    exact query_no Heads.kw (by simp) (fun hq => update_no n s ss hb hq)
  | select i is ts =>
    simp only [List.cons_append, List.append_assoc]
    exact query_no Heads.kw (by simp) (fun hq => select_no i is ts hb hq)

theorem parse_none (toUint : Str → Option Nat) {q : Str} {ts : List Token} (h : Lx q ts) (hn : parseTree ts = none) :
    parseQuery toUint q = .err := by
  rw [Lx, Option.map_eq_some_iff] at h
  obtain ⟨l, hl, rfl⟩ := h
  have : treeOf q = none := by rw [treeOf, hl, Option.bind_some, hn]
  rw [parseQuery, Parser.parseString, this]
  split <;> rfl

theorem lx_any (x : Str) : ∃ ts, Lx x ts := by
  obtain ⟨ts, h, -⟩ := lex_spec x
  exact ⟨visible ts, by rw [Lx, h]; rfl⟩

theorem where_writing : Writing s%"WHERE" [kw .std .WHERE_] := Writing.keyword .WHERE_ (by decide +kernel)

/-- A statement, `WHERE`, a beginning that no condition has, and any text. -/
theorem never (toUint : Str → Option Nat) {p b x : Str} (n : Nat) (hp : BeforeWhere p) (hb : NoCondition b) (hx : sepStart x = true) :
    parseQuery toUint (p ++ s%" WHERE " ++ List.replicate n ' ' ++ b ++ x) = .err := by
  obtain ⟨tp, hpw, ht⟩ := before_writing hp
  obtain ⟨ts, hts⟩ := lx_any x
  obtain ⟨tb, hbl, hbad⟩ := bad_text hb x ts hx hts
  refine parse_none toUint (ts := tp ++ kw .std .WHERE_ :: tb) ?_ (bad_query ht hbad)
  have hn : Lx (List.replicate n ' ' ++ (b ++ x)) tb := by
    induction n with
    | zero => exact hbl
    | succ n ih => exact Lx.space ih
  have := hpw _ _ rfl (Lx.space (where_writing _ _ rfl (Lx.space hn)))
  simpa using this

/-! ### Trees -/

/-- The text of a condition: comparisons with words between them. -/
def chain (c : Cmp) (l : List (Str × Cmp)) : Str := c.toStr ++ l.flatMap (fun p => ' ' :: (p.1 ++ ' ' :: p.2.toStr))

theorem chain_append (c : Cmp) (l : List (Str × Cmp)) (w : Str) (d : Cmp) (m : List (Str × Cmp)) :
    chain c l ++ ' ' :: (w ++ ' ' :: chain d m) = chain c (l ++ (w, d) :: m) := by
  simp [chain]

theorem tree_chain {e : Expr} (h : PrintableTree e) : ∃ c l, e.toStr = chain c l ∧ PrintableCmp c ∧
    (∀ p ∈ l, JoinWord p.1 ∧ PrintableCmp p.2) ∧ comparisons e = l.length + 1 := by
  have join : ∀ {l r : Expr} {w : Str} {c d : Cmp} {m n : List (Str × Cmp)}, JoinWord w → l.toStr = chain c m → PrintableCmp c →
      (∀ p ∈ m, JoinWord p.1 ∧ PrintableCmp p.2) → comparisons l = m.length + 1 → r.toStr = chain d n → PrintableCmp d →
      (∀ p ∈ n, JoinWord p.1 ∧ PrintableCmp p.2) → comparisons r = n.length + 1 →
      ∃ c' l', l.toStr ++ ' ' :: (w ++ ' ' :: r.toStr) = chain c' l' ∧ PrintableCmp c' ∧
        (∀ p ∈ l', JoinWord p.1 ∧ PrintableCmp p.2) ∧ comparisons l + comparisons r = l'.length + 1 := by
    intro l r w c d m n hw h1 h2 h3 h4 h5 h6 h7 h8
    refine ⟨c, m ++ (w, d) :: n, by rw [h1, h5, chain_append], h2, ?_, by simp; omega⟩
    intro p hp
    rcases List.mem_append.mp hp with hp | hp
    · exact h3 p hp
    · rcases List.mem_cons.mp hp with rfl | hp
      · exact ⟨hw, h6⟩
      · exact h7 p hp
  induction h with
  | @cmp c h => exact ⟨c, [], by simp [chain, Expr.toStr], h, by simp, rfl⟩
  | @and l r _ _ ihl ihr =>
    obtain ⟨c, m, h1, h2, h3, h4⟩ := ihl
    obtain ⟨d, n, h5, h6, h7, h8⟩ := ihr
    have := join .and h1 h2 h3 h4 h5 h6 h7 h8
    simpa [Expr.toStr, comparisons] using this
  | @or l r _ _ ihl ihr =>
    obtain ⟨c, m, h1, h2, h3, h4⟩ := ihl
    obtain ⟨d, n, h5, h6, h7, h8⟩ := ihr
    have := join .or h1 h2 h3 h4 h5 h6 h7 h8
    simpa [Expr.toStr, comparisons] using this

theorem tree_long {e : Expr} (h : PrintableTree e) (hn : 3 ≤ comparisons e) : ∃ b x, e.toStr = b ++ ' ' :: x ∧ NoCondition b := by
  obtain ⟨c, l, h1, h2, h3, h4⟩ := tree_chain h
  match l, h3, h4 with
  | [], _, h4 => simp at h4; omega
  | [p], _, h4 => simp at h4; omega
  | p :: q :: r, h3, _ =>
    have hp := h3 p (by simp)
    have hq := h3 q (by simp)
    refine ⟨_, q.2.toStr ++ r.flatMap (fun p => ' ' :: (p.1 ++ ' ' :: p.2.toStr)), ?_, .third h2 hp.1 hp.2 hq.1⟩
    rw [h1]
    simp [chain]

theorem tree_pos {e : Expr} (h : PrintableTree e) : 1 ≤ comparisons e := by
  induction h with
  | cmp => exact Nat.le_refl _
  | and _ _ h1 h2 => simp only [comparisons]; omega
  | or _ _ h1 h2 => simp only [comparisons]; omega

theorem tree_one {e : Expr} (h : PrintableTree e) (hn : comparisons e ≤ 1) : ∃ c, e = .cmp c ∧ PrintableCmp c := by
  cases h with
  | cmp h => exact ⟨_, rfl, h⟩
  | and h1 h2 => have := tree_pos h1; have := tree_pos h2; simp only [comparisons] at hn; omega
  | or h1 h2 => have := tree_pos h1; have := tree_pos h2; simp only [comparisons] at hn; omega

theorem tree_short {e : Expr} (h : PrintableTree e) (hn : comparisons e ≤ 2) : PrintableExpr e := by
  cases h with
  | cmp h => exact .one h
  | and h1 h2 =>
    have p1 := tree_pos h1
    have p2 := tree_pos h2
    simp only [comparisons] at hn
    obtain ⟨a, rfl, ha⟩ := tree_one h1 (by omega)
    obtain ⟨b, rfl, hb⟩ := tree_one h2 (by omega)
    exact .and ha hb
  | or h1 h2 =>
    have p1 := tree_pos h1
    have p2 := tree_pos h2
    simp only [comparisons] at hn
    obtain ⟨a, rfl, ha⟩ := tree_one h1 (by omega)
    obtain ⟨b, rfl, hb⟩ := tree_one h2 (by omega)
    exact .or ha hb

/-! ### The texts of statements with conditions -/

theorem join_space (a : Str) (l m : List Str) : Util.joinWithSpace (a :: l ++ m) = Util.joinWithSpace (a :: l) ++ m.flatMap (' ' :: ·) := by
  induction l generalizing a with
  | nil =>
    induction m generalizing a with
    | nil => simp
    | cons x m ih =>
      have := ih x
      simp only [Util.joinWithSpace, List.cons_append, List.nil_append, Str.join, List.flatMap_cons] at this ⊢
      rw [this]
      simp [Str.join]
  | cons x l ih =>
    have := ih x
    simp only [Util.joinWithSpace, List.cons_append, Str.join] at this ⊢
    rw [this]
    simp

theorem delete_text (d : Delete) (e : Expr) (h : d.cond = some e) : d.toStr = ({ d with cond := none } : Delete).toStr ++ s%" WHERE " ++ e.toStr := by
  have := join_space s%"DELETE" [s%"FROM", d.table.fullTableName] [s%"WHERE", e.toStr]
  simp only [Delete.toStr, h, Condition.hasConditions, Condition.toStr]
  simpa using this

theorem update_text (u : Update) (e : Expr) (h : u.cond = some e) : u.toStr = ({ u with cond := none } : Update).toStr ++ s%" WHERE " ++ e.toStr := by
  have := join_space s%"UPDATE" [u.table.fullTableName, s%"SET", Util.joinWithComma (u.columns.map (·.setString))] [s%"WHERE", e.toStr]
  simp only [Update.toStr, h, Condition.hasConditions, Condition.toStr]
  simpa using this

theorem select_text (s : Select) (e : Expr) (h : s.cond = some e) : ∃ x, sepStart x = true ∧
    s.toStr = ({ selectors := s.selectors, tables := s.tables, cond := none } : Select).toStr ++ s%" WHERE " ++ e.toStr ++ x := by
  have := join_space s%"SELECT" [if 0 < s.selectors.length then selectorsString s.selectors else s%"*", s%"FROM", tablesString s.tables]
    ([s%"WHERE", e.toStr] ++ ((if 0 < (orderByString s.orderBy).length then [orderByString s.orderBy] else []) ++
    (if 0 < s.limit.toStr.length then [s.limit.toStr] else []) ++
    (if 0 < (groupByString s.groupBy).length then [groupByString s.groupBy] else [])))
  refine ⟨((if 0 < (orderByString s.orderBy).length then [orderByString s.orderBy] else []) ++
    (if 0 < s.limit.toStr.length then [s.limit.toStr] else []) ++
    (if 0 < (groupByString s.groupBy).length then [groupByString s.groupBy] else [])).flatMap (' ' :: ·), ?_, ?_⟩
  · generalize (if 0 < (orderByString s.orderBy).length then [orderByString s.orderBy] else []) ++
      (if 0 < s.limit.toStr.length then [s.limit.toStr] else []) ++
      (if 0 < (groupByString s.groupBy).length then [groupByString s.groupBy] else []) = l
    cases l <;> rfl
  · have e0 : ({ selectors := s.selectors, tables := s.tables, cond := none } : Select).toStr =
      Util.joinWithSpace [s%"SELECT", if 0 < s.selectors.length then selectorsString s.selectors else s%"*", s%"FROM", tablesString s.tables] := rfl
    have e1 : s.toStr = Util.joinWithSpace ([s%"SELECT",
        if 0 < s.selectors.length then selectorsString s.selectors else s%"*", s%"FROM", tablesString s.tables] ++ ([s%"WHERE", e.toStr] ++
        ((if 0 < (orderByString s.orderBy).length then [orderByString s.orderBy] else []) ++
        ((if 0 < s.limit.toStr.length then [s.limit.toStr] else []) ++
        (if 0 < (groupByString s.groupBy).length then [groupByString s.groupBy] else []))))) := by
      simp only [Select.toStr, h, List.append_assoc]
      rfl
    rw [e0, e1]
    simp only [List.append_assoc] at this ⊢
    rw [this]
    simp

theorem join_sep (t : Str) (ts : List Str) : ∃ x, sepStart x = true ∧ Str.join s%" OR " (t :: ts) = t ++ x := by
  cases ts with
  | nil => exact ⟨[], rfl, by simp [Str.join]⟩
  | cons u us => exact ⟨s%" OR " ++ Str.join s%" OR " (u :: us), rfl, by simp [Str.join]⟩

end Verif.Props
