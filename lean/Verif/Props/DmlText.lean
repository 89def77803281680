import Verif.Spec.DmlText
import Verif.Props.DmlSchemas
/-! C08, C09 and C10 for all statements of the grammar: what is read, and when it is the statement itself. -/
namespace Verif.Props
open Verif Verif.Lex Verif.Gram Verif.Spec Verif.Query Verif.Parse

theorem litAsText_twice (l : Literal) : litAsText (litAsText l) = litAsText l := rfl

theorem lit_text_print {l : Literal} (h : PrintableLit l) : PrintableLit (litAsText l) := h

theorem valueString_text (l : Option Literal) : Literal.valueString (l.map litAsText) = Literal.valueString l := by
  cases l <;> rfl

theorem cmpRead_ok {c : Cmp} (h : ReadableCmp c) : PrintableCmp (cmpRead c) ∧ cmpAsText (cmpRead c) = cmpRead c ∧ (cmpRead c).toStr = c.toStr := by
  obtain ⟨l, hl, hp⟩ := h.right
  refine ⟨⟨rfl, h.name, h.op, litAsText l, by simp [cmpRead, hl], hp⟩, ?_, ?_⟩
  · simp [cmpAsText, cmpRead, hl, litAsText_twice]
  · simp only [Cmp.toStr, cmpRead, valueString_text, Column.toStr]

theorem exprRead_ok {e : Expr} (h : ReadableExpr e) : PrintableExpr (exprRead e) ∧ exprAsText (exprRead e) = exprRead e ∧ (exprRead e).toStr = e.toStr := by
  cases h with
  | one h =>
    obtain ⟨a, b, c⟩ := cmpRead_ok h
    exact ⟨.one a, by simp only [exprRead, exprAsText, b], c⟩
  | and h h' =>
    obtain ⟨a, b, c⟩ := cmpRead_ok h
    obtain ⟨a', b', c'⟩ := cmpRead_ok h'
    exact ⟨.and a a', by simp only [exprRead, exprAsText, b, b'], by simp only [exprRead, Expr.toStr, c, c']⟩
  | or h h' =>
    obtain ⟨a, b, c⟩ := cmpRead_ok h
    obtain ⟨a', b', c'⟩ := cmpRead_ok h'
    exact ⟨.or a a', by simp only [exprRead, exprAsText, b, b'], by simp only [exprRead, Expr.toStr, c, c']⟩

theorem condRead_ok {c : Condition} (h : ReadableCond c) : PrintableCond (c.map exprRead) ∧ (c.map exprRead).map exprAsText = c.map exprRead ∧
    Condition.toStr (c.map exprRead) = Condition.toStr c ∧ Condition.hasConditions (c.map exprRead) = Condition.hasConditions c := by
  cases c with
  | none => exact ⟨(fun e he => by cases he), rfl, rfl, rfl⟩
  | some e =>
    obtain ⟨a, b, c⟩ := exprRead_ok (h e rfl)
    refine ⟨(fun e' he => by injection he with he; subst he; exact a), by simp [b], c, rfl⟩

theorem selectorRead_ok {x : Selector} (h : ReadableSelector x) : PrintableSelector (selectorRead x) ∧ (selectorRead x).text = x.text := by
  cases h with
  | @star c h => exact ⟨by rw [selectorRead, h]; exact .star, rfl⟩
  | column h => exact ⟨.column h, rfl⟩
  | @count f hn hu ha =>
    exact ⟨by rw [selectorRead, ha]; exact .count hn hu, by simp [selectorRead, Selector.text, Function.toStr, Function.named, hu]⟩
  | @fn f hn hu ha => exact ⟨.fn hn hu ha, by simp [selectorRead, Selector.text, Function.toStr, Function.named, hu]⟩

theorem tableRead_ok {t : Table} (h : ReadableTable t) : PrintableTable (tableRead t) ∧ (tableRead t).fullTableName = t.fullTableName := by
  cases h with
  | kept h =>
    have : tableRead t = t := by
      cases h with
      | bare h => simp [tableRead, repeated, dotted]
      | full => simp [tableRead]
    rw [this]; exact ⟨h, rfl⟩
  | plain h =>
    have hd : '.' ∉ t.name := Writing.name_not h.1 '.' (by decide)
    rw [tableRead, if_neg hd]
    refine ⟨?_, full_repeated h⟩
    obtain ⟨hn, hs⟩ := h
    obtain ⟨sc, n⟩ := t
    by_cases he : sc = []
    · subst he; exact .bare (.inl hn)
    · have : repeated ⟨sc, n⟩ = { schema := sc, name := sc ++ '.' :: n } := by simp [repeated, dotted, he]
      rw [this]
      exact .full (.inl (hs.resolve_left he)) (.inl hn)

theorem map_self {α : Type} {f : α → α} {l : List α} : l.map f = l ↔ ∀ x ∈ l, f x = x := by
  induction l with
  | nil => simp
  | cons a l ih => simp [ih]

theorem map_same {α β : Type} {f g : α → β} {l : List α} : l.map f = l.map g ↔ ∀ x ∈ l, f x = g x := by
  induction l with
  | nil => simp
  | cons a l ih => simp [ih]

/-- C08 for all SELECT statements of the grammar, also with nothing selected, functions of any kind, columns that know
more than their names and tables with schemas: the text is read as the SELECT with what its text says. -/
theorem C08_exact (toUint : Str → Option Nat) (hu : ReadsNumbers toUint) (s : Select) (h : ReadableSelect s) :
    parseQuery toUint s.toStr = .ok [.select (selectRead s)] := by
  obtain ⟨c1, c2, c3, c4⟩ := condRead_ok h.cond
  have hsel : selectorsString (selectRead s).selectors = if 0 < s.selectors.length then selectorsString s.selectors else s%"*" := by
    by_cases he : s.selectors = []
    · simp [selectRead, he]; rfl
    · have hp : 0 < s.selectors.length := List.length_pos_iff.mpr he
      simp only [selectRead, he, if_false, if_pos hp, selectorsString, List.map_map]
      exact congrArg _ (map_same.mpr (fun x hx => (selectorRead_ok (h.selectors x hx)).2))
  have hne : (selectRead s).selectors ≠ [] := by
    by_cases he : s.selectors = []
    · simp [selectRead, he]
    · simp [selectRead, he]
  have ht : tablesString (selectRead s).tables = tablesString s.tables := by
    simp only [selectRead, tablesString, List.map_map]
    exact congrArg _ (map_same.mpr (fun x hx => (tableRead_ok (h.tables x hx)).2))
  have e : (selectRead s).toStr = s.toStr := by
    have hp : 0 < (selectRead s).selectors.length := List.length_pos_iff.mpr hne
    simp only [Select.toStr, if_pos hp, hsel, ht]
    rw [show (selectRead s).cond = s.cond.map exprRead from rfl, c3, c4]
    rfl
  have a : selectAsText (selectRead s) = selectRead s := by
    simp only [selectAsText]
    simp only [selectRead, c2]
  rw [← e, ← a]
  rw [show (selectAsText (selectRead s)).toStr = (selectRead s).toStr from by rw [a]]
  refine C08_roundtrip_partial toUint hu (selectRead s) ⟨hne, ?_, ?_, ?_, c1, h.orders, h.limit, h.offset, h.group⟩
  · intro x hx
    by_cases he : s.selectors = []
    · simp only [selectRead, he, if_true, List.mem_singleton] at hx
      subst hx; exact .star
    · simp only [selectRead, he, if_false] at hx
      obtain ⟨y, hy, rfl⟩ := List.mem_map.mp hx
      exact (selectorRead_ok (h.selectors y hy)).1
  · intro hn
    exact h.some_table (by simpa [selectRead] using hn)
  · intro t hm
    obtain ⟨y, hy, rfl⟩ := List.mem_map.mp hm
    exact (tableRead_ok (h.tables y hy)).1

theorem exprRead_iff (e : Expr) : exprRead e = exprAsText e ↔ BareLefts e := by
  induction e with
  | cmp c =>
    obtain ⟨l, o, r⟩ := c
    simp [exprRead, exprAsText, cmpRead, cmpAsText, BareLefts, OnlyName, eq_comm]
  | and l r h1 h2 => simp [exprRead, exprAsText, BareLefts, h1, h2]
  | or l r h1 h2 => simp [exprRead, exprAsText, BareLefts, h1, h2]

theorem condRead_iff (c : Condition) : c.map exprRead = c.map exprAsText ↔ ∀ e, c = some e → BareLefts e := by
  cases c with
  | none => simp
  | some e => simp [exprRead_iff]

theorem repeated_same (t : Table) : repeated t = t ↔ t.schema = [] := by
  obtain ⟨s, n⟩ := t
  by_cases he : s = []
  · subst he; simp [repeated, dotted]
  · simp only [repeated, dotted, he, if_false, Table.mk.injEq, true_and, iff_false]
    intro hn
    have := congrArg List.length hn
    simp at this
    omega

/-- C08 for all SELECT statements of the grammar: the text is read as the SELECT itself, with its literals as texts, if
and only if something is selected, columns have nothing but names, functions are as made from their names, and no table
has a schema besides the one in its name. -/
theorem C08_iff (toUint : Str → Option Nat) (hu : ReadsNumbers toUint) (s : Select) (h : ReadableSelect s) :
    parseQuery toUint s.toStr = .ok [.select (selectAsText s)] ↔ KeptSelect s := by
  rw [C08_exact toUint hu s h]
  have ht : s.tables.map tableRead = s.tables ↔ ∀ t ∈ s.tables, '.' ∉ t.name → t.schema = [] := by
    rw [map_self]
    constructor
    · intro hm t ht hd
      have := hm t ht
      rw [tableRead, if_neg hd] at this
      exact (repeated_same t).mp this
    · intro hm t ht
      by_cases hd : '.' ∈ t.name
      · rw [tableRead, if_pos hd]
      · rw [tableRead, if_neg hd]
        exact (repeated_same t).mpr (hm t ht hd)
  have hs : (if s.selectors = [] then [Selector.col { name := s%"*" }] else s.selectors.map selectorRead) = s.selectors ↔
      s.selectors ≠ [] ∧ (∀ c, .col c ∈ s.selectors → OnlyName c) ∧ (∀ f, .fn f ∈ s.selectors → f = Function.named f.name f.args) := by
    by_cases he : s.selectors = []
    · simp [he]
    · simp only [he, if_false, map_self, ne_eq, not_false_eq_true, true_and]
      constructor
      · intro hm
        refine ⟨fun c hc => ?_, fun f hf => ?_⟩
        · have := hm _ hc
          injection this with this
          exact this.symm
        · have := hm _ hf
          injection this with this
          exact this.symm
      · rintro ⟨h1, h2⟩ x hx
        cases x with
        | col c => exact congrArg Selector.col (h1 c hx).symm
        | fn f => exact congrArg Selector.fn (h2 f hx).symm
  have hq : selectRead s = selectAsText s ↔ KeptSelect s := by
    constructor
    · intro he
      have e1 := congrArg Select.selectors he
      have e2 := congrArg Select.tables he
      have e3 := congrArg Select.cond he
      obtain ⟨a, b, c⟩ := hs.mp e1
      exact ⟨a, b, c, ht.mp e2, (condRead_iff s.cond).mp e3⟩
    · rintro ⟨a, b, c, d, e⟩
      simp only [selectRead, selectAsText, hs.mpr ⟨a, b, c⟩, ht.mpr d, (condRead_iff s.cond).mpr e]
  rw [← hq]
  constructor
  · intro he
    injection he with he
    injection he with he _
    injection he
  · intro he; rw [he]

/-! ### INSERT -/

open Writing in
theorem insertRead_writing {i : Insert} (n : Str) (h : ReadableInsert i) {ts : List Token} (hw : Writing i.table.fullTableName ts) :
    ∃ I : InsertS, I.table = n ∧ Writing i.toStr (kw .std .INSERT_ :: kw .std .INTO_ :: (ts ++ valuesToks .std I)) ∧
      (I.row :: I.rows).map (rowV .std I.names) = (insertRead i).values := by
  have hval : ∀ c ∈ i.values.flatten, ∃ s : Lit, Writing (Literal.valueString c.lit) (s.toks .std) ∧
      some (litV .std s) = c.lit.map litAsText := by
    intro c hc
    obtain ⟨r', hr', hc⟩ := List.mem_flatten.mp hc
    obtain ⟨l, hl, hpl⟩ := h.values r' hr' c hc
    obtain ⟨s, hw, hs⟩ := lit hpl
    exact ⟨s, by rw [hl]; exact hw, by rw [hs, hl]; rfl⟩
  obtain ⟨g, hg⟩ := choice hval
  cases hv : i.values with
  | nil => exact absurd hv h.some_row
  | cons r rs =>
    cases r with
    | nil => exact absurd rfl (h.rows [] (by simp [hv]))
    | cons c cs =>
      have hf : firstNames i = c.name :: cs.map (·.name) := by simp [firstNames, hv]
      refine ⟨⟨n, c.name, cs.map (·.name), rowOf g (c :: cs), rs.map (rowOf g)⟩, rfl, ?_, ?_⟩
      · have h1 := Writing.parens (Writing.commas (c :: cs) (·.name) (fun c => [ident c.name])
          (fun x hx => anyName (h.names x.name (by rw [hf]; exact List.mem_map_of_mem (f := (·.name)) (l := c :: cs) hx))))
        have h2 := Writing.commas i.values (fun r => '(' :: (columnsValueString r ++ [')'])) (fun r => (rowOf g r).toks .std) (fun r' hr' => by
          have := Writing.parens (Writing.commas r' (fun c => Literal.valueString c.lit) (fun c => (g c).toks .std)
            (fun x hx => (hg x (List.mem_flatten.mpr ⟨r', hr', hx⟩)).1))
          rw [RowS.toks, rowOf_all g (h.rows r' hr'), List.map_map]
          exact this)
        have := spaces (.cons (keyword .INSERT_ (by decide +kernel)) (.cons (keyword .INTO_ (by decide +kernel)) (.cons hw
          (.cons h1 (.cons (keyword .VALUES_ (by decide +kernel)) (.one h2))))))
        rw [Insert.toStr]
        simp only [hv, List.map_cons] at this
        simpa [valuesToks, InsertS.names, Function.comp_def, Spelling.std, Insert.columns, hv, columnsNameString] using this
      · have h1 : ∀ r' ∈ i.values, rowV .std (c.name :: cs.map (·.name)) (rowOf g r') =
            List.zipWith (fun n c => { name := n, lit := c.lit.map litAsText }) (firstNames i) r' := by
          intro r' hr'
          have hz : ∀ (ns : List Str) (l : List Column), (∀ x ∈ l, x ∈ r') →
              List.zipWith (fun n l => ({ name := n, lit := some (litV .std l) } : Column)) ns (l.map g) =
              List.zipWith (fun n c => { name := n, lit := c.lit.map litAsText }) ns l := by
            intro ns
            induction ns with
            | nil => intro l _; simp
            | cons a ns ih =>
              intro l hl
              cases l with
              | nil => simp
              | cons x l =>
                simp only [List.map_cons, List.zipWith_cons_cons]
                rw [ih l (fun y hy => hl y (List.mem_cons_of_mem _ hy)), (hg x (List.mem_flatten.mpr ⟨r', hr', hl x (by simp)⟩)).2]
          rw [rowV, rowOf_all g (h.rows r' hr'), hf]
          exact hz _ r' (fun x hx => hx)
        show (rowOf g (c :: cs) :: rs.map (rowOf g)).map (rowV .std (c.name :: cs.map (·.name))) = _
        rw [← List.map_cons (f := rowOf g), List.map_map, insertRead, hv]
        exact List.map_congr_left (fun r' hr' => h1 r' (by rw [hv]; exact hr'))

/-- C09 for all INSERT statements of the grammar, also with rows of other lengths and other column names and a table with
a schema: the text is read as an INSERT in which the values of every row belong to the columns of the first one. -/
theorem C09_exact (toUint : Str → Option Nat) (i : Insert) (h : ReadableInsert i) :
    parseQuery toUint i.toStr = .ok [.insert (insertRead i)] := by
  have key : ∀ n, Util.unEscapeNameString n = n → Writing i.table.fullTableName [ident n] → bareTable i.table = { name := n } →
      parseQuery toUint i.toStr = .ok [.insert (insertRead i)] := by
    intro n hn hw hb
    obtain ⟨I, hI, hw, hv⟩ := insertRead_writing n h hw
    have e : kw .std .INSERT_ :: kw .std .INTO_ :: ([ident n] ++ valuesToks .std I) = (StmtS.insert I).toks .std := by
      rw [← hI]; simp [StmtS.toks, InsertS.toks, valuesToks]
    rw [e] at hw
    rw [parse_writing toUint (.insert I) hw, stmtV, insertV, hv, hI, hn]
    simp only [insertRead, hb]
  rcases h.table with ⟨n, hn, ht⟩ | ht
  · exact key n (Writing.unEscape_kept hn) (by rw [ht, Writing.fullTableName_any hn.1]; exact Writing.anyName hn.1) (by rw [ht]; rfl)
  · by_cases he : i.table.schema = []
    · refine key i.table.name (Writing.unEscape_name ht.1) ?_ rfl
      rw [full_dotted ht, dotted, if_pos he]
      exact Writing.anyName (.inl ht.1)
    · obtain ⟨I, hI, hw, hv⟩ := insertRead_writing i.table.name h (dotted_writing ht he)
      obtain ⟨tk, hl, hvis⟩ := writes_lex.mp hw.writes
      have := parse_insert_dot (sp := .std) toUint std_good hl i.table.schema I [] 0 (by rw [hvis, hI]; simp [moreToks])
      refine Eq.trans this ?_
      simp only [List.map_cons, List.map_nil, stmtV, insertV, hI, hv, Writing.unEscape_name ht.1]
      rfl

theorem zip_text (ns : List Str) (r : List Column) :
    List.zipWith (fun n c => ({ name := n, lit := c.lit.map litAsText } : Column)) ns r = r.map columnAsText ↔
      (∀ c ∈ r, c = { name := c.name, lit := c.lit }) ∧ r.map (·.name) <+: ns := by
  induction r generalizing ns with
  | nil => simp
  | cons c r ih =>
    cases ns with
    | nil => simp
    | cons n ns =>
      obtain ⟨cn, cd, cl, cf, ca⟩ := c
      simp only [List.zipWith_cons_cons, List.map_cons, List.cons.injEq, ih, List.cons_prefix_cons, List.forall_mem_cons, columnAsText,
        Column.mk.injEq, and_true, true_and]
      constructor
      · rintro ⟨⟨h1, h2, h3, h4⟩, h5, h6⟩
        exact ⟨⟨⟨h2.symm, h3.symm, h4.symm⟩, h5⟩, h1.symm, h6⟩
      · rintro ⟨⟨⟨h2, h3, h4⟩, h5⟩, h1, h6⟩
        exact ⟨⟨h1.symm, h2.symm, h3.symm, h4.symm⟩, h5, h6⟩

/-- C09 for all INSERT statements of the grammar: the text is read as the INSERT itself, with its literals as texts, if and
only if the table has no schema, columns have names and literals only, and the names of each row begin those of the
first row. -/
theorem C09_iff (toUint : Str → Option Nat) (i : Insert) (h : ReadableInsert i) :
    parseQuery toUint i.toStr = .ok [.insert (insertAsText i)] ↔ KeptInsert i := by
  rw [C09_exact toUint i h]
  have hb : bareTable i.table = i.table ↔ i.table.schema = [] := by
    obtain ⟨⟨s, n⟩, vs⟩ := i
    simp [bareTable, eq_comm]
  have hr : insertRead i = insertAsText i ↔ KeptInsert i := by
    constructor
    · intro he
      have e1 := congrArg Insert.table he
      have e2 := congrArg Insert.values he
      have e3 := map_same.mp e2
      exact ⟨hb.mp e1, fun r hr => ((zip_text _ _).mp (e3 r hr)).1, fun r hr => ((zip_text _ _).mp (e3 r hr)).2⟩
    · rintro ⟨a, b, c⟩
      have : (insertRead i).values = (insertAsText i).values := map_same.mpr (fun r hr => (zip_text _ _).mpr ⟨b r hr, c r hr⟩)
      show ({ table := bareTable i.table, values := (insertRead i).values } : Insert) = _
      rw [this, hb.mpr a]
      rfl
  rw [← hr]
  constructor
  · intro he
    injection he with he
    injection he with he _
    injection he
  · intro he; rw [he]

/-- C09 is false of the code for all INSERT statements of the grammar with rows longer than the first one: what is read
has no more values in any row than the first row has, and does not depend on the values beyond. -/
theorem C09_longer_fails (toUint : Str → Option Nat) (i : Insert) (h : ReadableInsert i) :
    (∃ j, parseQuery toUint i.toStr = .ok [.insert j] ∧ ∀ r ∈ j.values, r.length ≤ (firstNames i).length) ∧
    (∀ i' : Insert, ReadableInsert i' → i'.table = i.table → firstNames i' = firstNames i →
      i'.values.map (·.take (firstNames i).length) = i.values.map (·.take (firstNames i).length) →
      parseQuery toUint i'.toStr = parseQuery toUint i.toStr) ∧
    ((∃ r ∈ i.values, (firstNames i).length < r.length) → parseQuery toUint i.toStr ≠ .ok [.insert (insertAsText i)]) := by
  have hz : ∀ (ns : List Str) (r : List Column), List.zipWith (fun n c => ({ name := n, lit := c.lit.map litAsText } : Column)) ns r =
      List.zipWith (fun n c => ({ name := n, lit := c.lit.map litAsText } : Column)) ns (r.take ns.length) := by
    intro ns
    induction ns with
    | nil => simp
    | cons n ns ih =>
      intro r
      cases r with
      | nil => rfl
      | cons c r => simp only [List.zipWith_cons_cons, List.length_cons, List.take_succ_cons]; rw [← ih r]
  refine ⟨⟨_, C09_exact toUint i h, ?_⟩, ?_, ?_⟩
  · intro r hr
    obtain ⟨x, _, rfl⟩ := List.mem_map.mp hr
    rw [List.length_zipWith]
    exact Nat.min_le_left _ _
  · intro i' h' ht hf hv
    rw [C09_exact toUint i h, C09_exact toUint i' h']
    have e : ∀ j : Insert, firstNames j = firstNames i → (insertRead j).values =
        (j.values.map (·.take (firstNames i).length)).map (List.zipWith (fun n c => ({ name := n, lit := c.lit.map litAsText } : Column)) (firstNames i)) := by
      intro j hj
      rw [insertRead, List.map_map, hj]
      exact map_same.mpr (fun r _ => hz _ r)
    have : (insertRead i').values = (insertRead i).values := by rw [e i' hf, e i rfl, hv]
    have e2 : insertRead i' = insertRead i := by
      show ({ table := bareTable i'.table, values := (insertRead i').values } : Insert) = { table := bareTable i.table, values := (insertRead i).values }
      rw [this, ht]
    rw [e2]
  · rintro ⟨r, hr, hlt⟩ hp
    have := ((C09_iff toUint i h).mp hp).names r hr
    have := this.length_le
    rw [List.length_map] at this
    omega

/-! ### UPDATE and DELETE -/

theorem setRead_ok {c : Column} (h : ReadableSet c) : PrintableSet (setRead c) ∧ columnAsText (setRead c) = setRead c ∧ (setRead c).setString = c.setString := by
  cases h with
  | @lit l hn he hl hp =>
    have e : setRead c = { name := c.name, lit := some (litAsText l) } := by rw [setRead, he, hl]; rfl
    rw [e]
    refine ⟨.lit ⟨rfl, hn, _, rfl, hp⟩, rfl, ?_⟩
    have : c.updatorString = Literal.valueString c.lit := by
      rw [Column.updatorString]
      rw [executorOf] at he
      rw [he]
    rw [Column.setString, Column.setString, this, hl]
    rfl
  | @arith e a x hn he ho ha hna hx =>
    have hr : setRead c = { name := c.name, args := c.args, fn := some { typ := .arith, name := e.name, executor := some { name := e.name, typ := .arith, args := c.args } } } := by rw [setRead, he]
    have hid : ∃ k ∈ [Fn.ExecId.opAdd, .opSub, .opMul, .opDiv, .opMod], k.name = e.name ∧ k.type = .arith := by
      simp only [List.mem_cons, List.not_mem_nil, or_false] at ho
      rcases ho with h | h | h | h | h <;> rw [h]
      · exact ⟨.opAdd, by simp, rfl, rfl⟩
      · exact ⟨.opSub, by simp, rfl, rfl⟩
      · exact ⟨.opMul, by simp, rfl, rfl⟩
      · exact ⟨.opDiv, by simp, rfl, rfl⟩
      · exact ⟨.opMod, by simp, rfl, rfl⟩
    obtain ⟨k, hk, hkn, hkt⟩ := hid
    have hp := PrintableSet.arith (e := k) hn hna hx hk
    rw [arithFunction, hkn, hkt] at hp
    rw [hr, ha]
    refine ⟨hp, rfl, ?_⟩
    have : c.updatorString = Str.join s%" " (weaveArgs e.name [a, x]) := by
      rw [Column.updatorString]
      rw [executorOf] at he
      rw [he, ha]
    rw [Column.setString, Column.setString, this]
    rfl

theorem dotted_bare {n : Str} : dotted { name := n } = n := rfl

/-- C10 for all UPDATE statements of the grammar, also with columns that know more than their names and values, with
functions without an executor, and a table with a schema: the text is read as the UPDATE with what its text says. -/
theorem C10_update_exact (toUint : Str → Option Nat) (u : Update) (h : ReadableUpdate u) :
    parseQuery toUint u.toStr = .ok [.update (updateRead u)] := by
  obtain ⟨c1, c2, c3, c4⟩ := condRead_ok h.cond
  have hs : (u.columns.map setRead).map (·.setString) = u.columns.map (·.setString) := by
    rw [List.map_map]; exact map_same.mpr (fun x hx => (setRead_ok (h.columns x hx)).2.2)
  have hc : (u.columns.map setRead).map columnAsText = u.columns.map setRead := by
    rw [List.map_map]; exact map_same.mpr (fun x hx => (setRead_ok (h.columns x hx)).2.1)
  have hn : u.columns.map setRead ≠ [] := by
    intro he; exact h.assigned (by simpa using he)
  have hp : ∀ c ∈ u.columns.map setRead, PrintableSet c := by
    intro c hm
    obtain ⟨y, hy, rfl⟩ := List.mem_map.mp hm
    exact (setRead_ok (h.columns y hy)).1
  have e : u.toStr = Update.toStr { u with columns := u.columns.map setRead, cond := u.cond.map exprRead } := by
    simp only [Update.toStr, hs, c3, c4]
  rw [e]
  rcases h.table with ⟨n, ha, ht⟩ | ht
  · refine Eq.trans (C10_update_partial toUint { u with columns := u.columns.map setRead, cond := u.cond.map exprRead } ⟨⟨n, ha, ht⟩, hn, hp, c1⟩) ?_
    simp only [updateAsText, updateRead, hc, c2, ht, dotted_bare]
  · refine Eq.trans (C10_update_schema toUint { u with columns := u.columns.map setRead, cond := u.cond.map exprRead } ⟨⟨_, .inl ht.1, rfl⟩, hn, hp, c1⟩ ht) ?_
    simp only [updateAsText, updateRead, hc, c2]

/-- C10 for all DELETE statements of the grammar, also with columns that know more than their names, and a table with a
schema: the text is read as the DELETE with what its text says. -/
theorem C10_delete_exact (toUint : Str → Option Nat) (d : Delete) (h : ReadableDelete d) :
    parseQuery toUint d.toStr = .ok [.delete (deleteRead d)] := by
  obtain ⟨c1, c2, c3, c4⟩ := condRead_ok h.cond
  have e : d.toStr = Delete.toStr { d with cond := d.cond.map exprRead } := by
    simp only [Delete.toStr, c3, c4]
  rw [e]
  rcases h.table with ⟨n, ha, ht⟩ | ht
  · refine Eq.trans (C10_delete_partial toUint { d with cond := d.cond.map exprRead } ⟨⟨n, ha, ht⟩, c1⟩) ?_
    simp only [deleteAsText, deleteRead, c2, ht, dotted_bare]
  · refine Eq.trans (C10_delete_schema toUint { d with cond := d.cond.map exprRead } ⟨⟨_, .inl ht.1, rfl⟩, c1⟩ ht) ?_
    simp only [deleteAsText, deleteRead, c2]

theorem setRead_iff {c : Column} (h : ReadableSet c) : setRead c = columnAsText c ↔ KeptSet c := by
  constructor
  · intro he
    cases h with
    | lit hn hx hl hp =>
      rw [setRead, hx] at he
      obtain ⟨n, d, l, f, a⟩ := c
      simp only [columnAsText, Column.mk.injEq, true_and] at he
      obtain ⟨rfl, rfl, rfl⟩ := he
      exact .lit
    | arith hn hx ho ha hna hx' =>
      rw [setRead, hx] at he
      obtain ⟨n, d, l, f, a⟩ := c
      simp only [columnAsText, Column.mk.injEq, true_and, and_true] at he
      obtain ⟨rfl, hl, rfl⟩ := he
      cases l with
      | some l => cases hl
      | none => exact .arith
  · intro hk
    cases hk with
    | lit => rfl
    | arith => rfl

/-- C10 for all UPDATE and DELETE statements of the grammar: the text is read as the statement itself, with its literals as
texts, if and only if the table has no schema, assigned columns are a literal or an operation as the parser makes them,
and the columns of the condition have nothing but their names. -/
theorem C10_iff (toUint : Str → Option Nat) :
    (∀ u : Update, ReadableUpdate u → (parseQuery toUint u.toStr = .ok [.update (updateAsText u)] ↔
      u.table.schema = [] ∧ (∀ c ∈ u.columns, KeptSet c) ∧ ∀ e, u.cond = some e → BareLefts e)) ∧
    (∀ d : Delete, ReadableDelete d → (parseQuery toUint d.toStr = .ok [.delete (deleteAsText d)] ↔
      d.table.schema = [] ∧ ∀ e, d.cond = some e → BareLefts e)) := by
  constructor
  · intro u h
    rw [C10_update_exact toUint u h, ← dotted_iff u.table, ← condRead_iff u.cond]
    have hc : (∀ c ∈ u.columns, KeptSet c) ↔ u.columns.map setRead = u.columns.map columnAsText := by
      rw [map_same]
      exact ⟨fun hm c hc => (setRead_iff (h.columns c hc)).mpr (hm c hc), fun hm c hc => (setRead_iff (h.columns c hc)).mp (hm c hc)⟩
    rw [hc]
    constructor
    · intro he
      injection he with he
      injection he with he _
      injection he with he
      exact ⟨congrArg Update.table he, congrArg Update.columns he, congrArg Update.cond he⟩
    · rintro ⟨a, b, c⟩
      simp only [updateRead, updateAsText, a, b, c]
  · intro d h
    rw [C10_delete_exact toUint d h, ← dotted_iff d.table, ← condRead_iff d.cond]
    constructor
    · intro he
      injection he with he
      injection he with he _
      injection he with he
      exact ⟨congrArg Delete.table he, congrArg Delete.cond he⟩
    · rintro ⟨a, c⟩
      simp only [deleteRead, deleteAsText, a, c]

/-! ### Statements that meet the hypotheses -/

/-- A column that knows its type. -/
def typedA : Column := { name := s%"a", def_ := some { typ := .int, length := 0 } }

/-- A SELECT of a column with a type and of a function that has been asked for its aggregator, from a table with a schema. -/
def selectKnown : Select :=
  { selectors := [.col typedA, .fn (Function.named s%"MAX" [s%"b"]).getAggregator.1], tables := [{ schema := s%"s", name := s%"t" }],
    cond := some (.cmp { left := typedA, op := .gt, right := some { v := .i64 1 } }), limit := { offset := 2, limit := 5 } }

theorem selectKnown_readable : ReadableSelect selectKnown where
  selectors := by
    intro x hx
    simp only [selectKnown, List.mem_cons, List.not_mem_nil, or_false] at hx
    rcases hx with rfl | rfl
    · exact .column (.inl (any_of (by decide +kernel)))
    · refine .fn (name_of (by decide +kernel)) (by decide +kernel) ?_
      intro a ha
      rw [show (Function.named s%"MAX" [s%"b"]).getAggregator.1.args = [s%"b"] from by decide +kernel] at ha
      have : a = s%"b" := List.mem_singleton.mp ha
      subst this
      exact .inl (any_of (by decide +kernel))
  some_table := by simp [selectKnown]
  tables := by
    intro t ht
    simp only [selectKnown, List.mem_cons, List.not_mem_nil, or_false] at ht
    subst ht
    exact .plain plain_st
  cond := by
    intro e he
    injection he with he
    subst he
    exact .one ⟨any_of (by decide +kernel), by simp, _, rfl, printable_i64 _⟩
  orders := by simp [selectKnown]
  limit := by decide
  offset := by intro h; exact absurd h (by decide)
  group := .inl rfl

example (toUint : Str → Option Nat) (hu : ReadsNumbers toUint) : parseQuery toUint selectKnown.toStr =
    .ok [.select { selectors := [.col { name := s%"a" }, .fn { typ := .aggregate, name := s%"MAX", args := [s%"b"] }], tables := [{ schema := s%"s", name := s%"s.t" }], cond := some (.cmp { left := { name := s%"a" }, op := .gt, right := some { v := .str s%"1" } }), limit := { offset := 2, limit := 5 } }] :=
  (C08_exact toUint hu selectKnown selectKnown_readable).trans (by decide +kernel)
example (toUint : Str → Option Nat) (hu : ReadsNumbers toUint) : parseQuery toUint selectKnown.toStr ≠ .ok [.select (selectAsText selectKnown)] :=
  fun h => absurd (((C08_iff toUint hu selectKnown selectKnown_readable).mp h).tables _ (List.mem_singleton.mpr rfl)) (by decide)
example (toUint : Str → Option Nat) (hu : ReadsNumbers toUint) : parseQuery toUint (Select.toStr { selectors := [], tables := [{ name := s%"t" }], cond := none }) =
    .ok [.select { selectors := [.col { name := s%"*" }], tables := [{ name := s%"t" }], cond := none }] := by
  refine (C08_exact toUint hu { selectors := [], tables := [{ name := s%"t" }], cond := none }
    ⟨by simp, by simp, ?_, (fun e he => by cases he), by simp, by decide, fun _ => rfl, .inl rfl⟩).trans (by decide +kernel)
  intro t ht
  rw [List.mem_singleton] at ht
  subst ht
  exact .kept (.bare (any_of (by decide +kernel)))

/-- An INSERT whose second row has more values than the first, and another name. -/
def insertLong : Insert :=
  { table := { schema := s%"s", name := s%"t" },
    values := [[{ typedA with lit := some { v := .i64 1 } }], [{ name := s%"b", lit := some { v := .i64 2 } }, { name := s%"c", lit := some { v := .i64 3 } }]] }

theorem insertLong_readable : ReadableInsert insertLong where
  table := .inr plain_st
  some_row := by simp [insertLong]
  rows := by simp [insertLong]
  names := by
    intro n hn
    simp only [insertLong, firstNames, List.head?_cons, Option.getD_some, List.map_cons, List.map_nil, List.mem_singleton] at hn
    subst hn
    exact any_of (by decide +kernel)
  values := by
    intro r hr c hc
    simp only [insertLong, List.mem_cons, List.not_mem_nil, or_false] at hr
    rcases hr with rfl | rfl
    · rw [List.mem_singleton] at hc
      subst hc
      exact ⟨_, rfl, printable_i64 _⟩
    · simp only [List.mem_cons, List.not_mem_nil, or_false] at hc
      rcases hc with rfl | rfl <;> exact ⟨_, rfl, printable_i64 _⟩

example (toUint : Str → Option Nat) : parseQuery toUint insertLong.toStr =
    .ok [.insert { table := { name := s%"t" }, values := [[{ name := s%"a", lit := some { v := .str s%"1" } }], [{ name := s%"a", lit := some { v := .str s%"2" } }]] }] :=
  (C09_exact toUint insertLong insertLong_readable).trans (by decide +kernel)
example (toUint : Str → Option Nat) : parseQuery toUint insertLong.toStr ≠ .ok [.insert (insertAsText insertLong)] :=
  fun h => absurd ((C09_iff toUint insertLong insertLong_readable).mp h).table (by decide)
example (toUint : Str → Option Nat) : parseQuery toUint insertLong.toStr ≠ .ok [.insert (insertAsText insertLong)] :=
  (C09_longer_fails toUint insertLong insertLong_readable).2.2 ⟨_, List.mem_cons_of_mem _ (List.mem_singleton.mpr rfl), by decide⟩

/-- An UPDATE of a column with a type to a literal, and of another one to a sum whose function is known by its name alone. -/
def updateKnown : Update :=
  { table := { schema := s%"s", name := s%"t" },
    columns := [{ typedA with lit := some { v := .i64 1 } }, { name := s%"b", fn := some { name := s%"+" }, args := [s%"b", s%"1"] }], cond := none }

theorem updateKnown_readable : ReadableUpdate updateKnown where
  table := .inr plain_st
  assigned := by simp [updateKnown]
  columns := by
    intro c hc
    simp only [updateKnown, List.mem_cons, List.not_mem_nil, or_false] at hc
    rcases hc with rfl | rfl
    · exact .lit (any_of (by decide +kernel)) rfl rfl (printable_i64 _)
    · refine .arith (e := { name := s%"+", typ := .arith }) (a := s%"b") (x := s%"1") (any_of (by decide +kernel)) (by decide +kernel) (by simp) rfl (any_of (by decide +kernel)) (.inr (.number ?_))
      have := Writing.ofNat_number 1
      rwa [show Str.ofNat 1 = s%"1" from by decide +kernel] at this
  cond := fun e he => by cases he

example (toUint : Str → Option Nat) : parseQuery toUint updateKnown.toStr =
    .ok [.update { table := { name := s%"s.t" }, columns := [{ name := s%"a", lit := some { v := .str s%"1" } }, { name := s%"b", fn := some (arithFunction .opAdd [s%"b", s%"1"]), args := [s%"b", s%"1"] }], cond := none }] :=
  (C10_update_exact toUint updateKnown updateKnown_readable).trans (by decide +kernel)
example (toUint : Str → Option Nat) : parseQuery toUint updateKnown.toStr ≠ .ok [.update (updateAsText updateKnown)] :=
  fun h => absurd (((C10_iff toUint).1 updateKnown updateKnown_readable).mp h).1 (by decide)
example (toUint : Str → Option Nat) : parseQuery toUint (Delete.toStr { table := { name := s%"t" }, cond := some (.cmp { left := typedA, op := .eq, right := some { v := .i64 1 } }) }) =
    .ok [.delete { table := { name := s%"t" }, cond := some (.cmp { left := { name := s%"a" }, op := .eq, right := some { v := .str s%"1" } }) }] := by
  refine (C10_delete_exact toUint { table := { name := s%"t" }, cond := some (.cmp { left := typedA, op := .eq, right := some { v := .i64 1 } }) }
    ⟨.inl ⟨_, any_of (n := s%"t") (by decide +kernel), rfl⟩, ?_⟩).trans (by decide +kernel)
  intro e he
  injection he with he
  subst he
  exact .one ⟨any_of (by decide +kernel), by simp, _, rfl, printable_i64 _⟩

end Verif.Props
