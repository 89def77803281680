import Verif.Lemmas.ParseList
import Verif.Lemmas.Trees
/-! What the visitor reports for the statements of Spec/Syntax.lean. -/
namespace Verif.Gram
open Verif Verif.Lex Verif.Spec Verif.Query Verif.Visit

variable {sp : Spelling}

/-! ### Trees -/

theorem textAll_append (a b : List Tree) : textAll (a ++ b) = textAll a ++ textAll b := by
  induction a with
  | nil => rfl
  | cons t a ih => simp [textAll, ih]

/-- A tree that is a rule. -/
def Tree.IsNode (r : Rule) (t : Tree) : Prop := ∃ cs, t = .node r cs

theorem unlab_tail {α : Type} {T : α → Tree} {r : Rule} (h : ∀ x, (T x).IsNode r) (xs : List α) :
    unlab (tailT sp T xs) = tailT sp T xs := by
  induction xs with
  | nil => rfl
  | cons x xs ih =>
    obtain ⟨cs, hc⟩ := h x
    have : tailT sp T (x :: xs) = .leaf (kw sp .COMMA) :: T x :: tailT sp T xs := rfl
    rw [this, hc]
    simp [unlab, ih]

theorem labelled_tail {α : Type} {T : α → Tree} {r : Rule} (h : ∀ x, (T x).IsNode r) (l : Lab) (xs : List α) :
    labelled l (tailT sp T xs) = [] := by
  induction xs with
  | nil => rfl
  | cons x xs ih =>
    obtain ⟨cs, hc⟩ := h x
    have : tailT sp T (x :: xs) = .leaf (kw sp .COMMA) :: T x :: tailT sp T xs := rfl
    rw [this, hc]
    simp [labelled, ih]

theorem rules_tail {α : Type} {T : α → Tree} {r : Rule} (h : ∀ x, (T x).IsNode r) (xs : List α) :
    (tailT sp T xs).filter (Tree.isRule r) = xs.map T := by
  induction xs with
  | nil => rfl
  | cons x xs ih =>
    obtain ⟨cs, hc⟩ := h x
    have : tailT sp T (x :: xs) = .leaf (kw sp .COMMA) :: T x :: tailT sp T xs := rfl
    rw [this, List.map_cons, hc]
    simp [Tree.isRule, ih]

theorem rules_tail_off {α : Type} {T : α → Tree} {r q : Rule} (h : ∀ x, (T x).IsNode r) (hr : r ≠ q) (xs : List α) :
    (tailT sp T xs).filter (Tree.isRule q) = [] := by
  induction xs with
  | nil => rfl
  | cons x xs ih =>
    obtain ⟨cs, hc⟩ := h x
    have : tailT sp T (x :: xs) = .leaf (kw sp .COMMA) :: T x :: tailT sp T xs := rfl
    rw [this, hc]
    simp [Tree.isRule, hr, ih]

theorem tok_tail_off {α : Type} {T : α → Tree} {r : Rule} {t : Tok} (h : ∀ x, (T x).IsNode r) (ht : t ≠ .COMMA) (xs : List α) :
    (tailT sp T xs).find? (Tree.isTok t) = none := by
  induction xs with
  | nil => rfl
  | cons x xs ih =>
    obtain ⟨cs, hc⟩ := h x
    have : tailT sp T (x :: xs) = .leaf (kw sp .COMMA) :: T x :: tailT sp T xs := rfl
    rw [this, hc]
    simp [Tree.isTok, kw, Ne.symm ht, ih]

theorem child_eq (r : Rule) (t : Tree) : t.child r = (t.all r).head? := by
  rw [Tree.child, Tree.all, List.head?_filter]

theorem isNode_name {r : Rule} (a : Str) : (nameT r a).IsNode r := ⟨_, rfl⟩
theorem isNode_expr (t : Tree) : (exprT t).IsNode .expr := ⟨_, rfl⟩
theorem isNode_atom (a : Atom) : (atomT sp a).IsNode .expr := by cases a <;> exact ⟨_, rfl⟩
theorem isNode_item (i : ItemS) : (itemT sp i).IsNode .result_column := by cases i <;> exact ⟨_, rfl⟩
theorem isNode_order (o : OrderS) : (orderT sp o).IsNode .ordering_term := ⟨_, rfl⟩
theorem isNode_table (t : TabS) : (tableT sp t).IsNode .«from» := ⟨_, rfl⟩
theorem isNode_row (r : RowS) : (rowT sp r).IsNode .value_row := ⟨_, rfl⟩

theorem text_name (r : Rule) (a : Str) : (nameT r a).text = a := by
  simp [nameT, anyT, Tree.text, textAll, ident]

theorem text_lit (l : Lit) : (litT sp l).text = Spec.textOf (l.toks sp) := by
  cases l <;> simp [litT, Tree.text, textAll, Spec.textOf, Lit.toks]

theorem text_atom (a : Atom) : (atomT sp a).text = Spec.textOf (a.toks sp) := by
  cases a with
  | col a => simp [atomT, exprT, Tree.text, textAll, text_name, Spec.textOf, Atom.toks, ident]
  | lit l => simp [atomT, exprT, Tree.text, textAll, text_lit, Atom.toks]

/-! ### Literals and conditions -/

/-- The literal object of a literal. -/
def litV (sp : Spelling) : Lit → Literal
  | .str s => { v := .str (Util.unEscapeString s), t := .string }
  | l => { v := .str (Spec.textOf (l.toks sp)) }

theorem literalWith_lit (l : Lit) : literalWith (litT sp l) = litV sp l := by
  cases l <;> simp [literalWith, litT, Tree.child, Tree.kids, unlab, List.find?, Tree.isRule, litV, Tree.text, textAll, Spec.textOf, Lit.toks]

theorem lit_isNode (l : Lit) : ∃ cs, litT sp l = .node .literal_value cs := by cases l <;> exact ⟨_, rfl⟩

/-- The operator object. -/
def opV : CmpSym → CmpOp
  | .eq => .eq | .ne1 => .neq | .ne2 => .neq | .lt => .lt | .le => .le | .gt => .gt | .ge => .ge

/-- The comparison object. -/
def cmpV (sp : Spelling) (c : CmpS) : Cmp := { op := opV c.op, left := { name := c.col }, right := some (litV sp c.lit) }

theorem cmpWith_cmp (c : CmpS) : cmpWith (cmpT sp c) = .ok (some (.cmp (cmpV sp c))) := by
  obtain ⟨col, op, lit⟩ := c
  obtain ⟨cs, hc⟩ := lit_isNode (sp := sp) lit
  have h1 : (cmpT sp ⟨col, op, lit⟩).child .literal_value = some (litT sp lit) := by
    rw [cmpT, hc]; rfl
  have h2 : (cmpT sp ⟨col, op, lit⟩).child .column_name = some (nameT .column_name col) := rfl
  have h3 : cmpOp (cmpT sp ⟨col, op, lit⟩) = some (opV op) := by
    rw [cmpT, hc]; cases op <;> rfl
  rw [cmpWith, Visit.textOf, h2, h1, h3]
  simp [Res.must, Res.bind, text_name, columnNamed, literalWith_lit, cmpV]

/-- The expression object of a condition. -/
def condV (sp : Spelling) : CondS → Expr
  | .one c => .cmp (cmpV sp c)
  | .and a b => .and (.cmp (cmpV sp a)) (.cmp (cmpV sp b))
  | .or a b => .or (.cmp (cmpV sp a)) (.cmp (cmpV sp b))

theorem exprWith_cond (c : CondS) : exprWith (exprT (condT sp c)) = .ok (some (condV sp c)) := by
  cases c with
  | one c => exact cmpWith_cmp c
  | and a b =>
    have : exprWith (exprT (condT sp (.and a b))) = (cmpWith (cmpT sp a)).bind (fun x => (cmpWith (cmpT sp b)).bind (fun y =>
      match x, y with
      | some x, some y => .ok (some (Expr.and x y))
      | _, _ => .panic)) := rfl
    rw [this, cmpWith_cmp, cmpWith_cmp]; rfl
  | or a b =>
    have : exprWith (exprT (condT sp (.or a b))) = (cmpWith (cmpT sp a)).bind (fun x => (cmpWith (cmpT sp b)).bind (fun y =>
      match x, y with
      | some x, some y => .ok (some (Expr.or x y))
      | _, _ => .panic)) := rfl
    rw [this, cmpWith_cmp, cmpWith_cmp]; rfl

theorem whereOf_where (t : Tree) (c : Option CondS) (h : t.labels .whereExpr = (whereT sp c).flatMap (fun t => match t with
    | .lab _ cs => cs
    | _ => [])) : whereOf t = .ok (c.map (condV sp)) := by
  cases c with
  | none =>
    have : t.label .whereExpr = none := by rw [Tree.label, h]; rfl
    rw [whereOf, this]; rfl
  | some c =>
    have : t.label .whereExpr = some (exprT (condT sp c)) := by rw [Tree.label, h]; rfl
    rw [whereOf, this]; exact exprWith_cond c

/-! ### SELECT -/

/-- The texts of the arguments. -/
def argsV (sp : Spelling) : ArgsS → List Str
  | .star => [sp .STAR]
  | .none => []
  | .list a as => (a :: as).map (fun x => Spec.textOf (x.toks sp))

/-- The selector object of an item. -/
def itemV (sp : Spelling) : ItemS → Selector
  | .star => .col { name := sp .STAR }
  | .atom a => .col { name := Spec.textOf (a.toks sp) }
  | .fn f args => .fn (Function.named f (argsV sp args))

theorem selector_item (i : ItemS) : selector (itemT sp i) = .ok (itemV sp i) := by
  cases i with
  | star => simp [selector, itemT, Tree.child, Tree.kids, unlab, Tree.isRule, Tree.text, textAll, columnNamed, itemV, kw]
  | atom a =>
    have h1 : (itemT sp (.atom a)).child .expr = some (atomT sp a) := by cases a <;> rfl
    have h2 : (atomT sp a).child .«function» = none := by
      cases a with
      | col a => rfl
      | lit l => cases l <;> rfl
    have h3 : (itemT sp (.atom a)).text = Spec.textOf (a.toks sp) := by
      simp [itemT, Tree.text, textAll, text_atom]
    rw [selector, h1, Option.bind_some, h2, h3]; rfl
  | fn f args =>
    have h1 : (itemT sp (.fn f args)).child .expr = some (exprT (fnT sp f args)) := rfl
    have h2 : (exprT (fnT sp f args)).child .«function» = some (fnT sp f args) := rfl
    have h3 : (fnT sp f args).child .function_name = some (nameT .function_name f) := rfl
    have h4 : functionArgs (fnT sp f args) = argsV sp args := by
      cases args with
      | star => simp [functionArgs, fnT, argsT, Tree.token, Tree.kids, unlab, Tree.isTok, nameT, kw, Tree.text, argsV]
      | none => rfl
      | list a as =>
        have hk : (fnT sp f (.list a as)).kids = nameT .function_name f :: .leaf (kw sp .OPEN_PAR) :: atomT sp a ::
            (tailT sp (atomT sp) as ++ [.leaf (kw sp .CLOSE_PAR)]) := by
          obtain ⟨cs, hc⟩ := isNode_atom (sp := sp) a
          simp [fnT, argsT, Tree.kids, unlab, hc, unlab_append, unlab_tail (isNode_atom (sp := sp)), nameT]
        have ht : (fnT sp f (.list a as)).token .STAR = none := by
          obtain ⟨cs, hc⟩ := isNode_atom (sp := sp) a
          rw [Tree.token, hk, hc]
          simp [Tree.isTok, kw, nameT, List.find?_append, tok_tail_off (isNode_atom (sp := sp)) (t := .STAR) (by decide)]
        have ha : (fnT sp f (.list a as)).all .expr = (a :: as).map (atomT sp) := by
          obtain ⟨cs, hc⟩ := isNode_atom (sp := sp) a
          rw [Tree.all, hk, List.map_cons, hc]
          simp [Tree.isRule, nameT, List.filter_append, rules_tail (isNode_atom (sp := sp))]
        rw [functionArgs, ht, ha]
        simp [argsV, List.map_map, Function.comp_def, text_atom]
    rw [selector, h1, Option.bind_some, h2]
    simp only [Visit.textOf, h3, Res.must, Res.bind, text_name, h4]
    rfl

/-- The order object of a direction. -/
def dirV : Dir → OrderType
  | .asc => .asc | .desc => .desc

/-- The ordering terms that are reported. -/
def orderV (o : OrderS) : Option Order := o.dir.map (fun d => { column := o.col, order := dirV d })

theorem orderOf_order (hg : sp.Good) (o : OrderS) : orderOf (orderT sp o) = .ok (orderV o) := by
  obtain ⟨c, d⟩ := o
  have h1 : (orderT sp ⟨c, d⟩).child .expr = some (exprT (nameT .column_name c)) := by cases d <;> rfl
  have h2 : (exprT (nameT .column_name c)).text = c := by simp [exprT, Tree.text, textAll, text_name]
  rw [orderOf, Visit.textOf, h1]
  simp only [Res.must, Res.bind, h2]
  cases d with
  | none => rfl
  | some d =>
    have h3 : (orderT sp ⟨c, some d⟩).child .asc_desc = some (.node .asc_desc [.leaf (kw sp d.tok)]) := rfl
    have h4 : (Tree.node .asc_desc [.leaf (kw sp d.tok)]).text = sp d.tok := by simp [Tree.text, textAll, kw]
    rw [h3]
    simp only [h4]
    cases d with
    | asc => simp [Dir.tok, newOrderTypeWith, hg.asc, orderV, dirV]
    | desc =>
      have : (s%"DESC" : Str) ≠ s%"ASC" := by decide
      simp [Dir.tok, newOrderTypeWith, hg.desc, orderV, dirV]

theorem resAll_map {α β γ : Type} {f : β → Res γ} {g : α → β} {h : α → γ} (hf : ∀ a, f (g a) = .ok (h a)) (l : List α) :
    Res.all f (l.map g) = .ok (l.map h) := by
  induction l with
  | nil => rfl
  | cons a l ih => simp [Res.all, hf, Res.bind, ih]

/-- The LIMIT object: the first number is the limit, the second the offset. -/
def limitV (toUint : Str → Option Nat) : LimitS → Limit
  | .none => { offset := 0, limit := 0 }
  | .only n => { offset := 0, limit := (toUint n).getD 0 }
  | .offset n m => { offset := (toUint m).getD 0, limit := (toUint n).getD 0 }
  | .comma m n => { offset := (toUint n).getD 0, limit := (toUint m).getD 0 }

theorem text_number (n : Str) : (numberT n).text = n := by
  simp [numberT, exprT, Tree.text, textAll, number]

/-- The object of a table: the name is the text with the schema. -/
def tabV (sp : Spelling) (t : TabS) : Table := { name := Spec.textOf (t.toks sp), schema := t.schema.getD [] }

/-- The object of a SELECT. -/
def selectV (toUint : Str → Option Nat) (sp : Spelling) (s : SelectS) : Select :=
  { selectors := (s.item :: s.items).map (itemV sp), tables := s.tables.map (tabV sp),
    cond := s.cond.map (condV sp), orderBy := s.orders.filterMap orderV, limit := limitV toUint s.limit,
    groupBy := s.group.getD [] }

/-- The SELECT core of a statement. -/
def coreT (sp : Spelling) (s : SelectS) : Tree := .node .select_core (.leaf (kw sp .SELECT_) :: itemT sp s.item ::
    (tailT sp (itemT sp) s.items ++ (fromT sp s.tables ++ (whereT sp s.cond ++ groupT sp s.group))))

theorem unlab_from (ts : List TabS) : unlab (fromT sp ts) = fromT sp ts := by
  cases ts with
  | nil => rfl
  | cons t ts => simp [fromT, unlab, tableT, unlab_tail (r := .«from») (isNode_table (sp := sp))]

theorem core_kids (s : SelectS) : (coreT sp s).kids = .leaf (kw sp .SELECT_) :: itemT sp s.item ::
    (tailT sp (itemT sp) s.items ++ (fromT sp s.tables ++ (unlab (whereT sp s.cond) ++ unlab (groupT sp s.group)))) := by
  obtain ⟨cs, hc⟩ := isNode_item (sp := sp) s.item
  simp [coreT, Tree.kids, unlab, hc, unlab_append, unlab_tail (isNode_item (sp := sp)), unlab_from]

theorem from_rules (ts : List TabS) : (fromT sp ts).filter (Tree.isRule .«from») = ts.map (tableT sp) := by
  cases ts with
  | nil => rfl
  | cons t ts => simp [fromT, Tree.isRule, tableT, rules_tail (r := .«from») (isNode_table (sp := sp))]

theorem from_rules_off (ts : List TabS) : (fromT sp ts).filter (Tree.isRule .result_column) = [] := by
  cases ts with
  | nil => rfl
  | cons t ts => simp [fromT, Tree.isRule, tableT, rules_tail_off (q := .result_column) (isNode_table (sp := sp))]

theorem core_items (s : SelectS) : (coreT sp s).all .result_column = (s.item :: s.items).map (itemT sp) := by
  obtain ⟨cs, hc⟩ := isNode_item (sp := sp) s.item
  have hw : (unlab (whereT sp s.cond)).filter (Tree.isRule .result_column) = [] := by cases s.cond <;> rfl
  have hg : (unlab (groupT sp s.group)).filter (Tree.isRule .result_column) = [] := by cases s.group <;> rfl
  rw [Tree.all, core_kids]
  simp [Tree.isRule, hc, List.filter_append, rules_tail (isNode_item (sp := sp)), hw, hg, from_rules_off]

theorem core_tables (s : SelectS) : (coreT sp s).all .«from» = s.tables.map (tableT sp) := by
  obtain ⟨cs, hc⟩ := isNode_item (sp := sp) s.item
  have hw : (unlab (whereT sp s.cond)).filter (Tree.isRule .«from») = [] := by cases s.cond <;> rfl
  have hg : (unlab (groupT sp s.group)).filter (Tree.isRule .«from») = [] := by cases s.group <;> rfl
  rw [Tree.all, core_kids]
  simp [Tree.isRule, hc, List.filter_append, rules_tail_off (isNode_item (sp := sp)) (q := .«from»), hw, hg,
    from_rules]

theorem labelled_from (l : Lab) (ts : List TabS) : labelled l (fromT sp ts) = [] := by
  cases ts with
  | nil => rfl
  | cons t ts => simp [fromT, labelled, tableT, labelled_tail (r := .«from») (isNode_table (sp := sp))]

theorem core_labels (l : Lab) (s : SelectS) : (coreT sp s).labels l =
    labelled l (whereT sp s.cond) ++ labelled l (groupT sp s.group) := by
  obtain ⟨cs, hc⟩ := isNode_item (sp := sp) s.item
  simp [coreT, Tree.labels, labelled, hc, labelled_append, labelled_tail (isNode_item (sp := sp)), labelled_from]

theorem fromTable_table (t : TabS) : fromTable (tableT sp t) = some (tabV sp t) := by
  obtain ⟨s, a⟩ := t
  cases s with
  | none =>
    have h1 : (tableT sp ⟨none, a⟩).child .from_table = some (.node .from_table [nameT .table_name a]) := rfl
    have h2 : (Tree.node .from_table [nameT .table_name a]).text = a := by simp [Tree.text, textAll, text_name]
    rw [fromTable, h1]
    simp only [Option.map_some, h2]
    simp [tabV, TabS.toks, Spec.textOf, ident]
    rfl
  | some s =>
    have h1 : (tableT sp ⟨some s, a⟩).child .from_table =
      some (.node .from_table [nameT .schema_name s, .leaf (kw sp .DOT), nameT .table_name a]) := rfl
    have h2 : (Tree.node .from_table [nameT .schema_name s, .leaf (kw sp .DOT), nameT .table_name a]).text =
        s ++ (sp .DOT ++ a) := by simp [Tree.text, textAll, text_name, kw]
    have h3 : (Tree.node .from_table [nameT .schema_name s, .leaf (kw sp .DOT), nameT .table_name a]).child .schema_name =
      some (nameT .schema_name s) := rfl
    rw [fromTable, h1]
    simp only [Option.map_some, h2, h3, text_name]
    simp [tabV, TabS.toks, Spec.textOf, ident, kw]

theorem select_kids (s : SelectS) : (selectT sp s).kids = coreT sp s :: (ordersT sp s.orders ++ limitT sp s.limit) := by
  have ho : unlab (ordersT sp s.orders) = ordersT sp s.orders := by cases s.orders <;> rfl
  have hl : unlab (limitT sp s.limit) = limitT sp s.limit := by cases s.limit <;> rfl
  rw [selectT, Tree.kids, unlab, unlab_append, ho, hl]
  rfl

theorem ordersOf_select (hg : sp.Good) (s : SelectS) : ordersOf (selectT sp s) = .ok (s.orders.filterMap orderV) := by
  have hl : (limitT sp s.limit).find? (Tree.isRule .order_by_stmt) = none := by cases s.limit <;> rfl
  have h1 : (selectT sp s).child .order_by_stmt = (ordersT sp s.orders).head? := by
    rw [Tree.child, select_kids, coreT, List.find?_cons]
    simp only [Tree.isRule]
    rw [show decide (Rule.select_core = Rule.order_by_stmt) = false from rfl]
    simp only [List.find?_append, hl, Option.or_none]
    cases s.orders <;> rfl
  rw [ordersOf, h1]
  cases h : s.orders with
  | nil => rfl
  | cons o os =>
    have h2 : (Tree.node Rule.order_by_stmt (.leaf (kw sp .ORDER_) :: .leaf (kw sp .BY_) :: orderT sp o ::
        tailT sp (orderT sp) os)).all .ordering_term = (o :: os).map (orderT sp) := by
      rw [Tree.all, Tree.kids]
      simp only [unlab, orderT]
      rw [unlab_tail (isNode_order (sp := sp))]
      simp [Tree.isRule, rules_tail (isNode_order (sp := sp)), orderT]
    simp only [ordersT, List.head?_cons, h2]
    rw [resAll_map (orderOf_order hg)]
    show Res.ok (((o :: os).map orderV).filterMap id) = _
    rw [List.filterMap_map]
    rfl

theorem limitOf_select (toUint : Str → Option Nat) (s : SelectS) : limitOf toUint (selectT sp s) = limitV toUint s.limit := by
  have ho : (ordersT sp s.orders).find? (Tree.isRule .limit_stmt) = none := by cases s.orders <;> rfl
  have h1 : (selectT sp s).child .limit_stmt = (limitT sp s.limit).head? := by
    rw [Tree.child, select_kids, coreT, List.find?_cons]
    simp only [Tree.isRule]
    rw [show decide (Rule.select_core = Rule.limit_stmt) = false from rfl]
    simp only [List.find?_append, ho, Option.none_or]
    cases s.limit <;> rfl
  rw [limitOf, h1]
  cases s.limit with
  | none => rfl
  | only n =>
    show Limit.mk 0 ((toUint (numberT n).text).getD 0) = _
    rw [text_number]; rfl
  | offset n m =>
    show Limit.mk ((toUint (numberT m).text).getD 0) ((toUint (numberT n).text).getD 0) = _
    rw [text_number, text_number]; rfl
  | comma m n =>
    show Limit.mk ((toUint (numberT n).text).getD 0) ((toUint (numberT m).text).getD 0) = _
    rw [text_number, text_number]; rfl

theorem select_visit (toUint : Str → Option Nat) (hg : sp.Good) (s : SelectS) :
    Visit.select toUint (selectT sp s) = .ok (.select (selectV toUint sp s)) := by
  have h1 : (selectT sp s).label .parentQuery = some (coreT sp s) := rfl
  have h2 : whereOf (coreT sp s) = .ok (s.cond.map (condV sp)) := by
    apply whereOf_where
    rw [core_labels]
    have : labelled .whereExpr (groupT sp s.group) = [] := by cases s.group <;> rfl
    rw [this]
    cases s.cond <;> rfl
  have h3 : groupOf (coreT sp s) = s.group.getD [] := by
    rw [groupOf, core_labels]
    have : labelled .groupByExpr (whereT sp s.cond) = [] := by cases s.cond <;> rfl
    rw [this]
    cases s.group with
    | none => rfl
    | some g =>
      show (exprT (nameT .column_name g)).text = g
      simp [exprT, Tree.text, textAll, text_name]
  have h4 : (s.tables.map (tableT sp)).filterMap fromTable = s.tables.map (tabV sp) := by
    rw [List.filterMap_map]
    induction s.tables with
    | nil => rfl
    | cons t ts ih => simp [Function.comp_def, fromTable_table]
  rw [Visit.select, h1]
  simp only [core_items, resAll_map (selector_item (sp := sp)), Res.bind, h2, ordersOf_select hg, core_tables, h4, h3,
    limitOf_select]
  rfl

/-! ### INSERT -/

/-- Columns with values. -/
def rowV (sp : Spelling) (names : List Str) (r : RowS) : List Column :=
  List.zipWith (fun n l => { name := n, lit := some (litV sp l) }) names r.all

theorem insertRow_lits (names : List Str) (k : Nat) (ls : List Lit) :
    insertRow names k (ls.map (fun l => exprT (litT sp l))) =
      .ok (List.zipWith (fun n l => { name := n, lit := some (litV sp l) }) (names.drop k) ls) := by
  induction ls generalizing k with
  | nil => simp [insertRow]
  | cons l ls ih =>
    obtain ⟨cs, hc⟩ := lit_isNode (sp := sp) l
    have h1 : (exprT (litT sp l)).child .comparison_expr = none := by rw [hc]; rfl
    have h2 : (exprT (litT sp l)).child .literal_value = some (litT sp l) := by rw [hc]; rfl
    rw [List.map_cons, insertRow, h1]
    simp only [h2, literalWith_lit]
    by_cases hk : k < names.length
    · rw [List.getElem?_eq_getElem hk]
      simp only [ih, Res.bind]
      rw [List.drop_eq_getElem_cons hk]
      rfl
    · have : names[k]? = none := by simpa using Nat.le_of_not_lt hk
      rw [this]
      simp only [ih]
      rw [List.drop_of_length_le (Nat.le_of_not_lt hk)]
      simp

/-- The object of an INSERT. -/
def insertV (sp : Spelling) (i : InsertS) : Insert :=
  { table := { name := Util.unEscapeNameString i.table }, values := (i.row :: i.rows).map (rowV sp i.names) }

theorem row_exprs (r : RowS) : (rowT sp r).all .expr = r.all.map (fun l => exprT (litT sp l)) := by
  obtain ⟨v, vs⟩ := r
  have hn : ∀ l : Lit, (exprT (litT sp l)).IsNode .expr := fun l => isNode_expr _
  rw [Tree.all, rowT, Tree.kids]
  simp only [RowS.all, valuesT, unlab, List.cons_append, exprT]
  rw [unlab_append]
  have := unlab_tail (sp := sp) hn vs
  simp only [exprT] at this
  rw [this]
  have h2 := rules_tail (sp := sp) hn vs
  simp only [exprT] at h2
  simp [Tree.isRule, h2, unlab, List.filter_append]

theorem insert_visit (i : InsertS) : Visit.insert (insertT sp i) = .ok (.insert (insertV sp i)) := by
  obtain ⟨table, col, cols, row, rows⟩ := i
  have hn : ∀ a : Str, (nameT .column_name a).IsNode .column_name := fun a => isNode_name a
  have hk : (insertT sp ⟨table, col, cols, row, rows⟩).kids = .leaf (kw sp .INSERT_) :: .leaf (kw sp .INTO_) ::
      nameT .table_name table :: .leaf (kw sp .OPEN_PAR) :: nameT .column_name col :: (tailT sp (nameT .column_name) cols ++
      (.leaf (kw sp .CLOSE_PAR) :: [.node .values_clause (.leaf (kw sp .VALUES_) :: rowT sp row :: tailT sp (rowT sp) rows)])) := by
    simp [insertT, Tree.kids, unlab, nameT, namesT, InsertS.names, unlab_append]
    simpa [nameT] using unlab_tail (sp := sp) hn cols
  have h1 : (insertT sp ⟨table, col, cols, row, rows⟩).child .table_name = some (nameT .table_name table) := rfl
  have h2 : (insertT sp ⟨table, col, cols, row, rows⟩).child .values_clause =
      some (.node .values_clause (.leaf (kw sp .VALUES_) :: rowT sp row :: tailT sp (rowT sp) rows)) := by
    rw [child_eq, Tree.all, hk]
    have h0 : Tree.isRule .values_clause (nameT .column_name col) = false := rfl
    have h1 : Tree.isRule .values_clause (nameT .table_name table) = false := rfl
    simp only [List.filter_cons, h0, h1, List.filter_append, rules_tail_off (sp := sp) (q := .values_clause) hn (by decide) cols]
    simp [Tree.isRule]
  have h3 : (insertT sp ⟨table, col, cols, row, rows⟩).all .column_name = (col :: cols).map (nameT .column_name) := by
    rw [Tree.all, hk]
    have h0 : Tree.isRule .column_name (nameT .column_name col) = true := rfl
    have h1 : Tree.isRule .column_name (nameT .table_name table) = false := rfl
    simp only [List.filter_cons, h0, h1, List.filter_append, rules_tail (sp := sp) hn cols]
    simp [Tree.isRule]
  have h4 : (Tree.node .values_clause (.leaf (kw sp .VALUES_) :: rowT sp row :: tailT sp (rowT sp) rows)).all .value_row =
      (row :: rows).map (rowT sp) := by
    rw [Tree.all, Tree.kids]
    have hu := unlab_tail (sp := sp) (isNode_row (sp := sp)) rows
    have hr := rules_tail (sp := sp) (isNode_row (sp := sp)) rows
    have h0 : ∀ l, unlab (rowT sp row :: l) = rowT sp row :: unlab l := fun _ => rfl
    have h1 : Tree.isRule .value_row (rowT sp row) = true := rfl
    simp only [unlab, h0, hu, List.filter_cons, h1, hr]
    simp [Tree.isRule]
  have h5 : ((col :: cols).map (nameT .column_name)).map (·.text) = col :: cols := by
    simp [List.map_map, Function.comp_def, text_name]
  have h6 : ∀ r : RowS, (fun row => insertRow (col :: cols) 0 (row.all .expr)) (rowT sp r) = .ok (rowV sp (col :: cols) r) := by
    intro r
    simp only [row_exprs, insertRow_lits]
    rfl
  rw [Visit.insert, Visit.textOf, h1]
  simp only [Res.must, Res.bind, h2, h3, h4, h5, text_name]
  rw [resAll_map (f := fun row => insertRow (col :: cols) 0 (row.all .expr)) (g := rowT sp) h6]
  rfl

/-! ### UPDATE and DELETE -/

/-- The operator object. -/
def arithV : ArithSym → Fn.ExecId
  | .add => .opAdd | .sub => .opSub | .mul => .opMul | .div => .opDiv | .mod => .opMod

/-- The column object of an assignment. -/
def setV (sp : Spelling) (a : SetS) : Column :=
  match a.rhs with
  | .lit l => { name := a.col, lit := some (litV sp l) }
  | .arith c o x =>
    { name := a.col, args := [c, Spec.textOf (x.toks sp)],
      fn := some { typ := (arithV o).type, name := (arithV o).name,
                   executor := some { name := (arithV o).name, typ := (arithV o).type, args := [c, Spec.textOf (x.toks sp)] } } }

theorem arith_op (hg : sp.Good) (o : ArithSym) : Fn.newArithOperatorFor (sp o.tok) = some (arithV o) := by
  cases o <;> simp only [ArithSym.tok, hg.add, hg.sub, hg.mul, hg.div, hg.mod] <;> rfl

theorem assignment_set (hg : sp.Good) (a : SetS) : assignment (setT sp a) = .ok (setV sp a) := by
  obtain ⟨col, rhs⟩ := a
  have h1 : (setT sp ⟨col, rhs⟩).child .column_name = some (nameT .column_name col) := rfl
  have h2 : (setT sp ⟨col, rhs⟩).child .expr = some (rhsT sp rhs) := by cases rhs <;> rfl
  rw [assignment, Visit.textOf, h1, h2]
  simp only [Res.must, Res.bind, text_name]
  cases rhs with
  | lit l =>
    obtain ⟨cs, hc⟩ := lit_isNode (sp := sp) l
    have h3 : (rhsT sp (.lit l)).child .literal_value = some (litT sp l) := by simp only [rhsT, hc]; rfl
    rw [h3]
    simp only [literalWith_lit]
    rfl
  | arith c o x =>
    have h3 : (rhsT sp (.arith c o x)).child .literal_value = none := rfl
    have h4 : (rhsT sp (.arith c o x)).child .bind_param = none := rfl
    have h5 : (rhsT sp (.arith c o x)).child .arithmetic_expr =
        some (.node .arithmetic_expr [nameT .column_name c, .lab .ope [.leaf (kw sp o.tok)], atomT sp x]) := rfl
    rw [h3, h4, h5]
    have h6 : labelText .ope (.node .arithmetic_expr [nameT .column_name c, .lab .ope [.leaf (kw sp o.tok)], atomT sp x]) =
        .ok (sp o.tok) := by
      obtain ⟨cs, hc⟩ := isNode_atom (sp := sp) x
      rw [hc]; simp [labelText, Tree.label, Tree.labels, labelled, nameT, Res.must, Res.bind, Tree.text, kw]
    have h7 : (Tree.node Rule.arithmetic_expr [nameT .column_name c, .lab .ope [.leaf (kw sp o.tok)], atomT sp x]).child .column_name
        = some (nameT .column_name c) := rfl
    have h8 : (Tree.node Rule.arithmetic_expr [nameT .column_name c, .lab .ope [.leaf (kw sp o.tok)], atomT sp x]).child .expr
        = some (atomT sp x) := by
      obtain ⟨cs, hc⟩ := isNode_atom (sp := sp) x
      rw [hc]; rfl
    simp only [h6, Res.bind, Visit.textOf, h7, h8, Res.must, text_name, text_atom, arithFunction, arith_op hg, Option.map_some]
    rfl

/-- The object of an UPDATE. -/
def updateV (sp : Spelling) (u : UpdateS) : Update :=
  { table := { name := u.table }, columns := (u.asg :: u.asgs).map (setV sp), cond := u.cond.map (condV sp) }

/-- The object of a DELETE. -/
def deleteV (sp : Spelling) (d : DeleteS) : Delete := { table := { name := d.table }, cond := d.cond.map (condV sp) }

theorem isNode_set (a : SetS) : (setT sp a).IsNode .update_column_set := ⟨_, rfl⟩

theorem update_visit (hg : sp.Good) (u : UpdateS) : Visit.update (updateT sp u) = .ok (.update (updateV sp u)) := by
  obtain ⟨table, asg, asgs, cond⟩ := u
  have h1 : labelText .table (updateT sp ⟨table, asg, asgs, cond⟩) = .ok table := by
    have : (updateT sp ⟨table, asg, asgs, cond⟩).label .table = some (qualifiedT table) := rfl
    rw [labelText, this]
    simp [Res.must, Res.bind, qualifiedT, Tree.text, textAll, text_name]
  have hk : (updateT sp ⟨table, asg, asgs, cond⟩).kids = .leaf (kw sp .UPDATE_) :: qualifiedT table :: .leaf (kw sp .SET_) ::
      setT sp asg :: (tailT sp (setT sp) asgs ++ unlab (whereT sp cond)) := by
    have : (updateT sp ⟨table, asg, asgs, cond⟩).kids = .leaf (kw sp .UPDATE_) :: qualifiedT table :: .leaf (kw sp .SET_) ::
      setT sp asg :: unlab (tailT sp (setT sp) asgs ++ whereT sp cond) := rfl
    rw [this, unlab_append, unlab_tail (isNode_set (sp := sp))]
  have h2 : (updateT sp ⟨table, asg, asgs, cond⟩).all .update_column_set = (asg :: asgs).map (setT sp) := by
    rw [Tree.all, hk]
    have h0 : Tree.isRule .update_column_set (setT sp asg) = true := rfl
    have h1 : Tree.isRule .update_column_set (qualifiedT table) = false := rfl
    have h3 : (unlab (whereT sp cond)).filter (Tree.isRule .update_column_set) = [] := by cases cond <;> rfl
    simp only [List.filter_cons, h0, h1, List.filter_append, rules_tail (isNode_set (sp := sp)), h3]
    simp [Tree.isRule]
  have h3 : whereOf (updateT sp ⟨table, asg, asgs, cond⟩) = .ok (cond.map (condV sp)) := by
    apply whereOf_where
    have h0 : (updateT sp ⟨table, asg, asgs, cond⟩).labels .whereExpr =
        labelled .whereExpr (tailT sp (setT sp) asgs ++ whereT sp cond) := rfl
    rw [h0, labelled_append, labelled_tail (isNode_set (sp := sp))]
    cases cond <;> rfl
  rw [Visit.update, h1, h2]
  simp only [Res.bind, resAll_map (assignment_set hg), h3]
  rfl

theorem delete_visit (d : DeleteS) : Visit.delete (deleteT sp d) = .ok (.delete (deleteV sp d)) := by
  obtain ⟨table, cond⟩ := d
  have h1 : labelText .table (deleteT sp ⟨table, cond⟩) = .ok table := by
    have : (deleteT sp ⟨table, cond⟩).label .table = some (qualifiedT table) := rfl
    rw [labelText, this]
    simp [Res.must, Res.bind, qualifiedT, Tree.text, textAll, text_name]
  have h3 : whereOf (deleteT sp ⟨table, cond⟩) = .ok (cond.map (condV sp)) := by
    apply whereOf_where
    cases cond <;> rfl
  rw [Visit.delete, h1]
  simp only [Res.bind, h3]
  rfl

end Verif.Gram
