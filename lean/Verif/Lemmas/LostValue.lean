import Verif.Lemmas.LostCond
import Verif.Spec.Query
import Verif.Spec.LostValue
/-! Values of INSERT rows and UPDATE assignments other than literals: they are accepted, and mostly not looked at. -/
namespace Verif.Gram
open Verif Verif.Lex Verif.Spec Verif.Visit Verif.Query

variable {β : Type} {k : List Token → Option β} {v : β} {sp : Spelling} {rest : List Token}

/-- What the tree of a value is: nothing to be found in it unless it is a literal, a comparison or a calculation. -/
def SeenAs (sp : Spelling) : ValueS → Tree → Prop
  | .lit l, T => T = exprT (litT sp l)
  | .cond (.one c), T => T = exprT (cmpT sp c)
  | .arith c o a, T => T = rhsT sp (.arith c o a)
  | _, T => Blind T

/-- What nothing goes on with after a value. -/
def valueInner : List Tok := .OPEN_PAR :: lostInner

theorem blind_node (l : List Tree) (h : Bare l) : Blind (.node .expr l) := (unseen_node l h.unlab h.plain).blind

theorem list_expr (x : Lit) (xs : List Lit) (hS : Heads exprFollow rest) (hk : k rest = some v) :
    ∃ l, First (.expr 0) k (kw sp .OPEN_PAR :: (x.toks sp ++ (tailToks sp (Lit.toks sp) xs ++ kw sp .CLOSE_PAR :: rest))) [.node .expr l] v ∧ Bare l := by
  obtain ⟨l, h, hb⟩ := in_primary (k := best (.star (suffix 0)) k) (v := ([], v)) (sp := sp) x xs hS (suffix_off hS hk)
  refine ⟨l, ?_, hb⟩
  have hf := First.expr (p := 0) (First.seq (a := primary) (b := .star (suffix 0)) (m := []) h)
  rw [List.append_nil, hb.fold] at hf
  exact hf

theorem cat_expr (x y : Lit) (hS : Heads exprFollow rest) (hk : k rest = some v) :
    First (.expr 0) k (x.toks sp ++ kw sp .PIPE2 :: (y.toks sp ++ rest)) [.node .expr [exprT (litT sp x), .leaf (kw sp .PIPE2), exprT (litT sp y)]] v := by
  have h1 : First (suffix 0) (best (.star (suffix 0)) k) (kw sp .PIPE2 :: (y.toks sp ++ rest)) [.seg [.leaf (kw sp .PIPE2), exprT (litT sp y)]] ([], v) :=
    First.altL (First.seg (First.seq (l := [.leaf (kw sp .PIPE2)]) (First.tok rfl (lit_exprP 19 y hS (suffix_off hS hk)))))
  have h2 := First.starCons (m := []) h1
  have h := First.expr (p := 0) (First.seq (a := primary) (b := .star (suffix 0)) (l := [litT sp x]) (v := v)
    (First.altL (First.exact (lit_runs x) h2)))
  cases x <;> exact h

theorem value_first (x : ValueS) (hS : Heads exprFollow rest) (hr : ∀ t ∈ valueInner, Rejects k t) (hk : k rest = some v) :
    ∃ T : { T : Tree // T.IsNode .expr }, First (.expr 0) k (x.toks sp ++ rest) [T.val] v ∧ SeenAs sp x T.val := by
  have hc : ∀ t ∈ condInner, Rejects k t := fun t ht => hr t (by simp [valueInner, lostInner, ht])
  cases x with
  | lit l => exact ⟨⟨_, ⟨_, rfl⟩⟩, lit_expr l hS hk, rfl⟩
  | arith c o a => exact ⟨⟨rhsT sp (.arith c o a), ⟨_, rfl⟩⟩, rhs_first (.arith c o a) hS hk, rfl⟩
  | cond c =>
    refine ⟨⟨_, ⟨_, rfl⟩⟩, cond_expr c hS hc hk, ?_⟩
    cases c with
    | one c => rfl
    | and a b => exact Blind.of
    | or a b => exact Blind.of
  | col a => exact ⟨⟨_, ⟨_, rfl⟩⟩, col_expr a hS hk, Blind.of⟩
  | call f args => exact ⟨⟨_, ⟨_, rfl⟩⟩, fn_expr f args hS (hr _ (by simp [valueInner])) hk, Blind.of⟩
  | list y ys =>
    obtain ⟨l, h, hb⟩ := list_expr (sp := sp) y ys hS hk
    have e : (ValueS.list y ys).toks sp ++ rest = kw sp .OPEN_PAR :: (y.toks sp ++ (tailToks sp (Lit.toks sp) ys ++ kw sp .CLOSE_PAR :: rest)) := by
      rw [ValueS.toks, commas_map]; simp
    rw [e]
    exact ⟨⟨_, ⟨_, rfl⟩⟩, h, blind_node l hb⟩
  | cat y z =>
    refine ⟨⟨_, ⟨_, rfl⟩⟩, ?_, Blind.of (T := .node .expr [exprT (litT sp y), .leaf (kw sp .PIPE2), exprT (litT sp z)]) rfl⟩
    simpa [ValueS.toks] using cat_expr (sp := sp) y z hS hk
  | test c =>
    obtain ⟨T, h, hu⟩ := other_first (sp := sp) c hS (fun t ht => hr t (by simp [valueInner, ht])) hk
    exact ⟨⟨T, hu.node⟩, h, hu.blind⟩

/-- A list with commas whose elements have some tree. -/
theorem list_firstE {α τ : Type} {e : Elem} {f : α → List Token} {T : τ → Tree} {P : α → τ → Prop} {Fol : List Token → Prop} {R : List Tok}
    (hR : .COMMA ∉ R) (hF : ∀ r, Fol (kw sp .COMMA :: r))
    (item : ∀ {γ : Type} (q : List Token → Option γ) (w : γ) (x : α) (us : List Token), (∀ t ∈ R, Rejects q t) →
      Fol us → q us = some w → ∃ t, First e q (f x ++ us) [T t] w ∧ P x t)
    (xs : List α) (hr : ∀ t ∈ R, Rejects k t) (hrest : Fol rest) (hc : NoComma rest) (hk : k rest = some v)
    (hp : Proper (.star (.tok .COMMA ⬝ e)) := by proper) :
    ∃ ts, First (.star (.tok .COMMA ⬝ e)) k (tailToks sp f xs ++ rest) (tailT sp T ts) v ∧ Pairwise2 P xs ts := by
  induction xs with
  | nil =>
    refine ⟨[], First.starNil ?_ hk hp, .nil⟩
    show No (.tok .COMMA ⬝ e) _ rest
    apply No.all
    intro p hm
    rw [parses_seq (proper_star hp), parses_tok] at hm
    cases rest with
    | nil => simp [one, after] at hm
    | cons x r => simp [one, after, hc x r rfl] at hm
  | cons x xs ih =>
    obtain ⟨ts, ih, hps⟩ := ih
    have hfol : Fol (tailToks sp f xs ++ rest) := by
      cases xs with
      | nil => exact hrest
      | cons y ys => exact hF _
    obtain ⟨t, ht, hpt⟩ := item (best (.star (.tok .COMMA ⬝ e)) k) (tailT sp T ts, v) x (tailToks sp f xs ++ rest)
        (fun t ht => Rejects.best (hr t ht) (comma_starts (fun h => hR (h ▸ ht))) hp) hfol ih
    have hh := First.starCons (hp := hp) (First.seq (hp := proper_star hp) (First.tok (x := kw sp .COMMA) rfl ht))
    have e1 : tailToks sp f (x :: xs) ++ rest = kw sp .COMMA :: (f x ++ (tailToks sp f xs ++ rest)) := by
      simp [tailToks]
    rw [e1]
    exact ⟨t :: ts, hh, .cons hpt hps⟩

/-! ### Rows -/

/-- What is reported for a row: literals take the names in turn, comparisons bring their own, all else is skipped. -/
def putRow (sp : Spelling) : List Str → List ValueS → List Column
  | _, [] => []
  | n :: ns, .lit l :: r => { name := n, lit := some (litV sp l) } :: putRow sp ns r
  | [], .lit _ :: r => putRow sp [] r
  | ns, .cond (.one c) :: r => { name := c.col, lit := some (litV sp c.lit) } :: putRow sp ns r
  | ns, _ :: r => putRow sp ns r

theorem insertRow_values (names : List Str) (j : Nat) {vs : List ValueS} {ts : List { T : Tree // T.IsNode .expr }}
    (h : Pairwise2 (fun x t => SeenAs sp x t.val) vs ts) : insertRow names j (ts.map (·.val)) = .ok (putRow sp (names.drop j) vs) := by
  induction h generalizing j with
  | nil => cases names.drop j <;> rfl
  | @cons x t vs ts hx _ ih =>
    have skip : Blind t.val → insertRow names j (t.val :: ts.map (·.val)) = insertRow names j (ts.map (·.val)) := by
      intro hb
      rw [insertRow, hb .comparison_expr (by decide), hb .literal_value (by decide), hb .bind_param (by decide)]
      rfl
    rw [List.map_cons]
    cases x with
    | lit l =>
      have hx : t.val = exprT (litT sp l) := hx
      obtain ⟨cs, hc⟩ := lit_isNode (sp := sp) l
      have h1 : (exprT (litT sp l)).child .comparison_expr = none := by rw [hc]; rfl
      have h2 : (exprT (litT sp l)).child .literal_value = some (litT sp l) := by rw [hc]; rfl
      rw [hx, insertRow, h1]
      simp only [h2, literalWith_lit]
      by_cases hk : j < names.length
      · rw [List.getElem?_eq_getElem hk]
        simp only [ih, Res.bind]
        rw [List.drop_eq_getElem_cons hk]
        rfl
      · have : names[j]? = none := by simpa using Nat.le_of_not_lt hk
        rw [this]
        simp only [ih]
        rw [List.drop_of_length_le (Nat.le_of_not_lt hk)]
        rfl
    | cond c =>
      cases c with
      | one c =>
        have hx : t.val = exprT (cmpT sp c) := hx
        have h1 : (exprT (cmpT sp c)).child .comparison_expr = some (cmpT sp c) := rfl
        have h2 : (cmpT sp c).child .column_name = some (nameT .column_name c.col) := rfl
        have h3 : (cmpT sp c).child .literal_value = some (litT sp c.lit) := by
          obtain ⟨cs, hc⟩ := lit_isNode (sp := sp) c.lit
          unfold cmpT; rw [hc]; rfl
        rw [hx, insertRow, h1]
        simp only [Visit.textOf, h2, Res.must, Res.bind, text_name, ih, h3, Option.map_some, literalWith_lit]
        cases names.drop j <;> rfl
      | _ => rw [skip hx, ih]; cases names.drop j <;> rfl
    | arith c o a =>
      have hx : t.val = rhsT sp (.arith c o a) := hx
      have : insertRow names j (t.val :: ts.map (·.val)) = insertRow names j (ts.map (·.val)) := by rw [hx]; rfl
      rw [this, ih]; cases names.drop j <;> rfl
    | _ => rw [skip hx, ih]; cases names.drop j <;> rfl

theorem valueInner_rejects {e : Elem} {q : List Token → Option β} (hq : ∀ t ∈ valueInner, Rejects q t)
    (hs : valueInner.all (fun t => !startsWith e t) = true := by krfl) (hp : Proper e := by proper) : ∀ t ∈ valueInner, Rejects (best e q) t := by
  intro x hx
  exact Rejects.best (hq x hx) (by simpa using List.all_eq_true.mp hs x hx) hp

theorem rejects_needed {q : List Token → Option β} (e : Elem) (hs : valueInner.all (fun t => !startsWith e t) = true := by krfl)
    (hn : nullable e = false := by krfl) (hp : Proper e := by proper) : ∀ t ∈ valueInner, Rejects (best e q) t := by
  intro t ht x r hx
  exact No.off (S := valueInner) (Heads.cons (by rw [hx]; exact ht)) hs hn hp

/-- The tree of a row whose values have the trees. -/
def valuesRowT (sp : Spelling) (t : { T : Tree // T.IsNode .expr }) (ts : List { T : Tree // T.IsNode .expr }) : Tree :=
  .node .value_row (.leaf (kw sp .OPEN_PAR) :: t.val :: (tailT sp (·.val) ts ++ [.leaf (kw sp .CLOSE_PAR)]))

theorem valuesRow_all (t : { T : Tree // T.IsNode .expr }) (ts : List { T : Tree // T.IsNode .expr }) :
    (valuesRowT sp t ts).all .expr = (t :: ts).map (·.val) := by
  have hn : ∀ x : { T : Tree // T.IsNode .expr }, x.val.IsNode .expr := fun x => x.property
  obtain ⟨t, cs, rfl⟩ := t
  have hk : (valuesRowT sp ⟨.node .expr cs, ⟨cs, rfl⟩⟩ ts).kids = .leaf (kw sp .OPEN_PAR) :: .node .expr cs :: (tailT sp (·.val) ts ++ [.leaf (kw sp .CLOSE_PAR)]) := by
    show .leaf (kw sp .OPEN_PAR) :: .node .expr cs :: unlab (tailT sp (·.val) ts ++ [.leaf (kw sp .CLOSE_PAR)]) = _
    rw [unlab_append, unlab_tail hn]; rfl
  rw [Tree.all, hk]
  simp only [List.filter_cons, List.filter_append, rules_tail hn]
  simp [Tree.isRule]

theorem values_first (r : ValuesS) {us : List Token} (hk : k us = some v) :
    ∃ R : { T : Tree // T.IsNode .value_row }, First (.nt .value_row) k (r.toks sp ++ us) [R.val] v ∧
      ∀ names, insertRow names 0 (R.val.all .expr) = .ok (putRow sp names r.all) := by
  obtain ⟨x, xs⟩ := r
  have e : ValuesS.toks sp ⟨x, xs⟩ ++ us = kw sp .OPEN_PAR :: (x.toks sp ++ (tailToks sp (ValueS.toks sp) xs ++ kw sp .CLOSE_PAR :: us)) := by
    rw [ValuesS.toks, ValuesS.all, parens, commas_map]; simp
  rw [e]
  obtain ⟨ts, hts, hps⟩ := list_firstE (sp := sp) (R := valueInner) (Fol := Heads exprFollow) (T := fun t : { T : Tree // T.IsNode .expr } => t.val)
    (P := fun x t => SeenAs sp x t.val) (by decide) (fun r => Heads.kw)
    (fun q w x us hr h hq => value_first x h hr hq) xs (k := best (.tok .CLOSE_PAR) k) (v := ([.leaf (kw sp .CLOSE_PAR)], v)) (rejects_needed _)
    (heads_close (sp := sp) us) (Heads.noComma (S := [.CLOSE_PAR]) Heads.kw) (First.tok rfl hk)
  obtain ⟨t, ht, hp⟩ := value_first (sp := sp) x (heads_tail (sp := sp) (f := ValueS.toks sp) xs (by decide) (heads_close us))
    (rejects_needed (.star (.tok .COMMA ⬝ .expr 0) ⬝ .tok .CLOSE_PAR)) (First.seq hts)
  refine ⟨⟨valuesRowT sp t ts, ⟨_, rfl⟩⟩, ?_, ?_⟩
  · exact First.nt (First.seq (First.tok rfl (First.seq (l := [t.val]) ht)))
  · intro names
    show insertRow names 0 ((valuesRowT sp t ts).all .expr) = _
    rw [valuesRow_all, insertRow_values names 0 (.cons hp hps)]
    rfl

/-! ### INSERT -/

/-- Trees of rows. -/
abbrev RowTree := { T : Tree // T.IsNode .value_row }

/-- The VALUES clause with the rows. -/
def clauseT (sp : Spelling) (r : RowTree) (rs : List RowTree) : Tree :=
  .node .values_clause (.leaf (kw sp .VALUES_) :: r.val :: tailT sp (·.val) rs)

/-- What a row is taken as. -/
def TakenAs (sp : Spelling) (r : ValuesS) (R : RowTree) : Prop :=
  ∀ names, insertRow names 0 (R.val.all .expr) = .ok (putRow sp names r.all)

theorem clause_first (r : ValuesS) (rs : List ValuesS) (h : Heads stmtFollow rest) (hk : k rest = some v) :
    ∃ R Rs, First (.nt .values_clause) k (kw sp .VALUES_ :: (r.toks sp ++ (tailToks sp (ValuesS.toks sp) rs ++ rest))) [clauseT sp R Rs] v ∧
      TakenAs sp r R ∧ Pairwise2 (TakenAs sp) rs Rs := by
  obtain ⟨Rs, hs, hp⟩ := list_firstE (sp := sp) (e := .nt .value_row) (R := []) (Fol := fun _ => True) (T := fun R : RowTree => R.val) (P := TakenAs sp) (by simp) (fun _ => trivial)
    (fun q w x us _ _ hq => values_first x hq) rs (by simp) trivial h.noComma hk
  obtain ⟨R, hR, hr⟩ := values_first (sp := sp) r hs
  exact ⟨R, Rs, First.nt (First.seq (First.tok rfl (First.seq (l := [R.val]) hR))), hr, hp⟩

theorem clause_rows (R : RowTree) (Rs : List RowTree) : (clauseT sp R Rs).all .value_row = (R :: Rs).map (·.val) := by
  have hn : ∀ x : RowTree, x.val.IsNode .value_row := fun x => x.property
  obtain ⟨T, cs, rfl⟩ := R
  have hk : (clauseT sp ⟨.node .value_row cs, ⟨cs, rfl⟩⟩ Rs).kids = .leaf (kw sp .VALUES_) :: .node .value_row cs :: tailT sp (·.val) Rs := by
    show .leaf (kw sp .VALUES_) :: .node .value_row cs :: unlab (tailT sp (·.val) Rs) = _
    rw [unlab_tail hn]
  rw [Tree.all, hk]
  simp only [List.filter_cons, rules_tail hn]
  simp [Tree.isRule]

theorem resAll_pairs {names : List Str} {rs : List ValuesS} {Rs : List RowTree} (h : Pairwise2 (TakenAs sp) rs Rs) :
    Res.all (fun row => insertRow names 0 (row.all .expr)) (Rs.map (·.val)) = .ok (rs.map (fun r => putRow sp names r.all)) := by
  induction h with
  | nil => rfl
  | cons hr _ ih =>
    rw [List.map_cons, Res.all]
    simp only [hr names, Res.bind, ih]
    rfl

/-- The tree of an INSERT. -/
def putT (sp : Spelling) (t : Str) : List Str → Tree → Tree
  | [], c => .node .insert_stmt [.leaf (kw sp .INSERT_), .leaf (kw sp .INTO_), nameT .table_name t, c]
  | names, c => .node .insert_stmt (.leaf (kw sp .INSERT_) :: .leaf (kw sp .INTO_) :: nameT .table_name t ::
    .leaf (kw sp .OPEN_PAR) :: (namesT sp .column_name names ++ [.leaf (kw sp .CLOSE_PAR), c]))

theorem put_first (i : PutS) (h : Heads stmtFollow rest) (hk : k rest = some v) :
    ∃ R Rs, First (.nt .insert_stmt) k (i.toks sp ++ rest) [putT sp i.table i.names (clauseT sp R Rs)] v ∧
      TakenAs sp i.row R ∧ Pairwise2 (TakenAs sp) i.rows Rs := by
  obtain ⟨table, names, row, rows⟩ := i
  obtain ⟨R, Rs, hc, hr, hrs⟩ := clause_first (sp := sp) row rows h
    (First.optOff (a := .nt .upsert_clause) h (First.optOff (a := .nt .returning_clause) h hk))
  refine ⟨R, Rs, ?_, hr, hrs⟩
  have hv := First.seq (l := [clauseT sp R Rs]) (m := []) (First.altL (b := (.tok .DEFAULT_) ⬝ (.tok .VALUES_))
    (First.seq (l := [clauseT sp R Rs]) (m := []) (First.altL (b := .nt .select_stmt) hc)))
  have e : PutS.toks sp ⟨table, names, row, rows⟩ ++ rest =
      kw sp .INSERT_ :: kw sp .INTO_ :: ident table ::
        (columnToks sp names ++ (kw sp .VALUES_ :: (row.toks sp ++ (tailToks sp (ValuesS.toks sp) rows ++ rest)))) := by
    rw [PutS.toks, commas_map (f := ValuesS.toks sp)]
    simp
  rw [e]
  cases names with
  | nil =>
    have ho : Heads [.VALUES_] (kw sp .VALUES_ :: (row.toks sp ++ (tailToks sp (ValuesS.toks sp) rows ++ rest))) := Heads.kw
    refine First.nt (First.seq (l := []) (First.optOff (S := [.INSERT_]) Heads.kw ?_))
    refine First.seq (First.altL (First.tok rfl ?_))
    refine First.seq (First.tok rfl ?_)
    refine First.seq (l := []) (First.optNone ?_ ?_)
    · exact schema_no table ho (by krfl)
    refine First.seq (First.exact (table_runs table) ?_)
    refine First.seq (l := []) (First.optOff ho ?_)
    exact First.seq (l := []) (First.optOff ho hv)
  | cons col cols =>
    have ho : ∀ us : List Token, Heads [.OPEN_PAR] (parens sp (commas sp ((col :: cols).map (fun c => [ident c]))) ++ us) :=
      fun us => Heads.kw
    refine First.nt (First.seq (l := []) (First.optOff (S := [.INSERT_]) Heads.kw ?_))
    refine First.seq (First.altL (First.tok rfl ?_))
    refine First.seq (First.tok rfl ?_)
    refine First.seq (l := []) (First.optNone ?_ ?_)
    · exact schema_no table (ho _) (by krfl)
    refine First.seq (First.exact (table_runs table) ?_)
    refine First.seq (l := []) (First.optOff (ho _) ?_)
    have hlist := First.seq (First.optSome (names_first (sp := sp) col cols hv))
    rw [List.cons_append, List.append_assoc] at hlist
    exact hlist

/-- What is reported for an INSERT. -/
def putV (sp : Spelling) (i : PutS) : Insert :=
  { table := { name := Util.unEscapeNameString i.table }, values := (i.row :: i.rows).map (fun r => putRow sp i.names r.all) }

theorem put_visit (i : PutS) {R : RowTree} {Rs : List RowTree} (hr : TakenAs sp i.row R) (hrs : Pairwise2 (TakenAs sp) i.rows Rs) :
    Visit.insert (putT sp i.table i.names (clauseT sp R Rs)) = .ok (.insert (putV sp i)) := by
  obtain ⟨table, names, row, rows⟩ := i
  have hn : ∀ a : Str, (nameT .column_name a).IsNode .column_name := fun a => isNode_name a
  have h1 : (putT sp table names (clauseT sp R Rs)).child .table_name = some (nameT .table_name table) := by cases names <;> rfl
  have h23 : (putT sp table names (clauseT sp R Rs)).child .values_clause = some (clauseT sp R Rs) ∧
      (putT sp table names (clauseT sp R Rs)).all .column_name = names.map (nameT .column_name) := by
    cases names with
    | nil => exact ⟨rfl, rfl⟩
    | cons col cols =>
      have hk : (putT sp table (col :: cols) (clauseT sp R Rs)).kids = .leaf (kw sp .INSERT_) :: .leaf (kw sp .INTO_) ::
          nameT .table_name table :: .leaf (kw sp .OPEN_PAR) :: nameT .column_name col :: (tailT sp (nameT .column_name) cols ++
          [.leaf (kw sp .CLOSE_PAR), clauseT sp R Rs]) := by
        show .leaf (kw sp .INSERT_) :: .leaf (kw sp .INTO_) :: nameT .table_name table :: .leaf (kw sp .OPEN_PAR) :: nameT .column_name col ::
          unlab (tailT sp (nameT .column_name) cols ++ [.leaf (kw sp .CLOSE_PAR), clauseT sp R Rs]) = _
        rw [unlab_append, unlab_tail hn]; rfl
      have h0 : Tree.isRule .values_clause (nameT .column_name col) = false := rfl
      have h1 : Tree.isRule .values_clause (nameT .table_name table) = false := rfl
      have h2 : Tree.isRule .column_name (nameT .column_name col) = true := rfl
      have h3 : Tree.isRule .column_name (nameT .table_name table) = false := rfl
      constructor
      · rw [child_eq, Tree.all, hk]
        simp only [List.filter_cons, h0, h1, List.filter_append, rules_tail_off (sp := sp) (q := .values_clause) hn (by decide) cols]
        simp [Tree.isRule, clauseT]
      · rw [Tree.all, hk]
        simp only [List.filter_cons, h2, h3, List.filter_append, rules_tail (sp := sp) hn cols]
        simp [Tree.isRule, clauseT]
  have h5 : (names.map (nameT .column_name)).map (·.text) = names := by
    simp [List.map_map, Function.comp_def, text_name]
  rw [Visit.insert, Visit.textOf, h1]
  simp only [Res.must, Res.bind, h23.1, h23.2, h5, text_name, clause_rows]
  rw [resAll_pairs (names := names) (.cons hr hrs)]
  rfl

theorem parse_put (toUint : Str → Option Nat) (hg : sp.Good) {q : Str} {ts : List Token} (hl : lex q = some ts) (i : PutS)
    (ss : List StmtS) (n : Nat) (hv : visible ts = i.toks sp ++ moreToks sp ss n) :
    Parse.parseQuery toUint q = .ok (.insert (putV sp i) :: ss.map (stmtV toUint sp)) := by
  refine parse_first toUint hg (toks := i.toks sp) .INSERT_ rfl (by decide) _ ss n ?_ hl hv
  intro γ k v rest hq h hk
  obtain ⟨R, Rs, hT, hr, hrs⟩ := put_first (sp := sp) i h hk
  refine ⟨.node .sql_stmt [putT sp i.table i.names (clauseT sp R Rs)], ?_, ⟨_, rfl⟩, ?_⟩
  · refine First.nt (First.seq (l := []) (First.optOff (S := [.INSERT_]) Heads.kw ?_))
    iterate 20 refine First.altR (No.at (t := .INSERT_) rfl) ?_
    exact First.altL hT
  · have : statement toUint (.node .sql_stmt [putT sp i.table i.names (clauseT sp R Rs)]) =
        (Visit.insert (putT sp i.table i.names (clauseT sp R Rs))).bind (fun s => .ok (some s)) := by cases i.names <;> rfl
    rw [this, put_visit i hr hrs]; rfl

/-! ### UPDATE -/

/-- Trees of assignments. -/
abbrev SetTree := { T : Tree // T.IsNode .update_column_set }

/-- What is reported for an assignment. -/
def assignV (sp : Spelling) (a : AssignS) : Column :=
  match a.val with
  | .lit l => setV sp ⟨a.col, .lit l⟩
  | .arith c o x => setV sp ⟨a.col, .arith c o x⟩
  | _ => { name := a.col }

theorem assign_first (hg : sp.Good) (a : AssignS) (hS : Heads exprFollow rest) (hr : ∀ t ∈ valueInner, Rejects k t) (hk : k rest = some v) :
    ∃ A : SetTree, First (.nt .update_column_set) k (a.toks sp ++ rest) [A.val] v ∧ assignment A.val = .ok (assignV sp a) := by
  obtain ⟨col, x⟩ := a
  obtain ⟨T, hT, hs⟩ := value_first (sp := sp) x hS hr hk
  refine ⟨⟨.node .update_column_set [nameT .column_name col, .leaf (kw sp .ASSIGN), T.val], ⟨_, rfl⟩⟩,
    First.nt (First.seq (First.altL (First.exact (column_runs col) (First.seq (First.tok rfl hT))))), ?_⟩
  obtain ⟨T, hn⟩ := T
  have blind : Blind T → assignment (.node .update_column_set [nameT .column_name col, .leaf (kw sp .ASSIGN), T]) = .ok { name := col } := by
    intro hb
    have h1 : (Tree.node .update_column_set [nameT .column_name col, .leaf (kw sp .ASSIGN), T]).child .column_name = some (nameT .column_name col) := rfl
    have h2 : (Tree.node .update_column_set [nameT .column_name col, .leaf (kw sp .ASSIGN), T]).child .expr = some T := by
      obtain ⟨cs, rfl⟩ := hn; rfl
    rw [assignment, Visit.textOf, h1, h2]
    simp only [Res.must, Res.bind, text_name, hb .literal_value (by decide), hb .bind_param (by decide), hb .arithmetic_expr (by decide)]
  cases x with
  | lit l =>
    have hs : T = exprT (litT sp l) := hs
    subst hs
    exact assignment_set hg ⟨col, .lit l⟩
  | arith c o y =>
    have hs : T = rhsT sp (.arith c o y) := hs
    subst hs
    exact assignment_set hg ⟨col, .arith c o y⟩
  | cond c =>
    cases c with
    | one c =>
      have hs : T = exprT (cmpT sp c) := hs
      subst hs
      have h1 : (Tree.node .update_column_set [nameT .column_name col, .leaf (kw sp .ASSIGN), exprT (cmpT sp c)]).child .column_name = some (nameT .column_name col) := rfl
      have h2 : (Tree.node .update_column_set [nameT .column_name col, .leaf (kw sp .ASSIGN), exprT (cmpT sp c)]).child .expr = some (exprT (cmpT sp c)) := rfl
      have h3 : (exprT (cmpT sp c)).child .literal_value = none := rfl
      have h4 : (exprT (cmpT sp c)).child .bind_param = none := rfl
      have h5 : (exprT (cmpT sp c)).child .arithmetic_expr = none := rfl
      show assignment (.node .update_column_set [nameT .column_name col, .leaf (kw sp .ASSIGN), exprT (cmpT sp c)]) = _
      rw [assignment, Visit.textOf, h1, h2]
      simp only [Res.must, Res.bind, text_name, h3, h4, h5]
      rfl
    | _ => exact blind hs
  | _ => exact blind hs

/-- The tree of an UPDATE. -/
def changeT (sp : Spelling) (t : Str) (a : SetTree) (as : List SetTree) (c : Option CondS) : Tree :=
  .node .update_stmt (.leaf (kw sp .UPDATE_) :: .lab .table [qualifiedT t] :: .leaf (kw sp .SET_) :: a.val ::
    (tailT sp (·.val) as ++ whereT sp c))

/-- What an assignment is taken as. -/
def SetAs (sp : Spelling) (a : AssignS) (A : SetTree) : Prop := assignment A.val = .ok (assignV sp a)

/-- What follows the assignments. -/
def afterSets : Elem :=
  (.opt ((.tok .FROM_) ⬝ (((.nt .table_or_subquery) ⬝ (.star ((.tok .COMMA) ⬝ (.nt .table_or_subquery)))) ∣
      (.nt .join_clause)))) ⬝ (.opt ((.tok .WHERE_) ⬝ (.lab .whereExpr (.expr 0)))) ⬝
      (.opt (.nt .returning_clause))

theorem change_first (hg : sp.Good) (u : ChangeS) (hq : Quiet k) (h : Heads stmtFollow rest) (hk : k rest = some v) :
    ∃ A As, First (.nt .update_stmt) k (u.toks sp ++ rest) [changeT sp u.table A As u.cond] v ∧ SetAs sp u.asg A ∧ Pairwise2 (SetAs sp) u.asgs As := by
  obtain ⟨table, asg, asgs, cond⟩ := u
  have e : ChangeS.toks sp ⟨table, asg, asgs, cond⟩ ++ rest =
      kw sp .UPDATE_ :: ident table :: kw sp .SET_ :: (asg.toks sp ++ (tailToks sp (AssignS.toks sp) asgs ++
        (whereToks sp cond ++ rest))) := by
    rw [ChangeS.toks, commas_map]; simp
  rw [e]
  have h1 : Heads [.WHERE_, .SCOL] (whereToks sp cond ++ rest) := by
    cases cond with
    | none => exact h.mono (by decide)
    | some c => exact Heads.kw
  have h2 : Heads exprFollow (whereToks sp cond ++ rest) := h1.mono (by decide)
  have hw := First.seq (where_first (sp := sp) cond (h.mono (by decide)) (condInner_quiet hq (e := .opt (.nt .returning_clause)))
    (First.optOff h hk))
  rw [List.append_nil] at hw
  have hrej : ∀ t ∈ valueInner, Rejects k t := by
    intro t ht
    have hs : valueInner.all (fun t => !stmtStart t) = true := by krfl
    exact hq t (by simpa using List.all_eq_true.mp hs t ht)
  obtain ⟨As, hAs, has⟩ := list_firstE (sp := sp) (e := .nt .update_column_set) (R := valueInner) (Fol := Heads exprFollow) (T := fun A : SetTree => A.val) (P := SetAs sp)
    (by decide) (fun r => Heads.kw) (fun q w x us hr h hq => assign_first hg x h hr hq) asgs
    (valueInner_rejects (e := afterSets) hrej) h2 h1.noComma (First.seq (l := []) (First.optOff h1 hw))
  obtain ⟨A, hA, ha⟩ := assign_first (sp := sp) hg asg (heads_tail asgs (by decide) h2)
    (valueInner_rejects (e := .star (.tok .COMMA ⬝ .nt .update_column_set) ⬝ afterSets) hrej) (First.seq hAs)
  refine ⟨A, As, ?_, ha, has⟩
  refine First.nt (First.seq (l := []) (First.optOff (S := [.UPDATE_]) Heads.kw ?_))
  refine First.seq (First.tok rfl ?_)
  refine First.seq (l := []) (First.optOff (S := [.IDENTIFIER]) Heads.ident ?_)
  refine First.seq (First.lab (qualified_first table (S := [.SET_]) Heads.kw (by krfl) (by krfl) (by krfl) ?_))
  refine First.seq (First.tok rfl ?_)
  exact First.seq (l := [A.val]) hA

/-- What is reported for an UPDATE. -/
def changeV (sp : Spelling) (u : ChangeS) : Update :=
  { table := { name := u.table }, columns := (u.asg :: u.asgs).map (assignV sp), cond := u.cond.map (condV sp) }

theorem resAll_sets {as : List AssignS} {As : List SetTree} (h : Pairwise2 (SetAs sp) as As) :
    Res.all assignment (As.map (·.val)) = .ok (as.map (assignV sp)) := by
  induction h with
  | nil => rfl
  | @cons a A _ _ ha _ ih =>
    have ha : assignment A.val = _ := ha
    rw [List.map_cons, Res.all]
    simp only [ha, Res.bind, ih]
    rfl

theorem change_visit (u : ChangeS) {A : SetTree} {As : List SetTree} (ha : SetAs sp u.asg A) (has : Pairwise2 (SetAs sp) u.asgs As) :
    Visit.update (changeT sp u.table A As u.cond) = .ok (.update (changeV sp u)) := by
  obtain ⟨table, asg, asgs, cond⟩ := u
  have hn : ∀ x : SetTree, x.val.IsNode .update_column_set := fun x => x.property
  have h1 : labelText .table (changeT sp table A As cond) = .ok table := by
    have : (changeT sp table A As cond).label .table = some (qualifiedT table) := rfl
    rw [labelText, this]
    simp [Res.must, Res.bind, qualifiedT, Tree.text, textAll, text_name]
  have h2 : (changeT sp table A As cond).all .update_column_set = (A :: As).map (·.val) := by
    obtain ⟨T, cs, rfl⟩ := A
    have hk : (changeT sp table ⟨.node .update_column_set cs, ⟨cs, rfl⟩⟩ As cond).kids = .leaf (kw sp .UPDATE_) :: qualifiedT table :: .leaf (kw sp .SET_) ::
        .node .update_column_set cs :: (tailT sp (·.val) As ++ unlab (whereT sp cond)) := by
      show .leaf (kw sp .UPDATE_) :: qualifiedT table :: .leaf (kw sp .SET_) :: .node .update_column_set cs ::
        unlab (tailT sp (·.val) As ++ whereT sp cond) = _
      rw [unlab_append, unlab_tail hn]
    rw [Tree.all, hk]
    have h1 : Tree.isRule .update_column_set (qualifiedT table) = false := rfl
    have h3 : (unlab (whereT sp cond)).filter (Tree.isRule .update_column_set) = [] := by cases cond <;> rfl
    simp only [List.filter_cons, h1, List.filter_append, rules_tail hn, h3]
    simp [Tree.isRule]
  have h3 : whereOf (changeT sp table A As cond) = .ok (cond.map (condV sp)) := by
    apply whereOf_where
    obtain ⟨T, cs, rfl⟩ := A
    have h0 : (changeT sp table ⟨.node .update_column_set cs, ⟨cs, rfl⟩⟩ As cond).labels .whereExpr =
        labelled .whereExpr (tailT sp (·.val) As ++ whereT sp cond) := rfl
    rw [h0, labelled_append, labelled_tail hn]
    cases cond <;> rfl
  rw [Visit.update, h1, h2]
  simp only [Res.bind, resAll_sets (.cons ha has), h3]
  rfl

theorem parse_change (toUint : Str → Option Nat) (hg : sp.Good) {q : Str} {ts : List Token} (hl : lex q = some ts) (u : ChangeS)
    (ss : List StmtS) (n : Nat) (hv : visible ts = u.toks sp ++ moreToks sp ss n) :
    Parse.parseQuery toUint q = .ok (.update (changeV sp u) :: ss.map (stmtV toUint sp)) := by
  refine parse_first toUint hg (toks := u.toks sp) .UPDATE_ rfl (by decide) _ ss n ?_ hl hv
  intro γ k v rest hq h hk
  obtain ⟨A, As, hT, ha, has⟩ := change_first (sp := sp) hg u hq h hk
  refine ⟨.node .sql_stmt [changeT sp u.table A As u.cond], ?_, ⟨_, rfl⟩, ?_⟩
  · refine First.nt (First.seq (l := []) (First.optOff (S := [.UPDATE_]) Heads.kw ?_))
    iterate 27 refine First.altR (No.at (t := .UPDATE_) rfl) ?_
    exact First.altL hT
  · have : statement toUint (.node .sql_stmt [changeT sp u.table A As u.cond]) =
        (Visit.update (changeT sp u.table A As u.cond)).bind (fun s => .ok (some s)) := rfl
    rw [this, change_visit u ha has]; rfl

end Verif.Gram
