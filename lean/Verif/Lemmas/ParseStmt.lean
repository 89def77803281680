import Verif.Lemmas.ParseExpr
/-! Parsing the statements of Spec/Syntax.lean. -/
namespace Verif.Gram
open Verif Verif.Lex Verif.Spec

variable {β : Type} {k : List Token → Option β} {v : β} {sp : Spelling} {rest : List Token}

/-! ### Lists -/

/-- The trees of a list after its first element. -/
def tailT {α : Type} (sp : Spelling) (T : α → Tree) (xs : List α) : List Tree :=
  xs.flatMap (fun x => [.leaf (kw sp .COMMA), T x])

/-- The tokens of a list after its first element. -/
def tailToks {α : Type} (sp : Spelling) (f : α → List Token) (xs : List α) : List Token :=
  xs.flatMap (fun x => kw sp .COMMA :: f x)

theorem commas_map {α : Type} (f : α → List Token) (x : α) (xs : List α) :
    commas sp ((x :: xs).map f) = f x ++ tailToks sp f xs := by
  simp only [List.map_cons, commas, tailToks, List.flatMap_map]

/-- No list goes on here. -/
def NoComma (ts : List Token) : Prop := ∀ x r, ts = x :: r → x.kind ≠ .COMMA

theorem Heads.noComma {S : List Tok} {ts : List Token} (h : Heads S ts) (hs : S.all (fun t => decide (t ≠ .COMMA)) = true := by decide) :
    NoComma ts := fun x r hx => of_decide_eq_true ((List.all_eq_true.mp hs) _ (h x r hx))

theorem comma_starts {e : Elem} {t : Tok} (ht : t ≠ .COMMA) : startsWith (.star (.tok .COMMA ⬝ e)) t = false := by
  have h : startsWith (.star (.tok .COMMA ⬝ e)) t = (decide (t = .COMMA) || (false && starts 78 e t)) := rfl
  rw [h]; simp [ht]

/-- A list with commas. -/
theorem list_first {α : Type} {e : Elem} {f : α → List Token} {T : α → Tree} {Fol : List Token → Prop} {R : List Tok}
    (hR : .COMMA ∉ R) (hF : ∀ r, Fol (kw sp .COMMA :: r))
    (item : ∀ {γ : Type} (q : List Token → Option γ) (w : γ) (x : α) (us : List Token), (∀ t ∈ R, Rejects q t) →
      Fol us → q us = some w → First e q (f x ++ us) [T x] w)
    (xs : List α) (hr : ∀ t ∈ R, Rejects k t) (hrest : Fol rest) (hc : NoComma rest) (hk : k rest = some v)
    (hp : Proper (.star (.tok .COMMA ⬝ e)) := by proper) :
    First (.star (.tok .COMMA ⬝ e)) k (tailToks sp f xs ++ rest) (tailT sp T xs) v := by
  induction xs with
  | nil =>
    refine First.starNil ?_ hk hp
    show No (.tok .COMMA ⬝ e) _ rest
    apply No.all
    intro p hm
    rw [parses_seq (proper_star hp), parses_tok] at hm
    cases rest with
    | nil => simp [one, after] at hm
    | cons x r => simp [one, after, hc x r rfl] at hm
  | cons x xs ih =>
    have hfol : Fol (tailToks sp f xs ++ rest) := by
      cases xs with
      | nil => exact hrest
      | cons y ys => exact hF _
    have hh := First.starCons (hp := hp) (First.seq (hp := proper_star hp) (First.tok (x := kw sp .COMMA) rfl
      (item (best (.star (.tok .COMMA ⬝ e)) k) (tailT sp T xs, v) x (tailToks sp f xs ++ rest)
        (fun t ht => Rejects.best (hr t ht) (comma_starts (fun h => hR (h ▸ ht))) hp) hfol ih)))
    have e1 : tailToks sp f (x :: xs) ++ rest = kw sp .COMMA :: (f x ++ (tailToks sp f xs ++ rest)) := by
      simp [tailToks]
    rw [e1]
    exact hh

theorem Heads.append {S : List Tok} {a b : List Token} (ha : Heads S a) (hb : a = [] → Heads S b) : Heads S (a ++ b) := by
  cases a with
  | nil => exact hb rfl
  | cons x r => exact Heads.cons (ha x r rfl)

/-- The follow condition of list elements that end with an expression. -/
theorem heads_tail {α : Type} {f : α → List Token} {S : List Tok} (xs : List α) (hc : .COMMA ∈ S) (h : Heads S rest) :
    Heads S (tailToks sp f xs ++ rest) := by
  cases xs with
  | nil => exact h
  | cons x xs => exact Heads.cons hc

theorem Heads.kw {S : List Tok} {t : Tok} {r : List Token} (h : t ∈ S := by decide) : Heads S (Spec.kw sp t :: r) :=
  Heads.cons h
theorem Heads.ident {S : List Tok} {a : Str} {r : List Token} (h : .IDENTIFIER ∈ S := by decide) :
    Heads S (Spec.ident a :: r) := Heads.cons h

/-! ### Selected items -/

/-- The tokens an atom starts with. -/
def atomStart : List Tok :=
  [.IDENTIFIER, .NUMERIC_LITERAL, .PLUS, .MINUS, .STRING_LITERAL, .BLOB_LITERAL, .NULL_, .TRUE_, .FALSE_,
   .CURRENT_TIME_, .CURRENT_DATE_, .CURRENT_TIMESTAMP_, .BIND_PARAMETER]

theorem atom_heads (a : Atom) (r : List Token) : Heads atomStart (a.toks sp ++ r) := by
  cases a with
  | col a => exact Heads.ident
  | lit l =>
    cases l with
    | word w s => exact Heads.cons (by show w.tok ∈ atomStart; cases w <;> decide)
    | num s => exact Heads.cons (by show Tok.NUMERIC_LITERAL ∈ atomStart; decide)
    | plus s => exact Heads.kw
    | minus s => exact Heads.kw
    | str s => exact Heads.cons (by show Tok.STRING_LITERAL ∈ atomStart; decide)
    | blob s => exact Heads.cons (by show Tok.BLOB_LITERAL ∈ atomStart; decide)
    | bind s => exact Heads.cons (by show Tok.BIND_PARAMETER ∈ atomStart; decide)

theorem heads_close (r : List Token) : Heads exprFollow (kw sp .CLOSE_PAR :: r) := Heads.kw

theorem atom_item (R : List Tok) {γ : Type} (q : List Token → Option γ) (w : γ) (x : Atom) (us : List Token)
    (_ : ∀ t ∈ R, Rejects q t) (h : Heads exprFollow us) (hq : q us = some w) :
    First (.expr 0) q (x.toks sp ++ us) [atomT sp x] w := atom_expr x h hq

/-- The trees of function arguments. -/
def argsT (sp : Spelling) : ArgsS → List Tree
  | .star => [.leaf (kw sp .STAR)]
  | .none => []
  | .list a as => atomT sp a :: tailT sp (atomT sp) as

/-- The tree of a function call. -/
def fnT (sp : Spelling) (f : Str) (args : ArgsS) : Tree :=
  .node .«function» (nameT .function_name f :: .leaf (kw sp .OPEN_PAR) :: (argsT sp args ++ [.leaf (kw sp .CLOSE_PAR)]))

theorem args_first (args : ArgsS) {r : List Token} (hk : k (kw sp .CLOSE_PAR :: r) = some v) :
    First (.opt (((.opt (.tok .DISTINCT_)) ⬝ (.expr 0) ⬝ (.star ((.tok .COMMA) ⬝ (.expr 0)))) ∣ (.tok .STAR))) k
      (args.toks sp ++ kw sp .CLOSE_PAR :: r) (argsT sp args) v := by
  cases args with
  | star => exact First.optSome (First.altR (No.at rfl) (First.tok rfl hk))
  | none => exact First.optOff (S := [.CLOSE_PAR]) Heads.kw hk
  | list a as =>
    rw [ArgsS.toks, commas_map, List.append_assoc]
    refine First.optSome (First.altL (First.seq (l := []) (First.optOff (atom_heads a _) ?_)))
    refine First.seq (l := [atomT sp a]) (m := tailT sp (atomT sp) as) (atom_expr a (heads_tail as (by decide) (heads_close r)) ?_)
    exact list_first (R := []) (Fol := Heads exprFollow) (by simp) (fun r => Heads.kw)
      (atom_item []) as (by simp) (heads_close r) (Heads.noComma (S := [.CLOSE_PAR]) Heads.kw) hk

theorem fn_expr (f : Str) (args : ArgsS) (hS : Heads exprFollow rest) (hr : Rejects k .OPEN_PAR)
    (hk : k rest = some v) :
    First (.expr 0) k ((ItemS.fn f args).toks sp ++ rest) [exprT (fnT sp f args)] v := by
  have e : (ItemS.fn f args).toks sp ++ rest = ident f :: kw sp .OPEN_PAR :: (args.toks sp ++ kw sp .CLOSE_PAR :: rest) := by
    simp [ItemS.toks]
  rw [e]
  refine expr_first (rest := rest) rfl ?_ hS hk
  intro γ q w hq hrej
  have ho : Rejects q .OPEN_PAR := hrej _ hr (by krfl)
  refine First.altR (No.at rfl) (First.altR No.empty (First.altR (No.at rfl) (First.altR (No.at rfl)
    (First.altR (No.at rfl) (First.altR ?_ (First.altR (No.at rfl) (First.altR No.empty (First.altR No.empty
      (First.altR No.empty (First.altL ?_))))))))))
  · exact No.exact (l := [nameT .column_name f]) (us := kw sp .OPEN_PAR :: (args.toks sp ++ kw sp .CLOSE_PAR :: rest))
      (by krfl) (ho _ _ rfl)
  · refine First.nt (First.seq (l := [nameT .function_name f]) (First.exact (us := kw sp .OPEN_PAR :: (args.toks sp ++ kw sp .CLOSE_PAR :: rest)) (by krfl) ?_))
    refine First.seq (First.tok rfl ?_)
    refine First.seq (args_first args ?_)
    refine First.seq (First.tok rfl ?_)
    refine First.seq (l := []) (First.optOff hS ?_)
    exact First.optOff hS hq

/-- The tree of a selected item. -/
def itemT (sp : Spelling) : ItemS → Tree
  | .star => .node .result_column [.leaf (kw sp .STAR)]
  | .atom a => .node .result_column [atomT sp a]
  | .fn f args => .node .result_column [exprT (fnT sp f args)]

theorem item_first (i : ItemS) (hr : ∀ t ∈ [Tok.OPEN_PAR], Rejects k t) (hS : Heads exprFollow rest) (hk : k rest = some v) :
    First (.nt .result_column) k (i.toks sp ++ rest) [itemT sp i] v := by
  cases i with
  | star => exact First.nt (First.altL (First.tok rfl hk))
  | atom a =>
    refine First.nt (First.altR (No.off (atom_heads a _)) (First.altR ?_ ?_))
    · cases a with
      | col a => exact No.seq (No.exact (table_runs a) (No.seq (off_of_heads hS)))
      | lit l =>
        cases l with
        | word w s =>
          have hrun : runs 60 (.nt .table_name) (⟨w.tok, s⟩ :: rest) =
              some [([.node .table_name [.node .any_name [.node .keyword [.leaf ⟨w.tok, s⟩]]]], rest)] := by
            cases w <;> krfl
          exact No.seq (No.exact hrun (No.seq (off_of_heads hS)))
        | str s => exact No.seq (No.exact (l := [.node .table_name [.node .any_name [.leaf ⟨.STRING_LITERAL, s⟩]]]) (us := rest)
              (by krfl) (No.seq (off_of_heads hS)))
        | num s => exact No.at rfl
        | plus s => exact No.at rfl
        | minus s => exact No.at rfl
        | blob s => exact No.at rfl
        | bind s => exact No.at rfl
    · exact First.seq (m := []) (atom_expr a hS (First.optOff hS hk))
  | fn f args =>
    have e : (ItemS.fn f args).toks sp ++ rest = ident f :: kw sp .OPEN_PAR :: (args.toks sp ++ kw sp .CLOSE_PAR :: rest) := by
      simp [ItemS.toks]
    refine First.nt (First.altR ?_ (First.altR ?_ ?_))
    · rw [e]; exact No.at rfl
    · rw [e]; exact No.seq (No.exact (table_runs f) (No.seq (No.at rfl)))
    · exact First.seq (m := []) (fn_expr f args hS (Rejects.best (hr .OPEN_PAR (by simp))) (First.optOff hS hk))

/-! ### The clauses of SELECT -/

/-- The tokens that may follow a statement. -/
def stmtFollow : List Tok := [.SCOL]

/-- The tree of a number. -/
def numberT (n : Str) : Tree := exprT (.node .literal_value [.node .signed_number [.leaf (number n)]])

theorem number_expr (n : Str) (hS : Heads exprFollow rest) (hk : k rest = some v) :
    First (.expr 0) k (number n :: rest) [numberT n] v := lit_expr (sp := fun _ => []) (.num n) hS hk

/-- The trees of a LIMIT clause. -/
def limitT (sp : Spelling) : LimitS → List Tree
  | .none => []
  | .only n => [.node .limit_stmt [.leaf (kw sp .LIMIT_), numberT n]]
  | .offset n m => [.node .limit_stmt [.leaf (kw sp .LIMIT_), numberT n, .leaf (kw sp .OFFSET_), numberT m]]
  | .comma m n => [.node .limit_stmt [.leaf (kw sp .LIMIT_), numberT m, .leaf (kw sp .COMMA), numberT n]]

theorem limit_first (l : LimitS) (hS : Heads stmtFollow rest) (hk : k rest = some v) :
    First (.opt (.nt .limit_stmt)) k (l.toks sp ++ rest) (limitT sp l) v := by
  have he : Heads exprFollow rest := hS.mono (by decide)
  cases l with
  | none => exact First.optOff hS hk
  | only n =>
    exact First.optSome (First.nt (First.seq (First.tok rfl (First.seq (m := []) (number_expr n he (First.optOff hS hk))))))
  | offset n m =>
    exact First.optSome (First.nt (First.seq (First.tok rfl (First.seq (number_expr n Heads.kw
      (First.optSome (First.seq (First.altL (First.tok rfl (number_expr m he hk))))))))))
  | comma m n =>
    exact First.optSome (First.nt (First.seq (First.tok rfl (First.seq (number_expr m Heads.kw
      (First.optSome (First.seq (First.altR (No.at rfl) (First.tok rfl (number_expr n he hk))))))))))

/-- The trees of a direction. -/
def dirT (sp : Spelling) : Option Dir → List Tree
  | none => []
  | some d => [.node .asc_desc [.leaf (kw sp d.tok)]]

/-- The tree of an ordering term. -/
def orderT (sp : Spelling) (o : OrderS) : Tree :=
  .node .ordering_term (exprT (nameT .column_name o.col) :: dirT sp o.dir)

/-- The tokens that may follow an ordering term. -/
def orderFollow : List Tok := [.COMMA, .LIMIT_, .SCOL]

theorem order_first (o : OrderS) (hS : Heads orderFollow rest) (hk : k rest = some v) :
    First (.nt .ordering_term) k (o.toks sp ++ rest) [orderT sp o] v := by
  obtain ⟨c, d⟩ := o
  have he : Heads exprFollow rest := hS.mono (by decide)
  cases d with
  | none =>
    exact First.nt (First.seq (m := []) (col_expr c he (First.seq (l := []) (First.optOff hS
      (First.seq (l := []) (First.optOff hS (First.optOff hS hk)))))))
  | some d =>
    cases d with
    | asc =>
      exact First.nt (First.seq (m := dirT sp (some .asc)) (col_expr c Heads.kw (First.seq (l := [])
        (First.optOff (S := [.ASC_]) Heads.kw
        (First.seq (m := []) (First.optSome (a := .nt .asc_desc) (First.nt (r := .asc_desc) (First.altL (First.tok rfl (First.optOff hS hk))))))))))
    | desc =>
      exact First.nt (First.seq (m := dirT sp (some .desc)) (col_expr c Heads.kw (First.seq (l := [])
        (First.optOff (S := [.DESC_]) Heads.kw
        (First.seq (m := []) (First.optSome (a := .nt .asc_desc) (First.nt (r := .asc_desc) (First.altR (No.at rfl) (First.tok rfl (First.optOff hS hk))))))))))

/-- The trees of an ORDER BY clause. -/
def ordersT (sp : Spelling) : List OrderS → List Tree
  | [] => []
  | o :: os => [.node .order_by_stmt (.leaf (kw sp .ORDER_) :: .leaf (kw sp .BY_) :: orderT sp o :: tailT sp (orderT sp) os)]

theorem orders_first (os : List OrderS) (hS : Heads [.LIMIT_, .SCOL] rest) (hk : k rest = some v) :
    First (.opt (.nt .order_by_stmt)) k (ordersToks sp os ++ rest) (ordersT sp os) v := by
  cases os with
  | nil => exact First.optOff hS hk
  | cons o os =>
    have ho : Heads orderFollow rest := hS.mono (by decide)
    rw [ordersToks, commas_map]
    simp only [List.cons_append, List.append_assoc]
    refine First.optSome (First.nt (First.seq (First.tok rfl (First.seq (First.tok rfl (First.seq (l := [orderT sp o])
      (order_first o (heads_tail os (by decide) ho) ?_)))))))
    exact list_first (R := []) (Fol := Heads orderFollow) (by simp) (fun r => Heads.kw)
      (fun q w x us _ h hq => order_first x h hq) os (by simp) ho hS.noComma hk

/-- The trees of a GROUP BY clause. -/
def groupT (sp : Spelling) : Option Str → List Tree
  | none => []
  | some g => [.leaf (kw sp .GROUP_), .leaf (kw sp .BY_), .lab .groupByExpr [exprT (nameT .column_name g)]]

/-- The tokens that may follow the GROUP BY clause. -/
def groupFollow : List Tok := [.ORDER_, .LIMIT_, .SCOL]

theorem group_first (g : Option Str) (hS : Heads groupFollow rest) (hk : k rest = some v) :
    First (.opt ((.tok .GROUP_) ⬝ (.tok .BY_) ⬝ (.lab .groupByExpr (.expr 0)) ⬝
      (.star ((.tok .COMMA) ⬝ (.lab .groupByExpr (.expr 0)))) ⬝ (.opt ((.tok .HAVING_) ⬝
      (.lab .havingExpr (.expr 0)))))) k (groupToks sp g ++ rest) (groupT sp g) v := by
  cases g with
  | none => exact First.optOff hS hk
  | some g =>
    exact First.optSome (First.seq (First.tok rfl (First.seq (First.tok rfl (First.seq (First.lab
      (col_expr g (hS.mono (by decide)) (First.seq (l := []) (First.starOff hS (First.optOff hS hk))))))))))

/-- The trees of a WHERE clause. -/
def whereT (sp : Spelling) : Option CondS → List Tree
  | none => []
  | some c => [.leaf (kw sp .WHERE_), .lab .whereExpr [exprT (condT sp c)]]

/-- The tokens that may follow the WHERE clause. -/
def whereFollow : List Tok := [.GROUP_, .ORDER_, .LIMIT_, .SCOL]

theorem where_first (c : Option CondS) (hS : Heads whereFollow rest) (hr : ∀ x ∈ condInner, Rejects k x)
    (hk : k rest = some v) : First (.opt ((.tok .WHERE_) ⬝ (.lab .whereExpr (.expr 0)))) k (whereToks sp c ++ rest)
      (whereT sp c) v := by
  cases c with
  | none => exact First.optOff hS hk
  | some c =>
    exact First.optSome (First.seq (First.tok rfl (First.lab (cond_expr c (hS.mono (by decide)) hr hk))))

/-! ### Tables -/

/-- What may follow a table: nothing that could be its alias, or a clause whose second token no statement goes on
with. -/
def TableFollow (ts : List Token) : Prop :=
  Heads [.COMMA, .SCOL] ts ∨ ∃ x y r, ts = x :: y :: r ∧ x.kind ∈ [Tok.WHERE_, .GROUP_, .ORDER_, .LIMIT_] ∧
    (y.kind ∈ [Tok.IDENTIFIER, .BY_, .NUMERIC_LITERAL, .OPEN_PAR] ∨ y.kind = .NOT_ ∧ Heads [.IDENTIFIER] r)

/-- The tree of a table. -/
def tableT (sp : Spelling) (t : TabS) : Tree := .node .«from» [.node .from_table (match t.schema with
  | none => [nameT .table_name t.name]
  | some s => [nameT .schema_name s, .leaf (kw sp .DOT), nameT .table_name t.name])]

theorem alias_first (a : Str) (hr : ∀ t ∈ [Tok.IDENTIFIER, .BY_, .NUMERIC_LITERAL, .OPEN_PAR, .NOT_], Rejects k t) (hS : TableFollow rest)
    (hk : k rest = some v) : First ((.nt .table_name) ⬝ ((.opt ((.opt (.tok .AS_)) ⬝
      (.nt .table_alias))) ⬝ (.opt (((.tok .INDEXED_) ⬝ (.tok .BY_) ⬝ (.nt .index_name)) ∣ ((.tok .NOT_) ⬝
      (.tok .INDEXED_)))))) k (ident a :: rest) [nameT .table_name a] v := by
  have hheads : Heads [.COMMA, .SCOL, .WHERE_, .GROUP_, .ORDER_, .LIMIT_] rest := by
    rcases hS with h | ⟨x, y, r, rfl, hx, -⟩
    · exact h.mono (by decide)
    · refine Heads.cons ?_
      simp only [List.mem_cons, List.not_mem_nil, or_false] at hx ⊢
      rcases hx with h | h | h | h <;> simp [h]
  refine First.seq (m := []) (First.exact (table_runs a) ?_)
  refine First.seq (l := []) (First.optNone ?_ (First.optOff hheads hk))
  rcases hS with h | ⟨x, y, r, rfl, hx, hy⟩
  · exact No.off h
  · obtain ⟨xk, xt⟩ := x
    have hrej : best (.opt (((.tok .INDEXED_) ⬝ (.tok .BY_) ⬝ (.nt .index_name)) ∣ ((.tok .NOT_) ⬝ (.tok .INDEXED_)))) k
        (y :: r) = none := by
      simp only [List.mem_cons, List.not_mem_nil, or_false] at hy
      rcases hy with (h | h | h | h) | ⟨h, hn⟩
      · exact (Rejects.best (hr .IDENTIFIER (by simp))) _ _ h
      · exact (Rejects.best (hr .BY_ (by simp))) _ _ h
      · exact (Rejects.best (hr .NUMERIC_LITERAL (by simp))) _ _ h
      · exact (Rejects.best (hr .OPEN_PAR (by simp))) _ _ h
      · refine No.alt ?_ ?_
        · refine No.alt (No.at h) (No.seq ?_)
          exact No.tok h (No.off hn)
        · rw [No, best_eps, hr .NOT_ (by simp) _ _ h]; rfl
    have hrun : runs 60 ((.opt (.tok .AS_)) ⬝ (.nt .table_alias)) (⟨xk, xt⟩ :: y :: r) =
        some [([.node .table_alias [.node .any_name [.node .keyword [.leaf ⟨xk, xt⟩]]]], y :: r)] := by
      simp only [List.mem_cons, List.not_mem_nil, or_false] at hx
      rcases hx with h | h | h | h <;> (cases h; krfl)
    exact No.exact hrun hrej

theorem table_first (t : TabS) (hr : ∀ t ∈ [Tok.IDENTIFIER, .BY_, .NUMERIC_LITERAL, .OPEN_PAR, .NOT_], Rejects k t) (hS : TableFollow rest)
    (hk : k rest = some v) : First (.nt .«from») k (t.toks sp ++ rest) [tableT sp t] v := by
  obtain ⟨s, a⟩ := t
  have hheads : Heads [.COMMA, .SCOL, .WHERE_, .GROUP_, .ORDER_, .LIMIT_] rest := by
    rcases hS with h | ⟨x, y, r, rfl, hx, -⟩
    · exact h.mono (by decide)
    · refine Heads.cons ?_
      simp only [List.mem_cons, List.not_mem_nil, or_false] at hx ⊢
      rcases hx with h | h | h | h <;> simp [h]
  cases s with
  | none =>
    refine First.nt (First.altL (First.nt (First.seq (l := []) (First.optNone ?_ (alias_first a hr hS hk)))))
    exact No.seq (No.exact (l := [nameT .schema_name a]) (us := rest) (by krfl) (No.off hheads))
  | some s =>
    refine First.nt (First.altL (First.nt (First.seq (l := [nameT .schema_name s, .leaf (kw sp .DOT)])
      (First.optSome (First.exact (us := ident a :: rest) ?_ (alias_first a hr hS hk))))))
    krfl

/-- The trees of a FROM clause. -/
def fromT (sp : Spelling) : List TabS → List Tree
  | [] => []
  | t :: ts => .leaf (kw sp .FROM_) :: tableT sp t :: tailT sp (tableT sp) ts

theorem from_first (ts : List TabS) (hr : ∀ t ∈ [Tok.IDENTIFIER, .BY_, .NUMERIC_LITERAL, .OPEN_PAR, .NOT_], Rejects k t)
    (hS : TableFollow rest) (hh : Heads (.WHERE_ :: whereFollow) rest) (hk : k rest = some v) :
    First (.opt ((.tok .FROM_) ⬝ ((.opt ((.nt .«from») ⬝ (.star ((.tok .COMMA) ⬝ (.nt .«from»))))) ∣ (.nt .join_clause)))) k
      (fromToks sp ts ++ rest) (fromT sp ts) v := by
  cases ts with
  | nil => exact First.optOff hh hk
  | cons t ts =>
    rw [fromToks, commas_map, List.cons_append, List.append_assoc]
    have hfol : TableFollow (tailToks sp (TabS.toks sp) ts ++ rest) := by
      cases ts with
      | nil => exact hS
      | cons y ys => exact .inl Heads.kw
    refine First.optSome (First.seq (First.tok rfl (First.altL (First.optSome (First.seq (table_first t ?_ hfol ?_))))))
    · intro x hx
      refine Rejects.best (hr x hx) (comma_starts ?_)
      rintro rfl
      simp at hx
    · exact list_first (R := [Tok.IDENTIFIER, .BY_, .NUMERIC_LITERAL, .OPEN_PAR, .NOT_]) (Fol := TableFollow) (by decide)
        (fun r => .inl Heads.kw) (fun q w x us hq h hw => table_first x hq h hw) ts hr hS hh.noComma hk

/-! ### Statements -/

/-- The token starts a statement or ends one. -/
def stmtStart (t : Tok) : Bool := decide (t = .SCOL) || startsWith (.nt .sql_stmt) t

/-- The continuation only accepts the end of the input, `;` and statements. -/
def Quiet (k : List Token → Option β) : Prop := ∀ t, stmtStart t = false → Rejects k t

/-- The tree of a SELECT. -/
def selectT (sp : Spelling) (s : SelectS) : Tree :=
  .node .select_stmt (.lab .parentQuery [.node .select_core (.leaf (kw sp .SELECT_) :: itemT sp s.item ::
    (tailT sp (itemT sp) s.items ++ (fromT sp s.tables ++ (whereT sp s.cond ++ groupT sp s.group))))] ::
    (ordersT sp s.orders ++ limitT sp s.limit))

theorem limit_heads (l : LimitS) (h : Heads stmtFollow rest) : Heads [.LIMIT_, .SCOL] (l.toks sp ++ rest) := by
  cases l with
  | none => exact h.mono (by decide)
  | _ => exact Heads.kw

theorem orders_heads (os : List OrderS) (h : Heads [.LIMIT_, .SCOL] rest) : Heads groupFollow (ordersToks sp os ++ rest) := by
  cases os with
  | nil => exact h.mono (by decide)
  | cons => exact Heads.kw

theorem group_heads (g : Option Str) (h : Heads groupFollow rest) : Heads whereFollow (groupToks sp g ++ rest) := by
  cases g with
  | none => exact h.mono (by decide)
  | some => exact Heads.kw

theorem where_heads (c : Option CondS) (h : Heads whereFollow rest) : Heads (.WHERE_ :: whereFollow) (whereToks sp c ++ rest) := by
  cases c with
  | none => exact h.mono (by decide)
  | some => exact Heads.kw

theorem from_heads (ts : List TabS) (h : Heads (.WHERE_ :: whereFollow) rest) : Heads exprFollow (fromToks sp ts ++ rest) := by
  cases ts with
  | nil => exact h.mono (by decide)
  | cons => exact Heads.kw

theorem cond_head (c : CondS) : ∃ a r, c.toks sp = ident a :: r := by
  cases c with
  | one c => exact ⟨_, _, rfl⟩
  | and a b => exact ⟨_, _, rfl⟩
  | or a b => exact ⟨_, _, rfl⟩

/-- What follows the tables of a SELECT. -/
theorem tables_follow (c : Option CondS) (g : Option Str) (os : List OrderS) (l : LimitS) (h : Heads stmtFollow rest) :
    TableFollow (whereToks sp c ++ (groupToks sp g ++ (ordersToks sp os ++ (l.toks sp ++ rest)))) := by
  cases c with
  | some c =>
    obtain ⟨a, r, hc⟩ := cond_head (sp := sp) c
    exact .inr ⟨kw sp .WHERE_, ident a, _, by rw [whereToks, hc]; rfl, by simp [kw], .inl (by simp [ident])⟩
  | none =>
    cases g with
    | some g => exact .inr ⟨kw sp .GROUP_, kw sp .BY_, _, rfl, by simp [kw], .inl (by simp [kw])⟩
    | none =>
      cases os with
      | cons o os => exact .inr ⟨kw sp .ORDER_, kw sp .BY_, _, rfl, by simp [kw], .inl (by simp [kw])⟩
      | nil =>
        cases l with
        | none => exact .inl (h.mono (by decide))
        | only n => exact .inr ⟨kw sp .LIMIT_, number n, _, rfl, by simp [kw], .inl (by simp [number])⟩
        | offset n m => exact .inr ⟨kw sp .LIMIT_, number n, _, rfl, by simp [kw], .inl (by simp [number])⟩
        | comma m n => exact .inr ⟨kw sp .LIMIT_, number m, _, rfl, by simp [kw], .inl (by simp [number])⟩

/-- Proves that a continuation made of grammar parts before a quiet one rejects a kind of token. -/
macro "quiet" h:term : tactic => `(tactic| (repeat (refine Rejects.best ?_)) <;> exact $h _ (by krfl))

theorem select_first (s : SelectS) (hq : Quiet k) (h : Heads stmtFollow rest) (hk : k rest = some v) :
    First (.nt .select_stmt) k (s.toks sp ++ rest) [selectT sp s] v := by
  obtain ⟨item, items, tables, cond, group, orders, limit⟩ := s
  have e : SelectS.toks sp ⟨item, items, tables, cond, group, orders, limit⟩ ++ rest =
      kw sp .SELECT_ :: (item.toks sp ++ (tailToks sp (ItemS.toks sp) items ++ (fromToks sp tables ++ (whereToks sp cond ++
        (groupToks sp group ++ (ordersToks sp orders ++ (limit.toks sp ++ rest))))))) := by
    rw [SelectS.toks, commas_map]
    simp only [List.cons_append, List.append_assoc]
  rw [e]
  have h4 := limit_heads (sp := sp) limit h
  have h3 := orders_heads (sp := sp) orders h4
  have h2 := group_heads (sp := sp) group h3
  have h1 := where_heads (sp := sp) cond h2
  have h0 := from_heads (sp := sp) tables h1
  have hi := heads_tail (sp := sp) (f := ItemS.toks sp) items (by decide) h0
  refine First.nt (First.seq (l := []) (First.optOff (S := [.SELECT_]) Heads.kw ?_))
  refine First.seq (l := [_]) (m := ordersT sp orders ++ limitT sp limit) (First.lab (First.nt (First.altL ?_)))
  refine First.seq (First.tok rfl ?_)
  have hin : Heads (Tok.STAR :: atomStart) (item.toks sp ++ (tailToks sp (ItemS.toks sp) items ++ (fromToks sp tables ++ (whereToks sp cond ++
        (groupToks sp group ++ (ordersToks sp orders ++ (limit.toks sp ++ rest))))))) := by
    cases item with
    | star => exact Heads.kw
    | atom a => exact (atom_heads a _).mono (by decide)
    | fn f args => exact Heads.ident
  refine First.seq (l := []) (First.optOff hin ?_)
  have hopen : ∀ {γ : Type} {q : List Token → Option γ}, Rejects q .OPEN_PAR → ∀ t ∈ [Tok.OPEN_PAR], Rejects q t := by
    intro γ q hq t ht
    rw [List.mem_singleton] at ht
    rw [ht]; exact hq
  refine First.seq (item_first item (hopen (by quiet hq)) hi ?_)
  refine First.seq (list_first (R := [.OPEN_PAR]) (Fol := Heads exprFollow) (by decide) (fun r => Heads.kw)
      (fun q w x us hr h hq => item_first x hr h hq) items (hopen (by quiet hq)) h0 ?_ ?_)
  · cases tables with
    | nil => exact h1.noComma
    | cons => exact Heads.noComma (S := [.FROM_]) Heads.kw
  refine First.seq (from_first tables ?_ (tables_follow cond group orders limit h) h1 ?_)
  · intro x hx
    simp only [List.mem_cons, List.not_mem_nil, or_false] at hx
    rcases hx with rfl | rfl | rfl | rfl | rfl <;> quiet hq
  refine First.seq (where_first cond h2 ?_ ?_)
  · intro x hx
    simp only [condInner, List.mem_cons, List.not_mem_nil, or_false] at hx
    rcases hx with rfl | rfl | rfl | rfl | rfl | rfl | rfl | rfl | rfl <;> quiet hq
  have hrest := First.seq (l := []) (First.starOff (a := (.nt .compound_operator) ⬝ (.nt .select_core)) h3
    (First.seq (orders_first orders h4 (limit_first limit h hk))))
  have hgroup := First.seq (group_first (sp := sp) group h3 (First.optOff (a := (.tok .WINDOW_) ⬝ (.nt .window_name) ⬝ (.tok .AS_) ⬝
      (.nt .window_defn) ⬝ (.star ((.tok .COMMA) ⬝ (.nt .window_name) ⬝ (.tok .AS_) ⬝ (.nt .window_defn)))) h3 hrest))
  rw [List.append_nil] at hgroup
  exact hgroup

/-! ### INSERT -/

theorem schema_no (a : Str) {S : List Tok} {us : List Token} (h : Heads S us)
    (hs : S.all (fun t => !startsWith (.tok .DOT) t) = true) : No ((.nt .schema_name) ⬝ (.tok .DOT)) k (ident a :: us) :=
  No.seq (No.exact (l := [nameT .schema_name a]) (us := us) (by krfl) (No.off h hs))

theorem name_item {r : Rule} (hr : ∀ (a : Str) (us : List Token), runs 60 (.nt r) (ident a :: us) = some [([nameT r a], us)])
    (R : List Tok) {γ : Type} (q : List Token → Option γ) (w : γ) (x : Str) (us : List Token)
    (_ : ∀ t ∈ R, Rejects q t) (_ : True) (hq : q us = some w) : First (.nt r) q ([ident x] ++ us) [nameT r x] w :=
  First.exact (hr x us) hq ⟨rfl, by simp [height]⟩

/-- The trees of a list of names. -/
def namesT (sp : Spelling) (r : Rule) : List Str → List Tree
  | [] => []
  | x :: xs => nameT r x :: tailT sp (nameT r) xs

theorem names_first (x : Str) (xs : List Str) {us : List Token} (hk : k us = some v) :
    First ((.tok .OPEN_PAR) ⬝ (.nt .column_name) ⬝ (.star ((.tok .COMMA) ⬝ (.nt .column_name))) ⬝ (.tok .CLOSE_PAR)) k
      (parens sp (commas sp ((x :: xs).map (fun c => [ident c]))) ++ us)
      (.leaf (kw sp .OPEN_PAR) :: (namesT sp .column_name (x :: xs) ++ [.leaf (kw sp .CLOSE_PAR)])) v := by
  have e : parens sp (commas sp ((x :: xs).map (fun c => [ident c]))) ++ us =
      kw sp .OPEN_PAR :: ident x :: (tailToks sp (fun c => [ident c]) xs ++ kw sp .CLOSE_PAR :: us) := by
    rw [commas_map]; simp [parens]
  rw [e]
  refine First.seq (First.tok rfl (First.seq (l := [nameT .column_name x]) (First.exact (column_runs x) ?_)))
  refine First.seq (list_first (R := []) (Fol := fun _ => True) (by simp) (fun _ => trivial)
    (name_item (fun a us => column_runs a) []) xs (by simp) trivial (Heads.noComma (S := [.CLOSE_PAR]) Heads.kw) ?_)
  exact First.tok rfl hk

/-- The trees of a list of values. -/
def valuesT (sp : Spelling) : List Lit → List Tree
  | [] => []
  | l :: ls => exprT (litT sp l) :: tailT sp (fun l => exprT (litT sp l)) ls

/-- The tree of a row. -/
def rowT (sp : Spelling) (r : RowS) : Tree :=
  .node .value_row (.leaf (kw sp .OPEN_PAR) :: (valuesT sp r.all ++ [.leaf (kw sp .CLOSE_PAR)]))

theorem row_first (r : RowS) {us : List Token} (hk : k us = some v) :
    First (.nt .value_row) k (r.toks sp ++ us) [rowT sp r] v := by
  have e : r.toks sp ++ us = kw sp .OPEN_PAR :: (r.val.toks sp ++ (tailToks sp (Lit.toks sp) r.vals ++ kw sp .CLOSE_PAR :: us)) := by
    rw [RowS.toks, RowS.all, parens, commas_map]; simp
  rw [e]
  refine First.nt (First.seq (First.tok rfl (First.seq (l := [exprT (litT sp r.val)]) (lit_expr r.val (heads_tail _ (by decide) (heads_close _)) ?_))))
  refine First.seq (list_first (R := []) (Fol := Heads exprFollow) (T := fun l => exprT (litT sp l)) (by simp) (fun r => Heads.kw)
      (fun q w x us _ h hq => lit_expr x h hq) r.vals (by simp) (heads_close _) (Heads.noComma (S := [.CLOSE_PAR]) Heads.kw) ?_)
  exact First.tok rfl hk

/-- The tree of an INSERT. -/
def insertT (sp : Spelling) (i : InsertS) : Tree :=
  .node .insert_stmt (.leaf (kw sp .INSERT_) :: .leaf (kw sp .INTO_) :: nameT .table_name i.table ::
    .leaf (kw sp .OPEN_PAR) :: (namesT sp .column_name i.names ++ (.leaf (kw sp .CLOSE_PAR) ::
      [.node .values_clause (.leaf (kw sp .VALUES_) :: rowT sp i.row :: tailT sp (rowT sp) i.rows)])))

theorem insert_first (i : InsertS) (h : Heads stmtFollow rest) (hk : k rest = some v) :
    First (.nt .insert_stmt) k (i.toks sp ++ rest) [insertT sp i] v := by
  obtain ⟨table, col, cols, row, rows⟩ := i
  have e : InsertS.toks sp ⟨table, col, cols, row, rows⟩ ++ rest =
      kw sp .INSERT_ :: kw sp .INTO_ :: ident table ::
        (parens sp (commas sp ((col :: cols).map (fun c => [ident c]))) ++ (kw sp .VALUES_ ::
          (row.toks sp ++ (tailToks sp (RowS.toks sp) rows ++ rest)))) := by
    rw [InsertS.toks, commas_map (f := RowS.toks sp)]
    simp [InsertS.names]
  rw [e]
  have ho : ∀ us : List Token, Heads [.OPEN_PAR] (parens sp (commas sp ((col :: cols).map (fun c => [ident c]))) ++ us) :=
    fun us => Heads.kw
  refine First.nt (First.seq (l := []) (First.optOff (S := [.INSERT_]) Heads.kw ?_))
  refine First.seq (First.altL (First.tok rfl ?_))
  refine First.seq (First.tok rfl ?_)
  refine First.seq (l := []) (First.optNone ?_ ?_)
  · exact schema_no table (ho _) (by krfl)
  refine First.seq (First.exact (table_runs table) ?_)
  refine First.seq (l := []) (First.optOff (ho _) ?_)
  have hlist := First.seq (b := ((((.nt .values_clause) ∣ (.nt .select_stmt)) ⬝
      (.opt (.nt .upsert_clause))) ∣ ((.tok .DEFAULT_) ⬝ (.tok .VALUES_))) ⬝ (.opt (.nt .returning_clause)))
    (k := k) (v := v)
    (m := [.node .values_clause (.leaf (kw sp .VALUES_) :: rowT sp row :: tailT sp (rowT sp) rows)])
    (First.optSome (names_first (sp := sp) col cols (us := kw sp .VALUES_ :: (row.toks sp ++ (tailToks sp (RowS.toks sp) rows ++ rest))) ?_))
  · rw [List.cons_append, List.append_assoc] at hlist
    exact hlist
  · refine First.seq (l := [.node .values_clause (.leaf (kw sp .VALUES_) :: rowT sp row :: tailT sp (rowT sp) rows)]) (m := [])
      (First.altL (First.seq (l := [.node .values_clause (.leaf (kw sp .VALUES_) :: rowT sp row :: tailT sp (rowT sp) rows)])
        (m := []) (First.altL ?_)))
    refine First.nt (First.seq (First.tok rfl (First.seq (l := [rowT sp row]) (row_first row ?_))))
    exact list_first (R := []) (Fol := fun _ => True) (by simp) (fun _ => trivial)
      (fun q w x us _ _ hq => row_first x hq) rows (by simp) trivial h.noComma (First.optOff h (First.optOff h hk))

/-! ### UPDATE and DELETE -/

/-- The tree of the table of an UPDATE or DELETE. -/
def qualifiedT (a : Str) : Tree := .node .qualified_table_name [nameT .table_name a]

theorem qualified_first (a : Str) {S : List Tok} {us : List Token} (h : Heads S us)
    (h1 : S.all (fun t => !startsWith (.tok .DOT) t) = true) (h2 : S.all (fun t => !startsWith ((.tok .AS_) ⬝ (.nt .«alias»)) t) = true)
    (h3 : S.all (fun t => !startsWith (((.tok .INDEXED_) ⬝ (.tok .BY_) ⬝ (.nt .index_name)) ∣ ((.tok .NOT_) ⬝ (.tok .INDEXED_))) t) = true)
    (hk : k us = some v) :
    First (.nt .qualified_table_name) k (ident a :: us) [qualifiedT a] v := by
  refine First.nt (First.seq (l := []) (First.optNone ?_ ?_))
  · exact No.seq (No.exact (l := [nameT .schema_name a]) (us := us) (by krfl) (No.off h h1))
  refine First.seq (m := []) (First.exact (table_runs a) ?_)
  exact First.seq (l := []) (First.optOff h (First.optOff h hk h3) h2)

/-- The tree of a right-hand side. -/
def rhsT (sp : Spelling) : RhsS → Tree
  | .lit l => exprT (litT sp l)
  | .arith c o a => exprT (.node .arithmetic_expr [nameT .column_name c, .lab .ope [.leaf (kw sp o.tok)], atomT sp a])

theorem arith_runs (o : ArithSym) : runs 60 (.lab .ope ((.tok .PLUS) ∣ (.tok .MINUS) ∣ (.tok .STAR) ∣ (.tok .DIV) ∣
      (.tok .MOD))) (kw sp o.tok :: rest) = some [([.lab .ope [.leaf (kw sp o.tok)]], rest)] := by cases o <;> krfl

theorem rhs_first (r : RhsS) (hS : Heads exprFollow rest) (hk : k rest = some v) :
    First (.expr 0) k (r.toks sp ++ rest) [rhsT sp r] v := by
  cases r with
  | lit l => exact lit_expr l hS hk
  | arith c o a =>
    refine expr_first (rest := rest) rfl ?_ hS hk
    intro γ q w hq _
    refine First.altR (No.at rfl) (First.altL (First.nt ?_))
    exact First.seq (First.exact (column_runs c) (First.seq (First.exact (arith_runs o) (atom_expr a hS hq))))

/-- The tree of an assignment. -/
def setT (sp : Spelling) (a : SetS) : Tree :=
  .node .update_column_set [nameT .column_name a.col, .leaf (kw sp .ASSIGN), rhsT sp a.rhs]

theorem set_first (a : SetS) (hS : Heads exprFollow rest) (hk : k rest = some v) :
    First (.nt .update_column_set) k (a.toks sp ++ rest) [setT sp a] v :=
  First.nt (First.seq (First.altL (First.exact (column_runs a.col) (First.seq (First.tok rfl (rhs_first a.rhs hS hk))))))

/-- The tree of an UPDATE. -/
def updateT (sp : Spelling) (u : UpdateS) : Tree :=
  .node .update_stmt (.leaf (kw sp .UPDATE_) :: .lab .table [qualifiedT u.table] :: .leaf (kw sp .SET_) :: setT sp u.asg ::
    (tailT sp (setT sp) u.asgs ++ whereT sp u.cond))

theorem condInner_quiet (hq : Quiet k) {e : Elem} (hs : condInner.all (fun t => !startsWith e t) = true := by krfl)
    (hp : Proper e := by proper) : ∀ x ∈ condInner, Rejects (best e k) x := by
  intro x hx
  refine Rejects.best (hq x ?_) (by simpa using List.all_eq_true.mp hs x hx) hp
  have : condInner.all (fun t => !stmtStart t) = true := by krfl
  simpa using List.all_eq_true.mp this x hx

theorem update_first (u : UpdateS) (hq : Quiet k) (h : Heads stmtFollow rest) (hk : k rest = some v) :
    First (.nt .update_stmt) k (u.toks sp ++ rest) [updateT sp u] v := by
  obtain ⟨table, asg, asgs, cond⟩ := u
  have e : UpdateS.toks sp ⟨table, asg, asgs, cond⟩ ++ rest =
      kw sp .UPDATE_ :: ident table :: kw sp .SET_ :: (asg.toks sp ++ (tailToks sp (SetS.toks sp) asgs ++
        (whereToks sp cond ++ rest))) := by
    rw [UpdateS.toks, commas_map]; simp
  rw [e]
  have h1 : Heads [.WHERE_, .SCOL] (whereToks sp cond ++ rest) := by
    cases cond with
    | none => exact h.mono (by decide)
    | some c => exact Heads.kw
  have h2 : Heads exprFollow (whereToks sp cond ++ rest) := h1.mono (by decide)
  refine First.nt (First.seq (l := []) (First.optOff (S := [.UPDATE_]) Heads.kw ?_))
  refine First.seq (First.tok rfl ?_)
  refine First.seq (l := []) (First.optOff (S := [.IDENTIFIER]) Heads.ident ?_)
  refine First.seq (First.lab (qualified_first table (S := [.SET_]) Heads.kw (by krfl) (by krfl) (by krfl) ?_))
  refine First.seq (First.tok rfl ?_)
  refine First.seq (l := [setT sp asg]) (set_first asg (heads_tail asgs (by decide) h2) ?_)
  refine First.seq (list_first (R := []) (Fol := Heads exprFollow) (by simp) (fun r => Heads.kw)
    (fun q w x us _ h hq => set_first x h hq) asgs (by simp) h2 h1.noComma ?_)
  refine First.seq (l := []) (First.optOff h1 ?_)
  have hw := First.seq (where_first (sp := sp) cond (h.mono (by decide)) (condInner_quiet hq (e := .opt (.nt .returning_clause)))
    (First.optOff h hk))
  rw [List.append_nil] at hw
  exact hw

/-- The tree of a DELETE. -/
def deleteT (sp : Spelling) (d : DeleteS) : Tree :=
  .node .delete_stmt (.leaf (kw sp .DELETE_) :: .leaf (kw sp .FROM_) :: .lab .table [qualifiedT d.table] :: whereT sp d.cond)

theorem delete_first (d : DeleteS) (hq : Quiet k) (h : Heads stmtFollow rest) (hk : k rest = some v) :
    First (.nt .delete_stmt) k (d.toks sp ++ rest) [deleteT sp d] v := by
  obtain ⟨table, cond⟩ := d
  have h1 : Heads [.WHERE_, .SCOL] (whereToks sp cond ++ rest) := by
    cases cond with
    | none => exact h.mono (by decide)
    | some c => exact Heads.kw
  refine First.nt (First.seq (l := []) (First.optOff (S := [.DELETE_]) Heads.kw ?_))
  refine First.seq (First.tok rfl ?_)
  refine First.seq (First.tok rfl ?_)
  refine First.seq (First.lab (qualified_first table h1 (by krfl) (by krfl) (by krfl) ?_))
  have hw := First.seq (where_first (sp := sp) cond (h.mono (by decide)) (condInner_quiet hq (e := .opt (.nt .returning_clause)))
    (First.optOff h hk))
  rw [List.append_nil] at hw
  exact hw

end Verif.Gram
