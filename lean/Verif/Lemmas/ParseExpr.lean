import Verif.Lemmas.Best
import Verif.Spec.Syntax
/-! Parsing names, literals, comparisons and conditions. -/
namespace Verif.Gram
open Verif Verif.Lex Verif.Spec

variable {β : Type} {k : List Token → Option β} {v : β} {sp : Spelling} {rest : List Token}

/-- The parses of a part, from a run. -/
theorem parses_run {e : Elem} {ts : List Token} {l : List PRes} (n : Nat)
    (h : runs n e ts = some l) (hp : Proper e := by proper) : parses e ts = l := parses_of_runs hp h

theorem No.empty {e : Elem} {ts : List Token} (h : runs 60 e ts = some [] := by krfl)
    (hp : Proper e := by proper) : No e k ts := by
  apply No.all
  rw [parses_of_runs hp h]
  simp

theorem First.exact {e : Elem} {ts us : List Token} {l : List Tree} (h : runs 60 e ts = some [(l, us)])
    (hk : k us = some v) (hp : Proper e := by proper) : First e k ts l v :=
  First.head (us := us) (by rw [parses_of_runs hp h]; rfl) hk

theorem No.exact {e : Elem} {ts us : List Token} {l : List Tree} (h : runs 60 e ts = some [(l, us)])
    (hk : k us = none) (hp : Proper e := by proper) : No e k ts := by
  apply No.all
  rw [parses_of_runs hp h]
  simpa using hk

/-! ### Names -/

/-- The tree of a name. -/
def anyT (a : Str) : Tree := .node .any_name [.leaf (ident a)]
/-- The tree of a name of a sort. -/
def nameT (r : Rule) (a : Str) : Tree := .node r [anyT a]

theorem any_runs (a : Str) : runs 60 (.nt .any_name) (ident a :: rest) = some [([anyT a], rest)] := by krfl
theorem column_runs (a : Str) : runs 60 (.nt .column_name) (ident a :: rest) = some [([nameT .column_name a], rest)] := by
  krfl
theorem table_runs (a : Str) : runs 60 (.nt .table_name) (ident a :: rest) = some [([nameT .table_name a], rest)] := by
  krfl

/-! ### Literals -/

/-- The tree of a literal. -/
def litT (sp : Spelling) : Lit → Tree
  | .num s => .node .literal_value [.node .signed_number [.leaf ⟨.NUMERIC_LITERAL, s⟩]]
  | .plus s => .node .literal_value [.node .signed_number [.leaf (kw sp .PLUS), .leaf ⟨.NUMERIC_LITERAL, s⟩]]
  | .minus s => .node .literal_value [.node .signed_number [.leaf (kw sp .MINUS), .leaf ⟨.NUMERIC_LITERAL, s⟩]]
  | .str s => .node .literal_value [.node .string_literal [.leaf ⟨.STRING_LITERAL, s⟩]]
  | .blob s => .node .literal_value [.leaf ⟨.BLOB_LITERAL, s⟩]
  | .word w s => .node .literal_value [.leaf ⟨w.tok, s⟩]
  | .bind s => .node .literal_value [.node .bind_param [.leaf ⟨.BIND_PARAMETER, s⟩]]

theorem lit_runs (l : Lit) : runs 60 (.nt .literal_value) (l.toks sp ++ rest) = some [([litT sp l], rest)] := by
  cases l with
  | word w s => cases w <;> krfl
  | num s => krfl
  | plus s => krfl
  | minus s => krfl
  | str s => krfl
  | blob s => krfl
  | bind s => krfl

/-- The tokens that may follow an expression in the statements of Spec/Syntax.lean. -/
def exprFollow : List Tok :=
  [.COMMA, .FROM_, .WHERE_, .GROUP_, .HAVING_, .ORDER_, .LIMIT_, .OFFSET_, .ASC_, .DESC_, .CLOSE_PAR, .RETURNING_, .JOIN_, .INNER_,
    .LEFT_, .CROSS_, .UNION_, .INTERSECT_, .EXCEPT_, .SCOL]

theorem suffix_off (hS : Heads exprFollow rest) (hk : k rest = some v) :
    First (.star (suffix 0)) k rest [] v := First.starOff hS hk

/-- The tree of an expression without suffixes. -/
def exprT (t : Tree) : Tree := .node .expr [t]

/-- Expressions whose primary expression is a rule. -/
theorem expr_first {t : Tree} {ts : List Token} {r : Rule} {cs : List Tree} (ht : t = .node r cs)
    (h : ∀ {γ : Type} (q : List Token → Option γ) (w : γ), q rest = some w →
      (∀ x, Rejects k x → startsWith (.star (suffix 0)) x = false → Rejects q x) → First primary q ts [t] w)
    (hS : Heads exprFollow rest) (hk : k rest = some v) : First (.expr 0) k ts [exprT t] v := by
  subst ht
  have := First.expr (p := 0) (First.seq (a := primary) (b := .star (suffix 0)) (m := []) (v := v)
    (h (best (.star (suffix 0)) k) ([], v) (suffix_off hS hk) (fun x hx hs => Rejects.best hx hs)))
  exact this

theorem lit_expr (l : Lit) (hS : Heads exprFollow rest) (hk : k rest = some v) :
    First (.expr 0) k (l.toks sp ++ rest) [exprT (litT sp l)] v := by
  refine expr_first (rest := rest) (r := .literal_value) (cs := (litT sp l).kids) ?_ ?_ hS hk
  · cases l <;> rfl
  · intro γ q w hq _
    exact First.altL (First.exact (lit_runs l) hq)

theorem off_of_heads {e : Elem} {ts : List Token} (hS : Heads exprFollow ts)
    (hs : exprFollow.all (fun t => !startsWith e t) = true := by krfl) (hn : nullable e = false := by krfl)
    (hp : Proper e := by proper) : No e k ts := No.off hS hs hn hp

theorem col_expr (a : Str) (hS : Heads exprFollow rest) (hk : k rest = some v) :
    First (.expr 0) k (ident a :: rest) [exprT (nameT .column_name a)] v := by
  refine expr_first (rest := rest) rfl ?_ hS hk
  intro γ q w hq _
  refine First.altR (No.at rfl) (First.altR ?_ (First.altR (No.at rfl) (First.altR (No.at rfl)
    (First.altR (No.at rfl) (First.altL ?_)))))
  · exact No.nt (No.seq (No.exact (column_runs a) (No.seq (off_of_heads hS))))
  · refine First.seq (l := []) (m := [nameT .column_name a]) ?_
    refine First.optNone ?_ (First.exact (column_runs a) hq)
    refine No.seq ?_
    refine No.alt (a := .nt .schema_name ⬝ .tok .DOT) (b := .eps) ?_ ?_
    · exact No.seq (No.exact (l := [nameT .schema_name a]) (us := rest) (by krfl) (off_of_heads hS))
    · have h : best ((.nt .table_name) ⬝ (.tok .DOT)) (best (.nt .column_name) q) (ident a :: rest) = none :=
        No.seq (No.exact (table_runs a) (off_of_heads hS))
      rw [No, best_eps, h]; rfl

/-- Atoms. -/
def atomT (sp : Spelling) : Atom → Tree
  | .col a => exprT (nameT .column_name a)
  | .lit l => exprT (litT sp l)

theorem atom_expr (a : Atom) (hS : Heads exprFollow rest) (hk : k rest = some v) :
    First (.expr 0) k (a.toks sp ++ rest) [atomT sp a] v := by
  cases a with
  | col a => exact col_expr a hS hk
  | lit l => exact lit_expr l hS hk

/-! ### Comparisons and conditions -/

/-- The tree of a comparison. -/
def cmpT (sp : Spelling) (c : CmpS) : Tree :=
  .node .comparison_expr [nameT .column_name c.col, .lab .ope [.leaf (kw sp c.op.tok)], litT sp c.lit]

theorem ope_runs (c : CmpSym) : runs 60 (.lab .ope ((.tok .ASSIGN) ∣ (.tok .NOT_EQ1) ∣ (.tok .NOT_EQ2) ∣ (.tok .LT) ∣
      (.tok .LT_EQ) ∣ (.tok .GT) ∣ (.tok .GT_EQ))) (kw sp c.tok :: rest) =
    some [([.lab .ope [.leaf (kw sp c.tok)]], rest)] := by cases c <;> krfl

theorem cmp_parses (c : CmpS) : parses (.nt .comparison_expr) (c.toks sp ++ rest) = [([cmpT sp c], rest)] := by
  rw [parses_nt]
  have e1 : parses (body .comparison_expr) (c.toks sp ++ rest) =
      [([nameT .column_name c.col, .lab .ope [.leaf (kw sp c.op.tok)], litT sp c.lit], rest)] := by
    have h0 : parses (.nt .column_name) (c.toks sp ++ rest) =
      [([nameT .column_name c.col], kw sp c.op.tok :: (c.lit.toks sp ++ rest))] :=
        parses_run 60 (column_runs c.col)
    rw [body, parses_seq (by proper), h0]
    simp only [after, List.flatMap_cons, List.flatMap_nil, List.append_nil]
    rw [parses_seq (by proper), parses_run 60 (ope_runs c.op)]
    simp only [after, List.flatMap_cons, List.flatMap_nil, List.append_nil]
    rw [parses_run 60 (lit_runs c.lit)]
    rfl
  rw [e1]; rfl

theorem cmp_first (c : CmpS) (hk : k rest = some v) : First (.nt .comparison_expr) k (c.toks sp ++ rest) [cmpT sp c] v :=
  First.head (us := rest) (by rw [cmp_parses]; rfl) hk
theorem cmp_no (c : CmpS) (hk : k rest = none) : No (.nt .comparison_expr) k (c.toks sp ++ rest) := by
  apply No.all
  rw [cmp_parses]
  simpa using hk

/-- The kinds of tokens inside conditions that no continuation may start with. -/
def condInner : List Tok := [.ASSIGN, .NOT_EQ1, .NOT_EQ2, .LT, .LT_EQ, .GT, .GT_EQ, .AND_, .OR_]

/-- The tree of a condition. -/
def condT (sp : Spelling) : CondS → Tree
  | .one c => cmpT sp c
  | .and a b => .node .and_expr [.lab .left [cmpT sp a], .leaf (kw sp .AND_), .lab .right [cmpT sp b]]
  | .or a b => .node .or_expr [.lab .left [cmpT sp a], .leaf (kw sp .OR_), .lab .right [cmpT sp b]]

theorem condInner_cmp (c : CmpSym) : c.tok ∈ condInner := by cases c <;> decide

theorem condInner_suffix : condInner.all (fun t => !startsWith (.star (suffix 0)) t) = true := by krfl

/-- The alternatives before the comparison fail if what follows the column is rejected. -/
theorem before_cmp (c : CmpS) {l : List Tree} (hr : ∀ x ∈ condInner, Rejects k x)
    (h : First ((.nt .comparison_expr) ∣ (.nt .and_expr) ∣
      (.nt .or_expr) ∣ (.nt .«function») ∣ ((.tok .OPEN_PAR) ⬝ (.expr 0) ⬝ (.star ((.tok .COMMA) ⬝
      (.expr 0))) ⬝ (.tok .CLOSE_PAR)) ∣ ((.tok .CAST_) ⬝ (.tok .OPEN_PAR) ⬝ (.expr 0) ⬝ (.tok .AS_) ⬝
      (.nt .type_name) ⬝ (.tok .CLOSE_PAR)) ∣ ((.opt ((.opt (.tok .NOT_)) ⬝ (.tok .EXISTS_))) ⬝
      (.tok .OPEN_PAR) ⬝ (.nt .select_stmt) ⬝ (.tok .CLOSE_PAR)) ∣ ((.tok .CASE_) ⬝ (.opt (.expr 0)) ⬝
      (.plus ((.tok .WHEN_) ⬝ (.expr 0) ⬝ (.tok .THEN_) ⬝ (.expr 0))) ⬝ (.opt ((.tok .ELSE_) ⬝ (.expr 0))) ⬝
      (.tok .END_)) ∣ (.nt .raise_function)) k (c.toks sp ++ rest) l v) :
    First primary k (c.toks sp ++ rest) l v := by
  obtain ⟨col, op, lit⟩ := c
  have hop : k (kw sp op.tok :: (lit.toks sp ++ rest)) = none := hr _ (condInner_cmp op) _ _ rfl
  refine First.altR (No.at rfl) (First.altR ?_ (First.altR (No.at rfl) (First.altR (No.at rfl)
    (First.altR (No.at rfl) (First.altR ?_ (First.altR (No.at rfl) h))))))
  · cases op <;> exact No.empty
  · refine No.exact (l := [nameT .column_name col]) (us := kw sp op.tok :: (lit.toks sp ++ rest)) ?_ hop
    cases op <;> krfl

theorem cond_expr (c : CondS) (hS : Heads exprFollow rest) (hr : ∀ x ∈ condInner, Rejects k x)
    (hk : k rest = some v) : First (.expr 0) k (c.toks sp ++ rest) [exprT (condT sp c)] v := by
  have inner : ∀ {γ : Type} (q : List Token → Option γ),
      (∀ x, Rejects k x → startsWith (.star (suffix 0)) x = false → Rejects q x) → ∀ x ∈ condInner, Rejects q x := by
    intro γ q h x hx
    exact h x (hr x hx) (by simpa using List.all_eq_true.mp condInner_suffix x hx)
  cases c with
  | one c =>
    refine expr_first (rest := rest) rfl ?_ hS hk
    intro γ q w hq hrej
    exact before_cmp c (inner q hrej) (First.altL (cmp_first c hq))
  | and a b =>
    have e : (CondS.and a b).toks sp ++ rest = a.toks sp ++ (kw sp .AND_ :: (b.toks sp ++ rest)) := by
      simp [CondS.toks]
    rw [e]
    refine expr_first (rest := rest) (r := .and_expr) rfl ?_ hS hk
    intro γ q w hq hrej
    refine before_cmp a (inner q hrej) (First.altR (cmp_no a (inner q hrej .AND_ (by decide) _ _ rfl)) (First.altL ?_))
    refine First.nt (First.seq (First.lab (cmp_first a ?_)))
    exact First.seq (First.tok rfl (First.lab (cmp_first b hq)))
  | or a b =>
    have e : (CondS.or a b).toks sp ++ rest = a.toks sp ++ (kw sp .OR_ :: (b.toks sp ++ rest)) := by
      simp [CondS.toks]
    rw [e]
    refine expr_first (rest := rest) (r := .or_expr) rfl ?_ hS hk
    intro γ q w hq hrej
    refine before_cmp a (inner q hrej) (First.altR (cmp_no a (inner q hrej .OR_ (by decide) _ _ rfl))
      (First.altR ?_ (First.altL ?_)))
    · exact No.nt (No.seq (No.lab (cmp_no a (No.seq (No.at rfl)))))
    · refine First.nt (First.seq (First.lab (cmp_first a ?_)))
      exact First.seq (First.tok rfl (First.lab (cmp_first b hq)))

end Verif.Gram
