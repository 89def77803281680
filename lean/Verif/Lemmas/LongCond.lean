import Verif.Lemmas.ParseList
/-! No statement goes on with a third comparison. -/
namespace Verif.Gram
open Verif Verif.Lex Verif.Spec

variable {β : Type} {k : List Token → Option β} {v : β} {sp : Spelling} {rest : List Token}

/-! ### Rules for finding no parse -/

theorem No.opt {a : Elem} {ts : List Token} (n : No a k ts) (h : k ts = none) (hp : Proper (.opt a) := by proper) :
    No (.opt a) k ts := No.alt n (No.eps h) hp
theorem No.expr {p : Nat} {ts : List Token} (h : No (exprBody p) k ts) : No (.expr p) k ts := by
  rw [No, best_expr, h]; rfl

theorem No.optOff {a : Elem} {ts : List Token} {S : List Tok} (hS : Heads S ts) (h : k ts = none)
    (hs : S.all (fun t => !startsWith a t) = true := by krfl) (hn : nullable a = false := by krfl)
    (hp : Proper (.opt a) := by proper) : No (.opt a) k ts := No.opt (No.off hS hs hn (proper_alt hp).1) h hp
theorem No.starOff {a : Elem} {ts : List Token} {S : List Tok} (hS : Heads S ts) (h : k ts = none)
    (hs : S.all (fun t => !startsWith a t) = true := by krfl) (hn : nullable a = false := by krfl)
    (hp : Proper (.star a) := by proper) : No (.star a) k ts := No.star (No.off hS hs hn (proper_star hp)) h hp

/-! ### Conditions -/

/-- The words that join comparisons. -/
def joins : List Tok := [.AND_, .OR_]

/-- What no statement goes on with after a condition, or after a table and `WHERE`. -/
def badInner : List Tok := [.IDENTIFIER, .DOT] ++ condInner

theorem badInner_suffix : badInner.all (fun t => !startsWith (.star (suffix 0)) t) = true := by krfl

theorem badInner_cmp (c : CmpSym) : c.tok ∈ badInner := List.mem_append_right _ (condInner_cmp c)

/-- No comparison starts the tokens and ends where a condition may end. -/
def BadCmp (ts : List Token) : Prop :=
  ∀ {γ : Type} (q : List Token → Option γ), (∀ t ∈ badInner, Rejects q t) → No (.nt .comparison_expr) q ts

/-- No condition starts the tokens and ends where a condition may end. -/
structure BadCond (ts : List Token) : Prop where
  head : ∃ y r, ts = y :: r ∧ y.kind ∈ [Tok.IDENTIFIER, .AND_, .NUMERIC_LITERAL]
  no : ∀ {γ : Type} (q : List Token → Option γ), (∀ t ∈ badInner, Rejects q t) → No (.expr 0) q ts

theorem suffix_rejects (hr : ∀ t ∈ badInner, Rejects k t) : ∀ t ∈ badInner, Rejects (best (.star (suffix 0)) k) t := fun t ht =>
  Rejects.best (hr t ht) (by simpa using List.all_eq_true.mp badInner_suffix t ht)

theorem joins_bad : ∀ t ∈ joins, t ∈ badInner := by decide

/-- A comparison that is followed by `AND` or `OR`. -/
theorem BadCmp.more (b : CmpS) {y : Token} (hy : y.kind ∈ joins) : BadCmp (b.toks sp ++ y :: rest) :=
  fun _ hr => cmp_no b (hr _ (joins_bad _ hy) _ _ rfl)

/-- `column operator` followed by something that is no literal. -/
theorem BadCmp.columns (a : Str) (o : CmpSym) (b : Str) : BadCmp (ident a :: kw sp o.tok :: ident b :: rest) := by
  intro γ q _
  exact No.nt (No.seq (No.exact (column_runs a) (No.seq (No.exact (ope_runs o) (No.at rfl)))))

theorem BadCmp.qualified (a b : Str) : BadCmp (ident a :: kw sp .DOT :: ident b :: rest) := by
  intro γ q _
  exact No.nt (No.seq (No.exact (column_runs a) (No.seq (No.at rfl))))

theorem BadCmp.number (n : Str) : BadCmp (Spec.number n :: rest) := fun _ _ => No.at rfl

theorem BadCmp.isIn (a : Str) {y : Token} (hy : y.kind = .IN_) : BadCmp (ident a :: y :: rest) := by
  intro γ q _
  exact No.nt (No.seq (No.exact (column_runs a) (No.seq (No.at hy))))

theorem BadCond.second (a : CmpS) {w : Tok} (hw : w ∈ joins) {ts : List Token} (hb : BadCmp ts) :
    BadCond (a.toks sp ++ kw sp w :: ts) := by
  refine ⟨⟨ident a.col, _, rfl, by simp [ident]⟩, fun k hr => ?_⟩
  have inner := suffix_rejects hr
  obtain ⟨col, op, lit⟩ := a
  have hop := inner _ (badInner_cmp op) (kw sp op.tok) (lit.toks sp ++ kw sp w :: ts) rfl
  have hend := hb _ inner
  have hmid : best (.star (suffix 0)) k (kw sp w :: ts) = none := inner _ (joins_bad w hw) _ _ rfl
  refine No.expr (No.seq (a := primary) ?_)
  refine No.alt (No.at rfl) (No.alt ?_ (No.alt (No.at rfl) (No.alt (No.at rfl)
    (No.alt (No.at rfl) (No.alt ?_ (No.alt (No.at rfl) (No.alt (cmp_no _ hmid) (No.alt ?_ (No.alt ?_ (No.alt ?_
      (No.alt (No.at rfl) (No.alt (No.at rfl) (No.alt (No.at rfl) (No.alt (No.at rfl) (No.at rfl)))))))))))))))
  · cases op <;> exact No.empty
  · refine No.exact (l := [nameT .column_name col]) (us := kw sp op.tok :: (lit.toks sp ++ kw sp w :: ts)) ?_ hop
    cases op <;> krfl
  · refine No.nt (No.seq (No.lab (cmp_no _ (No.seq ?_))))
    simp only [joins, List.mem_cons, List.not_mem_nil, or_false] at hw
    rcases hw with rfl | rfl
    · exact No.tok rfl (No.lab hend)
    · exact No.at rfl
  · refine No.nt (No.seq (No.lab (cmp_no _ (No.seq ?_))))
    simp only [joins, List.mem_cons, List.not_mem_nil, or_false] at hw
    rcases hw with rfl | rfl
    · exact No.at rfl
    · exact No.tok rfl (No.lab hend)
  · cases op <;> exact No.empty

theorem BadCond.columns (a : Str) (o : CmpSym) (b : Str) : BadCond (ident a :: kw sp o.tok :: ident b :: rest) := by
  refine ⟨⟨ident a, _, rfl, by simp [ident]⟩, fun k hr => No.expr (No.seq (a := primary) ?_)⟩
  have inner := suffix_rejects hr
  refine No.exact (l := [nameT .column_name a]) (us := kw sp o.tok :: ident b :: rest) ?_ (inner _ (badInner_cmp o) _ _ rfl)
  cases o <;> krfl

theorem BadCond.qualified (a b : Str) (o : CmpSym) : BadCond (ident a :: kw sp .DOT :: ident b :: kw sp o.tok :: rest) := by
  refine ⟨⟨ident a, _, rfl, by simp [ident]⟩, fun k hr => No.expr (No.seq (a := primary) (No.all ?_))⟩
  have inner := suffix_rejects hr
  have h : runs 60 primary (ident a :: kw sp .DOT :: ident b :: kw sp o.tok :: rest) =
      some [([nameT .table_name a, .leaf (kw sp .DOT), nameT .column_name b], kw sp o.tok :: rest),
        ([nameT .column_name a], kw sp .DOT :: ident b :: kw sp o.tok :: rest)] := by cases o <;> krfl
  rw [parses_of_runs (by proper) h]
  intro p hp
  simp only [List.mem_cons, List.not_mem_nil, or_false] at hp
  rcases hp with rfl | rfl
  · exact inner _ (badInner_cmp o) _ _ rfl
  · exact inner .DOT (by decide) _ _ rfl

theorem BadCond.number (n : Str) (o : CmpSym) : BadCond (Spec.number n :: kw sp o.tok :: rest) := by
  refine ⟨⟨Spec.number n, _, rfl, by simp [Spec.number]⟩, fun k hr => No.expr (No.seq (a := primary) ?_)⟩
  have inner := suffix_rejects hr
  refine No.exact (l := [.node .literal_value [.node .signed_number [.leaf (Spec.number n)]]]) (us := kw sp o.tok :: rest) ?_
    (inner _ (badInner_cmp o) _ _ rfl)
  cases o <;> krfl

theorem BadCond.join (a : Str) : BadCond (kw sp .AND_ :: ident a :: rest) := by
  refine ⟨⟨kw sp .AND_, _, rfl, by simp [kw]⟩, fun k hr => No.expr (No.seq (a := primary) ?_)⟩
  have inner := suffix_rejects hr
  exact No.exact (l := [.node .column_name [.node .any_name [.node .keyword [.leaf (kw sp .AND_)]]]]) (us := ident a :: rest) (by krfl)
    (inner .IDENTIFIER (by decide) _ _ rfl)

theorem where_no {q : Lab} {ts : List Token} (hb : BadCond ts) (hr : ∀ t ∈ badInner, Rejects k t) (hwh : Rejects k .WHERE_) :
    No (.opt ((.tok .WHERE_) ⬝ (.lab q (.expr 0)))) k (kw sp .WHERE_ :: ts) :=
  No.opt (No.seq (No.tok rfl (No.lab (hb.no k hr)))) (hwh _ _ rfl)
theorem where_no' {ts : List Token} (hb : BadCond ts) (hr : ∀ t ∈ badInner, Rejects k t) (hwh : Rejects k .WHERE_) :
    No (.opt ((.tok .WHERE_) ⬝ (.expr 0))) k (kw sp .WHERE_ :: ts) :=
  No.opt (No.seq (No.tok rfl (hb.no k hr))) (hwh _ _ rfl)

/-! ### Lists -/

theorem list_no {α : Type} {e : Elem} {f : α → List Token} {Fol : List Token → Prop} {R : List Tok}
    (hs : ∀ t ∈ R, startsWith (.star e) t = false) (hF : ∀ r, Fol (kw sp .COMMA :: r))
    (item : ∀ {γ : Type} (q : List Token → Option γ) (x : α) (us : List Token), (∀ t ∈ R, Rejects q t) →
      Fol us → q us = none → No e q (kw sp .COMMA :: (f x ++ us)))
    (xs : List α) (hr : ∀ t ∈ R, Rejects k t) (hcomma : Rejects k .COMMA) (hrest : Fol rest)
    (hno : ∀ {γ : Type} (q : List Token → Option γ), No e q rest) (hk : k rest = none)
    (hp : Proper (.star e) := by proper) : No (.star e) k (tailToks sp f xs ++ rest) := by
  induction xs with
  | nil => exact No.star (hno _) hk hp
  | cons x xs ih =>
    have hfol : Fol (tailToks sp f xs ++ rest) := by
      cases xs with
      | nil => exact hrest
      | cons y ys => exact hF _
    have e1 : tailToks sp f (x :: xs) ++ rest = kw sp .COMMA :: (f x ++ (tailToks sp f xs ++ rest)) := by
      simp [tailToks]
    rw [e1]
    exact No.star (item _ x _ (fun t ht => Rejects.best (hr t ht) (hs t ht) hp) hfol ih) (hcomma _ _ rfl) hp

/-! ### Items -/

/-- The kinds of tokens that are names. -/
def nameKinds : List Tok :=
  [.IDENTIFIER, .STRING_LITERAL, .NULL_, .TRUE_, .FALSE_, .CURRENT_TIME_, .CURRENT_DATE_, .CURRENT_TIMESTAMP_]

/-- The tree of a name of such a kind. -/
def anyNameT (x : Token) : Tree :=
  .node .any_name [if x.kind = .IDENTIFIER ∨ x.kind = .STRING_LITERAL then .leaf x else .node .keyword [.leaf x]]

theorem nameKind_runs {r : Rule} (hr : r ∈ [Rule.column_name, .table_name, .schema_name, .function_name]) {x : Token}
    (hx : x.kind ∈ nameKinds) : runs 60 (.nt r) (x :: rest) = some [([.node r [anyNameT x]], rest)] := by
  obtain ⟨xk, xt⟩ := x
  simp only [nameKinds, List.mem_cons, List.not_mem_nil, or_false] at hx hr
  rcases hr with rfl | rfl | rfl | rfl <;> rcases hx with h | h | h | h | h | h | h | h <;> cases h <;> krfl

theorem No.name {r : Rule} (hr : r ∈ [Rule.column_name, .table_name, .schema_name, .function_name]) {x : Token}
    (hx : x.kind ∈ nameKinds) (hk : k rest = none) : No (.nt r) k (x :: rest) := by
  exact No.exact (nameKind_runs hr hx) hk (proper_nt r)

/-- The tokens that an expression does not go on with: those that follow it in statements, and names. -/
def exprEnd : List Tok := exprFollow ++ [.IDENTIFIER]

theorem Heads.end_ {us : List Token} (h : Heads exprFollow us) : Heads exprEnd us := h.mono (by decide)

/-- A name followed by nothing that an expression goes on with. -/
theorem word_no {x : Token} (hx : x.kind ∈ nameKinds) (hl : No (.nt .literal_value) (best (.star (suffix 0)) k) (x :: rest))
    (hS : Heads exprEnd rest) (hk : k rest = none) : No (.expr 0) k (x :: rest) := by
  have hq : best (.star (suffix 0)) k rest = none := No.starOff hS hk
  have hh : Heads nameKinds (x :: rest) := Heads.cons hx
  refine No.expr (No.seq (a := primary) (No.alt hl ?_))
  refine No.alt ?_ (No.alt (No.off hh) (No.alt (No.off hh)
    (No.alt (No.off hh) (No.alt ?_ (No.alt (No.off hh) (No.alt ?_ (No.alt ?_ (No.alt ?_ (No.alt ?_
      (No.alt (No.off hh) (No.alt (No.off hh) (No.alt (No.off hh) (No.alt (No.off hh) (No.off hh))))))))))))))
  · exact No.nt (No.seq (No.name (by simp) hx (No.seq (No.off hS))))
  · refine No.seq (No.opt (No.seq (No.opt ?_ ?_)) (No.name (by simp) hx hq))
    · exact No.seq (No.name (by simp) hx (No.off hS))
    · exact No.seq (No.name (by simp) hx (No.off hS))
  · exact No.nt (No.seq (No.name (by simp) hx (No.seq (No.off hS))))
  · exact No.nt (No.seq (No.lab (No.nt (No.seq (No.name (by simp) hx (No.seq (No.off hS)))))))
  · exact No.nt (No.seq (No.lab (No.nt (No.seq (No.name (by simp) hx (No.seq (No.off hS)))))))
  · exact No.nt (No.seq (No.name (by simp) hx (No.seq (No.off hS))))

/-- A literal that is no name. -/
theorem value_no {x : Token} (hx : x.kind ∈ [Tok.NUMERIC_LITERAL, .BLOB_LITERAL]) {p : Nat} (hk : best (.star (suffix p)) k rest = none)
    (hp : Proper (exprBody p) := by proper) : No (.expr p) k (x :: rest) := by
  have hh : Heads [Tok.NUMERIC_LITERAL, .BLOB_LITERAL] (x :: rest) := Heads.cons hx
  refine No.expr (No.seq (a := primary) (No.alt ?_ ?_) hp)
  · obtain ⟨xk, xt⟩ := x
    simp only [List.mem_cons, List.not_mem_nil, or_false] at hx
    rcases hx with h | h <;> cases h
    · exact No.exact (lit_runs (sp := .std) (.num xt)) hk
    · exact No.exact (lit_runs (sp := .std) (.blob xt)) hk
  · exact No.off hh

theorem lit_no (l : Lit) (hS : Heads exprEnd rest) (hk : k rest = none) :
    No (.expr 0) k (l.toks sp ++ rest) := by
  have hq : best (.star (suffix 0)) k rest = none := No.starOff hS hk
  have hq' : best (.star (suffix 19)) (best (.star (suffix 0)) k) rest = none := No.starOff hS hq
  cases l with
  | num s => exact value_no (by simp) hq
  | blob s => exact value_no (by simp) hq
  | plus s =>
    refine No.expr (No.seq (a := primary) (No.alt (No.exact (lit_runs (sp := sp) (.plus s)) hq) ?_))
    iterate 5 refine No.alt (No.at (t := .PLUS) rfl) ?_
    refine No.alt (No.seq (No.exact (l := [.node .unary_operator [.leaf (kw sp .PLUS)]]) (us := ⟨.NUMERIC_LITERAL, s⟩ :: rest) (by krfl) (value_no (by simp) hq'))) ?_
    exact No.at (t := .PLUS) rfl
  | minus s =>
    refine No.expr (No.seq (a := primary) (No.alt (No.exact (lit_runs (sp := sp) (.minus s)) hq) ?_))
    iterate 5 refine No.alt (No.at (t := .MINUS) rfl) ?_
    refine No.alt (No.seq (No.exact (l := [.node .unary_operator [.leaf (kw sp .MINUS)]]) (us := ⟨.NUMERIC_LITERAL, s⟩ :: rest) (by krfl) (value_no (by simp) hq'))) ?_
    exact No.at (t := .MINUS) rfl
  | str s => exact word_no (by simp [nameKinds]) (No.exact (lit_runs (sp := sp) (.str s)) hq) hS hk
  | word w s => exact word_no (by cases w <;> simp [nameKinds, LitWord.tok]) (No.exact (lit_runs (sp := sp) (.word w s)) hq) hS hk
  | bind s =>
    refine No.expr (No.seq (a := primary) (No.alt (No.exact (lit_runs (sp := sp) (.bind s)) hq) ?_))
    refine No.alt (No.at (t := .BIND_PARAMETER) rfl) (No.alt ?_ (No.at (t := .BIND_PARAMETER) rfl))
    exact No.exact (l := [.node .bind_param [.leaf ⟨.BIND_PARAMETER, s⟩]]) (us := rest) (by krfl) hq

theorem atom_no (a : Atom) (hS : Heads exprEnd rest) (hk : k rest = none) :
    No (.expr 0) k (a.toks sp ++ rest) := by
  cases a with
  | col a => exact word_no (by simp [nameKinds, ident]) (No.at rfl) hS hk
  | lit l => exact lit_no l hS hk

theorem comma_off {ts : List Token} {e : Elem} (h : NoComma ts) (hp : Proper (.tok .COMMA ⬝ e) := by proper) {γ : Type}
    (q : List Token → Option γ) : No (.tok .COMMA ⬝ e) q ts := by
  apply No.all
  intro p hm
  rw [parses_seq hp, parses_tok] at hm
  cases ts with
  | nil => simp [one, after] at hm
  | cons x r => simp [one, after, h x r rfl] at hm

theorem Heads.rejected {S : List Tok} {ts : List Token} (h : Heads S ts) (hn : ts ≠ []) (hr : ∀ t ∈ S, Rejects k t) :
    k ts = none := by
  cases ts with
  | nil => exact absurd rfl hn
  | cons x r => exact hr _ (h x r rfl) _ _ rfl

theorem atom_ne (a : Atom) (us : List Token) : a.toks sp ++ us ≠ [] := by
  cases a with
  | col a => simp [Atom.toks]
  | lit l => cases l <;> simp [Atom.toks, Lit.toks]

theorem args_no (args : ArgsS) {r : List Token} (hr : ∀ t, t ≠ .CLOSE_PAR → Rejects k t) (hk : k (kw sp .CLOSE_PAR :: r) = none) :
    No (.opt (((.opt (.tok .DISTINCT_)) ⬝ (.expr 0) ⬝ (.star ((.tok .COMMA) ⬝ (.expr 0)))) ∣ (.tok .STAR))) k
      (args.toks sp ++ kw sp .CLOSE_PAR :: r) := by
  cases args with
  | star => exact No.opt (No.alt (No.at rfl) (No.tok rfl hk)) (hr .STAR (by decide) _ _ rfl)
  | none => exact No.optOff (S := [.CLOSE_PAR]) Heads.kw hk
  | list a as =>
    rw [ArgsS.toks, commas_map, List.append_assoc]
    refine No.opt (No.alt (No.seq (No.optOff (atom_heads a _) (No.seq (atom_no a (heads_tail as (by decide) Heads.kw) ?_))))
      (No.off (atom_heads a _))) ((atom_heads a _).rejected (atom_ne a _) (fun t ht => hr t ?_))
    · exact list_no (R := []) (Fol := Heads exprFollow) (by simp) (fun r => Heads.kw)
        (fun q x us _ h hq => No.seq (No.tok rfl (atom_no x h.end_ hq))) as (by simp) (hr .COMMA (by decide)) (heads_close r)
        (comma_off (Heads.noComma (S := [.CLOSE_PAR]) Heads.kw)) hk
    · rintro rfl; revert ht; decide

theorem fn_no (f : Str) (args : ArgsS) (hS : Heads exprFollow rest) (hr : Rejects k .OPEN_PAR) (hk : k rest = none) :
    No (.expr 0) k ((ItemS.fn f args).toks sp ++ rest) := by
  have e : (ItemS.fn f args).toks sp ++ rest = ident f :: kw sp .OPEN_PAR :: (args.toks sp ++ kw sp .CLOSE_PAR :: rest) := by
    simp [ItemS.toks]
  rw [e]
  have hq : best (.star (suffix 0)) k rest = none := No.starOff hS hk
  have ho : Rejects (best (.star (suffix 0)) k) .OPEN_PAR := Rejects.best hr
  refine No.expr (No.seq (a := primary) ?_)
  refine No.alt (No.at rfl) (No.alt No.empty (No.alt (No.at rfl) (No.alt (No.at rfl)
    (No.alt (No.at rfl) (No.alt ?_ (No.alt (No.at rfl) (No.alt No.empty (No.alt No.empty
      (No.alt No.empty (No.alt ?_ (No.at rfl)))))))))))
  · exact No.exact (l := [nameT .column_name f]) (us := kw sp .OPEN_PAR :: (args.toks sp ++ kw sp .CLOSE_PAR :: rest))
      (by krfl) (ho _ _ rfl)
  · refine No.nt (No.seq (No.name (by simp) (by simp [nameKinds, ident]) (No.seq (No.tok rfl (No.seq (args_no args ?_ ?_))))))
    · intro t ht x r hx
      refine No.seq (No.all ?_)
      rw [parses_tok]
      simp [one, hx, ht]
    · exact No.seq (No.tok rfl (No.seq (No.optOff hS (No.optOff hS hq))))

theorem item_no (i : ItemS) (hr : ∀ t ∈ [Tok.OPEN_PAR], Rejects k t) (hS : Heads exprFollow rest) (hk : k rest = none) :
    No (.nt .result_column) k (i.toks sp ++ rest) := by
  cases i with
  | star => exact No.nt (No.alt (No.tok rfl hk) (No.at rfl))
  | atom a =>
    refine No.nt (No.alt (No.off (atom_heads a _)) (No.alt ?_ ?_))
    · cases a with
      | col a => exact No.seq (No.exact (table_runs a) (No.seq (off_of_heads hS)))
      | lit l =>
        cases l with
        | word w s =>
          exact No.seq (No.name (by simp) (by cases w <;> simp [nameKinds, LitWord.tok]) (No.seq (off_of_heads hS)))
        | str s => exact No.seq (No.name (by simp) (by simp [nameKinds]) (No.seq (off_of_heads hS)))
        | num s => exact No.at rfl
        | plus s => exact No.at rfl
        | minus s => exact No.at rfl
        | blob s => exact No.at rfl
        | bind s => exact No.at rfl
    · exact No.seq (atom_no a hS.end_ (No.optOff hS hk))
  | fn f args =>
    have e : (ItemS.fn f args).toks sp ++ rest = ident f :: kw sp .OPEN_PAR :: (args.toks sp ++ kw sp .CLOSE_PAR :: rest) := by
      simp [ItemS.toks]
    refine No.nt (No.alt ?_ (No.alt ?_ ?_))
    · rw [e]; exact No.at rfl
    · rw [e]; exact No.seq (No.exact (table_runs f) (No.seq (No.at rfl)))
    · exact No.seq (fn_no f args hS (Rejects.best (hr .OPEN_PAR (by simp))) (No.optOff hS hk))

/-! ### Tables -/

/-- The words a clause after the tables of a SELECT starts with. -/
def clauseToks : List Tok := [.WHERE_, .ORDER_, .LIMIT_, .OFFSET_, .GROUP_]

/-- What follows a table of a SELECT with a clause: a comma, or the first word of the clause and a name, a number, `AND`
or `BY`. -/
def WhereFollow (ts : List Token) : Prop :=
  Heads [.COMMA] ts ∨ ∃ x y r, ts = x :: y :: r ∧ x.kind ∈ clauseToks ∧
    y.kind ∈ [Tok.IDENTIFIER, .AND_, .NUMERIC_LITERAL, .BY_]

theorem whereFollow_heads {ts : List Token} (h : WhereFollow ts) : Heads (.COMMA :: clauseToks) ts := by
  rcases h with h | ⟨x, y, r, rfl, hx, -⟩
  · exact h.mono (by decide)
  · exact Heads.cons (List.mem_cons_of_mem _ hx)

theorem alias_opt_no (hr : ∀ x ∈ [Tok.IDENTIFIER, .AND_, .NUMERIC_LITERAL, .BY_], Rejects k x) (hS : WhereFollow rest) (hk : k rest = none) :
    No (.opt ((.opt (.tok .AS_)) ⬝ (.nt .table_alias))) k rest := by
  refine No.opt ?_ hk
  rcases hS with h | ⟨x, y, r, rfl, hx, hy⟩
  · exact No.off h
  · obtain ⟨xk, xt⟩ := x
    have hrun : runs 60 ((.opt (.tok .AS_)) ⬝ (.nt .table_alias)) (⟨xk, xt⟩ :: y :: r) =
        some [([.node .table_alias [.node .any_name [.node .keyword [.leaf ⟨xk, xt⟩]]]], y :: r)] := by
      simp only [clauseToks, List.mem_cons, List.not_mem_nil, or_false] at hx
      rcases hx with rfl | rfl | rfl | rfl | rfl <;> krfl
    exact No.exact hrun (hr _ hy _ _ rfl)

theorem table_alias_no (a : Str) (hr : ∀ x ∈ [Tok.IDENTIFIER, .AND_, .NUMERIC_LITERAL, .BY_], Rejects k x) (hS : WhereFollow rest) (hk : k rest = none) :
    No ((.nt .table_name) ⬝ ((.opt ((.opt (.tok .AS_)) ⬝
      (.nt .table_alias))) ⬝ (.opt (((.tok .INDEXED_) ⬝ (.tok .BY_) ⬝ (.nt .index_name)) ∣ ((.tok .NOT_) ⬝
      (.tok .INDEXED_)))))) k (ident a :: rest) :=
  No.seq (No.exact (table_runs a) (No.seq (alias_opt_no (fun x hx => Rejects.best (hr x hx) (by revert x; decide +kernel)) hS (No.optOff (whereFollow_heads hS) hk))))

theorem table_part_no (t : TabS) (hr : ∀ x ∈ [Tok.IDENTIFIER, .AND_, .NUMERIC_LITERAL, .BY_], Rejects k x) (hd : Rejects k .DOT) (hS : WhereFollow rest) (hk : k rest = none) :
    No ((.opt ((.nt .schema_name) ⬝ (.tok .DOT))) ⬝ ((.nt .table_name) ⬝ ((.opt ((.opt (.tok .AS_)) ⬝
      (.nt .table_alias))) ⬝ (.opt (((.tok .INDEXED_) ⬝ (.tok .BY_) ⬝ (.nt .index_name)) ∣ ((.tok .NOT_) ⬝
      (.tok .INDEXED_))))))) k (t.toks sp ++ rest) := by
  obtain ⟨s, a⟩ := t
  cases s with
  | none =>
    refine No.seq (No.opt ?_ (table_alias_no a hr hS hk))
    exact No.seq (No.exact (l := [nameT .schema_name a]) (us := rest) (by krfl) (No.off (whereFollow_heads hS)))
  | some s =>
    refine No.seq (No.opt (No.exact (l := [nameT .schema_name s, .leaf (kw sp .DOT)]) (us := ident a :: rest) (by krfl) (table_alias_no a hr hS hk)) ?_)
    refine No.seq (No.exact (table_runs s) (No.seq (No.optOff (S := [.DOT]) Heads.kw (No.optOff (S := [.DOT]) Heads.kw (hd _ _ rfl)))))

theorem function_part_no {e : Elem} (t : TabS) (hS : WhereFollow rest)
    (hp : Proper ((.opt ((.nt .schema_name) ⬝ (.tok .DOT))) ⬝ ((.nt .table_function_name) ⬝ ((.tok .OPEN_PAR) ⬝ e))) := by proper) :
    No ((.opt ((.nt .schema_name) ⬝ (.tok .DOT))) ⬝ ((.nt .table_function_name) ⬝ ((.tok .OPEN_PAR) ⬝ e))) k (t.toks sp ++ rest) := by
  obtain ⟨s, a⟩ := t
  have h1 := (proper_seq hp).2
  have h2 := (proper_seq h1).2
  have name : ∀ (a : Str) (us : List Token) {S : List Tok} (_ : Heads S us) (_ : S.all (fun t => !startsWith (.tok .OPEN_PAR) t) = true),
      No ((.nt .table_function_name) ⬝ ((.tok .OPEN_PAR) ⬝ e)) k (ident a :: us) := by
    intro a us S h hs
    exact No.seq (No.exact (l := [nameT .table_function_name a]) (us := us) (by krfl) (No.seq (No.off h hs) h2)) h1
  cases s with
  | none =>
    refine No.seq (No.opt ?_ (name a rest (whereFollow_heads hS) (by krfl))) hp
    exact No.seq (No.exact (l := [nameT .schema_name a]) (us := rest) (by krfl) (No.off (whereFollow_heads hS)))
  | some s =>
    refine No.seq (No.opt ?_ (name s (kw sp .DOT :: ident a :: rest) (S := [.DOT]) Heads.kw (by krfl))) hp
    exact No.exact (l := [nameT .schema_name s, .leaf (kw sp .DOT)]) (us := ident a :: rest) (by krfl) (name a rest (whereFollow_heads hS) (by krfl))

theorem tab_heads (t : TabS) (us : List Token) : Heads [.IDENTIFIER] (t.toks sp ++ us) := by
  obtain ⟨s, a⟩ := t
  cases s <;> exact Heads.ident

theorem tab_ne (t : TabS) (us : List Token) : t.toks sp ++ us ≠ [] := by
  obtain ⟨s, a⟩ := t
  cases s <;> simp [TabS.toks]

theorem table_no (t : TabS) (hr : ∀ x ∈ [Tok.DOT, .IDENTIFIER, .AND_, .NUMERIC_LITERAL, .BY_], Rejects k x) (hS : WhereFollow rest) (hk : k rest = none) :
    No (.nt .«from») k (t.toks sp ++ rest) :=
  No.nt (No.alt (No.nt (table_part_no t (fun x hx => hr x (List.mem_cons_of_mem _ hx)) (hr _ (by simp)) hS hk)) (No.alt (No.nt (function_part_no t hS))
    (No.off (tab_heads t rest))))

theorem source_no (t : TabS) (hr : ∀ x ∈ [Tok.DOT, .IDENTIFIER, .AND_, .NUMERIC_LITERAL, .BY_], Rejects k x) (hS : WhereFollow rest) (hk : k rest = none) :
    No (.nt .table_or_subquery) k (t.toks sp ++ rest) :=
  No.nt (No.alt (table_part_no t (fun x hx => hr x (List.mem_cons_of_mem _ hx)) (hr _ (by simp)) hS hk) (No.alt (function_part_no t hS)
    (No.off (tab_heads t rest))))

theorem from_no (ts : List TabS) (hr : ∀ x ∈ [Tok.DOT, .IDENTIFIER, .AND_, .NUMERIC_LITERAL, .BY_], Rejects k x) (hc : Rejects k .COMMA) (hf : Rejects k .FROM_)
    (hS : WhereFollow rest) (hh : Heads clauseToks rest) (hk : k rest = none) :
    No (.opt ((.tok .FROM_) ⬝ ((.opt ((.nt .«from») ⬝ (.star ((.tok .COMMA) ⬝ (.nt .«from»))))) ∣ (.nt .join_clause)))) k
      (fromToks sp ts ++ rest) := by
  cases ts with
  | nil => exact No.optOff hh hk
  | cons t ts =>
    rw [fromToks, commas_map, List.cons_append, List.append_assoc]
    have hfol : WhereFollow (tailToks sp (TabS.toks sp) ts ++ rest) := by
      cases ts with
      | nil => exact hS
      | cons y ys => exact .inl Heads.kw
    have hlist : ∀ {e : Elem} (_ : Proper (.star e)) (_ : ∀ x ∈ [Tok.DOT, .IDENTIFIER, .AND_, .NUMERIC_LITERAL, .BY_], startsWith (.star e) x = false)
        (_ : ∀ {γ : Type} (q : List Token → Option γ) (x : TabS) (us : List Token), (∀ t ∈ [Tok.DOT, .IDENTIFIER, .AND_, .NUMERIC_LITERAL, .BY_], Rejects q t) →
          WhereFollow us → q us = none → No e q (kw sp .COMMA :: (x.toks sp ++ us)))
        (_ : ∀ {γ : Type} (q : List Token → Option γ), No e q rest),
        No (.star e) k (tailToks sp (TabS.toks sp) ts ++ rest) := fun hp hs hi hn =>
      list_no hs (fun r => .inl Heads.kw) hi ts hr hc hS hn hk hp
    refine No.opt (No.seq (No.tok rfl (No.alt (No.opt (No.seq (table_no t ?_ hfol ?_)) ?_) (No.nt (No.seq (source_no t ?_ hfol ?_))))))
      (hf _ _ rfl)
    · intro x hx
      refine Rejects.best (hr x hx) (comma_starts ?_)
      rintro rfl
      simp at hx
    · exact hlist (by proper) (by decide +kernel) (fun q x us hq h hw => No.seq (No.tok rfl (table_no x hq h hw))) (comma_off hh.noComma)
    · exact (tab_heads t _).rejected (tab_ne t _) (by intro x hx; rw [List.mem_singleton] at hx; exact hr x (by simp [hx]))
    · intro x hx
      refine Rejects.best (hr x hx) ?_
      revert x; decide +kernel
    · refine hlist (by proper) (by decide +kernel) (fun q x us hq h hw => ?_) (fun q => No.off hh)
      refine No.seq (No.exact (l := [.node .join_operator [.leaf (kw sp .COMMA)]]) (us := x.toks sp ++ us) ?_ (No.seq (source_no x ?_ h ?_)))
      · generalize x.toks sp ++ us = us; krfl
      · intro y hy
        refine Rejects.best (hq y hy) ?_
        revert y; decide +kernel
      · exact No.optOff (whereFollow_heads h) hw

/-! ### Assignments -/

theorem rhs_no (r : RhsS) (hS : Heads exprEnd rest) (ha : ∀ t ∈ [Tok.PLUS, .MINUS, .STAR, .DIV, .MOD], Rejects k t) (hk : k rest = none) :
    No (.expr 0) k (r.toks sp ++ rest) := by
  cases r with
  | lit l => exact lit_no l hS hk
  | arith c o a =>
    have hq : best (.star (suffix 0)) k rest = none := No.starOff hS hk
    have ho : Rejects (best (.star (suffix 0)) k) o.tok := by
      refine Rejects.best (ha _ (by cases o <;> simp [ArithSym.tok])) ?_
      cases o <;> krfl
    refine No.expr (No.seq (a := primary) ?_)
    have e : (RhsS.arith c o a).toks sp ++ rest = ident c :: kw sp o.tok :: (a.toks sp ++ rest) := rfl
    rw [e]
    refine No.alt (No.at rfl) (No.alt ?_ (No.alt (No.at rfl) (No.alt (No.at rfl)
      (No.alt (No.at rfl) (No.alt ?_ (No.alt (No.at rfl) (No.alt ?_ (No.alt ?_
        (No.alt ?_ (No.alt ?_ (No.at rfl)))))))))))
    · exact No.nt (No.seq (No.exact (column_runs c) (No.seq (No.exact (arith_runs o) (atom_no a hS hq)))))
    · refine No.exact (l := [nameT .column_name c]) (us := kw sp o.tok :: (a.toks sp ++ rest)) ?_ (ho _ _ rfl)
      cases o <;> krfl
    all_goals cases o <;> exact No.empty

/-- The arithmetic operators. -/
def arithToks : List Tok := [.PLUS, .MINUS, .STAR, .DIV, .MOD]

theorem set_no (a : SetS) (ha : ∀ t ∈ arithToks, Rejects k t) (hS : Heads exprEnd rest) (hk : k rest = none) :
    No (.nt .update_column_set) k (a.toks sp ++ rest) :=
  No.nt (No.seq (No.alt (No.exact (column_runs a.col) (No.seq (No.tok rfl (rhs_no a.rhs hS ha hk)))) (No.at rfl)))

theorem set_no' (a : SetS) (ha : ∀ t ∈ arithToks, Rejects k t) (hS : Heads exprEnd rest) (hk : k rest = none) :
    No (((.nt .column_name) ∣ (.nt .column_name_list)) ⬝ ((.tok .ASSIGN) ⬝ (.expr 0))) k (a.toks sp ++ rest) :=
  No.seq (No.alt (No.exact (column_runs a.col) (No.seq (No.tok rfl (rhs_no a.rhs hS ha hk)))) (No.at rfl))

/-! ### Statements -/

theorem qualified_no (a : Str) {S : List Tok} {us : List Token} (h : Heads S us)
    (h1 : S.all (fun t => !startsWith (.tok .DOT) t) = true) (h2 : S.all (fun t => !startsWith ((.tok .AS_) ⬝ (.nt .«alias»)) t) = true)
    (h3 : S.all (fun t => !startsWith (((.tok .INDEXED_) ⬝ (.tok .BY_) ⬝ (.nt .index_name)) ∣ ((.tok .NOT_) ⬝ (.tok .INDEXED_))) t) = true)
    (hk : k us = none) : No (.nt .qualified_table_name) k (ident a :: us) := by
  refine No.nt (No.seq (No.opt ?_ ?_))
  · exact No.seq (No.exact (l := [nameT .schema_name a]) (us := us) (by krfl) (No.off h h1))
  exact No.seq (No.exact (table_runs a) (No.seq (No.optOff h (No.optOff h hk h3) h2)))

theorem bad_quiet (hq : Quiet k) {e : Elem} (hs : badInner.all (fun t => !startsWith e t) = true := by krfl)
    (hp : Proper e := by proper) : ∀ x ∈ badInner, Rejects (best e k) x := by
  intro x hx
  refine Rejects.best (hq x ?_) (by simpa using List.all_eq_true.mp hs x hx) hp
  have : badInner.all (fun t => !stmtStart t) = true := by krfl
  simpa using List.all_eq_true.mp this x hx

theorem delete_no (t : Str) {ts : List Token} (hb : BadCond ts) (hq : Quiet k) :
    No (.nt .sql_stmt) k (kw sp .DELETE_ :: kw sp .FROM_ :: ident t :: kw sp .WHERE_ :: ts) := by
  have h1 : Heads [.WHERE_] (kw sp .WHERE_ :: ts) := Heads.kw
  refine No.nt (No.seq (No.optOff (S := [.DELETE_]) Heads.kw ?_))
  iterate 12 refine No.alt (No.at (t := .DELETE_) rfl) ?_
  refine No.alt ?_ (No.alt ?_ (No.at (t := .DELETE_) rfl))
  · refine No.nt (No.seq (No.optOff (S := [.DELETE_]) Heads.kw ?_))
    refine No.seq (No.tok rfl (No.seq (No.tok rfl (No.seq (No.lab (qualified_no t h1 (by krfl) (by krfl) (by krfl) ?_))))))
    exact No.seq (where_no hb (bad_quiet hq) (by quiet hq))
  · refine No.nt (No.seq (No.optOff (S := [.DELETE_]) Heads.kw ?_))
    refine No.seq (No.tok rfl (No.seq (No.tok rfl (No.seq (qualified_no t h1 (by krfl) (by krfl) (by krfl) ?_)))))
    exact No.seq (where_no' hb (bad_quiet hq) (by quiet hq))

theorem update_no (t : Str) (s : SetS) (ss : List SetS) {ts : List Token} (hb : BadCond ts)
    (hq : Quiet k) : No (.nt .sql_stmt) k (kw sp .UPDATE_ :: ident t :: kw sp .SET_ :: (s.toks sp ++
      (tailToks sp (SetS.toks sp) ss ++ (kw sp .WHERE_ :: ts)))) := by
  have h1 : Heads [.WHERE_] ((kw sp .WHERE_ :: ts)) := Heads.kw
  have h2 : Heads exprFollow ((kw sp .WHERE_ :: ts)) := Heads.kw
  have hcomma : ∀ t ∈ arithToks, t ≠ .COMMA := by decide
  refine No.nt (No.seq (No.optOff (S := [.UPDATE_]) Heads.kw ?_))
  iterate 27 refine No.alt (No.at (t := .UPDATE_) rfl) ?_
  refine No.alt ?_ (No.alt ?_ (No.at (t := .UPDATE_) rfl))
  · refine No.nt (No.seq (No.optOff (S := [.UPDATE_]) Heads.kw ?_))
    refine No.seq (No.tok rfl (No.seq (No.optOff (S := [.IDENTIFIER]) Heads.ident ?_)))
    refine No.seq (No.lab (qualified_no t (S := [.SET_]) Heads.kw (by krfl) (by krfl) (by krfl) ?_))
    refine No.seq (No.tok rfl (No.seq (set_no s ?_ (heads_tail ss (by decide) h2.end_) (No.seq (list_no (R := arithToks) (Fol := Heads exprFollow)
      (fun t ht => comma_starts (hcomma t ht)) (fun r => Heads.kw) (fun q x us hr h hq => No.seq (No.tok rfl (set_no x hr h.end_ hq))) ss ?_ ?_ h2
      (comma_off h1.noComma) (No.seq (No.optOff h1 (No.seq (where_no hb (bad_quiet hq) (by quiet hq))))))))))
    · intro t ht
      simp only [arithToks, List.mem_cons, List.not_mem_nil, or_false] at ht
      rcases ht with rfl | rfl | rfl | rfl | rfl <;> quiet hq
    · intro t ht
      simp only [arithToks, List.mem_cons, List.not_mem_nil, or_false] at ht
      rcases ht with rfl | rfl | rfl | rfl | rfl <;> quiet hq
    · quiet hq
  · refine No.nt (No.seq (No.optOff (S := [.UPDATE_]) Heads.kw ?_))
    refine No.seq (No.tok rfl (No.seq (No.optOff (S := [.IDENTIFIER]) Heads.ident ?_)))
    refine No.seq (qualified_no t (S := [.SET_]) Heads.kw (by krfl) (by krfl) (by krfl) ?_)
    refine No.seq (No.tok rfl (No.seq (No.alt (No.exact (column_runs s.col) (No.seq (No.tok rfl (No.seq (rhs_no s.rhs
      (heads_tail ss (by decide) h2.end_) ?_ (No.seq (list_no (R := arithToks) (Fol := Heads exprFollow)
      (fun t ht => comma_starts (hcomma t ht)) (fun r => Heads.kw) (fun q x us hr h hq => No.seq (No.tok rfl (set_no' x hr h.end_ hq))) ss ?_ ?_ h2
      (comma_off h1.noComma) (No.seq (where_no' hb (bad_quiet hq) (by quiet hq)))))))))) (No.at rfl))))
    · intro t ht
      simp only [arithToks, List.mem_cons, List.not_mem_nil, or_false] at ht
      rcases ht with rfl | rfl | rfl | rfl | rfl <;> quiet hq
    · intro t ht
      simp only [arithToks, List.mem_cons, List.not_mem_nil, or_false] at ht
      rcases ht with rfl | rfl | rfl | rfl | rfl <;> quiet hq
    · quiet hq

theorem select_no (i : ItemS) (is : List ItemS) (tabs : List TabS) {ts : List Token}
    (hb : BadCond ts) (hq : Quiet k) : No (.nt .sql_stmt) k (kw sp .SELECT_ :: (i.toks sp ++ (tailToks sp (ItemS.toks sp) is ++
      (fromToks sp tabs ++ (kw sp .WHERE_ :: ts))))) := by
  have h1 : Heads (.WHERE_ :: whereFollow) ((kw sp .WHERE_ :: ts)) := Heads.kw
  have h1' : Heads clauseToks ((kw sp .WHERE_ :: ts)) := Heads.kw
  have h0 := from_heads (sp := sp) tabs h1
  have hi := heads_tail (sp := sp) (f := ItemS.toks sp) is (by decide) h0
  have hin : Heads (Tok.STAR :: atomStart) (i.toks sp ++ (tailToks sp (ItemS.toks sp) is ++
      (fromToks sp tabs ++ (kw sp .WHERE_ :: ts)))) := by
    cases i with
    | star => exact Heads.kw
    | atom a => exact (atom_heads a _).mono (by decide)
    | fn f args => exact Heads.ident
  have hopen : ∀ {γ : Type} {q : List Token → Option γ}, Rejects q .OPEN_PAR → ∀ t ∈ [Tok.OPEN_PAR], Rejects q t := by
    intro γ q hq t ht
    rw [List.mem_singleton] at ht
    rw [ht]; exact hq
  have hfol : WhereFollow ((kw sp .WHERE_ :: ts)) := by
    obtain ⟨z, r, rfl, hz⟩ := hb.head
    exact .inr ⟨kw sp .WHERE_, z, r, rfl, by simp [kw, clauseToks], by revert hz; simp only [List.mem_cons]; grind⟩
  refine No.nt (No.seq (No.optOff (S := [.SELECT_]) Heads.kw ?_))
  iterate 26 refine No.alt (No.at (t := .SELECT_) rfl) ?_
  refine No.alt ?_ (No.at (t := .SELECT_) rfl)
  refine No.nt (No.seq (No.optOff (S := [.SELECT_]) Heads.kw ?_))
  refine No.seq (No.lab (No.nt (No.alt ?_ (No.at (t := .SELECT_) rfl))))
  refine No.seq (No.tok rfl (No.seq (No.optOff hin ?_)))
  refine No.seq (item_no i (hopen (by quiet hq)) hi ?_)
  refine No.seq (list_no (R := [.OPEN_PAR]) (Fol := Heads exprFollow)
      (fun t ht => comma_starts (by rintro rfl; simp at ht)) (fun r => Heads.kw)
      (fun q x us hr h hq => No.seq (No.tok rfl (item_no x hr h hq))) is (hopen (by quiet hq)) (by quiet hq) h0 (comma_off ?_) ?_)
  · cases tabs with
    | nil => exact h1.noComma
    | cons => exact Heads.noComma (S := [.FROM_]) Heads.kw
  refine No.seq (from_no tabs ?_ (by quiet hq) (by quiet hq) hfol h1' ?_)
  · intro x hx
    simp only [List.mem_cons, List.not_mem_nil, or_false] at hx
    rcases hx with rfl | rfl | rfl | rfl | rfl <;> quiet hq
  refine No.seq (where_no hb ?_ (by quiet hq))
  intro x hx
  simp only [badInner, condInner, List.cons_append, List.nil_append, List.mem_cons, List.not_mem_nil, or_false] at hx
  rcases hx with rfl | rfl | rfl | rfl | rfl | rfl | rfl | rfl | rfl | rfl | rfl <;> quiet hq

/-! ### Queries -/

theorem query_no {ts : List Token} (hs : Heads startToks ts) (hn : ts ≠ [])
    (h : ∀ {γ : Type} {q : List Token → Option γ}, Quiet q → No (.nt .sql_stmt) q ts) : parseTree ts = none := by
  have key : No (.nt .parse) some ts := by
    refine No.nt (No.seq (No.star (No.nt (No.seq (No.starOff hs (No.seq (h quiet_tail))))) ?_))
    cases ts with
    | nil => exact absurd rfl hn
    | cons x r => exact No.all (by rw [parses_eof]; simp)
  rw [parseTree]
  rw [No, best] at key
  cases hl : parses (.nt .parse) ts with
  | nil => rfl
  | cons p l => rw [hl] at key; simp at key

end Verif.Gram
