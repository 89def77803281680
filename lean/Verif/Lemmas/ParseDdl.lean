import Verif.Lemmas.ParseStmt
/-! Parsing the statements of Spec/Syntax.lean other than SELECT, INSERT, UPDATE and DELETE. -/
namespace Verif.Gram
open Verif Verif.Lex Verif.Spec

variable {β : Type} {k : List Token → Option β} {v : β} {sp : Spelling} {rest : List Token}

/-! ### Rules -/

theorem No.eps {k : List Token → Option β} {ts : List Token} (h : k ts = none) : No .eps k ts := by
  rw [No, best_eps, h]; rfl

theorem No.star {a : Elem} {k : List Token → Option β} {ts : List Token} (n : No a (best (.star a) k) ts) (h : k ts = none)
    (hp : Proper (.star a) := by proper) : No (.star a) k ts := by
  rw [No, best_star hp, n, h]; rfl

/-- A part whose first parse is known from a run. -/
theorem First.run {e : Elem} {ts us : List Token} {l : List Tree} (h : (runs 60 e ts).bind List.head? = some (l, us))
    (hk : k us = some v) (hp : Proper e := by proper) : First e k ts l v := by
  cases hr : runs 60 e ts with
  | none => rw [hr] at h; cases h
  | some q =>
    rw [hr, Option.bind_some] at h
    exact First.head (us := us) (by rw [parses_of_runs hp hr]; exact h) hk

theorem follow_cases (h : Heads stmtFollow rest) : rest = [] ∨ ∃ s r, rest = ⟨.SCOL, s⟩ :: r := by
  cases rest with
  | nil => exact .inl rfl
  | cons x r =>
    have := h x r rfl
    obtain ⟨t, s⟩ := x
    simp only [stmtFollow, List.mem_singleton] at this
    exact .inr ⟨s, r, by rw [this]⟩

/-- A statement of a fixed shape: the parse is found by running the parser on the tokens. -/
theorem First.fixed {e : Elem} {ts : List Token} {l : List Tree} (h : Heads stmtFollow rest) (hk : k rest = some v)
    (h0 : (runs 60 e (ts ++ [])).bind List.head? = some (l, []) := by krfl)
    (h1 : ∀ s r, (runs 60 e (ts ++ ⟨.SCOL, s⟩ :: r)).bind List.head? = some (l, ⟨.SCOL, s⟩ :: r) := by intro s r; krfl)
    (hp : Proper e := by proper) : First e k (ts ++ rest) l v := by
  rcases follow_cases h with rfl | ⟨s, r, rfl⟩
  · exact First.run h0 hk hp
  · exact First.run (h1 s r) hk hp

/-! ### Optional parts -/

/-- The trees of IF NOT EXISTS. -/
def ineT (sp : Spelling) (b : Bool) : List Tree :=
  if b then [.node .if_not_exists [.leaf (kw sp .IF_), .leaf (kw sp .NOT_), .leaf (kw sp .EXISTS_)]] else []
/-- The trees of IF EXISTS. -/
def ieT (sp : Spelling) (b : Bool) : List Tree :=
  if b then [.node .if_exists [.leaf (kw sp .IF_), .leaf (kw sp .EXISTS_)]] else []

theorem ine_first (b : Bool) {us : List Token} (h : Heads [.IDENTIFIER] us) (hk : k us = some v) :
    First (.opt (.nt .if_not_exists)) k (ineToks sp b ++ us) (ineT sp b) v := by
  cases b with
  | false => exact First.optOff h hk
  | true => exact First.optSome (First.exact (us := us) (by krfl) hk)

theorem ie_first (b : Bool) {us : List Token} (h : Heads [.IDENTIFIER] us) (hk : k us = some v) :
    First (.opt (.nt .if_exists)) k (ieToks sp b ++ us) (ieT sp b) v := by
  cases b with
  | false => exact First.optOff h hk
  | true => exact First.optSome (First.exact (us := us) (by krfl) hk)

/-! ### Columns of indexes and keys -/

/-- The tree of an indexed column. -/
def ixColT (c : Str) : Tree := .node .indexed_column [nameT .column_name c]

theorem ixCol_first (c : Str) {us : List Token} (h : Heads [.COMMA, .CLOSE_PAR] us) (hk : k us = some v) :
    First (.nt .indexed_column) k ([ident c] ++ us) [ixColT c] v := by
  refine First.nt (First.seq (m := []) (First.altL (First.exact (column_runs c) ?_)))
  exact First.seq (l := []) (First.optOff h (First.optOff h hk))

theorem ixCols_first (cs : List Str) {us : List Token} (hk : k (kw sp .CLOSE_PAR :: us) = some v) :
    First (.star ((.tok .COMMA) ⬝ (.nt .indexed_column))) k (tailToks sp (fun c => [ident c]) cs ++ kw sp .CLOSE_PAR :: us)
      (tailT sp ixColT cs) v :=
  list_first (R := []) (Fol := Heads [.COMMA, .CLOSE_PAR]) (by simp) (fun _ => Heads.kw)
    (fun _ _ x _ _ h hq => ixCol_first x h hq) cs (by simp) Heads.kw (Heads.noComma (S := [.CLOSE_PAR]) Heads.kw) hk

theorem names_toks (c : Str) (cs : List Str) (us : List Token) : namesToks sp c cs ++ us =
    kw sp .OPEN_PAR :: ident c :: (tailToks sp (fun c => [ident c]) cs ++ kw sp .CLOSE_PAR :: us) := by
  rw [namesToks, commas_map]; simp [parens]

/-- The trees of indexed columns in parentheses. -/
def ixNamesT (sp : Spelling) (c : Str) (cs : List Str) : List Tree :=
  .leaf (kw sp .OPEN_PAR) :: ixColT c :: (tailT sp ixColT cs ++ [.leaf (kw sp .CLOSE_PAR)])

/-- The tree of a primary key of a table. -/
def keyT (sp : Spelling) (x : KeyS) : Tree :=
  .node .table_constraint [.node .primary_key_def (.leaf (kw sp .PRIMARY_) :: .leaf (kw sp .KEY_) :: ixNamesT sp x.col x.cols)]

theorem heads_names (cs : List Str) {us : List Token} : Heads [.COMMA, .CLOSE_PAR]
    (tailToks sp (fun c => [ident c]) cs ++ kw sp .CLOSE_PAR :: us) := heads_tail cs (by decide) Heads.kw

theorem key_first (x : KeyS) {us : List Token} (h : Heads [.COMMA, .CLOSE_PAR] us) (hk : k us = some v) :
    First (.nt .table_constraint) k (x.toks sp ++ us) [keyT sp x] v := by
  obtain ⟨c, cs⟩ := x
  have e : KeyS.toks sp ⟨c, cs⟩ ++ us = kw sp .PRIMARY_ :: kw sp .KEY_ ::
      kw sp .OPEN_PAR :: ([ident c] ++ (tailToks sp (fun c => [ident c]) cs ++ kw sp .CLOSE_PAR :: us)) := by
    rw [KeyS.toks, List.cons_append, List.cons_append, names_toks]; rfl
  rw [e]
  refine First.nt (First.seq (l := []) (First.optOff (S := [.PRIMARY_]) Heads.kw (First.altL (First.nt ?_))))
  refine First.seq (First.tok rfl (First.seq (First.tok rfl (First.seq (First.tok rfl ?_)))))
  refine First.seq (ixCol_first c (heads_names cs) ?_)
  refine First.seq (ixCols_first cs ?_)
  exact First.seq (l := [.leaf (kw sp .CLOSE_PAR)]) (m := []) (First.tok rfl (First.optOff h hk))

/-! ### Column definitions -/

/-- The trees of a length. -/
def lenT (sp : Spelling) : Option Str → List Tree
  | none => []
  | some n => [.leaf (kw sp .OPEN_PAR), .node .signed_number [.leaf (number n)], .leaf (kw sp .CLOSE_PAR)]

/-- The tree of a word of a type. -/
def wordT (t : TypeKind) (s : Str) : Tree :=
  .node .«name» [.node .any_name [match t with
    | .ident => .leaf ⟨.IDENTIFIER, s⟩
    | .text => .node .keyword [.leaf ⟨.TEXT_, s⟩]
    | .set => .node .keyword [.leaf ⟨.SET_, s⟩]]]

/-- The tree of a constraint of a column. -/
def consT (sp : Spelling) : ConsS → Tree
  | .primaryKey => .node .column_constraint [.node .primary_key_constraint [.leaf (kw sp .PRIMARY_), .leaf (kw sp .KEY_)]]
  | .notNull => .node .column_constraint [.leaf (kw sp .NOT_), .leaf (kw sp .NULL_)]
  | .unique => .node .column_constraint [.leaf (kw sp .UNIQUE_)]

/-- The tree of a column definition. -/
def colT (sp : Spelling) (c : ColS) : Tree :=
  .node .column_def (nameT .column_name c.name :: .node .type_name (wordT c.kind c.typ :: lenT sp c.len) :: c.cons.map (consT sp))

/-- The tokens that may follow a column definition. -/
def colFollow : List Tok := [.COMMA, .CLOSE_PAR, .SCOL]

/-- The tokens that may follow the type or a constraint of a column. -/
def consFollow : List Tok := [.COMMA, .CLOSE_PAR, .SCOL, .PRIMARY_, .NOT_, .UNIQUE_]

theorem cons_first (x : ConsS) {us : List Token} (h : Heads consFollow us) (hk : k us = some v) :
    First (.nt .column_constraint) k (x.toks sp ++ us) [consT sp x] v := by
  cases x with
  | primaryKey =>
    refine First.nt (First.seq (l := []) (First.optOff (S := [.PRIMARY_]) Heads.kw (First.altL (First.nt ?_))))
    refine First.seq (First.tok rfl (First.seq (l := [.leaf (kw sp .KEY_)]) (m := []) (First.tok rfl ?_)))
    exact First.seq (l := []) (First.optOff h (First.seq (l := []) (First.optOff h (First.optOff h hk))))
  | notNull =>
    refine First.nt (First.seq (l := []) (First.optOff (S := [.NOT_]) Heads.kw ?_))
    refine First.altR (No.at (t := .NOT_) rfl) (First.altR (No.at (t := .NOT_) rfl) (First.altL ?_))
    refine First.seq (l := [.leaf (kw sp .NOT_), .leaf (kw sp .NULL_)]) (m := []) (First.altL ?_)
    refine First.seq (l := [.leaf (kw sp .NOT_)]) (m := [.leaf (kw sp .NULL_)]) (First.optSome (First.tok rfl ?_))
    exact First.tok rfl (First.optOff h hk)
  | unique =>
    refine First.nt (First.seq (l := []) (First.optOff (S := [.UNIQUE_]) Heads.kw ?_))
    refine First.altR (No.at (t := .UNIQUE_) rfl) (First.altR (No.at (t := .UNIQUE_) rfl) (First.altL ?_))
    refine First.seq (l := [.leaf (kw sp .UNIQUE_)]) (m := []) (First.altR (No.at (t := .UNIQUE_) rfl) ?_)
    exact First.tok rfl (First.optOff h hk)

theorem heads_cons (cs : List ConsS) {us : List Token} (h : Heads colFollow us) :
    Heads consFollow (cs.flatMap (ConsS.toks sp) ++ us) := by
  cases cs with
  | nil => exact h.mono (by decide)
  | cons c cs =>
    rw [List.flatMap_cons, List.append_assoc]
    cases c <;> exact Heads.kw

theorem conses_first (cs : List ConsS) {us : List Token} (h : Heads colFollow us) (hk : k us = some v) :
    First (.star (.nt .column_constraint)) k (cs.flatMap (ConsS.toks sp) ++ us) (cs.map (consT sp)) v := by
  induction cs with
  | nil => exact First.starOff h hk
  | cons c cs ih =>
    rw [List.flatMap_cons, List.append_assoc]
    exact First.starCons (l := [consT sp c]) (cons_first c (heads_cons cs h) ih)

theorem word_runs (t : TypeKind) (s : Str) : runs 60 (.nt .«name») (⟨t.tok, s⟩ :: rest) = some [([wordT t s], rest)] := by
  cases t <;> krfl

theorem len_first (n : Option Str) {us : List Token} (h : Heads consFollow us) (hk : k us = some v) :
    First (.opt (((.tok .OPEN_PAR) ⬝ (.nt .signed_number) ⬝ (.tok .CLOSE_PAR)) ∣
      ((.tok .OPEN_PAR) ⬝ (.nt .signed_number) ⬝ (.tok .COMMA) ⬝ (.nt .signed_number) ⬝ (.tok .CLOSE_PAR)))) k
      (lenToks sp n ++ us) (lenT sp n) v := by
  cases n with
  | none => exact First.optOff h hk
  | some n => exact First.optSome (First.altL (First.exact (us := us) (by krfl) hk))

theorem col_first (c : ColS) {us : List Token} (h : Heads colFollow us) (hk : k us = some v) :
    First (.nt .column_def) k (c.toks sp ++ us) [colT sp c] v := by
  obtain ⟨a, t, s, n, cs⟩ := c
  have e : ColS.toks sp ⟨a, t, s, n, cs⟩ ++ us = ident a :: ⟨t.tok, s⟩ :: (lenToks sp n ++ (cs.flatMap (ConsS.toks sp) ++ us)) := by
    simp [ColS.toks]
  rw [e]
  refine First.nt (First.seq (l := [nameT .column_name a]) (First.exact (column_runs a) ?_))
  refine First.seq (l := [.node .type_name (wordT t s :: lenT sp n)]) (First.optSome (First.nt ?_))
  refine First.seq (l := [wordT t s]) ?_
  refine First.seq (l := [wordT t s]) (m := []) (First.exact (word_runs t s) (First.nstarNil ?_))
  exact len_first n (heads_cons cs h) (conses_first cs h hk)

/-- The tree of a secondary index. -/
def idxT (sp : Spelling) (i : IdxS) : Tree :=
  .node .column_def [.node .column_name [.node .any_name [.node .keyword [.leaf ⟨.INDEX_, s%"INDEX"⟩]]],
    .node .type_name [nameT .«name» i.name,
      .node .«name» [.node .any_name [.leaf (kw sp .OPEN_PAR), anyT i.col, .leaf (kw sp .CLOSE_PAR)]]]]

theorem idx_first (i : IdxS) (hr : Rejects k .OPEN_PAR) {us : List Token} (h : Heads colFollow us) (hk : k us = some v) :
    First (.nt .column_def) k (i.toks sp ++ us) [idxT sp i] v := by
  obtain ⟨n, c⟩ := i
  refine First.nt (First.seq (l := [.node .column_name [.node .any_name [.node .keyword [.leaf ⟨.INDEX_, s%"INDEX"⟩]]]])
    (First.exact (us := ident n :: (parens sp [ident c] ++ us)) (by krfl) ?_))
  refine First.seq (l := [_]) (m := []) (First.optSome (First.nt ?_))
  refine First.seq (l := [nameT .«name» n, .node .«name» [.node .any_name [.leaf (kw sp .OPEN_PAR), anyT c, .leaf (kw sp .CLOSE_PAR)]]]) (m := []) ?_
  refine First.seq (l := [nameT .«name» n]) (First.exact (us := parens sp [ident c] ++ us) (by krfl) ?_)
  refine First.nstarCons (l := [.node .«name» [.node .any_name [.leaf (kw sp .OPEN_PAR), anyT c, .leaf (kw sp .CLOSE_PAR)]]]) (m := []) ?_ ?_
  · refine No.alt (a := ((.tok .OPEN_PAR) ⬝ (.nt .signed_number) ⬝ (.tok .CLOSE_PAR)) ∣
      ((.tok .OPEN_PAR) ⬝ (.nt .signed_number) ⬝ (.tok .COMMA) ⬝ (.nt .signed_number) ⬝ (.tok .CLOSE_PAR))) (b := .eps) No.empty ?_
    exact No.eps (No.star (No.at (t := .OPEN_PAR) rfl) (hr _ _ rfl))
  · refine First.exact (us := us) (by krfl) (First.nstarNil ?_)
    exact First.optOff h (First.starOff h hk)

/-- A non-greedy list with commas: it goes on as long as what follows cannot be parsed. -/
theorem nlist_first {α : Type} {e : Elem} {f : α → List Token} {T : α → Tree} {Fol : List Token → Prop} {R : List Tok}
    (hR : .COMMA ∉ R) (hF : ∀ r, Fol (kw sp .COMMA :: r))
    (item : ∀ {γ : Type} (q : List Token → Option γ) (w : γ) (x : α) (us : List Token), (∀ t ∈ R, Rejects q t) →
      Fol us → q us = some w → First e q (f x ++ us) [T x] w)
    (xs : List α) (hr : ∀ t ∈ R, Rejects k t) (hrest : Fol rest) (hno : ∀ x r, k (kw sp .COMMA :: (f x ++ r)) = none)
    (hk : k rest = some v) (hs : ∀ t, t ≠ .COMMA → startsWith (.nstar (.tok .COMMA ⬝ e)) t = false)
    (hp : Proper (.nstar (.tok .COMMA ⬝ e)) := by proper) :
    First (.nstar (.tok .COMMA ⬝ e)) k (tailToks sp f xs ++ rest) (tailT sp T xs) v := by
  induction xs with
  | nil => exact First.nstarNil hk hp
  | cons x xs ih =>
    have hfol : Fol (tailToks sp f xs ++ rest) := by
      cases xs with
      | nil => exact hrest
      | cons y ys => exact hF _
    have e1 : tailToks sp f (x :: xs) ++ rest = kw sp .COMMA :: (f x ++ (tailToks sp f xs ++ rest)) := by
      simp [tailToks]
    rw [e1]
    exact First.nstarCons (hp := hp) (hno x _) (First.seq (hp := proper_nstar hp) (First.tok (x := kw sp .COMMA) rfl
      (item (best (.nstar (.tok .COMMA ⬝ e)) k) (tailT sp T xs, v) x (tailToks sp f xs ++ rest)
        (fun t ht => Rejects.best (hr t ht) (hs t (fun h => hR (h ▸ ht))) hp) hfol ih)))

/-! ### CREATE TABLE -/

/-- A part of a table that parses as a column definition. -/
inductive PartS
  | col (c : ColS)
  | idx (i : IdxS)

/-- The tokens of a part. -/
def PartS.toks (sp : Spelling) : PartS → List Token
  | .col c => c.toks sp
  | .idx i => i.toks sp

/-- The tree of a part. -/
def partT (sp : Spelling) : PartS → Tree
  | .col c => colT sp c
  | .idx i => idxT sp i

theorem part_first (x : PartS) (hr : ∀ t ∈ [Tok.OPEN_PAR], Rejects k t) {us : List Token} (h : Heads colFollow us) (hk : k us = some v) :
    First (.nt .column_def) k (x.toks sp ++ us) [partT sp x] v := by
  cases x with
  | col c => exact col_first c h hk
  | idx i => exact idx_first i (hr _ (by simp)) h hk

/-- The parts of a table after its first column. -/
def partsOf (t : TableS) : List PartS := t.cols.map .col ++ t.idxs.map .idx

/-- The tree of a table definition. -/
def createTableT (sp : Spelling) (b : Bool) (t : TableS) : Tree :=
  .node .create_table_stmt (.leaf (kw sp .CREATE_) :: .leaf (kw sp .TABLE_) :: (ineT sp b ++ nameT .table_name t.name ::
    .leaf (kw sp .OPEN_PAR) :: colT sp t.col :: (tailT sp (partT sp) (partsOf t) ++ (tailT sp (keyT sp) t.keys ++ [.leaf (kw sp .CLOSE_PAR)]))))

theorem table_toks (t : TableS) (us : List Token) : t.toks sp ++ us = ident t.name :: kw sp .OPEN_PAR ::
    (t.col.toks sp ++ (tailToks sp (PartS.toks sp) (partsOf t) ++ (tailToks sp (KeyS.toks sp) t.keys ++ kw sp .CLOSE_PAR :: us))) := by
  simp [TableS.toks, partsOf, parens, commas, tailToks, List.flatMap_map, PartS.toks]

theorem create_table_first (b : Bool) (t : TableS) (h : Heads stmtFollow rest) (hk : k rest = some v) :
    First (.nt .create_table_stmt) k ((DdlS.createTable b t).toks sp ++ rest) [createTableT sp b t] v := by
  have e : (DdlS.createTable b t).toks sp ++ rest = kw sp .CREATE_ :: kw sp .TABLE_ :: (ineToks sp b ++ (ident t.name :: kw sp .OPEN_PAR ::
      (t.col.toks sp ++ (tailToks sp (PartS.toks sp) (partsOf t) ++ (tailToks sp (KeyS.toks sp) t.keys ++ kw sp .CLOSE_PAR :: rest))))) := by
    rw [DdlS.toks, List.cons_append, List.cons_append, List.append_assoc, table_toks]
  rw [e]
  have hc : Heads colFollow (tailToks sp (KeyS.toks sp) t.keys ++ kw sp .CLOSE_PAR :: rest) := heads_tail _ (by decide) Heads.kw
  refine First.nt (First.seq (First.tok rfl (First.seq (l := []) (First.optOff (S := [.TABLE_]) Heads.kw ?_))))
  refine First.seq (First.tok rfl (First.seq (ine_first b Heads.ident ?_)))
  refine First.seq (l := []) (First.optNone (schema_no t.name (S := [.OPEN_PAR]) Heads.kw (by krfl)) ?_)
  refine First.seq (l := [nameT .table_name t.name]) (First.exact (table_runs t.name) (First.altL ?_))
  refine First.seq (First.tok rfl ?_)
  refine First.seq (l := [colT sp t.col]) (col_first t.col (heads_tail _ (by decide) hc) ?_)
  refine First.seq (nlist_first (R := [.OPEN_PAR]) (Fol := Heads colFollow) (by decide) (fun _ => Heads.kw)
    (fun _ _ x _ hr h hq => part_first x hr h hq) (partsOf t) ?_ hc ?_ ?_ ?_)
  · intro x hx
    rw [List.mem_singleton] at hx
    subst hx
    exact fun y r hy => No.at hy
  · intro x r
    refine No.seq (No.star (No.seq (No.tok rfl ?_)) (No.at (t := .COMMA) rfl))
    cases x with
    | col c => exact No.at (t := .IDENTIFIER) rfl
    | idx i => exact No.at (t := .INDEX_) rfl
  · refine First.seq (list_first (R := []) (Fol := Heads [.COMMA, .CLOSE_PAR]) (by simp) (fun _ => Heads.kw)
      (fun _ _ x _ _ h hq => key_first x h hq) t.keys (by simp) Heads.kw (Heads.noComma (S := [.CLOSE_PAR]) Heads.kw) ?_)
    exact First.seq (l := [.leaf (kw sp .CLOSE_PAR)]) (m := []) (First.tok rfl (First.optOff h hk))
  · intro t ht
    have : ∀ t : Tok, (decide (t = .COMMA) || !startsWith (.nstar (.tok .COMMA ⬝ .nt .column_def)) t) = true := by
      intro t; cases t <;> krfl
    have := this t
    simpa [ht] using this

/-! ### Other statements with lists -/

/-- The tree of CREATE INDEX. -/
def createIndexT (sp : Spelling) (b : Bool) (n t c : Str) (cs : List Str) : Tree :=
  .node .create_index_stmt (.leaf (kw sp .CREATE_) :: .leaf (kw sp .INDEX_) :: (ineT sp b ++ nameT .index_name n ::
    .leaf (kw sp .ON_) :: nameT .table_name t :: ixNamesT sp c cs))

theorem create_index_first (b : Bool) (n t c : Str) (cs : List Str) (h : Heads stmtFollow rest) (hk : k rest = some v) :
    First (.nt .create_index_stmt) k ((DdlS.createIndex b n t c cs).toks sp ++ rest) [createIndexT sp b n t c cs] v := by
  have e : (DdlS.createIndex b n t c cs).toks sp ++ rest = kw sp .CREATE_ :: kw sp .INDEX_ :: (ineToks sp b ++ (ident n :: kw sp .ON_ ::
      ident t :: kw sp .OPEN_PAR :: ([ident c] ++ (tailToks sp (fun c => [ident c]) cs ++ kw sp .CLOSE_PAR :: rest)))) := by
    rw [DdlS.toks, List.cons_append, List.cons_append, List.append_assoc]
    simp only [List.cons_append, names_toks]; rfl
  rw [e]
  refine First.nt (First.seq (First.tok rfl (First.seq (l := []) (First.optOff (S := [.INDEX_]) Heads.kw ?_))))
  refine First.seq (First.tok rfl (First.seq (ine_first b Heads.ident ?_)))
  refine First.seq (l := []) (First.optNone (schema_no n (S := [.ON_]) Heads.kw (by krfl)) ?_)
  refine First.seq (l := [nameT .index_name n]) (First.exact (us := kw sp .ON_ :: ident t :: kw sp .OPEN_PAR :: ([ident c] ++ (tailToks sp (fun c => [ident c]) cs ++ kw sp .CLOSE_PAR :: rest))) (by krfl) ?_)
  refine First.seq (First.tok rfl (First.seq (l := [nameT .table_name t]) (First.exact (table_runs t) ?_)))
  refine First.seq (First.tok rfl (First.seq (ixCol_first c (heads_names cs) ?_)))
  refine First.seq (ixCols_first cs ?_)
  exact First.seq (l := [.leaf (kw sp .CLOSE_PAR)]) (m := []) (First.tok rfl (First.optOff h hk))

theorem tables_first (ts : List Str) {us : List Token} (hc : NoComma us) (hk : k us = some v) :
    First (.star ((.tok .COMMA) ⬝ (.nt .table_name))) k (tailToks sp (fun c => [ident c]) ts ++ us)
      (tailT sp (nameT .table_name) ts) v :=
  list_first (R := []) (Fol := fun _ => True) (by simp) (fun _ => trivial)
    (name_item (fun a us => table_runs a) []) ts (by simp) trivial hc hk

/-- The trees of table names. -/
def tablesT (sp : Spelling) (t : Str) (ts : List Str) : List Tree := nameT .table_name t :: tailT sp (nameT .table_name) ts

/-- The tree of DROP TABLE. -/
def dropTableT (sp : Spelling) (b : Bool) (t : Str) (ts : List Str) : Tree :=
  .node .drop_table_stmt (.leaf (kw sp .DROP_) :: .leaf (kw sp .TABLE_) :: (ieT sp b ++ tablesT sp t ts))

theorem drop_table_first (b : Bool) (t : Str) (ts : List Str) (h : Heads stmtFollow rest) (hk : k rest = some v) :
    First (.nt .drop_table_stmt) k ((DdlS.dropTable b t ts).toks sp ++ rest) [dropTableT sp b t ts] v := by
  have e : (DdlS.dropTable b t ts).toks sp ++ rest = kw sp .DROP_ :: kw sp .TABLE_ :: (ieToks sp b ++ (ident t ::
      (tailToks sp (fun c => [ident c]) ts ++ rest))) := by
    rw [DdlS.toks, commas_map]; simp
  rw [e]
  have hh : Heads [.COMMA, .SCOL] (tailToks sp (fun c => [ident c]) ts ++ rest) := heads_tail ts (by decide) (h.mono (by decide))
  refine First.nt (First.seq (First.tok rfl (First.seq (First.tok rfl (First.seq (ie_first b Heads.ident ?_)))))) 
  refine First.seq (l := []) (First.optNone (schema_no t hh (by krfl)) ?_)
  have hw := First.seq (l := tablesT sp t ts) (m := []) (First.seq (l := [nameT .table_name t]) (First.exact (table_runs t)
    (tables_first (sp := sp) ts h.noComma (First.optOff (a := .tok .CASCADE_) h hk))))
  rw [List.append_nil] at hw
  exact hw

/-- The tree of TRUNCATE. -/
def truncateT (sp : Spelling) (t : Str) (ts : List Str) : Tree :=
  .node .truncate_stmt (.leaf (kw sp .TRUNCATE_) :: .leaf (kw sp .TABLE_) :: tablesT sp t ts)

theorem truncate_first (t : Str) (ts : List Str) (h : Heads stmtFollow rest) (hk : k rest = some v) :
    First (.nt .truncate_stmt) k ((DdlS.truncate t ts).toks sp ++ rest) [truncateT sp t ts] v := by
  have e : (DdlS.truncate t ts).toks sp ++ rest = kw sp .TRUNCATE_ :: kw sp .TABLE_ :: ident t ::
      (tailToks sp (fun c => [ident c]) ts ++ rest) := by
    rw [DdlS.toks, commas_map]; simp
  rw [e]
  refine First.nt (First.seq (First.tok rfl (First.seq (First.optSome (First.tok rfl ?_)))))
  exact First.seq (l := [nameT .table_name t]) (First.exact (table_runs t) (tables_first ts h.noComma hk))

/-- The trees of the columns of COPY. -/
def copyColsT (sp : Spelling) : List Str → List Tree
  | [] => []
  | c :: cs => [.node .copy_column_list (.leaf (kw sp .OPEN_PAR) :: (namesT sp .column_name (c :: cs) ++ [.leaf (kw sp .CLOSE_PAR)]))]

/-- The tree of COPY. -/
def copyT (sp : Spelling) (t : Str) (cols : List Str) (s : Str) (f : FormatS) : Tree :=
  .node .copy_stmt (.leaf (kw sp .COPY_) :: .lab .table [qualifiedT t] :: (copyColsT sp cols ++
    [.leaf (kw sp .FROM_), nameT .source_name s, .node .copy_format [.lab .format_type [.leaf (kw sp f.tok)]]]))

theorem copyCols_first (cols : List Str) {us : List Token} (h : Heads [.FROM_] us) (hk : k us = some v) :
    First (.opt (.nt .copy_column_list)) k (copyColsToks sp cols ++ us) (copyColsT sp cols) v := by
  cases cols with
  | nil => exact First.optOff h hk
  | cons c cs => exact First.optSome (First.nt (names_first c cs hk))

theorem copy_first (t : Str) (cols : List Str) (s : Str) (f : FormatS) (hk : k rest = some v) :
    First (.nt .copy_stmt) k ((DdlS.copy t cols s f).toks sp ++ rest) [copyT sp t cols s f] v := by
  have e : (DdlS.copy t cols s f).toks sp ++ rest = kw sp .COPY_ :: ident t :: (copyColsToks sp cols ++ (kw sp .FROM_ :: ident s :: kw sp f.tok :: rest)) := by
    simp [DdlS.toks]
  rw [e]
  have hh : Heads [.FROM_, .OPEN_PAR] (copyColsToks sp cols ++ (kw sp .FROM_ :: ident s :: kw sp f.tok :: rest)) := by
    cases cols with
    | nil => exact Heads.kw
    | cons c cs => exact Heads.kw
  refine First.nt (First.seq (First.tok rfl ?_))
  refine First.seq (First.lab (qualified_first t hh (by krfl) (by krfl) (by krfl) ?_))
  refine First.seq (copyCols_first cols Heads.kw ?_)
  refine First.seq (First.tok rfl ?_)
  refine First.seq (l := [nameT .source_name s]) (First.exact (us := kw sp f.tok :: rest) (by krfl) ?_)
  refine First.seq (l := []) ?_
  have hf : Heads [.TEXT_, .CSV_, .BINARY_] (kw sp f.tok :: rest) := by cases f <;> exact Heads.kw
  refine First.optOff hf (First.optSome (First.exact (us := rest) ?_ hk))
  cases f <;> krfl

/-! ### ALTER TABLE -/

/-- The tree of a change of a table. -/
def alterT (sp : Spelling) : AlterS → Tree
  | .renameTo t => .node .rename_table_to [.leaf (kw sp .RENAME_), .leaf (kw sp .TO_), nameT .table_name t]
  | .renameColumn a b => .node .rename_table_colum [.leaf (kw sp .RENAME_), .leaf (kw sp .COLUMN_),
      .lab .old_column_name [nameT .column_name a], .leaf (kw sp .TO_), .lab .new_column_name [nameT .column_name b]]
  | .addIndex n c cs => .node .add_table_index (.leaf (kw sp .ADD_) ::
      .node .column_constraint [.node .index_constraint [.leaf (kw sp .INDEX_), nameT .index_name n]] ::
      .leaf (kw sp .OPEN_PAR) :: (namesT sp .column_name (c :: cs) ++ [.leaf (kw sp .CLOSE_PAR)]))
  | .addKey c cs => .node .add_table_index (.leaf (kw sp .ADD_) ::
      .node .column_constraint [.node .primary_key_constraint [.leaf (kw sp .PRIMARY_), .leaf (kw sp .KEY_)]] ::
      .leaf (kw sp .OPEN_PAR) :: (namesT sp .column_name (c :: cs) ++ [.leaf (kw sp .CLOSE_PAR)]))
  | .addColumn c => .node .add_table_column [.leaf (kw sp .ADD_), colT sp c]
  | .dropColumn w c => .node .drop_table_column [.leaf ⟨.DROP_, w⟩, nameT .column_name c]

/-- The changes, as the grammar lists them. -/
def alterE : Elem := (.nt .rename_table_to) ∣ (.nt .rename_table_colum) ∣ (.nt .add_table_index) ∣ (.nt .add_table_column) ∣ (.nt .drop_table_column)

theorem alter_first (a : AlterS) (h : Heads stmtFollow rest) (hk : k rest = some v) : First alterE k (a.toks sp ++ rest) [alterT sp a] v := by
  cases a with
  | renameTo t => exact First.fixed h hk
  | renameColumn a b => exact First.fixed h hk
  | addIndex n c cs =>
    refine First.altR (No.at (t := .ADD_) rfl) (First.altR (No.at (t := .ADD_) rfl) (First.altL (First.nt ?_)))
    refine First.seq (First.tok rfl (First.seq (l := [.node .column_constraint [.node .index_constraint [.leaf (kw sp .INDEX_), nameT .index_name n]]]) ?_))
    refine First.exact (us := namesToks sp c cs ++ rest) (by krfl) (names_first c cs hk)
  | addKey c cs =>
    refine First.altR (No.at (t := .ADD_) rfl) (First.altR (No.at (t := .ADD_) rfl) (First.altL (First.nt ?_)))
    refine First.seq (First.tok rfl (First.seq (l := [.node .column_constraint [.node .primary_key_constraint [.leaf (kw sp .PRIMARY_), .leaf (kw sp .KEY_)]]]) ?_))
    refine First.exact (us := namesToks sp c cs ++ rest) (by krfl) (names_first c cs hk)
  | addColumn c =>
    refine First.altR (No.at (t := .ADD_) rfl) (First.altR (No.at (t := .ADD_) rfl) (First.altR (No.nt (No.seq (No.tok rfl (No.seq (No.at (t := .IDENTIFIER) rfl))))) (First.altL (First.nt ?_))))
    refine First.seq (First.tok rfl (First.seq (l := []) (First.optOff (S := [.IDENTIFIER]) Heads.ident ?_)))
    exact col_first c (h.mono (by decide)) hk
  | dropColumn w c => exact First.fixed h hk

/-- The trees of a table with its schema. -/
def tabT (sp : Spelling) (t : TabS) : List Tree :=
  (match t.schema with
   | none => []
   | some s => [nameT .schema_name s, .leaf (kw sp .DOT)]) ++ [.lab .target_table_name [nameT .table_name t.name]]

/-- The tree of ALTER TABLE. -/
def alterTableT (sp : Spelling) (t : TabS) (a : AlterS) : Tree :=
  .node .alter_table_stmt (.leaf (kw sp .ALTER_) :: .leaf (kw sp .TABLE_) :: (tabT sp t ++ [alterT sp a]))

theorem alter_heads (a : AlterS) {us : List Token} : Heads [.RENAME_, .ADD_, .DROP_] (a.toks sp ++ us) := by
  cases a with
  | dropColumn w c => exact Heads.cons (by show Tok.DROP_ ∈ _; decide)
  | _ => exact Heads.kw

theorem alter_table_first (t : TabS) (a : AlterS) (h : Heads stmtFollow rest) (hk : k rest = some v) :
    First (.nt .alter_table_stmt) k ((DdlS.alterTable t a).toks sp ++ rest) [alterTableT sp t a] v := by
  obtain ⟨s, n⟩ := t
  have e : (DdlS.alterTable ⟨s, n⟩ a).toks sp ++ rest = kw sp .ALTER_ :: kw sp .TABLE_ :: (TabS.toks sp ⟨s, n⟩ ++ (a.toks sp ++ rest)) := by
    simp [DdlS.toks]
  rw [e]
  refine First.nt (First.seq (First.tok rfl (First.seq (First.tok rfl ?_))))
  cases s with
  | none =>
    refine First.seq (l := []) (First.optNone (schema_no n (alter_heads a) (by krfl)) ?_)
    exact First.seq (l := [.lab .target_table_name [nameT .table_name n]]) (First.lab (First.exact (table_runs n) (alter_first a h hk)))
  | some s =>
    refine First.seq (l := [nameT .schema_name s, .leaf (kw sp .DOT)]) (First.optSome (First.exact (us := ident n :: (a.toks sp ++ rest)) (by krfl) ?_))
    exact First.seq (l := [.lab .target_table_name [nameT .table_name n]]) (First.lab (First.exact (table_runs n) (alter_first a h hk)))

/-! ### All of them -/

/-- The tree of a statement, without `sql_stmt`. -/
def ddlT (sp : Spelling) : DdlS → Tree
  | .createDatabase b n => .node .create_database_stmt (.leaf (kw sp .CREATE_) :: .leaf (kw sp .DATABASE_) :: (ineT sp b ++ [nameT .database_name n]))
  | .createTable b t => createTableT sp b t
  | .createIndex b n t c cs => createIndexT sp b n t c cs
  | .dropDatabase b n => .node .drop_database_stmt (.leaf (kw sp .DROP_) :: .leaf (kw sp .DATABASE_) :: (ieT sp b ++ [nameT .database_name n]))
  | .dropTable b t ts => dropTableT sp b t ts
  | .dropIndex b i => .node .drop_index_stmt (.leaf (kw sp .DROP_) :: .leaf (kw sp .INDEX_) :: (ieT sp b ++ ((match i.schema with
      | none => []
      | some s => [nameT .schema_name s, .leaf (kw sp .DOT)]) ++ [nameT .index_name i.name])))
  | .alterDatabase n m => .node .alter_database_stmt [.leaf (kw sp .ALTER_), .leaf (kw sp .DATABASE_), nameT .database_name n,
      .node .rename_database_to [.leaf (kw sp .RENAME_), .leaf (kw sp .TO_), .lab .new_database_name [nameT .database_name m]]]
  | .alterTable t a => alterTableT sp t a
  | .use n => .node .use_stmt [.leaf (kw sp .USE_), nameT .database_name n]
  | .copy t cs s f => copyT sp t cs s f
  | .truncate t ts => truncateT sp t ts
  | .vacuum none => .node .vacuum_stmt [.leaf (kw sp .VACUUM_)]
  | .vacuum (some t) => .node .vacuum_stmt [.leaf (kw sp .VACUUM_), nameT .schema_name t]
  | .begin => .node .begin_stmt [.leaf (kw sp .BEGIN_)]
  | .commit => .node .commit_stmt [.leaf (kw sp .COMMIT_)]
  | .rollback => .node .rollback_stmt [.leaf (kw sp .ROLLBACK_)]

theorem ddl_first (d : DdlS) (h : Heads stmtFollow rest) (hk : k rest = some v) :
    First (.nt .sql_stmt) k (d.toks sp ++ rest) [.node .sql_stmt [ddlT sp d]] v := by
  cases d with
  | createDatabase b n => cases b <;> exact First.fixed h hk
  | createTable b t =>
    refine First.nt (First.seq (l := []) (First.optOff (S := [.CREATE_]) Heads.kw ?_))
    iterate 6 refine First.altR (No.at (t := .CREATE_) rfl) ?_
    iterate 2 refine First.altR No.empty ?_
    exact First.altL (create_table_first b t h hk)
  | createIndex b n t c cs =>
    refine First.nt (First.seq (l := []) (First.optOff (S := [.CREATE_]) Heads.kw ?_))
    iterate 6 refine First.altR (No.at (t := .CREATE_) rfl) ?_
    refine First.altR No.empty ?_
    exact First.altL (create_index_first b n t c cs h hk)
  | dropDatabase b n => cases b <;> exact First.fixed h hk
  | dropTable b t ts =>
    refine First.nt (First.seq (l := []) (First.optOff (S := [.DROP_]) Heads.kw ?_))
    iterate 15 refine First.altR (No.at (t := .DROP_) rfl) ?_
    iterate 2 refine First.altR No.empty ?_
    exact First.altL (drop_table_first b t ts h hk)
  | dropIndex b i =>
    obtain ⟨s, n⟩ := i
    cases b <;> cases s <;> exact First.fixed h hk
  | alterDatabase n m => exact First.fixed h hk
  | alterTable t a =>
    refine First.nt (First.seq (l := []) (First.optOff (S := [.ALTER_]) Heads.kw ?_))
    refine First.altR No.empty ?_
    exact First.altL (alter_table_first t a h hk)
  | use n => exact First.fixed h hk
  | copy t cs s f =>
    refine First.nt (First.seq (l := []) (First.optOff (S := [.COPY_]) Heads.kw ?_))
    iterate 31 refine First.altR (No.at (t := .COPY_) rfl) ?_
    exact First.altL (copy_first t cs s f hk)
  | truncate t ts =>
    refine First.nt (First.seq (l := []) (First.optOff (S := [.TRUNCATE_]) Heads.kw ?_))
    iterate 32 refine First.altR (No.at (t := .TRUNCATE_) rfl) ?_
    exact truncate_first t ts h hk
  | vacuum t => cases t <;> exact First.fixed h hk
  | begin => exact First.fixed h hk
  | commit => exact First.fixed h hk
  | rollback => exact First.fixed h hk

/-- The tokens these statements start with. -/
def ddlToks : List Tok := [.CREATE_, .DROP_, .ALTER_, .USE_, .COPY_, .TRUNCATE_, .VACUUM_, .BEGIN_, .COMMIT_, .ROLLBACK_]

theorem ddl_heads (d : DdlS) (r : List Token) : Heads ddlToks (d.toks sp ++ r) := by
  cases d with
  | vacuum t => cases t <;> exact Heads.kw
  | _ => exact Heads.kw

end Verif.Gram
