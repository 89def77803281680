import Verif.Lemmas.TailNo
/-! Nothing follows a whole statement but the end, `;` or another statement. -/
namespace Verif.Gram
open Verif Verif.Lex Verif.Spec

variable {β : Type} {k : List Token → Option β} {sp : Spelling} {x : Token} {r : List Token}

theorem No.tokNe {t : Tok} (h : x.kind ≠ t) : No (.tok t) k (x :: r) := by
  refine No.all ?_
  rw [parses_tok]
  simp [one, h]

theorem No.optNe {t : Tok} (h : x.kind ≠ t) (hk : k (x :: r) = none) : No (.opt (.tok t)) k (x :: r) := No.opt (No.tokNe h) hk

theorem No.optSeqNe {t : Tok} {e : Elem} (h : x.kind ≠ t) (hk : k (x :: r) = none) (hp : Proper (.opt (.tok t ⬝ e)) := by proper) :
    No (.opt (.tok t ⬝ e)) k (x :: r) := No.opt (No.seq (No.tokNe h) (proper_alt hp).1) hk hp

theorem No.starSeqNe {t : Tok} {e : Elem} (h : x.kind ≠ t) (hk : k (x :: r) = none) (hp : Proper (.star (.tok t ⬝ e)) := by proper) :
    No (.star (.tok t ⬝ e)) k (x :: r) := No.star (No.seq (No.tokNe h) (proper_star hp)) hk hp

/-- `IF EXISTS`, or nothing, before a name. -/
theorem ie_no {e : Elem} (b : Bool) {us : List Token} (h : Heads [.IDENTIFIER] us) (h1 : No e k us)
    (h2 : No e k (kw sp .IF_ :: kw sp .EXISTS_ :: us)) (hp : Proper (.opt (.nt .if_exists) ⬝ e) := by proper) :
    No (.opt (.nt .if_exists) ⬝ e) k (ieToks sp b ++ us) := by
  cases b with
  | false => exact No.seq (No.optOff h h1) hp
  | true => exact No.seq (No.opt (No.exact (us := us) (l := [.node .if_exists [.leaf (kw sp .IF_), .leaf (kw sp .EXISTS_)]]) (by krfl) h1) h2) hp

/-- `IF NOT EXISTS`, or nothing, before a name. -/
theorem ine_no {e : Elem} (b : Bool) {us : List Token} (h : Heads [.IDENTIFIER] us) (h1 : No e k us)
    (h2 : No e k (kw sp .IF_ :: kw sp .NOT_ :: kw sp .EXISTS_ :: us)) (hp : Proper (.opt (.nt .if_not_exists) ⬝ e) := by proper) :
    No (.opt (.nt .if_not_exists) ⬝ e) k (ineToks sp b ++ us) := by
  cases b with
  | false => exact No.seq (No.optOff h h1) hp
  | true =>
    exact No.seq (No.opt (No.exact (us := us) (l := [.node .if_not_exists [.leaf (kw sp .IF_), .leaf (kw sp .NOT_), .leaf (kw sp .EXISTS_)]]) (by krfl) h1) h2) hp

/-! ### The statements -/

theorem use_more (n : Str) (hk : k (x :: r) = none) : No (.nt .sql_stmt) k (kw sp .USE_ :: ident n :: x :: r) := by
  refine No.nt (No.seq (No.optOff (S := [.USE_]) Heads.kw ?_))
  iterate 29 refine No.alt (No.at (t := .USE_) rfl) ?_
  refine No.alt ?_ (No.at (t := .USE_) rfl)
  exact No.nt (No.seq (No.tok rfl (No.exact (l := [nameT .database_name n]) (us := x :: r) (by krfl) hk)))

theorem alter_database_more (n m : Str) (hk : k (x :: r) = none) :
    No (.nt .sql_stmt) k (kw sp .ALTER_ :: kw sp .DATABASE_ :: ident n :: kw sp .RENAME_ :: kw sp .TO_ :: ident m :: x :: r) := by
  refine No.nt (No.seq (No.optOff (S := [.ALTER_]) Heads.kw ?_))
  refine No.alt ?_ (No.alt No.empty (No.at (t := .ALTER_) rfl))
  refine No.nt (No.seq (No.tok rfl (No.seq (No.tok rfl (No.seq (No.opt No.empty ?_))))))
  refine No.seq (No.exact (l := [nameT .database_name n]) (us := kw sp .RENAME_ :: kw sp .TO_ :: ident m :: x :: r) (by krfl) ?_)
  exact No.nt (No.seq (No.tok rfl (No.seq (No.tok rfl (No.lab (No.exact (l := [nameT .database_name m]) (us := x :: r) (by krfl) hk))))))

theorem create_database_more (b : Bool) (n : Str) (hq : Quiet k) (hk : k (x :: r) = none) :
    No (.nt .sql_stmt) k (kw sp .CREATE_ :: kw sp .DATABASE_ :: (ineToks sp b ++ ident n :: x :: r)) := by
  refine No.nt (No.seq (No.optOff (S := [.CREATE_]) Heads.kw ?_))
  iterate 6 refine No.alt (No.at (t := .CREATE_) rfl) ?_
  refine No.alt ?_ (No.alt No.empty (No.alt No.empty (No.alt No.empty (No.alt No.empty (No.alt No.empty (No.at (t := .CREATE_) rfl))))))
  refine No.nt (No.seq (No.tok rfl (No.seq (No.tok rfl (ine_no b Heads.ident ?_ ?_)))))
  · exact No.exact (l := [nameT .database_name n]) (us := x :: r) (by krfl) hk
  · exact No.exact (l := [.node .database_name [.node .any_name [.node .keyword [.leaf (kw sp .IF_)]]]]) (us := kw sp .NOT_ :: kw sp .EXISTS_ :: ident n :: x :: r)
      (by krfl) (hq .NOT_ (by krfl) _ _ rfl)

theorem drop_database_more (b : Bool) (n : Str) (hq : Quiet k) (hk : k (x :: r) = none) :
    No (.nt .sql_stmt) k (kw sp .DROP_ :: kw sp .DATABASE_ :: (ieToks sp b ++ ident n :: x :: r)) := by
  refine No.nt (No.seq (No.optOff (S := [.DROP_]) Heads.kw ?_))
  iterate 15 refine No.alt (No.at (t := .DROP_) rfl) ?_
  refine No.alt ?_ (No.alt No.empty (No.alt No.empty (No.alt No.empty (No.alt No.empty (No.at (t := .DROP_) rfl)))))
  refine No.nt (No.seq (No.tok rfl (No.seq (No.tok rfl (ie_no b Heads.ident ?_ ?_)))))
  · exact No.exact (l := [nameT .database_name n]) (us := x :: r) (by krfl) hk
  · exact No.exact (l := [.node .database_name [.node .any_name [.node .keyword [.leaf (kw sp .IF_)]]]]) (us := kw sp .EXISTS_ :: ident n :: x :: r)
      (by krfl) (hq .EXISTS_ (by krfl) _ _ rfl)

/-- The tokens do not start with a point. -/
def NoDot (ts : List Token) : Prop := ∀ y s, ts = y :: s → y.kind ≠ .DOT

theorem schemaNe {us : List Token} (a : Str) (h : NoDot us) : No ((.nt .schema_name) ⬝ (.tok .DOT)) k (ident a :: us) := by
  refine No.seq (No.exact (l := [nameT .schema_name a]) (us := us) (by krfl) ?_)
  cases us with
  | nil => exact No.off (S := []) (Heads.nil _)
  | cons y s => exact No.tokNe (h y s rfl)

theorem drop_index_more (b : Bool) (i : TabS) (hq : Quiet k) (hd : x.kind ≠ .DOT) (hk : k (x :: r) = none) :
    No (.nt .sql_stmt) k (kw sp .DROP_ :: kw sp .INDEX_ :: (ieToks sp b ++ (i.toks sp ++ x :: r))) := by
  obtain ⟨s, a⟩ := i
  refine No.nt (No.seq (No.optOff (S := [.DROP_]) Heads.kw ?_))
  iterate 15 refine No.alt (No.at (t := .DROP_) rfl) ?_
  refine No.alt No.empty (No.alt ?_ (No.alt No.empty (No.alt No.empty (No.alt No.empty (No.at (t := .DROP_) rfl)))))
  refine No.nt (No.seq (No.tok rfl (No.seq (No.tok rfl (ie_no b (tab_heads _ _) ?_ ?_)))))
  · cases s with
    | none =>
      exact No.seq (No.opt (schemaNe a (by rintro y s ⟨⟩; exact hd)) (No.exact (l := [nameT .index_name a]) (us := x :: r) (by krfl) hk))
    | some s =>
      refine No.seq (No.opt (No.exact (l := [nameT .schema_name s, .leaf (kw sp .DOT)]) (us := ident a :: x :: r) (by krfl)
        (No.exact (l := [nameT .index_name a]) (us := x :: r) (by krfl) hk)) ?_)
      exact No.exact (l := [nameT .index_name s]) (us := kw sp .DOT :: ident a :: x :: r) (by krfl) (hq .DOT (by krfl) _ _ rfl)
  · refine No.seq (No.opt No.empty ?_)
    exact No.exact (l := [.node .index_name [.node .any_name [.node .keyword [.leaf (kw sp .IF_)]]]]) (us := kw sp .EXISTS_ :: (TabS.toks sp ⟨s, a⟩ ++ x :: r))
      (by krfl) (hq .EXISTS_ (by krfl) _ _ rfl)

/-- Names after the first one. -/
theorem more_tables_no (ts : List Str) (hq : Rejects k .COMMA) (hc : x.kind ≠ .COMMA) (hk : k (x :: r) = none) :
    No (.star ((.tok .COMMA) ⬝ (.nt .table_name))) k (tailToks sp (fun c => [ident c]) ts ++ x :: r) :=
  list_no (R := []) (Fol := fun _ => True) (by simp) (fun _ => trivial)
    (fun _ a _ _ _ hq => No.seq (No.tok rfl (No.exact (table_runs a) hq))) ts (by simp) hq trivial
    (fun _ => No.seq (No.tokNe hc)) hk

theorem noDot_tail (ts : List Str) (hd : x.kind ≠ .DOT) : NoDot (tailToks sp (fun c => [ident c]) ts ++ x :: r) := by
  cases ts with
  | nil => rintro y s ⟨⟩; exact hd
  | cons t ts => rintro y s ⟨⟩; simp [kw]

theorem drop_table_more (b : Bool) (t : Str) (ts : List Str) (hq : Quiet k) (hd : x.kind ≠ .DOT) (hc : x.kind ≠ .COMMA)
    (hx : x.kind ≠ .CASCADE_) (hk : k (x :: r) = none) :
    No (.nt .sql_stmt) k (kw sp .DROP_ :: kw sp .TABLE_ :: (ieToks sp b ++ (ident t :: (tailToks sp (fun c => [ident c]) ts ++ x :: r)))) := by
  refine No.nt (No.seq (No.optOff (S := [.DROP_]) Heads.kw ?_))
  iterate 15 refine No.alt (No.at (t := .DROP_) rfl) ?_
  refine No.alt No.empty (No.alt No.empty (No.alt ?_ (No.alt No.empty (No.alt No.empty (No.at (t := .DROP_) rfl)))))
  refine No.nt (No.seq (No.tok rfl (No.seq (No.tok rfl (ie_no b Heads.ident ?_ ?_)))))
  · refine No.seq (No.opt (schemaNe t (noDot_tail ts hd)) (No.seq (No.seq (No.exact (table_runs t) (more_tables_no ts ?_ hc (No.optNe hx hk))))))
    quiet hq
  · refine No.seq (No.opt No.empty (No.seq (No.seq ?_)))
    refine No.exact (l := [.node .table_name [.node .any_name [.node .keyword [.leaf (kw sp .IF_)]]]])
      (us := kw sp .EXISTS_ :: ident t :: (tailToks sp (fun c => [ident c]) ts ++ x :: r)) (by krfl) ?_
    exact No.starOff (S := [.EXISTS_]) Heads.kw (No.optOff (S := [.EXISTS_]) Heads.kw (hq .EXISTS_ (by krfl) _ _ rfl))

theorem truncate_more (t : Str) (ts : List Str) (hq : Quiet k) (hc : x.kind ≠ .COMMA) (hk : k (x :: r) = none) :
    No (.nt .sql_stmt) k (kw sp .TRUNCATE_ :: kw sp .TABLE_ :: ident t :: (tailToks sp (fun c => [ident c]) ts ++ x :: r)) := by
  refine No.nt (No.seq (No.optOff (S := [.TRUNCATE_]) Heads.kw ?_))
  iterate 32 refine No.alt (No.at (t := .TRUNCATE_) rfl) ?_
  refine No.nt (No.seq (No.tok rfl (No.seq (No.opt (No.tok rfl ?_) ?_))))
  · exact No.seq (No.exact (table_runs t) (more_tables_no ts (by quiet hq) hc hk))
  · refine No.seq ?_
    refine No.exact (l := [.node .table_name [.node .any_name [.node .keyword [.leaf (kw sp .TABLE_)]]]])
      (us := ident t :: (tailToks sp (fun c => [ident c]) ts ++ x :: r)) (by krfl) ?_
    exact No.starOff (S := [.IDENTIFIER]) Heads.ident (hq .IDENTIFIER (by krfl) _ _ rfl)

theorem vacuum_more (t : Str) (hq : Quiet k) (hi : x.kind ≠ .INTO_) (hk : k (x :: r) = none) :
    No (.nt .sql_stmt) k (kw sp .VACUUM_ :: ident t :: x :: r) := by
  refine No.nt (No.seq (No.optOff (S := [.VACUUM_]) Heads.kw ?_))
  iterate 30 refine No.alt (No.at (t := .VACUUM_) rfl) ?_
  refine No.alt ?_ (No.at (t := .VACUUM_) rfl)
  refine No.nt (No.seq (No.tok rfl (No.seq (No.optOff (S := [.IDENTIFIER]) Heads.ident (No.seq (No.opt ?_ ?_))))))
  · exact No.exact (l := [nameT .schema_name t]) (us := x :: r) (by krfl) (No.optSeqNe hi hk)
  · exact No.optOff (S := [.IDENTIFIER]) Heads.ident (hq .IDENTIFIER (by krfl) _ _ rfl)

theorem begin_more (h : x.kind ∉ [Tok.DEFERRED_, .IMMEDIATE_, .EXCLUSIVE_, .TRANSACTION_]) (hk : k (x :: r) = none) :
    No (.nt .sql_stmt) k (kw sp .BEGIN_ :: x :: r) := by
  simp only [List.mem_cons, List.not_mem_nil, or_false, not_or] at h
  obtain ⟨h1, h2, h3, h4⟩ := h
  refine No.nt (No.seq (No.optOff (S := [.BEGIN_]) Heads.kw ?_))
  iterate 4 refine No.alt (No.at (t := .BEGIN_) rfl) ?_
  refine No.alt ?_ (No.at (t := .BEGIN_) rfl)
  exact No.nt (No.seq (No.tok rfl (No.seq (No.opt (No.alt (No.tokNe h1) (No.alt (No.tokNe h2) (No.tokNe h3))) (No.optSeqNe h4 hk)))))

theorem commit_more (h : x.kind ≠ .TRANSACTION_) (hk : k (x :: r) = none) : No (.nt .sql_stmt) k (kw sp .COMMIT_ :: x :: r) := by
  refine No.nt (No.seq (No.optOff (S := [.COMMIT_]) Heads.kw ?_))
  iterate 5 refine No.alt (No.at (t := .COMMIT_) rfl) ?_
  refine No.alt ?_ (No.at (t := .COMMIT_) rfl)
  exact No.nt (No.seq (No.alt (No.tok rfl (No.optNe h hk)) (No.at rfl)))

theorem rollback_more (h : x.kind ∉ [Tok.TRANSACTION_, .TO_]) (hk : k (x :: r) = none) : No (.nt .sql_stmt) k (kw sp .ROLLBACK_ :: x :: r) := by
  simp only [List.mem_cons, List.not_mem_nil, or_false, not_or] at h
  refine No.nt (No.seq (No.optOff (S := [.ROLLBACK_]) Heads.kw ?_))
  iterate 24 refine No.alt (No.at (t := .ROLLBACK_) rfl) ?_
  refine No.alt ?_ (No.at (t := .ROLLBACK_) rfl)
  exact No.nt (No.seq (No.tok rfl (No.seq (No.optNe h.1 (No.optSeqNe h.2 hk)))))

/-! ### Lists in parentheses -/


theorem ixCol_no (c : Str) {us : List Token} (h : Heads [.COMMA, .CLOSE_PAR] us) (hk : k us = none) :
    No (.nt .indexed_column) k (ident c :: us) := by
  have h2 : best (.opt ((.tok .COLLATE_) ⬝ (.nt .collation_name))) (best (.opt (.nt .asc_desc)) k) us = none := No.optOff h (No.optOff h hk)
  refine No.nt (No.seq (No.alt (No.exact (column_runs c) (No.seq h2)) (atom_no (sp := .std) (.col c) (h.mono (by decide)) (No.seq h2))))

theorem create_index_more (b : Bool) (n t c : Str) (cs : List Str) (hq : Quiet k) (hw : x.kind ≠ .WHERE_) (hk : k (x :: r) = none) :
    No (.nt .sql_stmt) k (kw sp .CREATE_ :: kw sp .INDEX_ :: (ineToks sp b ++ (ident n :: kw sp .ON_ :: ident t :: kw sp .OPEN_PAR :: ident c ::
      (tailToks sp (fun c => [ident c]) cs ++ kw sp .CLOSE_PAR :: x :: r)))) := by
  refine No.nt (No.seq (No.optOff (S := [.CREATE_]) Heads.kw ?_))
  iterate 6 refine No.alt (No.at (t := .CREATE_) rfl) ?_
  refine No.alt No.empty (No.alt ?_ (No.alt No.empty (No.alt No.empty (No.alt No.empty (No.alt No.empty (No.at (t := .CREATE_) rfl))))))
  refine No.nt (No.seq (No.tok rfl (No.seq (No.optOff (S := [.INDEX_]) Heads.kw (No.seq (No.tok rfl (ine_no b Heads.ident ?_ ?_)))))))
  · refine No.seq (No.opt (schemaNe n (by rintro y s ⟨⟩; simp [kw])) (No.seq (No.exact (l := [nameT .index_name n])
      (us := kw sp .ON_ :: ident t :: kw sp .OPEN_PAR :: ident c :: (tailToks sp (fun c => [ident c]) cs ++ kw sp .CLOSE_PAR :: x :: r)) (by krfl) ?_)))
    refine No.seq (No.tok rfl (No.seq (No.exact (table_runs t) (No.seq (No.tok rfl (No.seq (ixCol_no c (heads_names cs) ?_)))))))
    refine No.seq (list_no (R := []) (f := fun c => [ident c]) (Fol := Heads [.COMMA, .CLOSE_PAR]) (by simp) (fun _ => Heads.kw)
      (fun _ a _ _ h hq => No.seq (No.tok rfl (ixCol_no a h hq))) cs (by simp) ?_ Heads.kw
      (comma_off (Heads.noComma (S := [.CLOSE_PAR]) Heads.kw)) ?_)
    · intro y s hy
      exact No.seq (No.at hy)
    · exact No.seq (No.tok rfl (No.optSeqNe hw hk))
  · refine No.seq (No.opt No.empty (No.seq (No.exact (l := [.node .index_name [.node .any_name [.node .keyword [.leaf (kw sp .IF_)]]]]) (us := kw sp .NOT_ :: kw sp .EXISTS_ :: (ident n :: kw sp .ON_ :: ident t :: kw sp .OPEN_PAR :: ident c ::
      (tailToks sp (fun c => [ident c]) cs ++ kw sp .CLOSE_PAR :: x :: r)))
      (by krfl) (No.seq (No.at rfl)))))

theorem copy_more (t : Str) (cols : List Str) (s : Str) (f : FormatS) (hq : Quiet k) (hk : k (x :: r) = none) :
    No (.nt .sql_stmt) k (kw sp .COPY_ :: ident t :: (copyColsToks sp cols ++ (kw sp .FROM_ :: ident s :: kw sp f.tok :: x :: r))) := by
  have hh : Heads [.FROM_, .OPEN_PAR] (copyColsToks sp cols ++ (kw sp .FROM_ :: ident s :: kw sp f.tok :: x :: r)) := by
    cases cols with
    | nil => exact Heads.kw
    | cons c cs => exact Heads.kw
  have hend : best ((.tok .FROM_) ⬝ ((.nt .source_name) ⬝ ((.opt (.tok .WITH_)) ⬝ (.opt (.nt .copy_format))))) k
      (kw sp .FROM_ :: ident s :: kw sp f.tok :: x :: r) = none := by
    refine No.seq (No.tok rfl (No.seq (No.exact (l := [nameT .source_name s]) (us := kw sp f.tok :: x :: r) (by krfl) (No.seq ?_))))
    refine No.optOff (S := [.TEXT_, .CSV_, .BINARY_]) (by cases f <;> exact Heads.kw) (No.opt ?_ ?_)
    · refine No.exact (l := [.node .copy_format [.lab .format_type [.leaf (kw sp f.tok)]]]) (us := x :: r) ?_ hk
      cases f <;> krfl
    · cases f
      · exact hq .TEXT_ (by krfl) _ _ rfl
      · exact hq .CSV_ (by krfl) _ _ rfl
      · exact hq .BINARY_ (by krfl) _ _ rfl
  refine No.nt (No.seq (No.optOff (S := [.COPY_]) Heads.kw ?_))
  iterate 31 refine No.alt (No.at (t := .COPY_) rfl) ?_
  refine No.alt ?_ (No.at (t := .COPY_) rfl)
  refine No.nt (No.seq (No.tok rfl (No.seq (No.lab (qualified_no t hh (by krfl) (by krfl) (by krfl) (No.seq ?_))))))
  cases cols with
  | nil => exact No.optOff (S := [.FROM_]) Heads.kw hend
  | cons c cs =>
    rw [copyColsToks, names_toks]
    refine No.opt (No.nt (No.seq (No.tok rfl (No.seq (No.exact (column_runs c) (No.seq ?_)))))) (No.seq (No.at (t := .OPEN_PAR) rfl))
    refine list_no (R := []) (Fol := fun _ => True) (by simp) (fun _ => trivial)
      (fun _ a _ _ _ hq => No.seq (No.tok rfl (No.exact (column_runs a) hq))) cs (by simp) ?_ trivial
      (comma_off (Heads.noComma (S := [.CLOSE_PAR]) Heads.kw)) (No.tok rfl hend)
    intro y s hy
    exact No.at hy

end Verif.Gram
