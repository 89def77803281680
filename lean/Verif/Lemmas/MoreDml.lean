import Verif.Lemmas.TailNo
import Verif.Lemmas.LongText
/-! Lemmas for C188: names after SELECT, INSERT, UPDATE and DELETE statements. -/
namespace Verif.Gram
open Verif Verif.Lex Verif.Spec
variable {α β : Type} {k : List Token → Option β} {v : β} {sp : Spelling} {rest : List Token}

/-- A condition that is followed by a name. -/
theorem BadCond.word (c : CondS) (n : Str) : BadCond (c.toks sp ++ ident n :: rest) := by
  refine ⟨?_, fun q hr => cond_no c Heads.ident hr (hr .IDENTIFIER (by decide) _ _ rfl)⟩
  cases c <;> exact ⟨_, _, rfl, by simp [ident]⟩

/-- A DELETE without a condition that is followed by a name. -/
theorem delete_word_no (t n : Str) (hq : Quiet k) : No (.nt .sql_stmt) k (kw sp .DELETE_ :: kw sp .FROM_ :: ident t :: ident n :: rest) := by
  have h1 : Heads [.IDENTIFIER] (ident n :: rest) := Heads.ident
  have hk : k (ident n :: rest) = none := hq .IDENTIFIER (by krfl) _ _ rfl
  refine No.nt (No.seq (No.optOff (S := [.DELETE_]) Heads.kw ?_))
  iterate 12 refine No.alt (No.at (t := .DELETE_) rfl) ?_
  refine No.alt ?_ (No.alt ?_ (No.at (t := .DELETE_) rfl))
  · refine No.nt (No.seq (No.optOff (S := [.DELETE_]) Heads.kw ?_))
    refine No.seq (No.tok rfl (No.seq (No.tok rfl (No.seq (No.lab (qualified_no t h1 (by krfl) (by krfl) (by krfl) ?_))))))
    exact No.seq (No.optOff h1 (No.optOff h1 hk))
  · refine No.nt (No.seq (No.optOff (S := [.DELETE_]) Heads.kw ?_))
    refine No.seq (No.tok rfl (No.seq (No.tok rfl (No.seq (qualified_no t h1 (by krfl) (by krfl) (by krfl) ?_)))))
    exact No.seq (No.optOff h1 (No.seq (No.optOff h1 (No.optOff h1 hk))))

/-- An UPDATE without a condition that is followed by a name. -/
theorem update_word_no (t : Str) (s : SetS) (ss : List SetS) (n : Str) (hq : Quiet k) :
    No (.nt .sql_stmt) k (kw sp .UPDATE_ :: ident t :: kw sp .SET_ :: (s.toks sp ++ (tailToks sp (SetS.toks sp) ss ++ ident n :: rest))) := by
  have h1 : Heads [.IDENTIFIER] (ident n :: rest) := Heads.ident
  have h2 : Heads exprEnd (ident n :: rest) := Heads.ident
  have hk : k (ident n :: rest) = none := hq .IDENTIFIER (by krfl) _ _ rfl
  have hcomma : ∀ t ∈ arithToks, t ≠ .COMMA := by decide
  refine No.nt (No.seq (No.optOff (S := [.UPDATE_]) Heads.kw ?_))
  iterate 27 refine No.alt (No.at (t := .UPDATE_) rfl) ?_
  refine No.alt ?_ (No.alt ?_ (No.at (t := .UPDATE_) rfl))
  · refine No.nt (No.seq (No.optOff (S := [.UPDATE_]) Heads.kw ?_))
    refine No.seq (No.tok rfl (No.seq (No.optOff (S := [.IDENTIFIER]) Heads.ident ?_)))
    refine No.seq (No.lab (qualified_no t (S := [.SET_]) Heads.kw (by krfl) (by krfl) (by krfl) ?_))
    refine No.seq (No.tok rfl (No.seq (set_no s ?_ (heads_tail ss (by decide) h2) (No.seq (list_no (R := arithToks) (Fol := Heads exprEnd)
      (fun t ht => comma_starts (hcomma t ht)) (fun r => Heads.kw) (fun q x us hr h hq => No.seq (No.tok rfl (set_no x hr h hq))) ss ?_ ?_ h2
      (comma_off h1.noComma) (No.seq (No.optOff h1 (No.seq (No.optOff h1 (No.optOff h1 hk))))))))))
    · intro t ht
      simp only [arithToks, List.mem_cons, List.not_mem_nil, or_false] at ht
      rcases ht with rfl | rfl | rfl | rfl | rfl <;> quiet hq
    · intro t ht
      simp only [arithToks, List.mem_cons, List.not_mem_nil, or_false] at ht
      rcases ht with rfl | rfl | rfl | rfl | rfl <;> quiet hq
    · quiet hq
  · refine No.nt (No.seq (No.optOff (S := [.UPDATE_]) Heads.kw ?_))
    refine No.seq (No.tok rfl (No.seq (No.optOff (S := [.IDENTIFIER]) Heads.ident ?_)))
    refine No.seq (qualified_no t (S := [.SET_]) Heads.kw (by krfl) (by krfl) (by krfl) ?_)
    refine No.seq (No.tok rfl (No.seq (No.alt (No.exact (column_runs s.col) (No.seq (No.tok rfl (No.seq (rhs_no s.rhs
      (heads_tail ss (by decide) h2) ?_ (No.seq (list_no (R := arithToks) (Fol := Heads exprEnd)
      (fun t ht => comma_starts (hcomma t ht)) (fun r => Heads.kw) (fun q x us hr h hq => No.seq (No.tok rfl (set_no' x hr h hq))) ss ?_ ?_ h2
      (comma_off h1.noComma) (No.seq (No.optOff h1 (No.seq (No.optOff h1 (No.optOff h1 hk)))))))))))) (No.at rfl))))
    · intro t ht
      simp only [arithToks, List.mem_cons, List.not_mem_nil, or_false] at ht
      rcases ht with rfl | rfl | rfl | rfl | rfl <;> quiet hq
    · intro t ht
      simp only [arithToks, List.mem_cons, List.not_mem_nil, or_false] at ht
      rcases ht with rfl | rfl | rfl | rfl | rfl <;> quiet hq
    · quiet hq

/-! ### INSERT -/

theorem names_more_no (x : Str) (xs : List Str) {us : List Token} (hk : k us = none) :
    No ((.tok .OPEN_PAR) ⬝ (.nt .column_name) ⬝ (.star ((.tok .COMMA) ⬝ (.nt .column_name))) ⬝ (.tok .CLOSE_PAR)) k
      (parens sp (commas sp ((x :: xs).map (fun c => [ident c]))) ++ us) := by
  have e : parens sp (commas sp ((x :: xs).map (fun c => [ident c]))) ++ us =
      kw sp .OPEN_PAR :: ident x :: (tailToks sp (fun c => [ident c]) xs ++ kw sp .CLOSE_PAR :: us) := by
    rw [commas_map]; simp [parens]
  rw [e]
  refine No.seq (No.tok rfl (No.seq (No.exact (column_runs x) (No.seq ?_))))
  exact list_no (f := fun c => [ident c]) (R := []) (Fol := fun _ => True) (by simp) (fun _ => trivial)
    (fun q x us _ _ hq => No.seq (No.tok rfl (No.exact (column_runs x) hq))) xs (by simp) (fun _ _ h => No.at h) trivial
    (fun q => No.seq (No.at rfl)) (No.tok rfl hk)

theorem row_no (r : RowS) {us : List Token} (hk : k us = none) : No (.nt .value_row) k (r.toks sp ++ us) := by
  have e : r.toks sp ++ us = kw sp .OPEN_PAR :: (r.val.toks sp ++ (tailToks sp (Lit.toks sp) r.vals ++ kw sp .CLOSE_PAR :: us)) := by
    rw [RowS.toks, RowS.all, parens, commas_map]; simp
  rw [e]
  refine No.nt (No.seq (No.tok rfl (No.seq (lit_no r.val (heads_tail _ (by decide) Heads.kw) (No.seq ?_)))))
  exact list_no (R := []) (Fol := Heads exprEnd) (by simp) (fun r => Heads.kw)
    (fun q x us _ h hq => No.seq (No.tok rfl (lit_no x h hq))) r.vals (by simp) (fun _ _ h => No.at h) Heads.kw
    (fun q => No.seq (No.at rfl)) (No.tok rfl hk)

theorem values_no (row : RowS) (rows : List RowS) (hc : Rejects k .COMMA) {S : List Tok} (h : Heads S rest)
    (hS : S.all (fun t => !startsWith (.tok .COMMA) t) = true) (hk : k rest = none) :
    No (.nt .values_clause) k (kw sp .VALUES_ :: (row.toks sp ++ (tailToks sp (RowS.toks sp) rows ++ rest))) :=
  No.nt (No.seq (No.tok rfl (No.seq (row_no row (list_no (R := []) (Fol := fun _ => True) (by simp) (fun _ => trivial)
    (fun q x us _ _ hq => No.seq (No.tok rfl (row_no x hq))) rows (by simp) hc trivial (fun q => No.seq (No.off h hS)) hk)))))

/-- An INSERT that is followed by a name. -/
theorem insert_word_no (i : InsertS) (n : Str) (hq : Quiet k) : No (.nt .sql_stmt) k (i.toks sp ++ ident n :: rest) := by
  obtain ⟨table, col, cols, row, rows⟩ := i
  have e : InsertS.toks sp ⟨table, col, cols, row, rows⟩ ++ ident n :: rest =
      kw sp .INSERT_ :: kw sp .INTO_ :: ident table ::
        (parens sp (commas sp ((col :: cols).map (fun c => [ident c]))) ++ (kw sp .VALUES_ ::
          (row.toks sp ++ (tailToks sp (RowS.toks sp) rows ++ ident n :: rest)))) := by
    rw [InsertS.toks, commas_map (f := RowS.toks sp)]
    simp [InsertS.names]
  rw [e]
  have h1 : Heads [.IDENTIFIER] (ident n :: rest) := Heads.ident
  have hk : k (ident n :: rest) = none := hq .IDENTIFIER (by krfl) _ _ rfl
  have ho : ∀ us : List Token, Heads [.OPEN_PAR] (parens sp (commas sp ((col :: cols).map (fun c => [ident c]))) ++ us) :=
    fun us => Heads.kw
  refine No.nt (No.seq (No.optOff (S := [.INSERT_]) Heads.kw ?_))
  iterate 20 refine No.alt (No.at (t := .INSERT_) rfl) ?_
  refine No.alt ?_ (No.at (t := .INSERT_) rfl)
  refine No.nt (No.seq (No.optOff (S := [.INSERT_]) Heads.kw ?_))
  refine No.seq (No.alt (No.tok rfl ?_) (No.alt (No.at rfl) (No.seq (No.tok rfl (No.seq (No.at rfl))))))
  refine No.seq (No.tok rfl (No.seq (No.opt (schema_no table (ho _) (by krfl)) ?_)))
  refine No.seq (No.exact (table_runs table) (No.seq (No.optOff (ho _) (No.seq (No.opt (names_more_no col cols ?_) ?_)))))
  · refine No.seq (No.alt (No.seq (No.alt ?_ ?_)) (No.at rfl))
    · refine values_no row rows ?_ h1 (by krfl) (No.optOff h1 (No.optOff h1 hk))
      quiet hq
    · refine No.nt (No.seq (No.optOff (S := [.VALUES_]) Heads.kw (No.seq (No.lab (No.nt (No.alt (No.at rfl) ?_))))))
      refine values_no row rows ?_ h1 (by krfl) (No.seq (No.starOff h1 (No.seq (No.optOff h1 (No.optOff h1 (No.optOff h1 (No.optOff h1 hk)))))))
      quiet hq
  · exact No.at (t := .OPEN_PAR) rfl

/-! ### SELECT -/

/-- An ordering or a limit that is followed by a name. -/
theorem BadTail.word (os : List OrderS) (l : LimitS) (h : os ≠ [] ∨ l ≠ .none) (n : Str) :
    BadTail (ordersToks sp os ++ (l.toks sp ++ ident n :: rest)) where
  heads := by
    cases os with
    | cons => exact Heads.kw
    | nil =>
      cases l with
      | none => simp at h
      | _ => exact Heads.kw
  follow := by
    cases os with
    | cons o os => exact .inr ⟨kw sp .ORDER_, kw sp .BY_, _, rfl, by simp [kw, clauseToks], by simp [kw]⟩
    | nil => exact limit_follow l (by simpa using h)
  no := fun q hq => by
    refine orders_no os (orderInner_quiet hq) (by quiet hq) (by quiet hq) ?_ (limit_no l Heads.ident (by quiet hq) (by quiet hq) (by quiet hq) (hq .IDENTIFIER (by krfl) _ _ rfl))
    cases l with
    | none => exact Heads.ident
    | _ => exact Heads.kw

end Verif.Gram

namespace Verif.Gram
open Verif Verif.Lex Verif.Spec
variable {α β : Type} {k : List Token → Option β} {v : β} {sp : Spelling} {rest : List Token}

/-- A SELECT with GROUP BY that is followed by a name. -/
theorem select_group_no (i : ItemS) (is : List ItemS) (tabs : List TabS) (c : Option CondS) (g n : Str) (hq : Quiet k) :
    No (.nt .sql_stmt) k (kw sp .SELECT_ :: (i.toks sp ++ (tailToks sp (ItemS.toks sp) is ++
      (fromToks sp tabs ++ (whereToks sp c ++ kw sp .GROUP_ :: kw sp .BY_ :: ident g :: ident n :: rest))))) := by
  have hk : k (ident n :: rest) = none := hq .IDENTIFIER (by krfl) _ _ rfl
  have hn : Heads [.IDENTIFIER] (ident n :: rest) := Heads.ident
  have h2 : Heads [.GROUP_] (kw sp .GROUP_ :: kw sp .BY_ :: ident g :: ident n :: rest) := Heads.kw
  have h1' : Heads clauseToks (whereToks sp c ++ kw sp .GROUP_ :: kw sp .BY_ :: ident g :: ident n :: rest) := by
    cases c with
    | none => exact h2.mono (by decide)
    | some c => exact Heads.kw
  have h1 : Heads exprFollow (whereToks sp c ++ kw sp .GROUP_ :: kw sp .BY_ :: ident g :: ident n :: rest) := h1'.mono (by decide)
  have h0 : Heads exprFollow (fromToks sp tabs ++ (whereToks sp c ++ kw sp .GROUP_ :: kw sp .BY_ :: ident g :: ident n :: rest)) := by
    cases tabs with
    | nil => exact h1
    | cons => exact Heads.kw
  have hi := heads_tail (sp := sp) (f := ItemS.toks sp) is (by decide) h0
  have hin : Heads (Tok.STAR :: atomStart) (i.toks sp ++ (tailToks sp (ItemS.toks sp) is ++
      (fromToks sp tabs ++ (whereToks sp c ++ kw sp .GROUP_ :: kw sp .BY_ :: ident g :: ident n :: rest)))) := by
    cases i with
    | star => exact Heads.kw
    | atom a => exact (atom_heads a _).mono (by decide)
    | fn f args => exact Heads.ident
  have hopen : ∀ {γ : Type} {q : List Token → Option γ}, Rejects q .OPEN_PAR → ∀ t ∈ [Tok.OPEN_PAR], Rejects q t := by
    intro γ q hq t ht
    rw [List.mem_singleton] at ht
    rw [ht]; exact hq
  have hfol : WhereFollow (whereToks sp c ++ kw sp .GROUP_ :: kw sp .BY_ :: ident g :: ident n :: rest) := by
    cases c with
    | none => exact .inr ⟨kw sp .GROUP_, kw sp .BY_, _, rfl, by simp [kw, clauseToks], by simp [kw]⟩
    | some c =>
      obtain ⟨a, r, hc⟩ := cond_head (sp := sp) c
      exact .inr ⟨kw sp .WHERE_, ident a, _, by rw [whereToks, hc]; rfl, by simp [kw, clauseToks], by simp [ident]⟩
  refine No.nt (No.seq (No.optOff (S := [.SELECT_]) Heads.kw ?_))
  iterate 26 refine No.alt (No.at (t := .SELECT_) rfl) ?_
  refine No.alt ?_ (No.at (t := .SELECT_) rfl)
  refine No.nt (No.seq (No.optOff (S := [.SELECT_]) Heads.kw ?_))
  refine No.seq (No.lab (No.nt (No.alt ?_ (No.at (t := .SELECT_) rfl))))
  refine No.seq (No.tok rfl (No.seq (No.optOff hin ?_)))
  refine No.seq (item_no i (hopen (by quiet hq)) hi ?_)
  refine No.seq (list_no (R := [.OPEN_PAR]) (Fol := Heads exprFollow)
      (fun t ht => comma_starts (by rintro rfl; simp at ht)) (fun r => Heads.kw)
      (fun q x us hr h hq => No.seq (No.tok rfl (item_no x hr h hq))) is (hopen (by quiet hq)) (by quiet hq) h0 (comma_off ?_) ?_)
  · cases tabs with
    | nil => exact h1'.noComma
    | cons => exact Heads.noComma (S := [.FROM_]) Heads.kw
  refine No.seq (from_no tabs ?_ (by quiet hq) (by quiet hq) hfol h1' ?_)
  · intro x hx
    simp only [List.mem_cons, List.not_mem_nil, or_false] at hx
    rcases hx with rfl | rfl | rfl | rfl | rfl <;> quiet hq
  refine No.seq (where_good_no c ?_ (by quiet hq) (h2.mono (by decide)) ?_)
  · intro x hx
    simp only [badInner, condInner, List.cons_append, List.nil_append, List.mem_cons, List.not_mem_nil, or_false] at hx
    rcases hx with rfl | rfl | rfl | rfl | rfl | rfl | rfl | rfl | rfl | rfl | rfl <;> quiet hq
  have hend : ∀ {γ : Type} {q : List Token → Option γ}, Quiet q → q (ident n :: rest) = none := fun hq => hq .IDENTIFIER (by krfl) _ _ rfl
  refine No.seq (No.opt (No.seq (No.tok rfl (No.seq (No.tok rfl (No.seq (No.lab (atom_no (sp := .std) (.col g) Heads.ident ?_))))))) ?_)
  · refine No.seq (No.starOff hn (No.optOff hn (No.optOff hn ?_)))
    exact No.seq (No.starOff hn (No.seq (No.optOff hn (No.optOff hn hk))))
  · refine No.optOff h2 ?_
    exact No.seq (No.starOff h2 (No.seq (No.optOff h2 (No.optOff h2 (hq .GROUP_ (by krfl) _ _ rfl)))))

end Verif.Gram
