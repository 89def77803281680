import Verif.Lemmas.ParseDdl
/-! Parsing queries of several statements. -/
namespace Verif.Gram
open Verif Verif.Lex Verif.Spec

variable {β : Type} {k : List Token → Option β} {v : β} {sp : Spelling} {rest : List Token}

/-- The tree of a statement. -/
def stmtT (sp : Spelling) : StmtS → Tree
  | .select s => .node .sql_stmt [selectT sp s]
  | .insert i => .node .sql_stmt [insertT sp i]
  | .update u => .node .sql_stmt [updateT sp u]
  | .delete d => .node .sql_stmt [deleteT sp d]
  | .ddl d => .node .sql_stmt [ddlT sp d]

theorem stmt_first (s : StmtS) (hq : Quiet k) (h : Heads stmtFollow rest) (hk : k rest = some v) :
    First (.nt .sql_stmt) k (s.toks sp ++ rest) [stmtT sp s] v := by
  cases s with
  | select s =>
    refine First.nt (First.seq (l := []) (First.optOff (S := [.SELECT_]) Heads.kw ?_))
    iterate 26 refine First.altR (No.at (t := .SELECT_) rfl) ?_
    exact First.altL (select_first s hq h hk)
  | insert i =>
    refine First.nt (First.seq (l := []) (First.optOff (S := [.INSERT_]) Heads.kw ?_))
    iterate 20 refine First.altR (No.at (t := .INSERT_) rfl) ?_
    exact First.altL (insert_first i h hk)
  | update u =>
    refine First.nt (First.seq (l := []) (First.optOff (S := [.UPDATE_]) Heads.kw ?_))
    iterate 27 refine First.altR (No.at (t := .UPDATE_) rfl) ?_
    exact First.altL (update_first u hq h hk)
  | delete d =>
    refine First.nt (First.seq (l := []) (First.optOff (S := [.DELETE_]) Heads.kw ?_))
    iterate 12 refine First.altR (No.at (t := .DELETE_) rfl) ?_
    exact First.altL (delete_first d hq h hk)
  | ddl d => exact ddl_first d h hk

/-- The tokens a statement of Spec/Syntax.lean starts with. -/
def startToks : List Tok := [.SELECT_, .INSERT_, .UPDATE_, .DELETE_] ++ ddlToks

theorem stmt_heads (s : StmtS) (r : List Token) : Heads startToks (s.toks sp ++ r) := by
  cases s with
  | ddl d => exact (ddl_heads d r).mono (fun t h => List.mem_append_right _ h)
  | _ => exact Heads.kw

/-- The statements after the first. -/
def moreStmts : Elem := .star (.plus (.tok .SCOL) ⬝ .nt .sql_stmt)

theorem quiet_best (hq : Quiet k) (e : Elem) (hs : ∀ t, (stmtStart t || !startsWith e t) = true)
    (hp : Proper e := by proper) : Quiet (best e k) := by
  intro t ht
  refine Rejects.best (hq t ht) ?_ hp
  have := hs t
  rw [ht] at this
  simpa using this

theorem quiet_eof : Quiet (best (β := List Token) .eof some) := by
  intro t _ x r _
  exact No.all (by rw [parses_eof]; simp)

/-- What follows the list of statements. -/
def afterList : List Token → Option (List Tree × (List Tree × List Token)) :=
  best (.star (.nt .sql_stmt_list)) (best .eof some)

theorem quiet_afterList : Quiet afterList :=
  quiet_best quiet_eof _ (by intro t; cases t <;> krfl)

theorem afterList_nil : afterList [] = some ([], ([], [])) := by
  refine First.starOff (S := []) (Heads.nil _) ?_
  rw [best_eq (parses_eof [])]; rfl

theorem quiet_scols : Quiet (best (.star (.tok .SCOL)) afterList) :=
  quiet_best quiet_afterList _ (by intro t; cases t <;> krfl)
theorem quiet_more : Quiet (best moreStmts (best (.star (.tok .SCOL)) afterList)) :=
  quiet_best quiet_scols _ (by intro t; cases t <;> krfl)
theorem quiet_tail : Quiet (best (moreStmts ⬝ .star (.tok .SCOL)) afterList) :=
  quiet_best quiet_afterList _ (by intro t; cases t <;> krfl)

/-- Semicolons. -/
theorem scols_first (n : Nat) (hk : k [] = some v) :
    First (.star (.tok .SCOL)) k (List.replicate n (kw sp .SCOL)) (List.replicate n (.leaf (kw sp .SCOL))) v := by
  induction n with
  | zero => exact First.starOff (S := []) (Heads.nil _) hk
  | succ n ih =>
    exact First.starCons (l := [.leaf (kw sp .SCOL)]) (First.tok (x := kw sp .SCOL) rfl ih)

theorem scols_no (n : Nat) {q : List Token → Option β} (hs : Rejects q .SCOL) (hn : q [] = none) :
    best (.star (.tok .SCOL)) q (List.replicate n (kw sp .SCOL)) = none := by
  induction n with
  | zero =>
    have h1 : No (.tok .SCOL) (best (.star (.tok .SCOL)) q) [] := No.off (S := []) (Heads.nil _)
    rw [List.replicate_zero, best_star (by proper), h1, hn]; rfl
  | succ n ih =>
    have h1 : No (.tok .SCOL) (best (.star (.tok .SCOL)) q) (List.replicate (n + 1) (kw sp .SCOL)) := No.tok rfl ih
    rw [best_star (by proper), h1, List.replicate_succ, hs _ _ rfl]; rfl

theorem more_no (n : Nat) : No (.plus (.tok .SCOL) ⬝ .nt .sql_stmt) k (List.replicate n (kw sp .SCOL)) := by
  cases n with
  | zero => exact No.off (S := []) (Heads.nil _)
  | succ n =>
    refine No.seq (No.seq (No.tok rfl (scols_no n ?_ ?_)))
    · intro x r hx
      exact No.at hx
    · exact No.off (S := []) (Heads.nil _)

/-- The trees of the statements after the first. -/
def moreT (sp : Spelling) (ss : List StmtS) : List Tree := ss.flatMap (fun s => [.leaf (kw sp .SCOL), stmtT sp s])

theorem more_heads (ss : List StmtS) (n : Nat) :
    Heads stmtFollow (ss.flatMap (fun s => kw sp .SCOL :: s.toks sp) ++ List.replicate n (kw sp .SCOL)) := by
  cases ss with
  | nil =>
    cases n with
    | zero => exact Heads.nil _
    | succ n => exact Heads.kw
  | cons s ss => exact Heads.kw

theorem more_first (ss : List StmtS) (n : Nat) :
    First moreStmts (best (.star (.tok .SCOL)) afterList)
      (ss.flatMap (fun s => kw sp .SCOL :: s.toks sp) ++ List.replicate n (kw sp .SCOL)) (moreT sp ss)
      (List.replicate n (.leaf (kw sp .SCOL)), ([], ([], []))) := by
  induction ss with
  | nil => exact First.starNil (more_no n) (scols_first n afterList_nil)
  | cons s ss ih =>
    have e : (s :: ss).flatMap (fun s => kw sp .SCOL :: s.toks sp) ++ List.replicate n (kw sp .SCOL) =
        kw sp .SCOL :: (s.toks sp ++ (ss.flatMap (fun s => kw sp .SCOL :: s.toks sp) ++ List.replicate n (kw sp .SCOL))) := by
      simp
    rw [e]
    refine First.starCons (l := [.leaf (kw sp .SCOL), stmtT sp s]) (m := moreT sp ss) ?_
    refine First.seq (l := [.leaf (kw sp .SCOL)]) (m := [stmtT sp s]) ?_
    refine First.seq (l := [.leaf (kw sp .SCOL)]) (m := []) (First.tok rfl ?_)
    refine First.starOff (stmt_heads s _) ?_
    exact stmt_first s quiet_more (more_heads ss n) ih

/-- The tree of a query. -/
def queryT (sp : Spelling) (s : StmtS) (ss : List StmtS) (n : Nat) : Tree :=
  .node .parse [.node .sql_stmt_list (stmtT sp s :: (moreT sp ss ++ List.replicate n (.leaf (kw sp .SCOL))))]

theorem query_parse (s : StmtS) (ss : List StmtS) (n : Nat) :
    parseTree (queryToks sp s ss n) = some (queryT sp s ss n) := by
  refine first_parseTree (us := []) (First.nt ?_)
  refine First.seq (l := [.node .sql_stmt_list (stmtT sp s :: (moreT sp ss ++ List.replicate n (.leaf (kw sp .SCOL))))])
    (m := []) ?_
  refine First.starCons (l := [.node .sql_stmt_list (stmtT sp s :: (moreT sp ss ++ List.replicate n (.leaf (kw sp .SCOL))))])
    (m := []) (First.nt ?_)
  refine First.seq (l := []) (First.starOff (stmt_heads s _) ?_)
  refine First.seq (l := [stmtT sp s]) ?_
  exact stmt_first s quiet_tail (more_heads ss n) (First.seq (more_first ss n))

end Verif.Gram
