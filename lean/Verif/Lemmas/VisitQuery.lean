import Verif.Lemmas.VisitDdl
import Verif.Lemmas.LexText
/-! What the parser returns for the statements of Spec/Syntax.lean. -/
namespace Verif.Gram
open Verif Verif.Lex Verif.Spec Verif.Query Verif.Visit

variable {sp : Spelling}

/-! ### Statements and queries -/

/-- The object of a statement. -/
def stmtV (toUint : Str → Option Nat) (sp : Spelling) : StmtS → Statement
  | .select s => .select (selectV toUint sp s)
  | .insert i => .insert (insertV sp i)
  | .update u => .update (updateV sp u)
  | .delete d => .delete (deleteV sp d)
  | .ddl d => ddlV d

/-- No column of a table definition is named by a word that starts an index. -/
def _root_.Verif.Spec.StmtS.Plain : StmtS → Prop
  | .ddl d => DdlS.Plain d
  | _ => True

/-! ### Names in texts -/

theorem token_rule {inp : Str} {ts : List Token} (h : Tokenised rules inp ts) : ∀ t, t ∈ ts → ∃ rest, FirstRule rules t.kind t.text rest := by
  induction h with
  | nil => intro t h; cases h
  | cons t w rest ts hl _ ih =>
    intro x hx
    rcases List.mem_cons.mp hx with rfl | hx
    · exact ⟨rest, hl.2.1⟩
    · exact ih x hx

/-- The words the lexer reports as keywords are not names. -/
theorem name_ne {q : Str} {ts : List Token} (h : lex q = some ts) {n : Str} (hn : ident n ∈ ts) (w : Str)
    (hw : accept true (steps w rules) ≠ some .IDENTIFIER ∧ accept false (steps w rules) ≠ some .IDENTIFIER) : n ≠ w := by
  rintro rfl
  obtain ⟨rest, hr⟩ := token_rule ((lex_iff q ts).mp h) _ hn
  have h1 : FirstRule (steps n rules) .IDENTIFIER [] rest := by
    rw [firstRule_steps, List.append_nil]; exact hr
  rw [← accept_iff] at h1
  cases hb : rest.isEmpty with
  | true => rw [hb] at h1; exact hw.1 h1
  | false => rw [hb] at h1; exact hw.2 h1

theorem keyword_not_name : ∀ w, w ∈ [s%"PRIMARY", s%"KEY", s%"INDEX"] →
    accept true (steps w rules) ≠ some .IDENTIFIER ∧ accept false (steps w rules) ≠ some .IDENTIFIER := by decide +kernel

theorem mem_commas {t : Token} {l : List (List Token)} {x : List Token} (hx : x ∈ l) (ht : t ∈ x) : t ∈ commas sp l := by
  cases l with
  | nil => cases hx
  | cons y l =>
    rw [commas]
    rcases List.mem_cons.mp hx with rfl | hx
    · exact List.mem_append_left _ ht
    · exact List.mem_append_right _ (List.mem_flatMap.mpr ⟨x, hx, List.mem_cons_of_mem _ ht⟩)

/-- The statements of a text have no columns named by these words. -/
theorem plain_of_lex {q : Str} {ts : List Token} (h : lex q = some ts) (s : StmtS) (hs : ∀ t, t ∈ s.toks sp → t ∈ ts) : s.Plain := by
  cases s with
  | ddl d =>
    cases d with
    | createTable b t =>
      intro c hc
      have hm : ident c.name ∈ ts := by
        refine hs _ ?_
        have h1 : ident c.name ∈ t.toks sp := by
          rw [TableS.toks, parens]
          refine List.mem_cons_of_mem _ (List.mem_cons_of_mem _ (List.mem_append_left _ ?_))
          exact mem_commas (List.mem_append_left _ (List.mem_map_of_mem hc)) (by simp [ColS.toks])
        exact List.mem_cons_of_mem _ (List.mem_cons_of_mem _ (List.mem_append_right _ h1))
      exact ⟨name_ne h hm _ (keyword_not_name _ (by simp)), name_ne h hm _ (keyword_not_name _ (by simp)), name_ne h hm _ (keyword_not_name _ (by simp))⟩
    | _ => exact True.intro
  | _ => exact True.intro

/-! ### Queries -/

theorem statement_stmt (toUint : Str → Option Nat) (hg : sp.Good) (s : StmtS) (hs : s.Plain) :
    statement toUint (stmtT sp s) = .ok (some (stmtV toUint sp s)) := by
  cases s with
  | select s =>
    have : statement toUint (stmtT sp (.select s)) = (Visit.select toUint (selectT sp s)).bind (fun s => .ok (some s)) := rfl
    rw [this, select_visit toUint hg]; rfl
  | insert i =>
    have : statement toUint (stmtT sp (.insert i)) = (Visit.insert (insertT sp i)).bind (fun s => .ok (some s)) := rfl
    rw [this, insert_visit]; rfl
  | update u =>
    have : statement toUint (stmtT sp (.update u)) = (Visit.update (updateT sp u)).bind (fun s => .ok (some s)) := rfl
    rw [this, update_visit hg]; rfl
  | delete d =>
    have : statement toUint (stmtT sp (.delete d)) = (Visit.delete (deleteT sp d)).bind (fun s => .ok (some s)) := rfl
    rw [this, delete_visit]; rfl
  | ddl d => exact ddl_visit toUint hg d hs

/-- A loop over trees of things with a property. -/
theorem resAll_mem {α β γ : Type} {f : β → Res γ} {g : α → β} {h : α → γ} (l : List α) (hf : ∀ a, a ∈ l → f (g a) = .ok (h a)) :
    Res.all f (l.map g) = .ok (l.map h) := by
  induction l with
  | nil => rfl
  | cons a l ih => simp [Res.all, hf a (by simp), Res.bind, ih (fun x hx => hf x (by simp [hx]))]

theorem isNode_stmt (s : StmtS) : (stmtT sp s).IsNode .sql_stmt := by cases s <;> exact ⟨_, rfl⟩

theorem more_cons (s : StmtS) (ss : List StmtS) :
    moreT sp (s :: ss) = .leaf (kw sp .SCOL) :: stmtT sp s :: moreT sp ss := rfl

theorem unlab_more (ss : List StmtS) : unlab (moreT sp ss) = moreT sp ss := by
  induction ss with
  | nil => rfl
  | cons s ss ih =>
    obtain ⟨cs, hc⟩ := isNode_stmt (sp := sp) s
    rw [more_cons, hc]; simp [unlab, ih]

theorem unlab_scols (n : Nat) : unlab (List.replicate n (.leaf (kw sp .SCOL))) = List.replicate n (.leaf (kw sp .SCOL)) := by
  induction n with
  | zero => rfl
  | succ n ih => simp [List.replicate_succ, unlab, ih]

theorem rules_more (ss : List StmtS) : (moreT sp ss).filter (Tree.isRule .sql_stmt) = ss.map (stmtT sp) := by
  induction ss with
  | nil => rfl
  | cons s ss ih =>
    obtain ⟨cs, hc⟩ := isNode_stmt (sp := sp) s
    rw [more_cons, List.map_cons, hc]; simp [Tree.isRule, ih]

theorem query_visit (toUint : Str → Option Nat) (hg : sp.Good) (s : StmtS) (ss : List StmtS) (n : Nat)
    (hp : ∀ x, x ∈ s :: ss → x.Plain) :
    statements toUint (queryT sp s ss n) = .ok ((s :: ss).map (stmtV toUint sp)) := by
  have h1 : (queryT sp s ss n).all .sql_stmt_list =
      [.node .sql_stmt_list (stmtT sp s :: (moreT sp ss ++ List.replicate n (.leaf (kw sp .SCOL))))] := rfl
  have hu := unlab_more (sp := sp) ss
  have hr := unlab_scols (sp := sp) n
  have hf := rules_more (sp := sp) ss
  have h2 : (Tree.node .sql_stmt_list (stmtT sp s :: (moreT sp ss ++ List.replicate n (.leaf (kw sp .SCOL))))).all .sql_stmt =
      (s :: ss).map (stmtT sp) := by
    obtain ⟨cs, hc⟩ := isNode_stmt (sp := sp) s
    rw [Tree.all, Tree.kids, List.map_cons, hc]
    simp only [unlab, unlab_append, hu, hr, List.filter_cons, List.filter_append, hf]
    simp [Tree.isRule]
  rw [statements, h1]
  simp only [List.flatMap_cons, List.flatMap_nil, List.append_nil, h2, resAll_mem _ (fun x hx => statement_stmt toUint hg x (hp x hx)), Res.bind]
  rw [List.filterMap_map]
  simp [Function.comp_def]

/-- **Parsing**: a text whose tokens are those of statements is accepted, and the statements' objects are returned. -/
theorem parse_text (toUint : Str → Option Nat) (hg : sp.Good) {q : Str} {ts : List Token} (hl : lex q = some ts)
    (s : StmtS) (ss : List StmtS) (n : Nat) (hv : visible ts = queryToks sp s ss n) :
    Parse.parseQuery toUint q = .ok ((s :: ss).map (stmtV toUint sp)) := by
  have ht : Parse.treeOf q = some (queryT sp s ss n) := by
    rw [Parse.treeOf, hl, Option.bind_some, hv, query_parse]
  have he : Parse.isEmptyQuery q = false := by
    cases h : Parse.isEmptyQuery q with
    | false => rfl
    | true =>
      exfalso
      rw [Parse.isEmptyQuery, Bool.or_eq_true] at h
      have hne : ∃ x r, visible ts = x :: r ∧ x.kind ≠ .SCOL := by
        rw [hv, queryToks]
        have hh := stmt_heads (sp := sp) s (ss.flatMap (fun s => kw sp .SCOL :: s.toks sp) ++ List.replicate n (kw sp .SCOL))
        have hn : s.toks sp ++ (ss.flatMap (fun s => kw sp .SCOL :: s.toks sp) ++ List.replicate n (kw sp .SCOL)) ≠ [] := by
          have : s.toks sp ≠ [] := by
            cases s with
            | ddl d =>
              cases d with
              | vacuum t => cases t <;> exact List.cons_ne_nil _ _
              | _ => exact List.cons_ne_nil _ _
            | _ => exact List.cons_ne_nil _ _
          simp [this]
        obtain ⟨x, r, e⟩ := List.exists_cons_of_ne_nil hn
        refine ⟨x, r, e, fun hx => ?_⟩
        have := hh x r e
        rw [hx] at this
        exact absurd this (by decide)
      obtain ⟨x, r, hne, hx⟩ := hne
      rcases h with h | h
      · have : q = [] := by simpa using h
        subst this
        have hl' : lex [] = some [] := by rfl
        rw [hl'] at hl
        cases hl
        exact absurd hne (by simp [visible])
      · have : q = s%";" := by simpa using h
        subst this
        have hl' : lex s%";" = some [⟨.SCOL, s%";"⟩] := by decide +kernel
        rw [hl'] at hl
        cases hl
        have : visible [⟨.SCOL, s%";"⟩] = [⟨.SCOL, s%";"⟩] := rfl
        rw [this] at hne
        cases hne
        exact hx rfl
  rw [Parse.parseQuery, Parse.Parser.parseString, he]
  simp only [Bool.false_eq_true, if_false, ht, Parse.newParser]
  refine query_visit toUint hg s ss n (fun x hx => plain_of_lex (sp := sp) hl x (fun t htx => ?_))
  have hm : t ∈ visible ts := by
    rw [hv, queryToks]
    rcases List.mem_cons.mp hx with rfl | hx
    · exact List.mem_append_left _ htx
    · exact List.mem_append_right _ (List.mem_append_left _ (List.mem_flatMap.mpr ⟨x, hx, List.mem_cons_of_mem _ htx⟩))
  exact (List.mem_filter.mp hm).1

end Verif.Gram
