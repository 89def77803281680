import Verif.Lemmas.LongText
/-! C180: conditions that can be written but not read, and what that makes of the queries the code writes itself. -/
namespace Verif.Props
open Verif Verif.Lex Verif.Gram Verif.Parse Verif.Spec Verif.Query Verif.Sys

/-- C180: whatever DELETE, UPDATE or SELECT statement is printed before WHERE, and whatever text follows, a condition that
starts with a comparison of two columns, of a qualified column, of a literal with something, with a second comparison of
one of these kinds or with IN, with two comparisons and a word joining them with a third, or with AND, is a syntax error. -/
theorem C180_never (toUint : Str → Option Nat) (p b x : Str) (n : Nat) (hp : BeforeWhere p) (hb : NoCondition b)
    (hx : x = [] ∨ ∃ y, x = ' ' :: y) :
    parseQuery toUint (p ++ s%" WHERE " ++ List.replicate n ' ' ++ b ++ x) = .err := by
  refine never toUint n hp hb ?_
  rcases hx with rfl | ⟨y, rfl⟩ <;> rfl

/-- C180: a printed DELETE statement with a condition made of comparisons of columns with literals is read back if there
are at most two comparisons, and is a syntax error otherwise, however they are joined. -/
theorem C180_delete (toUint : Str → Option Nat) (d : Delete) (e : Expr) (hc : d.cond = some e)
    (h : PrintableDelete { d with cond := none }) (he : PrintableTree e) :
    parseQuery toUint d.toStr = if comparisons e ≤ 2 then .ok [.delete (deleteAsText d)] else .err := by
  split
  · next hn =>
    refine C10_delete_partial toUint d ⟨h.table, ?_⟩
    intro e' he'
    rw [hc] at he'
    injection he' with he'
    subst he'
    exact tree_short he hn
  · next hn =>
    obtain ⟨b, x, hbx, hb⟩ := tree_long he (by omega)
    rw [delete_text d e hc, hbx, ← List.append_assoc]
    simpa using C180_never toUint _ b (' ' :: x) 0 (.delete h rfl) hb (Or.inr ⟨x, rfl⟩)

/-- C180: a printed UPDATE statement with a condition made of comparisons of columns with literals is read back if there
are at most two comparisons, and is a syntax error otherwise, however they are joined. -/
theorem C180_update (toUint : Str → Option Nat) (u : Update) (e : Expr) (hc : u.cond = some e)
    (h : PrintableUpdate { u with cond := none }) (he : PrintableTree e) :
    parseQuery toUint u.toStr = if comparisons e ≤ 2 then .ok [.update (updateAsText u)] else .err := by
  split
  · next hn =>
    refine C10_update_partial toUint u ⟨h.table, h.assigned, h.columns, ?_⟩
    intro e' he'
    rw [hc] at he'
    injection he' with he'
    subst he'
    exact tree_short he hn
  · next hn =>
    obtain ⟨b, x, hbx, hb⟩ := tree_long he (by omega)
    rw [update_text u e hc, hbx, ← List.append_assoc]
    simpa using C180_never toUint _ b (' ' :: x) 0 (.update h rfl) hb (Or.inr ⟨x, rfl⟩)

/-- C180: a printed SELECT statement with a condition made of comparisons of columns with literals is read back if there
are at most two comparisons, and is a syntax error otherwise, however they are joined and whatever clauses follow. -/
theorem C180_select (toUint : Str → Option Nat) (hu : ReadsNumbers toUint) (s : Select) (e : Expr) (hc : s.cond = some e)
    (h : PrintableSelect { s with cond := none }) (he : PrintableTree e) :
    parseQuery toUint s.toStr = if comparisons e ≤ 2 then .ok [.select (selectAsText s)] else .err := by
  split
  · next hn =>
    refine C08_roundtrip_partial toUint hu s ⟨h.selected, h.selectors, h.some_table, h.tables, ?_, h.orders, h.limit, h.offset, h.group⟩
    intro e' he'
    rw [hc] at he'
    injection he' with he'
    subst he'
    exact tree_short he hn
  · next hn =>
    obtain ⟨b, x, hbx, hb⟩ := tree_long he (by omega)
    obtain ⟨y, hy, ht⟩ := select_text s e hc
    rw [ht, hbx]
    have := C180_never toUint _ b (' ' :: (x ++ y)) 0
      (.select (s := { selectors := s.selectors, tables := s.tables, cond := none })
        ⟨h.selected, h.selectors, h.some_table, h.tables, (by intro e he; cases he), (by intro o ho; cases ho), (by simp), (by simp), Or.inl rfl⟩
        rfl rfl rfl rfl) hb (Or.inr ⟨_, rfl⟩)
    simpa using this

/-! ### Texts and statements that meet the hypotheses -/

/-- `a = 1`, for any plain column. -/
theorem cmpOne_printable {n : Str} (h : Name n) : PrintableCmp ⟨.eq, { name := n }, some { v := .i64 1 }⟩ :=
  ⟨rfl, (.inl h), by simp, _, rfl, printable_i64 1⟩

theorem NoCondition.of_eq {a b : Str} (h : NoCondition a) (e : a = b) : NoCondition b := e ▸ h

example : BeforeWhere s%"DELETE FROM t" ∧ NoCondition s%"a = b" ∧ NoCondition s%"t.a =" ∧ NoCondition s%"1 <" ∧
    NoCondition s%"a = 1 AND b = c" ∧ NoCondition s%"a = 1 OR b IN" ∧ NoCondition s%"a = 1 AND b = 1 OR" ∧ NoCondition s%"AND a" := by
  have ha : Name s%"a" := name_of (by decide +kernel)
  have hb : Name s%"b" := name_of (by decide +kernel)
  have hc : Name s%"c" := name_of (by decide +kernel)
  have ht : Name s%"t" := name_of (by decide +kernel)
  have hn : NumberText s%"1" := (by decide +kernel : Str.ofNat 1 = s%"1") ▸ Writing.ofNat_number 1
  exact ⟨.delete (d := { table := { name := s%"t" }, cond := none }) ⟨⟨_, (.inl ht), rfl⟩, by intro e he; cases he⟩ rfl,
    .first (.columns (o := .eq) (.inl ha) (by decide) (.inl hb)), .first (.qualified (o := .eq) (.inl ht) (.inl ha) (by decide)), .first (.number (o := .lt) hn (by decide)),
    NoCondition.of_eq (.second (cmpOne_printable ha) .and (.columns (o := .eq) (.inl hb) (by decide) (.inl hc))) (by decide +kernel),
    NoCondition.of_eq (.secondIn (cmpOne_printable ha) .or (.inl hb)) (by decide +kernel),
    NoCondition.of_eq (.third (cmpOne_printable ha) .and (cmpOne_printable hb) .or) (by decide +kernel), .join (.inl ha)⟩

/-- Three comparisons. -/
def threeCond : Expr := .and (.cmp ⟨.eq, { name := s%"a" }, some { v := .i64 1 }⟩)
  (.or (.cmp ⟨.eq, { name := s%"b" }, some { v := .i64 1 }⟩) (.cmp ⟨.eq, { name := s%"c" }, some { v := .i64 1 }⟩))

/-- A DELETE with a condition of three comparisons. -/
def deleteThree : Delete := { table := { name := s%"t" }, cond := some threeCond }

example : PrintableDelete { deleteThree with cond := none } ∧ PrintableTree threeCond ∧ comparisons threeCond = 3 ∧
    deleteThree.toStr = s%"DELETE FROM t WHERE a = 1 AND b = 1 OR c = 1" ∧ ¬ comparisons threeCond ≤ 2 :=
  ⟨⟨⟨_, any_of (by decide +kernel), rfl⟩, by intro e he; cases he⟩,
    .and (.cmp (cmpOne_printable (name_of (by decide +kernel)))) (.or (.cmp (cmpOne_printable (name_of (by decide +kernel))))
      (.cmp (cmpOne_printable (name_of (by decide +kernel))))), rfl, by decide +kernel, by decide⟩

/-- An UPDATE with a condition of three comparisons. -/
def updateThree : Update := { table := { name := s%"t" }, columns := [{ name := s%"a", lit := some { v := .i64 1 } }], cond := some threeCond }
/-- A SELECT with a condition of three comparisons, and an ORDER BY after it. -/
def selectThree : Select :=
  { selectors := [.col { name := s%"a" }], tables := [{ name := s%"t" }], cond := some threeCond, orderBy := [⟨s%"a", .asc⟩] }

example : PrintableUpdate { updateThree with cond := none } ∧ updateThree.toStr = s%"UPDATE t SET a = 1 WHERE a = 1 AND b = 1 OR c = 1" ∧
    PrintableSelect { selectThree with cond := none } ∧ selectThree.toStr = s%"SELECT a FROM t WHERE a = 1 AND b = 1 OR c = 1 ORDER BY a ASC" := by
  have ha : Name s%"a" := name_of (by decide +kernel)
  have ht : Name s%"t" := name_of (by decide +kernel)
  refine ⟨⟨⟨_, (.inl ht), rfl⟩, by simp [updateThree], ?_, by intro e he; cases he⟩, by decide +kernel, ?_, by decide +kernel⟩
  · intro c hc
    simp only [updateThree, List.mem_singleton] at hc
    subst hc
    exact .lit ⟨rfl, (.inl ha), _, rfl, printable_i64 1⟩
  · refine ⟨by simp [selectThree], ?_, by simp [selectThree], ?_, (by intro e he; cases he), ?_, by simp [selectThree], by simp [selectThree], Or.inl rfl⟩
    · intro x hx
      simp only [selectThree, List.mem_singleton] at hx
      subst hx
      exact .column (Or.inl (.inl ha))
    · intro x hx
      simp only [selectThree, List.mem_singleton] at hx
      subst hx
      exact .bare (.inl ht)
    · intro x hx
      simp only [selectThree, List.mem_singleton] at hx
      subst hx
      exact ⟨(.inl ha), by decide⟩

/-! ### The queries of the information schema -/

theorem before_info : BeforeWhere schemaColumnsQuery := by
  have h : (infoSelect none).toStr = schemaColumnsQuery := by decide +kernel
  rw [← h]
  exact .select (printable_info (by intro e he; cases he)) rfl rfl rfl rfl

theorem eqStr_text (n v : Str) : Cmp.toStr ⟨.eq, { name := n }, some { v := .str v, t := .string }⟩ = n ++ s%" = '" ++ v ++ s%"'" := by
  simp [Cmp.toStr, Column.toStr, CmpOp.toStr, Literal.valueString, Val.print, Util.escapeString]

theorem name_kTable : Name kTable := name_of (by decide +kernel)
theorem name_kSchema : Name kSchema := name_of (by decide +kernel)

/-- C65 for names without quote characters: several tables never make a statement. -/
theorem C65_several_fails (toUint : Str → Option Nat) (db : Str) (tbls : List Str) (hdb : db ≠ []) (hq : Quotable db)
    (hl : 2 ≤ tbls.length) : newStatement (parseQuery toUint) none db tbls = .err := by
  match tbls, hl with
  | t :: u :: ts, _ =>
    have hb := NoCondition.secondIn (printable_eqStr name_kSchema hq) .and (.inl name_kTable)
    have := C180_never toUint _ _ (s%" (" ++ Str.join s%"," ((t :: u :: ts).map (fun t => s%"'" ++ t ++ s%"'")) ++ s%")") 0 before_info hb
      (Or.inr ⟨_, rfl⟩)
    have e : generatedQuery db (t :: u :: ts) = schemaColumnsQuery ++ s%" WHERE " ++ (kSchema ++ s%" = '" ++ db ++ s%"'") ++
        (s%" AND " ++ kTable ++ s%" IN (" ++ Str.join s%"," ((t :: u :: ts).map (fun t => s%"'" ++ t ++ s%"'")) ++ s%")") := by
      unfold generatedQuery
      rw [if_pos (List.length_pos_iff.mpr hdb)]
    rw [newStatement, e]
    rw [eqStr_text] at this
    simp only [List.replicate_zero, List.append_nil, List.append_assoc, List.cons_append, List.nil_append] at this ⊢
    rw [this]
    rfl

/-- C65: a table without a database never makes a statement, whatever the names of the tables are. -/
theorem C65_without_database_fails (toUint : Str → Option Nat) (tbls : List Str) (ht : tbls ≠ []) :
    newStatement (parseQuery toUint) none [] tbls = .err := by
  have hb := NoCondition.join (.inl name_kTable)
  have key : ∀ x, parseQuery toUint (schemaColumnsQuery ++ s%" WHERE " ++ (s%" AND " ++ (kTable ++ ' ' :: x))) = .err := by
    intro x
    have := C180_never toUint _ _ (' ' :: x) 1 before_info hb (Or.inr ⟨_, rfl⟩)
    simpa using this
  have fin : ∀ q, parseQuery toUint q = .err → onlySelect (parseQuery toUint q) = .err := by
    intro q hq
    rw [hq]
    rfl
  match tbls, ht with
  | [t], _ =>
    have := key (s%"= '" ++ (t ++ s%"'"))
    have e : generatedQuery [] [t] = schemaColumnsQuery ++ s%" WHERE " ++ (s%" AND " ++ (kTable ++ ' ' :: (s%"= '" ++ (t ++ s%"'")))) := by
      simp [generatedQuery]
    rw [newStatement, e, fin _ this]
  | t :: u :: ts, _ =>
    have := key (s%"IN (" ++ (Str.join s%"," ((t :: u :: ts).map (fun t => s%"'" ++ t ++ s%"'")) ++ s%")"))
    have e : generatedQuery [] (t :: u :: ts) = schemaColumnsQuery ++ s%" WHERE " ++ (s%" AND " ++ (kTable ++ ' ' ::
        (s%"IN (" ++ (Str.join s%"," ((t :: u :: ts).map (fun t => s%"'" ++ t ++ s%"'")) ++ s%")")))) := by
      simp [generatedQuery]
    rw [newStatement, e, fin _ this]

/-- C65 for names without quote characters: a statement is made exactly for a database with at most one table, and for
nothing at all. -/
theorem C65_made_iff (toUint : Str → Option Nat) (hu : ReadsNumbers toUint) (db : Str) (tbls : List Str) (hq : db = [] ∨ Quotable db)
    (ht : ∀ t ∈ tbls, Quotable t) (hn : db ≠ [] ∨ tbls ≠ []) :
    (∃ s, newStatement (parseQuery toUint) none db tbls = .ok s) ↔ db ≠ [] ∧ tbls.length ≤ 1 := by
  constructor
  · rintro ⟨s, hs⟩
    by_cases hdb : db = []
    · subst hdb
      rw [C65_without_database_fails toUint tbls (hn.resolve_left (by simp))] at hs
      cases hs
    · refine ⟨hdb, ?_⟩
      by_cases hl : tbls.length ≤ 1
      · exact hl
      · rw [C65_several_fails toUint db tbls hdb (hq.resolve_left hdb) (by omega)] at hs
        cases hs
  · rintro ⟨hdb, hl⟩
    obtain ⟨s, hs, -⟩ := C65_generated_partial toUint hu db tbls hdb (hq.resolve_left hdb) ht hl
    exact ⟨_, hs⟩

example : s%"shop" ≠ [] ∧ Quotable s%"shop" ∧ 2 ≤ [s%"t", s%"u"].length ∧ ∀ t ∈ [s%"t", s%"u"], Quotable t := by
  refine ⟨by decide, printable_str (by decide) (by decide), by decide, ?_⟩
  intro t ht
  rcases List.mem_cons.mp ht with rfl | ht
  · exact printable_str (by decide) (by decide)
  · rw [List.mem_singleton] at ht
    subst ht
    exact printable_str (by decide) (by decide)

/-- C89 for names without quote characters: the query is made for at most two tables, and never for more. -/
theorem C89_exact_partial (toUint : Str → Option Nat) (hu : ReadsNumbers toUint) (tbls : List Str) (ht : ∀ t ∈ tbls, Quotable t) :
    queryFromTableNames (parseQuery toUint) tbls = if tbls.length ≤ 2 then .ok (infoSelect (namesCond tbls)) else .err := by
  split
  · next hl => exact C89_table_names_partial toUint hu tbls ht hl
  · next hl =>
    match tbls, hl, ht with
    | [], h, _ => exact absurd (by decide) h
    | [t], h, _ => exact absurd (by simp) h
    | [t, u], h, _ => exact absurd (by simp) h
    | t :: u :: v :: ts, _, ht =>
      have hb := NoCondition.third (printable_eqStr name_kTable (ht t (by simp))) .or (printable_eqStr name_kTable (ht u (by simp))) .or
      have := C180_never toUint _ _ (' ' :: Str.join s%" OR " ((v :: ts).map (fun t => s%"TABLE_NAME = '" ++ t ++ s%"'"))) 0 before_info hb
        (Or.inr ⟨_, rfl⟩)
      have e : tableNamesQuery (t :: u :: v :: ts) = schemaColumnsQuery ++ s%" WHERE " ++
          ((s%"TABLE_NAME = '" ++ t ++ s%"'") ++ (s%" OR " ++ ((s%"TABLE_NAME = '" ++ u ++ s%"'") ++ (s%" OR " ++
          Str.join s%" OR " ((v :: ts).map (fun t => s%"TABLE_NAME = '" ++ t ++ s%"'")))))) := by
        simp [tableNamesQuery, Str.join]
      rw [eqStr_text, eqStr_text] at this
      rw [queryFromTableNames, e]
      have k : kTable = s%"TABLE_NAME" := rfl
      simp only [k, List.replicate_zero, List.append_nil, List.append_assoc, List.cons_append, List.nil_append] at this ⊢
      rw [this]
      rfl

end Verif.Props
