import Verif.Lemmas.LongText
import Verif.Lemmas.IgnoredDdl
import Verif.Lemmas.WritingDdl
import Verif.Spec.DdlSchemas
/-! Tables with schemas in DROP TABLE, TRUNCATE, VACUUM and CREATE INDEX. -/
namespace Verif.Gram
open Verif Verif.Lex Verif.Spec Verif.Visit Verif.Query Verif.Parse

variable {β : Type} {k : List Token → Option β} {v : β} {sp : Spelling} {rest : List Token}

/-! ### Lists of tables with a dot in them -/

theorem tables_no (ns : List Str) {us : List Token} (hd : Heads [.DOT] us) (hc : Rejects k .COMMA) (hk : k us = none) :
    No (.star ((.tok .COMMA) ⬝ (.nt .table_name))) k (tailToks sp (fun c => [ident c]) ns ++ us) :=
  list_no (R := []) (Fol := fun _ => True) (by simp) (fun _ => trivial)
    (fun _ x us _ _ hq => No.seq (No.tok rfl (No.exact (table_runs x) hq))) ns (by simp) hc trivial (comma_off hd.noComma) hk

theorem truncate_no (n : Str) (ns : List Str) (r : List Token) (hq : Quiet k) :
    No (.nt .sql_stmt) k (kw sp .TRUNCATE_ :: kw sp .TABLE_ :: ident n :: (tailToks sp (fun c => [ident c]) ns ++ kw sp .DOT :: r)) := by
  refine No.nt (No.seq (No.optOff (S := [.TRUNCATE_]) Heads.kw ?_))
  iterate 32 refine No.alt (No.at (t := .TRUNCATE_) rfl) ?_
  refine No.nt (No.seq (No.tok rfl (No.seq (No.opt (No.tok rfl ?_) ?_))))
  · exact No.seq (No.exact (table_runs n) (tables_no ns Heads.kw (by quiet hq) (hq .DOT (by krfl) _ _ rfl)))
  · refine No.seq (No.exact (l := [.node .table_name [.node .any_name [.node .keyword [.leaf (kw sp .TABLE_)]]]])
      (us := ident n :: (tailToks sp (fun c => [ident c]) ns ++ kw sp .DOT :: r)) (by krfl) ?_)
    exact No.starOff (S := [.IDENTIFIER]) Heads.ident (hq .IDENTIFIER (by krfl) _ _ rfl)

theorem drop_no (b : Bool) (s : Option Str) (n : Str) (ns : List Str) (hn : s = none → ns ≠ []) (r : List Token) (hq : Quiet k) :
    No (.nt .sql_stmt) k (kw sp .DROP_ :: kw sp .TABLE_ :: (ieToks sp b ++ (dotToks sp s ++ ident n :: (tailToks sp (fun c => [ident c]) ns ++ kw sp .DOT :: r)))) := by
  have hcas : Rejects (best (.opt (.tok .CASCADE_)) k) .DOT := by quiet hq
  have hlist : ∀ (m : Str) (ms : List Str) {us : List Token}, Heads [.DOT] us → us ≠ [] →
      No ((.nt .table_name) ⬝ (.star ((.tok .COMMA) ⬝ (.nt .table_name)))) (best (.opt (.tok .CASCADE_)) k) (ident m :: (tailToks sp (fun c => [ident c]) ms ++ us)) := by
    intro m ms us hd hne
    refine No.seq (No.exact (table_runs m) (tables_no ms hd (by quiet hq) ?_))
    cases us with
    | nil => exact absurd rfl hne
    | cons x r => exact hcas _ _ (by simpa using hd x r rfl)
  have hrest : No (.opt ((.nt .schema_name) ⬝ (.tok .DOT))) (best (((.nt .table_name) ⬝ (.star ((.tok .COMMA) ⬝ (.nt .table_name)))) ⬝ (.opt (.tok .CASCADE_))) k)
      (dotToks sp s ++ ident n :: (tailToks sp (fun c => [ident c]) ns ++ kw sp .DOT :: r)) := by
    have h2 : best (((.nt .table_name) ⬝ (.star ((.tok .COMMA) ⬝ (.nt .table_name)))) ⬝ (.opt (.tok .CASCADE_))) k
        (ident n :: (tailToks sp (fun c => [ident c]) ns ++ kw sp .DOT :: r)) = none := No.seq (hlist n ns Heads.kw (by simp))
    cases s with
    | none =>
      obtain ⟨m, ms, rfl⟩ : ∃ m ms, ns = m :: ms := by
        cases ns with
        | nil => exact absurd rfl (hn rfl)
        | cons m ms => exact ⟨m, ms, rfl⟩
      exact No.opt (schema_no n (S := [.COMMA]) Heads.kw (by krfl)) h2
    | some s =>
      refine No.opt (No.seq (No.exact (l := [nameT .schema_name s]) (us := kw sp .DOT :: ident n :: (tailToks sp (fun c => [ident c]) ns ++ kw sp .DOT :: r)) (by krfl)
        (No.tok rfl h2))) ?_
      exact No.seq (hlist s [] (us := kw sp .DOT :: ident n :: (tailToks sp (fun c => [ident c]) ns ++ kw sp .DOT :: r)) Heads.kw (by simp))
  refine No.nt (No.seq (No.optOff (S := [.DROP_]) Heads.kw ?_))
  iterate 15 refine No.alt (No.at (t := .DROP_) rfl) ?_
  iterate 2 refine No.alt No.empty ?_
  refine No.alt ?_ (No.alt No.empty (No.alt No.empty (No.at (t := .DROP_) rfl)))
  refine No.nt (No.seq (No.tok rfl (No.seq (No.tok rfl (No.seq ?_)))))
  cases b with
  | false => exact No.optOff (dot_heads s n _) (No.seq hrest)
  | true =>
    refine No.opt (No.exact (l := [.node .if_exists [.leaf (kw sp .IF_), .leaf (kw sp .EXISTS_)]])
      (us := dotToks sp s ++ ident n :: (tailToks sp (fun c => [ident c]) ns ++ kw sp .DOT :: r)) (by krfl) (No.seq hrest)) ?_
    refine No.seq (No.opt ?_ ?_)
    · exact No.seq (No.exact (l := [.node .schema_name [.node .any_name [.node .keyword [.leaf (kw sp .IF_)]]]])
        (us := kw sp .EXISTS_ :: (dotToks sp s ++ ident n :: (tailToks sp (fun c => [ident c]) ns ++ kw sp .DOT :: r))) (by krfl) (No.at (t := .EXISTS_) rfl))
    · refine No.seq (No.seq (No.exact (l := [.node .table_name [.node .any_name [.node .keyword [.leaf (kw sp .IF_)]]]])
        (us := kw sp .EXISTS_ :: (dotToks sp s ++ ident n :: (tailToks sp (fun c => [ident c]) ns ++ kw sp .DOT :: r))) (by krfl) ?_))
      have : Rejects (best (.opt (.tok .CASCADE_)) k) .EXISTS_ := by quiet hq
      exact No.starOff (S := [.EXISTS_]) Heads.kw (this _ _ rfl)

theorem index_no (b : Bool) (i s : Str) (r : List Token) :
    No (.nt .sql_stmt) k (kw sp .CREATE_ :: kw sp .INDEX_ :: (ineToks sp b ++ ident i :: kw sp .ON_ :: ident s :: kw sp .DOT :: r)) := by
  cases b <;> exact No.empty

theorem vacuum_no (s t : Str) : parseTree [kw sp .VACUUM_, ident s, kw sp .DOT, ident t] = none := by krfl

/-! ### Texts -/

/-- The table as it is written. -/
def tabOf (t : Table) : TabS := ⟨if t.schema = [] then none else some t.schema, t.name⟩

theorem tabOf_writing {t : Table} (h : PlainTable t) : Writing t.fullTableName ((tabOf t).toks .std) := by
  obtain ⟨s, n⟩ := t
  obtain ⟨hn, hs⟩ := h
  by_cases he : s = []
  · subst he
    rw [Writing.fullTableName_bare hn]
    simpa [tabOf, TabS.toks] using Writing.name hn
  · have hs : Name s := hs.resolve_left he
    have h1 : (⟨s, n⟩ : Table).fullTableName = s ++ '.' :: n := by
      have h2 : 0 < n.length := List.length_pos_iff.mpr (Writing.name_ne hn)
      have h3 : 0 < s.length := List.length_pos_iff.mpr he
      simp [Table.fullTableName, h2, h3, Writing.name_no_dot hn, Str.join]
    rw [h1]
    simpa [tabOf, TabS.toks, he] using Writing.dotted (.inl hs) (.inl hn)

theorem tabsOf_writing {ts : List Table} (h : ∀ t ∈ ts, PlainTable t) :
    Writing (tablesString ts) (Spec.commas .std (ts.map (fun t => (tabOf t).toks .std))) := by
  have := Writing.commas ts Table.fullTableName (fun t => (tabOf t).toks .std) (fun t ht => tabOf_writing (h t ht))
  simpa [tablesString] using this

/-- Tables in a list either have no schemas, or names up to the first dot. -/
theorem tails_cases (ts : List Table) :
    (∀ t ∈ ts, t.schema = []) ∧ tailToks .std (fun t => (tabOf t).toks .std) ts = tailToks .std (fun c => [ident c]) (ts.map Table.name) ∨
    (¬ ∀ t ∈ ts, t.schema = []) ∧ ∃ n ns r, tailToks .std (fun t => (tabOf t).toks .std) ts = tailToks .std (fun c => [ident c]) (n :: ns) ++ kw .std .DOT :: r := by
  induction ts with
  | nil => exact .inl ⟨by simp, rfl⟩
  | cons t ts ih =>
    obtain ⟨s, n⟩ := t
    by_cases he : s = []
    · subst he
      have e : tailToks .std (fun t => (tabOf t).toks .std) (⟨[], n⟩ :: ts) = kw .std .COMMA :: ident n :: tailToks .std (fun t => (tabOf t).toks .std) ts := by
        simp [tailToks, tabOf, TabS.toks]
      rcases ih with ⟨h1, h2⟩ | ⟨h1, m, ms, r, h2⟩
      · exact .inl ⟨by simpa using h1, by rw [e, h2]; simp [tailToks]⟩
      · exact .inr ⟨by simpa using h1, n, m :: ms, r, by rw [e, h2]; simp [tailToks]⟩
    · exact .inr ⟨by simp [he], s, [], ident n :: tailToks .std (fun t => (tabOf t).toks .std) ts, by simp [tailToks, tabOf, TabS.toks, he]⟩

theorem unEscape_names {ts : List Table} (h : ∀ t ∈ ts, PlainTable t) :
    (ts.map Table.name).map (fun n => ({ name := Util.unEscapeNameString n } : Table)) = ts.map bareTable := by
  rw [List.map_map]
  exact List.map_congr_left (fun t ht => by rw [Function.comp_apply, Writing.unEscape_name (h t ht).1]; rfl)

theorem bare_map {ts : List Table} (h : ∀ t ∈ ts, t.schema = []) : ts.map bareTable = ts := by
  rw [List.map_congr_left (g := id), List.map_id]
  intro t ht
  obtain ⟨s, n⟩ := t
  have : s = [] := h _ ht
  subst this; rfl

end Verif.Gram
