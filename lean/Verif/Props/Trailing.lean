import Verif.Lemmas.MoreNo
import Verif.Props.SetRefused
import Verif.Props.Ddl
/-! C188: words after a complete statement. -/
namespace Verif.Spec
open Verif Verif.Lex Verif.Gram Verif.Query

/-- The tokens that begin a statement, and the semicolon. -/
def starters : List Tok :=
  [.SCOL, .ALTER_, .ANALYZE_, .ATTACH_, .BEGIN_, .COMMIT_, .COPY_, .CREATE_, .DELETE_, .DETACH_, .DROP_, .END_, .EXPLAIN_, .INSERT_,
   .PRAGMA_, .REINDEX_, .RELEASE_, .REPLACE_, .ROLLBACK_, .SAVEPOINT_, .SELECT_, .TRUNCATE_, .UPDATE_, .VACUUM_, .VALUES_, .WITH_, .USE_]

/-- The tokens that lengthen a statement which is complete without them. -/
def goesOn : Statement → List Tok
  | .createIndex _ _ => [.WHERE_]
  | .createTable _ _ => [.WITHOUT_, .ENGINE_]
  | .dropTable _ _ => [.DOT, .COMMA, .CASCADE_]
  | .dropIndex _ _ _ => [.DOT]
  | .truncate _ => [.COMMA]
  | .vacuum (some _) => [.INTO_]
  | .begin => [.DEFERRED_, .IMMEDIATE_, .EXCLUSIVE_, .TRANSACTION_]
  | .commit => [.TRANSACTION_]
  | .rollback => [.TRANSACTION_, .TO_]
  | _ => []

end Verif.Spec

namespace Verif.Props
open Verif Verif.Lex Verif.Gram Verif.Spec Verif.Query Verif.Parse Verif.Visit

theorem starters_iff (t : Tok) : stmtStart t = true ↔ t ∈ starters := by cases t <;> decide +kernel

theorem ddl_more (d : DdlS) (h1 : ∀ b t, d ≠ .createTable b t) (h2 : ∀ t a, d ≠ .alterTable t a) (h3 : d ≠ .vacuum none)
    {β : Type} {k : List Token → Option β} (hq : Quiet k) {x : Token} {r : List Token} (hs : x.kind ∉ starters) (hg : x.kind ∉ goesOn (ddlV d)) :
    No (.nt .sql_stmt) k (d.toks sp ++ x :: r) := by
  have hk : k (x :: r) = none := hq x.kind (by rw [← starters_iff] at hs; simpa using hs) _ _ rfl
  cases d with
  | createTable b t => exact absurd rfl (h1 b t)
  | alterTable t a => exact absurd rfl (h2 t a)
  | createDatabase b n =>
    rw [DdlS.toks]
    simpa using create_database_more b n hq hk
  | dropDatabase b n =>
    rw [DdlS.toks]
    simpa using drop_database_more b n hq hk
  | createIndex b n t c cs =>
    simp [ddlV, goesOn] at hg
    have := create_index_more (sp := sp) b n t c cs hq hg hk
    rw [DdlS.toks]
    simpa [names_toks] using this
  | dropTable b t ts =>
    simp [ddlV, goesOn] at hg
    have := drop_table_more (sp := sp) b t ts hq hg.1 hg.2.1 hg.2.2 hk
    rw [DdlS.toks, commas_map]
    simpa using this
  | dropIndex b i =>
    simp [ddlV, goesOn] at hg
    have := drop_index_more (sp := sp) b i hq hg hk
    rw [DdlS.toks]
    simpa using this
  | alterDatabase n m => exact alter_database_more n m hk
  | use n => exact use_more n hk
  | copy t cs s f =>
    have := copy_more (sp := sp) t cs s f hq hk
    rw [DdlS.toks]
    simpa using this
  | truncate t ts =>
    simp [ddlV, goesOn] at hg
    have := truncate_more (sp := sp) t ts hq hg hk
    rw [DdlS.toks, commas_map]
    simpa using this
  | vacuum t =>
    cases t with
    | none => exact absurd rfl h3
    | some t =>
      simp [ddlV, goesOn] at hg
      exact vacuum_more t hq hg hk
  | begin => exact begin_more hg hk
  | commit => exact commit_more (by simpa [ddlV, goesOn] using hg) hk
  | rollback => exact rollback_more hg hk

/-- C188 (statements other than SELECT, INSERT, UPDATE, DELETE, CREATE TABLE and ALTER TABLE, and VACUUM with a table): whatever
follows the text of a statement after a space is a syntax error, unless its first token is a semicolon, begins a statement or
is one of the few that lengthen that statement. -/
theorem C188_refused_partial (toUint : Str → Option Nat) (s : Statement) (h : PrintableDdl s) (hv : s ≠ .vacuum none) (w : Str) (x : Token)
    (ts : List Token) (hw : Lx w (x :: ts)) (hs : x.kind ∉ starters) (hg : x.kind ∉ goesOn s) :
    ∃ q, s.toStr = .ok q ∧ parseQuery toUint (q ++ ' ' :: w) = .err := by
  obtain ⟨q, hq, d, hd, rfl⟩ := Writing.ddl h
  refine ⟨q, hq, ?_⟩
  have hl : Lx (q ++ ' ' :: w) (d.toks .std ++ x :: ts) := hd _ _ rfl (Lx.space hw)
  refine parse_none toUint hl (query_no ((ddl_heads d _).mono (fun t h => List.mem_append_right _ h)) (by simp) (fun hk => ?_))
  refine ddl_more d ?_ ?_ ?_ hk hs hg
  · rintro b t rfl; simp only [ddlV] at h; cases h
  · rintro t a rfl; simp only [ddlV] at h; cases h
  · rintro rfl; exact hv rfl

/-- C188 for a word: the text of a statement followed by a name, quoted or not, and anything else is a
syntax error. -/
theorem C188_word_partial (toUint : Str → Option Nat) (s : Statement) (h : PrintableDdl s) (hv : s ≠ .vacuum none) (n rest : Str) (hn : AnyName n)
    (hb : rest = [] ∨ ∃ r, rest = ' ' :: r) :
    ∃ q, s.toStr = .ok q ∧ parseQuery toUint (q ++ ' ' :: (n ++ rest)) = .err := by
  have hx : (ident n).kind = .IDENTIFIER := rfl
  obtain ⟨ts, hr⟩ := lx_any rest
  refine C188_refused_partial toUint s h hv _ (ident n) ts ?_ (by rw [hx]; decide) ?_
  · refine (Writing.anyName hn) _ _ ?_ hr
    rcases hb with rfl | ⟨r, rfl⟩ <;> rfl
  · rw [hx, goesOn.eq_def]
    split <;> decide

set_option maxRecDepth 10000 in
example : ∃ q, (Statement.dropIndex [] s%"i" false).toStr = .ok q ∧ parseQuery (fun _ => none) (q ++ ' ' :: s%"CASCADE") = .err := by
  have hw : Lx s%"CASCADE" [⟨wordKind s%"CASCADE", s%"CASCADE"⟩] := by
    have := Writing.word (w := s%"CASCADE") (by decide +kernel) [] [] rfl Lx.nil
    simpa using this
  exact C188_refused_partial _ _ (.dropIndex false (.inl rfl) (name_of (by decide +kernel))) nofun s%"CASCADE" _ [] hw (by decide +kernel) (by decide +kernel)

end Verif.Props
