import Verif.Lemmas.CloseNo
import Verif.Props.Trailing
import Verif.Props.TableText
/-! C188: words after CREATE TABLE and after renames. -/
namespace Verif.Props
open Verif Verif.Lex Verif.Gram Verif.Spec Verif.Query Verif.Parse Verif.Visit

variable {sp : Spelling}

theorem refused_of (toUint : Str → Option Nat) {q : Str} {ts : List Token} (h : Writes q ts) (hn : parseTree ts = none) :
    parseQuery toUint q = .err := by
  obtain ⟨l, h1, h2⟩ := writes_lex.mp h
  exact parse_none toUint (ts := ts) (by rw [Lx, h1]; simp [h2]) hn

/-- C188 for CREATE TABLE with anything in its parentheses: whatever stands between them, as long as its own parentheses
are balanced, a query in which the closing one is followed by something that is neither a semicolon, nor the beginning of a statement, nor
WITHOUT or ENGINE is a syntax error. -/
theorem C188_create (toUint : Str → Option Nat) (q : Str) (b : Bool) (n : Str) (body : List Token) (hb : Balanced body) (x : Token)
    (ts : List Token) (h : Writes q (kw sp .CREATE_ :: kw sp .TABLE_ :: (ineToks sp b ++ (ident n :: kw sp .OPEN_PAR :: (body ++ kw sp .CLOSE_PAR :: x :: ts)))))
    (hs : x.kind ∉ starters) (hg : x.kind ∉ [Tok.WITHOUT_, .ENGINE_]) : parseQuery toUint q = .err := by
  refine refused_of toUint h (query_no (Heads.kw (t := .CREATE_)) (by simp) (fun hk => ?_))
  have hx : x.kind ≠ .WITH_ := by rintro e; rw [e] at hs; exact hs (by decide)
  simp only [List.mem_cons, List.not_mem_nil, or_false, not_or] at hg
  exact create_table_more b n (balanced_walk hb) hg.1 hx hg.2 (hk x.kind (by rw [← starters_iff] at hs; simpa using hs) _ _ rfl)

/-- C188 for the texts of CREATE TABLE statements. -/
theorem C188_table (toUint : Str → Option Nat) (s : Schema) (b : Bool) (h : PrintableSchema (schemaRead s)) (w : Str) (x : Token)
    (ts : List Token) (hw : Lx w (x :: ts)) (hs : x.kind ∉ starters) (hg : x.kind ∉ goesOn (.createTable s b)) :
    parseQuery toUint (createTableString s b ++ ' ' :: w) = .err := by
  rw [← schemaRead_text s b h]
  obtain ⟨d, hd, e⟩ := Writing.createTable b h
  have hl := hd _ _ rfl (Lx.space hw)
  refine parse_none toUint hl (query_no ((ddl_heads d _).mono (fun t h => List.mem_append_right _ h)) (by simp) (fun hk => ?_))
  have hx : x.kind ≠ .WITH_ := by rintro e; rw [e] at hs; exact hs (by decide)
  simp only [goesOn, List.mem_cons, List.not_mem_nil, or_false, not_or] at hg
  cases d with
  | createTable b' t =>
    have := create_table_more (sp := .std) b' t.name (walk_table (sp := .std) t) hg.1 hx hg.2 (hk x.kind (by rw [← starters_iff] at hs; simpa using hs) _ ts rfl)
    rw [DdlS.toks, List.cons_append, List.cons_append, List.append_assoc, table_toks]
    simpa using this
  | _ => simp [ddlV] at e

/-- C188 for ALTER TABLE statements that rename the table or a column. -/
theorem C188_rename (toUint : Str → Option Nat) (a : AlterTable) (h : PrintableAlter a) (hr : a.addColumn = none ∧ a.addIndex = none) (w : Str) (x : Token)
    (ts : List Token) (hw : Lx w (x :: ts)) (hs : x.kind ∉ starters) :
    ∃ q, a.toStr = .ok q ∧ parseQuery toUint (q ++ ' ' :: w) = .err := by
  obtain ⟨q, hq, d, hd, e⟩ := Writing.alter h
  refine ⟨q, hq, ?_⟩
  have hl := hd _ _ rfl (Lx.space hw)
  refine parse_none toUint hl (query_no ((ddl_heads d _).mono (fun t h => List.mem_append_right _ h)) (by simp) (fun hk => ?_))
  have hk' := hk x.kind (by rw [← starters_iff] at hs; simpa using hs) _ ts rfl
  cases d with
  | alterTable t c =>
    simp only [ddlV, Statement.alterTable.injEq] at e
    subst e
    refine rename_more t ?_ hk' hk
    cases c with
    | renameTo u => exact .inl ⟨_, rfl⟩
    | renameColumn c d => exact .inr ⟨_, _, rfl⟩
    | dropColumn w c => exact nomatch h
    | addColumn c =>
      have hr' : colV c = none := by simpa [alterV] using hr
      rw [alterV, hr'] at h
      exact nomatch h
    | _ => simp [alterV] at hr
  | _ => simp [ddlV] at e

set_option maxRecDepth 10000 in
example : parseQuery (fun _ => none) s%"CREATE TABLE t (a INT DEFAULT (1 + 2), CHECK (a > (3)) , junk((a))) ENGIEN = x" = .err :=
  C188_create (sp := .std) _ _ false s%"t" (((lex s%"a INT DEFAULT (1 + 2), CHECK (a > (3)) , junk((a))").map visible).getD []) (walk_balanced (by decide +kernel)) (ident s%"ENGIEN")
    [kw .std .ASSIGN, ident s%"x"] (writes_of (by decide +kernel)) (by decide) (by decide)
example (toUint : Str → Option Nat) : parseQuery toUint s%"ALTER TABLE t RENAME TO u v w" = .err := by
  have h : PrintableAlter { table := { name := s%"t" }, renameTo := some { name := s%"u" } } :=
    .renameTo ⟨name_of (by decide +kernel), .inl rfl⟩ ⟨s%"u", name_of (by decide +kernel), rfl⟩
  have hw : Lx s%"v w" [ident s%"v", ident s%"w"] := by unfold Lx; decide +kernel
  obtain ⟨q, h1, h2⟩ := C188_rename toUint _ h ⟨rfl, rfl⟩ _ _ _ hw (by decide)
  injection h1 with h1
  subst h1
  rwa [show _ ++ _ = s%"ALTER TABLE t RENAME TO u v w" by decide +kernel] at h2
example (toUint : Str → Option Nat) : parseQuery toUint s%"CREATE TABLE  t (a INT) x" = .err := by
  have h : PrintableSchema (schemaRead { table := { name := s%"t" }, columns := [col s%"a"] }) := by
    refine ⟨⟨_, name_of (by decide +kernel), rfl⟩, by simp [schemaRead], ?_, [], [], rfl, by simp, by simp⟩
    intro c hc
    simp only [schemaRead, List.map_cons, List.map_nil, List.mem_singleton] at hc
    subst hc
    exact ⟨_, _, _, rfl, name_of (by decide +kernel), by simp [PrintableType], Or.inl rfl⟩
  have hw : Lx s%"x" [ident s%"x"] := by unfold Lx; decide +kernel
  have := C188_table toUint _ false h _ _ _ hw (by decide) (by decide)
  rwa [show _ ++ _ = s%"CREATE TABLE  t (a INT) x" by decide +kernel] at this

end Verif.Props
