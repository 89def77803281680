import Verif.Lemmas.LexQuoted
import Verif.Props.RoundTrip
import Verif.Props.Util
/-! C100, C101: quoted names. -/
namespace Verif.Props
open Verif Verif.Lex Verif.Gram Verif.Parse Verif.Spec Verif.Query

theorem backquote_only (c : Char) (h : Str.upC c = Str.upC '`') : c = '`' := upC_fix '`' (by decide) (by decide) c h

/-- C100, exactly: the text of a quoted name is one identifier token if and only if every backquote in the name is
doubled. -/
theorem C100_identifier_iff (s : Str) :
    lex (Util.escapeNameString s) = some [⟨.IDENTIFIER, Util.escapeNameString s⟩] ↔ Paired '`' s := by
  have : Util.escapeNameString s = '`' :: s ++ ['`'] := by simp [Util.escapeNameString]
  rw [this]
  exact quoted_token_iff '`' backquote_only .IDENTIFIER step_backquote s (by decide)

/-- C100 for names without backquotes. Missing: names with backquotes, which are not doubled (`C100_fails`). -/
theorem C100_identifier_partial (s : Str) (h : '`' ∉ s) :
    lex (Util.escapeNameString s) = some [⟨.IDENTIFIER, Util.escapeNameString s⟩] :=
  (C100_identifier_iff s).mpr (Paired.of_not_mem h)

example : '`' ∉ s%"my table; DROP" ∧ lex (Util.escapeNameString s%"my table; DROP") =
    some [⟨.IDENTIFIER, s%"`my table; DROP`"⟩] := by decide +kernel

/-- C100, negation: a name with a backquote is split, and the rest of it is read as SQL. -/
theorem C100_fails : (lex (Util.escapeNameString s%"a`;b")).map (·.map (·.kind)) =
    some [.IDENTIFIER, .SCOL, .IDENTIFIER, .UNEXPECTED_CHAR] := by decide +kernel

/-- A quoted name at the end of a text or before a separator writes one identifier. -/
theorem Writing.quotedName {s : Str} (h : '`' ∉ s) :
    Writing (Util.escapeNameString s) [ident (Util.escapeNameString s)] := by
  have e : Util.escapeNameString s = '`' :: s ++ ['`'] := by simp [Util.escapeNameString]
  rw [e]
  refine Writing.tok rfl (fun rest hr => longest_quoted '`' backquote_only .IDENTIFIER step_backquote s rest (.of_not_mem h) ?_)
  rintro c r rfl rfl
  simp [sepStart, seps] at hr

/-- C101 for INSERT: with the table name quoted, whatever characters it has (no backquote, and none of the stripped
characters at its ends), the statement reports the plain name. Missing: SELECT, UPDATE and DELETE, see
`C101_fails`. -/
theorem C101_insert_partial (toUint : Str → Option Nat) (s : Str) (h : '`' ∉ s)
    (he : ¬ TouchesEnds (fun c => c = '\'' ∨ c = '`' ∨ c = '(' ∨ c = ')') s) (c : Str) (hc : Name c) (n : Nat) :
    ∃ i : Insert, parseQuery toUint (s%"INSERT INTO " ++ Util.escapeNameString s ++ s%" (" ++ c ++ s%") VALUES (" ++ Str.ofNat n ++ s%")") =
      .ok [.insert i] ∧ i.table = { name := s } := by
  have hw : Writing (Util.joinWithSpace [s%"INSERT", s%"INTO", Util.escapeNameString s, '(' :: (c ++ [')']), s%"VALUES", '(' :: (Str.ofNat n ++ [')'])])
      ((StmtS.insert ⟨Util.escapeNameString s, c, [], ⟨.num (Str.ofNat n), []⟩, []⟩).toks .std) :=
    Writing.spaces (.cons (Writing.keyword .INSERT_ (by decide +kernel)) (.cons (Writing.keyword .INTO_ (by decide +kernel))
      (.cons (Writing.quotedName h) (.cons (Writing.parens (Writing.name hc)) (.cons (Writing.keyword .VALUES_ (by decide +kernel))
        (.one (Writing.parens (Writing.num (Writing.ofNat_number n)))))))))
  have := parse_writing toUint _ hw
  refine ⟨insertV .std ⟨Util.escapeNameString s, c, [], ⟨.num (Str.ofNat n), []⟩, []⟩, ?_, ?_⟩
  · rw [← show stmtV toUint .std (.insert _) = Statement.insert (insertV .std _) from rfl, ← this]
    simp [Util.joinWithSpace, Str.join]
  · simp only [insertV, (C03_name_roundtrip_iff s).mpr he]

example : '`' ∉ s%"my table" ∧ Name s%"a" ∧ ¬ TouchesEnds (fun c => c = '\'' ∨ c = '`' ∨ c = '(' ∨ c = ')') s%"my table" := by
  refine ⟨by decide, name_of (by decide +kernel), ?_⟩
  rw [← C03_name_roundtrip_iff]; decide

set_option maxRecDepth 10000 in
/-- C101, negation: SELECT, UPDATE and DELETE report a quoted table name with its quotes. -/
theorem C101_fails (toUint : Str → Option Nat) :
    parseQuery toUint s%"SELECT a FROM `t`" = .ok [.select { selectors := [.col { name := s%"a" }], tables := [{ name := s%"`t`" }], cond := none }] ∧
    parseQuery toUint s%"DELETE FROM `t`" = .ok [.delete { table := { name := s%"`t`" }, cond := none }] ∧
    parseQuery toUint s%"UPDATE `t` SET a = 1" =
      .ok [.update { table := { name := s%"`t`" }, columns := [{ name := s%"a", lit := some { v := .str s%"1" } }], cond := none }] := by
  refine ⟨?_, ?_, ?_⟩ <;> krfl

end Verif.Props
