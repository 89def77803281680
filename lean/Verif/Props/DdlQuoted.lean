import Verif.Props.QuotedKept
import Verif.Props.Ddl
import Verif.Lemmas.KeywordText
/-! C103 and C104, for every name: the quotes that stay in reported names, and the name of a dropped column. -/
namespace Verif.Props
open Verif Verif.Lex Verif.Gram Verif.Parse Verif.Spec Verif.Query

/-- A statement about a database or a table, given the name as it is written, and the statement it should be reported as,
given the name without its quotes: those that keep the quotes. -/
inductive KeepsQuotes : (Str → DdlS) → (Str → Statement) → Prop
  | createDatabase (b : Bool) : KeepsQuotes (.createDatabase b) (.createDatabase · b)
  | dropDatabase (b : Bool) : KeepsQuotes (.dropDatabase b) (.dropDatabase · b)
  | alterDatabase (m : Str) : KeepsQuotes (.alterDatabase · m) (.alterDatabase · m)
  | alterDatabaseTo (m : Str) : KeepsQuotes (.alterDatabase m) (.alterDatabase m)
  | use : KeepsQuotes .use .use
  | truncate : KeepsQuotes (.truncate · []) (fun n => .truncate [{ name := n }])
  | vacuum : KeepsQuotes (fun n => .vacuum (some n)) (fun n => .vacuum (some { name := n }))

/-- C103, negation for every name: CREATE, DROP and ALTER DATABASE, USE, TRUNCATE and VACUUM, in any layout and letter
case, with the name in backquotes are accepted and report the name with its backquotes, never the plain one. -/
theorem C103_quotes_fails {sp : Spelling} (toUint : Str → Option Nat) (hg : sp.Good) (q v : Str) (d : Str → DdlS) (s : Str → Statement)
    (hd : KeepsQuotes d s) (n : Nat) (h : Writes q (queryToks sp (.ddl (d (Util.escapeNameString v))) [] n)) :
    parseQuery toUint q = .ok [s ('`' :: v ++ ['`'])] ∧ parseQuery toUint q ≠ .ok [s v] := by
  have e : Util.escapeNameString v = '`' :: v ++ ['`'] := by simp [Util.escapeNameString]
  have ne := escaped_ne v
  rw [e] at h ne
  have hp : parseQuery toUint q = .ok [ddlV (d ('`' :: v ++ ['`']))] := parse_writes toUint hg _ [] n h
  have hs : ∀ x, ddlV (d x) = s x := by intro x; cases hd <;> rfl
  rw [hp, hs]
  refine ⟨rfl, fun hh => ne ?_⟩
  cases hd <;> simpa using hh

/-- Any name whose backquotes are doubled has such a text. -/
theorem use_quoted (v : Str) (hv : Paired '`' v) :
    Writes (s%"USE " ++ Util.escapeNameString v) (queryToks .std (.ddl (.use (Util.escapeNameString v))) [] 0) := by
  have e : Util.escapeNameString v = '`' :: v ++ ['`'] := by simp [Util.escapeNameString]
  have hw : Writing (Util.joinWithSpace [s%"USE", Util.escapeNameString v]) ((DdlS.use (Util.escapeNameString v)).toks .std) := by
    refine Writing.spaces (.cons (Writing.keyword .USE_ (by decide +kernel)) (.one ?_))
    rw [e]
    refine Writing.tok rfl (fun rest hr => longest_quoted '`' backquote_only .IDENTIFIER step_backquote v rest hv ?_)
    rintro c r rfl rfl
    simp [sepStart, seps] at hr
  have := hw.writes
  simpa [queryToks, StmtS.toks, Util.joinWithSpace, Str.join] using this

example : Paired '`' s%"my data" := .of_not_mem (by decide)

/-- C104, negation for every name: in any layout and letter case, an ALTER TABLE of a table in backquotes reports a table
with the backquotes in its name, and renaming a column in backquotes reports a column with the backquotes in its name,
whatever the rest of the statement is. -/
theorem C104_quotes_fails {sp : Spelling} (toUint : Str → Option Nat) (hg : sp.Good) (q v : Str) (n : Nat) :
    (∀ s a, Writes q (queryToks sp (.ddl (.alterTable ⟨s, Util.escapeNameString v⟩ a)) [] n) →
      ∃ x, parseQuery toUint q = .ok [.alterTable x] ∧ x.table.name = '`' :: v ++ ['`'] ∧ x.table.name ≠ v) ∧
    (∀ t b, Writes q (queryToks sp (.ddl (.alterTable t (.renameColumn (Util.escapeNameString v) b))) [] n) →
      ∃ x c, parseQuery toUint q = .ok [.alterTable x] ∧ x.renameColumnFrom = some c ∧ c.name = '`' :: v ++ ['`'] ∧ c.name ≠ v) ∧
    (∀ t a, Writes q (queryToks sp (.ddl (.alterTable t (.renameColumn a (Util.escapeNameString v)))) [] n) →
      ∃ x c, parseQuery toUint q = .ok [.alterTable x] ∧ x.renameColumnTo = some c ∧ c.name = '`' :: v ++ ['`'] ∧ c.name ≠ v) := by
  have e : Util.escapeNameString v = '`' :: v ++ ['`'] := by simp [Util.escapeNameString]
  have ne := escaped_ne v
  rw [e] at ne ⊢
  refine ⟨fun s a h => ⟨_, parse_writes toUint hg _ [] n h, ?_⟩, fun t b h => ⟨_, _, parse_writes toUint hg _ [] n h, rfl, rfl, ne⟩,
    fun t a h => ⟨_, _, parse_writes toUint hg _ [] n h, rfl, rfl, ne⟩⟩
  have : (alterV ⟨s, '`' :: v ++ ['`']⟩ a).table.name = '`' :: v ++ ['`'] := by cases a <;> rfl
  exact ⟨this, by rw [this]; exact ne⟩

/-- C104, negation for every column: in any layout and letter case, `ALTER TABLE t DROP c` reports a column to be dropped
whose name is the word DROP with the written name behind it, never the written one. -/
theorem C104_drop_fails {sp : Spelling} (toUint : Str → Option Nat) (hg : sp.Good) (q : Str) (t : TabS) (w c : Str) (n : Nat)
    (h : Writes q (queryToks sp (.ddl (.alterTable t (.dropColumn w c))) [] n)) :
    ∃ x d, parseQuery toUint q = .ok [.alterTable x] ∧ x.dropColumn = some d ∧ d.name = w ++ c ∧ SameName w s%"DROP" ∧ d.name ≠ c := by
  have hu : Str.upper w = s%"DROP" := Lemmas.writes_keyword h ⟨.DROP_, w⟩
    (by simp [queryToks, StmtS.toks, DdlS.toks, AlterS.toks]) (.DROP_, s%"DROP") (by decide +kernel) rfl
  refine ⟨_, _, parse_writes toUint hg _ [] n h, rfl, rfl, ?_, fun hh => ?_⟩
  · rw [← Lemmas.sameName_iff, Str.eqFold_iff, hu]
    decide +kernel
  · have := congrArg List.length hh
    simp only [Visit.columnNamed, List.length_append] at this
    have hw : w = [] := List.eq_nil_of_length_eq_zero (by omega)
    subst hw
    exact absurd hu (by decide +kernel)

set_option maxRecDepth 10000 in
example : parseQuery (fun _ => none) s%"alter table t drop a" =
    .ok [.alterTable { table := { name := s%"t" }, dropColumn := some { name := s%"dropa" } }] := by krfl

end Verif.Props
