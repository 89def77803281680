import Verif.Lemmas.Others
/-! The definition and transaction statements, and ALTER TABLE, are reported as they are written: C137, C138. -/
namespace Verif.Props
open Verif Verif.Lex Verif.Gram Verif.Query Verif.Parse Verif.Spec Verif.Lemmas

/-! ### C137 -/

/-- C137, without the part that fails: for every accepted query, each reported CREATE or DROP DATABASE, CREATE INDEX,
DROP TABLE, DROP INDEX, ALTER DATABASE, ALTER TABLE, USE, TRUNCATE, VACUUM, COPY, BEGIN, COMMIT or ROLLBACK is what its
own piece of the query says: the tokens divide into the keywords and the parts of the statement, the flag says whether
IF EXISTS or IF NOT EXISTS is written, the names are the written ones, the lists of tables and columns are the written
ones split at their commas, and the format of COPY is the written one. What is missing: quotes stay in the names of
databases and in those of TRUNCATE and VACUUM, and what is not reported at all is the schema name of CREATE INDEX, DROP
TABLE and ALTER DATABASE, UNIQUE and WHERE of CREATE INDEX, CASCADE of DROP TABLE, the file of VACUUM INTO, the kind of
a transaction, and the savepoint of ROLLBACK. -/
theorem C137_others_partial (toUint : Str → Option Nat) (q : Str) (l : List Statement) (h : parseQuery toUint q = .ok l) :
    ∃ toks, Writes q toks ∧ Pieces Written toks l := written_pieces h

set_option maxRecDepth 10000 in
/-- Statements of several kinds. -/
example : parseQuery (fun _ => none) s%"CREATE INDEX IF NOT EXISTS `i` ON t (a, `b` DESC); DROP TABLE IF EXISTS `t`, u; COPY t (a, b) FROM 'f' WITH FORMAT csv; DROP INDEX s.i; COMMIT" =
    .ok [.createIndex { table := { name := s%"t" }, columns := [], indexes := [{ name := s%"i", typ := .secondary, columns := [{ name := s%"a" }, { name := s%"b" }] }] } true,
      .dropTable [{ name := s%"t" }, { name := s%"u" }] true,
      .copy { table := { name := s%"t" }, columns := [{ name := s%"a" }, { name := s%"b" }], source := s%"f", format := .csv },
      .dropIndex s%"s" s%"i" false, .commit] := by krfl

/-- C137 fails: a UNIQUE index is reported like an ordinary one, with the schema name lost. -/
theorem C137_unique_fails (toUint : Str → Option Nat) : parseQuery toUint s%"CREATE UNIQUE INDEX s.i ON t (a) WHERE a > 1" = parseQuery toUint s%"CREATE INDEX i ON t (a)" ∧
    parseQuery toUint s%"CREATE INDEX i ON t (a)" = .ok [.createIndex { table := { name := s%"t" }, columns := [], indexes := [{ name := s%"i", typ := .secondary, columns := [{ name := s%"a" }] }] } false] :=
  ⟨by krfl, by krfl⟩

/-- C137 fails: DROP TABLE of a table of another schema is reported as one of the table of that name. -/
theorem C137_schema_fails (toUint : Str → Option Nat) : parseQuery toUint s%"DROP TABLE other.t" = .ok [.dropTable [{ name := s%"t" }] false] := by krfl

/-- C137 fails: the quotes of a name stay in the name reported by USE and TRUNCATE. -/
theorem C137_quotes_fails (toUint : Str → Option Nat) : parseQuery toUint s%"USE `d`; TRUNCATE TABLE `t`" = .ok [.use s%"`d`", .truncate [{ name := s%"`t`" }]] := by krfl

/-- C137 fails: rolling back to a savepoint is reported as rolling back the whole transaction. -/
theorem C137_savepoint_fails (toUint : Str → Option Nat) : parseQuery toUint s%"ROLLBACK TO SAVEPOINT p" = .ok [.rollback] := by krfl

/-! ### C138 -/

/-- The tokens of a reported ALTER TABLE, and what it reports. -/
def AlterWritten (own : List Token) (s : Statement) : Prop :=
  ∀ a, s = .alterTable a → ∃ w t q n change sch x, own = w :: t :: (q ++ (n ++ change)) ∧ w.kind = .ALTER_ ∧ t.kind = .TABLE_ ∧ SchemaTokens q sch ∧
    RawTokens n x ∧ ChangeTokens { schema := sch, name := x } change a

/-- C138, without the part that fails: for every accepted query, a reported ALTER TABLE is what its own piece of the
query says: the schema and the table are the written ones, and exactly one change is reported, the written one: the new
name of the table, both names of a renamed column, the column of an added definition (by the rules of C136), an added
index with its kind, name and columns, or a dropped column. What is missing: the quotes stay in the name of the table
and in those of a renamed column, the name of a dropped column is the text of the whole clause, the keys of an added
column are not reported, and an added constraint other than INDEX and PRIMARY KEY is reported as an index of unknown
kind. -/
theorem C138_alter_table_partial (toUint : Str → Option Nat) (q : Str) (l : List Statement) (h : parseQuery toUint q = .ok l) :
    ∃ toks, Writes q toks ∧ Pieces AlterWritten toks l := by
  obtain ⟨toks, h1, h2⟩ := written_pieces h
  refine ⟨toks, h1, pieces_weaken (fun own s hw a hs => ?_) h2⟩
  subst hs
  cases hw with
  | elsewhere _ _ he => cases he
  | alterTable w t q n change s x a hw ht hq hn hc => exact ⟨w, t, q, n, change, s, x, rfl, hw, ht, hq, hn, hc⟩

set_option maxRecDepth 10000 in
/-- The changes of an ALTER TABLE. -/
example : parseQuery (fun _ => none) s%"ALTER TABLE s.t RENAME TO `u`; ALTER TABLE t RENAME COLUMN a TO b; ALTER TABLE t ADD COLUMN c VARCHAR(10); ALTER TABLE t ADD INDEX i (a, b); ALTER TABLE t ADD PRIMARY KEY (a)" =
    .ok [.alterTable { table := { schema := s%"s", name := s%"t" }, renameTo := some { name := s%"u" } },
      .alterTable { table := { name := s%"t" }, renameColumnFrom := some { name := s%"a" }, renameColumnTo := some { name := s%"b" } },
      .alterTable { table := { name := s%"t" }, addColumn := some { name := s%"c", def_ := some { typ := .varChar, length := 10 } } },
      .alterTable { table := { name := s%"t" }, addIndex := some { name := s%"i", typ := .secondary, columns := [{ name := s%"a" }, { name := s%"b" }] } },
      .alterTable { table := { name := s%"t" }, addIndex := some { name := [], typ := .primary, columns := [{ name := s%"a" }] } }] := by krfl

/-- C138 fails: dropping a column is reported as dropping a column that is named by the whole clause. -/
theorem C138_drop_column_fails (toUint : Str → Option Nat) : parseQuery toUint s%"ALTER TABLE t DROP COLUMN a" =
    .ok [.alterTable { table := { name := s%"t" }, dropColumn := some { name := s%"DROPCOLUMNa" } }] := by krfl

/-- C138 fails: the primary key of an added column is not reported. -/
theorem C138_add_key_fails (toUint : Str → Option Nat) : parseQuery toUint s%"ALTER TABLE t ADD COLUMN a INT PRIMARY KEY" = parseQuery toUint s%"ALTER TABLE t ADD COLUMN a INT" ∧
    parseQuery toUint s%"ALTER TABLE t ADD COLUMN a INT" = .ok [.alterTable { table := { name := s%"t" }, addColumn := some { name := s%"a", def_ := some { typ := .int, length := -1 } } }] :=
  ⟨by krfl, by krfl⟩

/-- C138 fails: an added UNIQUE constraint is reported as an index of unknown kind. -/
theorem C138_unique_fails (toUint : Str → Option Nat) : parseQuery toUint s%"ALTER TABLE t ADD UNIQUE (a)" =
    .ok [.alterTable { table := { name := s%"t" }, addIndex := some { name := [], typ := .unknown, columns := [{ name := s%"a" }] } }] := by krfl

/-- C138 fails: a quoted table name is reported with its quotes, a quoted new name without them. -/
theorem C138_quotes_fails (toUint : Str → Option Nat) : parseQuery toUint s%"ALTER TABLE `t` RENAME TO `u`" =
    .ok [.alterTable { table := { name := s%"`t`" }, renameTo := some { name := s%"u" } }] := by krfl

end Verif.Props
