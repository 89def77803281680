import Verif.Model.Str
/-! The lexer rules of sql/parser/sqlite/antlr/SQLiteLexer.g4. The kinds, the operator and keyword tables are
transcribed from the grammar in its order; the same rules are in the generated sqlite_lexer.go. -/
namespace Verif.Lex
open Verif

/-- The token kinds: the non-fragment rules of SQLiteLexer.g4 in order. SQLiteLexer.g4 33-254. -/
inductive Tok
  | SCOL | DOT | OPEN_PAR | CLOSE_PAR | COMMA | ASSIGN | STAR | PLUS | MINUS | TILDE | PIPE2 | DIV | MOD
  | LT2 | GT2 | AMP | PIPE | LT | LT_EQ | GT | GT_EQ | EQ | NOT_EQ1 | NOT_EQ2 | AT | ABORT_ | ACTION_
  | ADD_ | AFTER_ | ALL_ | ALTER_ | ANALYZE_ | AND_ | AS_ | ASC_ | ATTACH_ | AUTOINCREMENT_ | BINARY_
  | BEFORE_ | BEGIN_ | BETWEEN_ | BY_ | CASCADE_ | CASE_ | CAST_ | CHECK_ | COLLATE_ | COLUMN_ | COMMIT_
  | CONFLICT_ | CONSTRAINT_ | COPY_ | CREATE_ | CROSS_ | CSV_ | CURRENT_DATE_ | CURRENT_TIME_
  | CURRENT_TIMESTAMP_ | DATABASE_ | DEFAULT_ | DEFERRABLE_ | DEFERRED_ | DELETE_ | DESC_ | DETACH_
  | DISTINCT_ | DROP_ | EACH_ | ELSE_ | END_ | ESCAPE_ | EXCEPT_ | EXCLUSIVE_ | EXISTS_ | EXPLAIN_ | FAIL_
  | FOR_ | FOREIGN_ | FORMAT_ | FROM_ | FULL_ | GLOB_ | GROUP_ | HAVING_ | IF_ | IGNORE_ | IMMEDIATE_ | IN_
  | INDEX_ | INDEXED_ | INITIALLY_ | INNER_ | INSERT_ | INSTEAD_ | INTERSECT_ | INTO_ | IS_ | ISNULL_
  | JOIN_ | KEY_ | LEFT_ | LIKE_ | LIMIT_ | MATCH_ | NATURAL_ | NO_ | NOT_ | NOTNULL_ | NULL_ | OF_
  | OFFSET_ | ON_ | OR_ | ORDER_ | OUTER_ | PLAN_ | PRAGMA_ | PRIMARY_ | QUERY_ | RAISE_ | RECURSIVE_
  | REFERENCES_ | REGEXP_ | REINDEX_ | RELEASE_ | RENAME_ | REPLACE_ | RESTRICT_ | RETURNING_ | RIGHT_
  | ROLLBACK_ | ROW_ | ROWS_ | SAVEPOINT_ | SELECT_ | SET_ | TABLE_ | TEMP_ | TEMPORARY_ | TEXT_ | THEN_
  | TO_ | TRANSACTION_ | TRIGGER_ | TRUNCATE_ | UNION_ | UNIQUE_ | UPDATE_ | USING_ | VACUUM_ | VALUES_
  | VIEW_ | VIRTUAL_ | WHEN_ | WHERE_ | WITH_ | WITHOUT_ | FIRST_VALUE_ | OVER_ | PARTITION_ | RANGE_
  | PRECEDING_ | UNBOUNDED_ | CURRENT_ | FOLLOWING_ | CUME_DIST_ | DENSE_RANK_ | LAG_ | LAST_VALUE_ | LEAD_
  | NTH_VALUE_ | NTILE_ | PERCENT_RANK_ | RANK_ | ROW_NUMBER_ | GENERATED_ | ALWAYS_ | STORED_ | TRUE_
  | FALSE_ | WINDOW_ | NULLS_ | FIRST_ | LAST_ | FILTER_ | GROUPS_ | EXCLUDE_ | TIES_ | OTHERS_ | DO_
  | NOTHING_ | USE_ | ENGINE_ | IDENTIFIER | NUMERIC_LITERAL | SYSTEM_VARIABLE | USER_VARIABLE
  | BIND_PARAMETER | STRING_LITERAL | BLOB_LITERAL | SINGLE_LINE_COMMENT | MULTILINE_COMMENT | SPACES
  | UNEXPECTED_CHAR
  deriving DecidableEq, Repr

/-- SQLiteLexer.g4 32-56: the operators. -/
def operators : List (Tok × Str) :=
  [(.SCOL, s%";"), (.DOT, s%"."), (.OPEN_PAR, s%"("), (.CLOSE_PAR, s%")"), (.COMMA, s%","),
   (.ASSIGN, s%"="), (.STAR, s%"*"), (.PLUS, s%"+"), (.MINUS, s%"-"), (.TILDE, s%"~"), (.PIPE2, s%"||"),
   (.DIV, s%"/"), (.MOD, s%"%"), (.LT2, s%"<<"), (.GT2, s%">>"), (.AMP, s%"&"), (.PIPE, s%"|"),
   (.LT, s%"<"), (.LT_EQ, s%"<="), (.GT, s%">"), (.GT_EQ, s%">="), (.EQ, s%"=="), (.NOT_EQ1, s%"!="),
   (.NOT_EQ2, s%"<>"), (.AT, s%"@")]

/-- SQLiteLexer.g4 59-227: the keywords. -/
def keywords : List (Tok × Str) :=
  [(.ABORT_, s%"ABORT"), (.ACTION_, s%"ACTION"), (.ADD_, s%"ADD"), (.AFTER_, s%"AFTER"), (.ALL_, s%"ALL"),
   (.ALTER_, s%"ALTER"), (.ANALYZE_, s%"ANALYZE"), (.AND_, s%"AND"), (.AS_, s%"AS"), (.ASC_, s%"ASC"),
   (.ATTACH_, s%"ATTACH"), (.AUTOINCREMENT_, s%"AUTOINCREMENT"), (.BINARY_, s%"BINARY"),
   (.BEFORE_, s%"BEFORE"), (.BEGIN_, s%"BEGIN"), (.BETWEEN_, s%"BETWEEN"), (.BY_, s%"BY"),
   (.CASCADE_, s%"CASCADE"), (.CASE_, s%"CASE"), (.CAST_, s%"CAST"), (.CHECK_, s%"CHECK"),
   (.COLLATE_, s%"COLLATE"), (.COLUMN_, s%"COLUMN"), (.COMMIT_, s%"COMMIT"), (.CONFLICT_, s%"CONFLICT"),
   (.CONSTRAINT_, s%"CONSTRAINT"), (.COPY_, s%"COPY"), (.CREATE_, s%"CREATE"), (.CROSS_, s%"CROSS"),
   (.CSV_, s%"CSV"), (.CURRENT_DATE_, s%"CURRENT_DATE"), (.CURRENT_TIME_, s%"CURRENT_TIME"),
   (.CURRENT_TIMESTAMP_, s%"CURRENT_TIMESTAMP"), (.DATABASE_, s%"DATABASE"), (.DEFAULT_, s%"DEFAULT"),
   (.DEFERRABLE_, s%"DEFERRABLE"), (.DEFERRED_, s%"DEFERRED"), (.DELETE_, s%"DELETE"), (.DESC_, s%"DESC"),
   (.DETACH_, s%"DETACH"), (.DISTINCT_, s%"DISTINCT"), (.DROP_, s%"DROP"), (.EACH_, s%"EACH"),
   (.ELSE_, s%"ELSE"), (.END_, s%"END"), (.ESCAPE_, s%"ESCAPE"), (.EXCEPT_, s%"EXCEPT"),
   (.EXCLUSIVE_, s%"EXCLUSIVE"), (.EXISTS_, s%"EXISTS"), (.EXPLAIN_, s%"EXPLAIN"), (.FAIL_, s%"FAIL"),
   (.FOR_, s%"FOR"), (.FOREIGN_, s%"FOREIGN"), (.FORMAT_, s%"FORMAT"), (.FROM_, s%"FROM"),
   (.FULL_, s%"FULL"), (.GLOB_, s%"GLOB"), (.GROUP_, s%"GROUP"), (.HAVING_, s%"HAVING"), (.IF_, s%"IF"),
   (.IGNORE_, s%"IGNORE"), (.IMMEDIATE_, s%"IMMEDIATE"), (.IN_, s%"IN"), (.INDEX_, s%"INDEX"),
   (.INDEXED_, s%"INDEXED"), (.INITIALLY_, s%"INITIALLY"), (.INNER_, s%"INNER"), (.INSERT_, s%"INSERT"),
   (.INSTEAD_, s%"INSTEAD"), (.INTERSECT_, s%"INTERSECT"), (.INTO_, s%"INTO"), (.IS_, s%"IS"),
   (.ISNULL_, s%"ISNULL"), (.JOIN_, s%"JOIN"), (.KEY_, s%"KEY"), (.LEFT_, s%"LEFT"), (.LIKE_, s%"LIKE"),
   (.LIMIT_, s%"LIMIT"), (.MATCH_, s%"MATCH"), (.NATURAL_, s%"NATURAL"), (.NO_, s%"NO"), (.NOT_, s%"NOT"),
   (.NOTNULL_, s%"NOTNULL"), (.NULL_, s%"NULL"), (.OF_, s%"OF"), (.OFFSET_, s%"OFFSET"), (.ON_, s%"ON"),
   (.OR_, s%"OR"), (.ORDER_, s%"ORDER"), (.OUTER_, s%"OUTER"), (.PLAN_, s%"PLAN"), (.PRAGMA_, s%"PRAGMA"),
   (.PRIMARY_, s%"PRIMARY"), (.QUERY_, s%"QUERY"), (.RAISE_, s%"RAISE"), (.RECURSIVE_, s%"RECURSIVE"),
   (.REFERENCES_, s%"REFERENCES"), (.REGEXP_, s%"REGEXP"), (.REINDEX_, s%"REINDEX"),
   (.RELEASE_, s%"RELEASE"), (.RENAME_, s%"RENAME"), (.REPLACE_, s%"REPLACE"), (.RESTRICT_, s%"RESTRICT"),
   (.RETURNING_, s%"RETURNING"), (.RIGHT_, s%"RIGHT"), (.ROLLBACK_, s%"ROLLBACK"), (.ROW_, s%"ROW"),
   (.ROWS_, s%"ROWS"), (.SAVEPOINT_, s%"SAVEPOINT"), (.SELECT_, s%"SELECT"), (.SET_, s%"SET"),
   (.TABLE_, s%"TABLE"), (.TEMP_, s%"TEMP"), (.TEMPORARY_, s%"TEMPORARY"), (.TEXT_, s%"TEXT"),
   (.THEN_, s%"THEN"), (.TO_, s%"TO"), (.TRANSACTION_, s%"TRANSACTION"), (.TRIGGER_, s%"TRIGGER"),
   (.TRUNCATE_, s%"TRUNCATE"), (.UNION_, s%"UNION"), (.UNIQUE_, s%"UNIQUE"), (.UPDATE_, s%"UPDATE"),
   (.USING_, s%"USING"), (.VACUUM_, s%"VACUUM"), (.VALUES_, s%"VALUES"), (.VIEW_, s%"VIEW"),
   (.VIRTUAL_, s%"VIRTUAL"), (.WHEN_, s%"WHEN"), (.WHERE_, s%"WHERE"), (.WITH_, s%"WITH"),
   (.WITHOUT_, s%"WITHOUT"), (.FIRST_VALUE_, s%"FIRST_VALUE"), (.OVER_, s%"OVER"),
   (.PARTITION_, s%"PARTITION"), (.RANGE_, s%"RANGE"), (.PRECEDING_, s%"PRECEDING"),
   (.UNBOUNDED_, s%"UNBOUNDED"), (.CURRENT_, s%"CURRENT"), (.FOLLOWING_, s%"FOLLOWING"),
   (.CUME_DIST_, s%"CUME_DIST"), (.DENSE_RANK_, s%"DENSE_RANK"), (.LAG_, s%"LAG"),
   (.LAST_VALUE_, s%"LAST_VALUE"), (.LEAD_, s%"LEAD"), (.NTH_VALUE_, s%"NTH_VALUE"), (.NTILE_, s%"NTILE"),
   (.PERCENT_RANK_, s%"PERCENT_RANK"), (.RANK_, s%"RANK"), (.ROW_NUMBER_, s%"ROW_NUMBER"),
   (.GENERATED_, s%"GENERATED"), (.ALWAYS_, s%"ALWAYS"), (.STORED_, s%"STORED"), (.TRUE_, s%"TRUE"),
   (.FALSE_, s%"FALSE"), (.WINDOW_, s%"WINDOW"), (.NULLS_, s%"NULLS"), (.FIRST_, s%"FIRST"),
   (.LAST_, s%"LAST"), (.FILTER_, s%"FILTER"), (.GROUPS_, s%"GROUPS"), (.EXCLUDE_, s%"EXCLUDE"),
   (.TIES_, s%"TIES"), (.OTHERS_, s%"OTHERS"), (.DO_, s%"DO"), (.NOTHING_, s%"NOTHING"), (.USE_, s%"USE"),
   (.ENGINE_, s%"ENGINE")]

end Verif.Lex
