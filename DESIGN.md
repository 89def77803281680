# Formal model of go-sqlparser: design

The code under study is `/repo` (cybergarage/go-sqlparser, Go, pinned commit). It is read as text; nothing here runs
it. The model is Lean 4 (`/verif/lean`), modules under `Verif/`. Mathlib is not used.

## Layout

* `Verif/Model/*.lean`: executable model, function by function; each definition cites the file and lines it models and
  says where it simplifies.
* `Verif/Spec/*.lean`: small specifications, written without the model's helpers.
* `Verif/Lemmas/*.lean`: helper lemmas.
* `Verif/Props/*.lean`: property theorems (named `C01_…`, `C02_…`), with concrete `example`s meeting their hypotheses.
  A theorem with the suffix `_partial` proves part of the property and says what is missing. A theorem with the suffix
  `_fails` proves that the property is false of the modelled code, with a witness. A theorem with the suffix `_iff`
  gives the exact condition under which the property holds.
* `Verif/Tactic/KRfl.lean`: the tactic `krfl`, see the trusted base.
* `properties.jsonl`: the properties in English. `MANIFEST.json`: theorems and status per property.
  `seeded/LOG.jsonl`: the mutation log.

## Modelling conventions

* A Go string is `Str := List Char` (runes). Byte-level behaviour (invalid UTF-8, `len` in bytes) is not modelled; every
  use of `len(s)` in the modelled code is an emptiness test, apart from `ParseString`, which tests for the one-byte text
  `;`.
* `strings.ToUpper`, `ToLower` and `EqualFold` are the ASCII case maps. Unicode folding is not modelled.
* `Atoi` reads a 64-bit `int`. `uint` conversions of LIMIT and OFFSET are a parameter `toUint`; theorems hold for every
  such function.
* Errors are values, Go panics are an explicit outcome (`Res`: `ok`, `err`, `panic`), `nil` is `Option.none`.
* A method that mutates through a pointer returns the new state. `Model/Alias.lean` has the shared memory behind the
  column lists of a schema and the literals of columns explicitly; C118 and C119 prove that the other models, which
  treat them as values, agree with it and say what sharing can be observed. `Model/AliasRow.lean` does the same for the
  rows an aggregator is given, whose group columns it keeps as a slice of the caller's array (C123). `Model/Slices.lean`
  has Go's slices - array, offset, length and room - with `append` writing in place where there is room, and on top of
  them rows, option slices and the schemas of connections: C184 to C187 prove where the value models agree with it and
  where the sharing shows. The room a grown slice gets is a parameter.
  `Model/FnState.lean` has functions and aggregators as objects of a heap, with the executor and the aggregator a
  function remembers; C156 proves that the value model of aggregation, which has every function new, agrees with it.
* Go map iteration is an arbitrary permutation, quantified in the theorem. `sort.Slice` is any function that returns a
  permutation which is sorted if the comparison is a strict weak order.
* `safecast`, float arithmetic, time, random numbers and regular expressions are parameters of the model; theorems hold
  for every behaviour of them unless a hypothesis says otherwise.
* The file system (`Model/Files.lean`) is a tree with links, unreadable files and directories, and entries that disappear
  after their directory was read. `filepath.Walk`, `Join` and `Ext` are written out for it; paths are clean.
* Goroutines are interleaving semantics. For the manager (C58, C149, C152) a step is one map access, lock or unlock; for a
  connection (C147 to C149) one field access, lock or unlock; for C76 one of the steps of `Close`; for
  parsers (C167, C168) and functions (C169, C170) one field access or one call on an ANTLR object. What ANTLR does when two
  calls read the same stream is left open; the tables it shares between parsers are trusted. Accesses are
  sequentially consistent; C147, C168 and C169 say which fields are free of data races, for which Go guarantees that.

### The parser

* Lexer (`Model/Lexer.lean`, `Model/Tok.lean`): all 206 rules of `SQLiteLexer.g4` in their order as regular expressions
  over case-insensitive character classes, matched by derivatives: longest match, then earliest rule, as ANTLR does.
* Grammar (`Model/Grammar.lean`): all 157 rules of `SQLiteParser.g4` as data, the left-recursive rule `expr` in
  precedence form.
* Parser (`Model/Parser.lean`): the ordered list of all parses, first alternative first and loops greedy; the first
  complete parse is the tree. For an input in the language ANTLR's ALL(*) takes, at each decision, the lowest
  alternative by which the input can still be parsed, which is the first complete parse. An input without a parse is a
  syntax error. ANTLR's error recovery is not modelled: with an error the code does not look at the tree.
  `Lemmas/Best`, `Parse*` prove which of all parses is the first, for all inputs.
* Visitor (`Model/Visitor.lean`): the functions of `parser_antlr_visitor.go` one by one, on these trees. A missing child
  that is used without a test is a `panic`.

### How the parser was validated

Two checks outside Lean, with the code only read as text:

* The serialized ATNs of the generated lexer and parser were decoded and compared with the grammar tables of the model:
  all 157 parser rules and 206 lexer rules accept the same language, with the same order of alternatives and the same
  precedences of `expr`.
* All 11670 queries of `/repo/sqltest/res/sql` were parsed and printed by the compiled model: all are accepted and give
  a statement, as the project's tests require. 11605 are printed exactly as written; the other 65 differ in layout, case
  or normalised spelling as in the project's comparison.

## What is modelled

* `sql/util` and `sql/util/strings`, `sql/errors`, `sql/query` with `response/resultset`, `sql/fn`, `sql/stmt`,
  `sql/net`, `sql/system`, `sql/parser/sqlite`: all functions with behaviour.
* The query test helpers of `sqltest` (`test_helper.go`, `query_file_helper.go`, `config.go`) as functions from a query
  or a file's contents to verdicts, and `sqltest/util` (listing files) over the tree; the output of the tests is left out.
* Functional options are values of inductive types (`Model/Options.lean`, `FnState`, `RsSchema`, `System`), applied in
  order; option functions of a caller's own are not modelled.

## What is not modelled

* ANTLR's runtime (error recovery, error texts, prediction caches) and the generated code apart from its tables.
* Listener and visitor stubs that nothing uses, interface and alias files (`sql/query.go`, `sql/executor.go`,
  `sql/response.go`), the version number.
* The names of subtests, and the test cases of `sqltest`.
* Error texts, apart from the tables of `sql/errors`; an error is identified by what it wraps.
* Byte strings, Unicode case folding, machine floats (they are abstract), the memory model below critical sections.

## Properties

Theorems are in `Verif/Props/`, in the file named in the third column.

| id | property | file | proof | status |
|----|----------|------|-------|--------|
| C01 | Stack is LIFO for every history | Util | refinement to abstract LIFO list by induction over operations | proved |
| C02 | Quoting then unquoting a string returns it | Util | exact condition for the round trip; negation witness for quotes at the ends; idempotence | partial |
| C03 | Quoting then unquoting a name returns it | Util | exact condition for the round trip; negation witness for quotes at the ends; idempotence | partial |
| C04 | LIMIT/OFFSET text identifies the window | Print | injectivity by inverse reader | proved |
| C05 | ORDER BY text identifies the ordering | Print | injectivity by inverse reader | proved |
| C06 | Printed WHERE expression keeps its structure | Print, WhereText | negation witness (AND over OR); partial: on the flat trees the grammar can produce the text determines the tree Exactly, for printable comparisons: the text is the list of comparisons and words from left to right (`C06_text_iff`), proved through the lexer; without an OR below an AND the text decides the truth (`C06_written_partial`), and every AND with an OR on its right is a counterexample (`C06_grouping_fails`). | partial |
| C07 | String literals survive printing and re-lexing | Lexer | round trip for values without quote; negation otherwise | partial |
| C08 | SELECT text re-parses to the same statement | DmlSchemas, DmlText, RoundTrip, SelectRefused | print = writing of the syntax, parse of every writing by induction over lists and uniqueness of the first parse For tables with schemas, `C08_schemas` says what every such SELECT is read as and `C08_schemas_iff` that it is read back exactly when no table has a schema. `C08_exact` says what the text of any SELECT of the grammar is read as (nothing selected, known columns, functions with executors, schemas), by showing that the statement with only what its text says has the same text and is read back. `C08_refused_fails` follows the clauses after the tables: with a term of the ordering without a direction, an offset without a limit or a grouping besides an ordering or a limit no parse of the tokens ends where a statement may end, whatever is selected, so `C08_accepted_iff` says exactly which texts are accepted. | partial |
| C09 | INSERT text re-parses to the same statement | DmlSchemas, DmlText, RoundTrip | as C08 `C09_schema` and `C09_schema_iff`: the schema of the table of an INSERT is always lost. `C09_exact` and `C09_iff` allow rows of any lengths and names; values beyond the first row are lost (`C09_longer_fails`). | partial |
| C10 | UPDATE and DELETE text re-parse to the same statement | DmlSchemas, DmlText, RoundTrip, SetRefused | as C08 `C10_update_schema`, `C10_delete_schema` and `C10_schema_iff`: the schema becomes part of the name. `C10_update_exact`, `C10_delete_exact` and `C10_iff` are the same for UPDATE and DELETE; `C10_function_fails` refuses every first assignment of a named function, whatever follows. | partial |
| C11 | Column lookup finds the first case-insensitive match | Schema | characterisation by split `l = pre ++ x :: post` | proved |
| C12 | Index lookup finds the first case-insensitive match | Schema | characterisation by split `l = pre ++ x :: post` | proved |
| C13 | Dropping a column removes that column and nothing else | Schema | negation with witness, and exact characterisation of what is removed | partial |
| C14 | Dropping an index removes that index and nothing else | Schema | negation with witness, and exact characterisation of what is removed | partial |
| C15 | Adding columns and indexes only extends the schema | Schema | lookups preserved by induction over additions | proved |
| C16 | ALTER TABLE is all-or-nothing | AlterLeft, Exact, Schema | negation with witness; partial: single-clause statements; C16_alter_sequence: a statement with any mix of clauses has the effect of its clauses one after the other in a fixed order, each a statement of its own Universal failure: every statement that renames anything fails, and what it adds without dropping stays added, for every schema. | partial |
| C17 | Full table names are qualified at most once | Schema | case analysis, induction | proved |
| C18 | Table list membership ignores case and checks every pair | Schema | case analysis, induction | proved |
| C19 | Column values are coerced to the declared type or rejected | Schema, SetSchema | success case full; negation for atomicity `C19_exact` ties each converted type to its own conversion function (`Casts`) and says exactly when setting the definition succeeds and what the column is afterwards. | partial |
| C20 | Applying a schema to columns is all-or-nothing | Schema, SetSchema | success case full; negation for atomicity `C20_exact` says exactly when setting a schema succeeds, and what all columns are after success and after failure. | partial |
| C21 | Data type names round-trip | Types | whole-table decision lifted to all permutations and casings | proved |
| C22 | Column type definitions round-trip | DataDef, Types | round trip with decimal printer/`Atoi`; negation for malformed lists `C22_exact` characterises every token list that is read, with an independent decimal-number specification (`IntNumber`); `C22_length_fails` covers every length that is not printed. | partial |
| C23 | Constraint flags are independent | Types | bitwise reasoning; negation for combined printing | partial |
| C24 | Selector queries agree with the selector list | Types | induction; negation for `HasFunction` | partial |
| C25 | Selector list is classified as asterisk only when it is | Types | induction; negation for `HasFunction` | proved |
| C26 | SUM equals the sum of all aggregated values | Aggr | fold refinement by induction over rows | proved |
| C27 | AVG equals sum over count | Aggr | fold refinement by induction over rows | proved |
| C28 | MIN and MAX bound and are attained | Aggr | fold refinement by induction over rows | partial |
| C29 | COUNT equals the number of rows | Aggr | fold refinement by induction over rows | proved |
| C30 | GROUP BY aggregates each group over exactly its own rows | Aggr, GroupExact, GroupKeys | invariant over row history relating each group to the filtered rows; negation for key collision; partial for separator-free keys; C30_merged_fails (rows whose joined texts coincide always share one result row) and C31_pair_iff (two rows get two result rows exactly when their joined texts differ) `C30_iff` and `C34_iff`: a result row shows the group values of the first row with its key, so rows of different values with one key cannot both be shown, and for some order of the rows the other one is. | partial |
| C31 | Distinct group tuples never share a group | Aggr, GroupKeys | invariant over row history relating each group to the filtered rows; negation for key collision; partial for separator-free keys; C30_merged_fails (rows whose joined texts coincide always share one result row) and C31_pair_iff (two rows get two result rows exactly when their joined texts differ) | partial |
| C32 | Reset forgets all earlier rows | Aggr | state equality, permutation invariance, negation for partial accumulation | proved |
| C33 | A rejected row leaves the aggregate unchanged | AggrMore, Exact | state equality, permutation invariance, negation for partial accumulation; C33_sum_iff and C33_effect_fails: induction over the aggregators gives exactly which of them a rejected row leaves changed | partial |
| C34 | Aggregation does not depend on row order | AggrMore, GroupExact, Universal | state equality, permutation invariance, negation for partial accumulation `C34_merged_fails` is the failure for every two rows whose group values share a text. | partial |
| C35 | Finalize does not disturb the aggregate | Aggr | state equality, permutation invariance, negation for partial accumulation | proved |
| C36 | Ordered finalisation is sorted | AggrMore | strict weak order for ascending; negation for descending | partial |
| C37 | An aggregator set returns rows as wide as its columns | AggrMore | negations; partial under one group column/ordered finalisation | partial |
| C38 | An aggregator set keeps group rows aligned | AggrAligned, AggrMore | negations; partial under one group column/ordered finalisation With differing enumeration orders the rows of each aggregator are those of its own order, by the same induction over the merge. | partial |
| C39 | Aggregator lookup recognises exactly the five names | Types | exact acceptance characterisation, negations | partial |
| C40 | Executor lookup returns the executor of that name | Exact, Types | exact acceptance characterisation, negations; C40_executor_iff: which names find an executor, independent of the lookup | partial |
| C41 | Registered function test accepts only registered functions | Types | exact acceptance characterisation, negations | partial |
| C42 | Function result sets enumerate every row once | FnResult | refinement to list iteration | partial |
| C43 | Arithmetic and math executors never crash | Exec | case analysis; negation for integer modulo by zero | partial |
| C44 | Executors read their arguments from the row object | Exec | case analysis; negation for integer modulo by zero | proved |
| C45 | Result set iteration yields exactly the window rows[offset, offset+limit) | ExactMore, ResultSet | refinement to `drop`/`take`; negation for overflow and for Row after limit The exact condition combines the window, overflow and divergence theorems. | partial |
| C46 | Row is only available inside the window | ResultSet | refinement to `drop`/`take`; negation for overflow and for Row after limit | partial |
| C47 | Row object and row values agree | ExactMore, ResultSet | reads are functions of the initial row; projection is a map | partial |
| C48 | Projection keeps selector order and width | ResultSet | reads are functions of the initial row; projection is a map | proved |
| C49 | Aggregated result sets agree with the aggregates of the source rows | RsAggr, RsAggrMany | corollary of C26–C30; negation for grouping through maps Without grouping, for any number of aggregate functions over any rows: the first column is the first function over all rows, the other columns are null, and for every function after the first the value is wrong (C49_ungrouped_partial, C49_others_fails). | partial |
| C50 | Binding replaces the k-th placeholder by the k-th value | Bind, BindExact | induction over parameters; negations `C50_exact` characterises binding of every text with every parameter list by a relation on texts (`FilledIn`); `C50_value_fails` covers every value with a question mark that is not the last. | partial |
| C51 | Binding fails exactly when there are more parameters than placeholders | Bind, BindExact | induction over parameters; negations By `C50_exact` the error cases are characterised; `C51_start_fails` covers every query beginning with a placeholder. | partial |
| C52 | A bound string cannot change the query structure | BoundStrings, Lexer | induction over parameters; negations C52_iff: exactly the strings with doubled quotes and bare ends stay one literal with their value (lexer lemma for doubled quotes one way, the STRING_LITERAL rule the other). | partial |
| C53 | Numbered placeholders are bound by number | Bind, BindExact | induction over parameters; negations `C53_digits_fails` covers every `$1` behind a placeholder beginning with the same digit. | partial |
| C54 | Connections are found by id and by UUID until removed | Net, NetHistory, NetPaired | invariant by induction; negation for update `C54_uid_exact` and `C54_uuid_exact` say for every history of all calls, in terms of the call that entered a connection and no later one that took it away, what the lookups find; `C54_history_iff` says for which histories they agree throughout; `C54_concurrent_partial` is agreement under concurrency. | partial |
| C55 | Adding a duplicate connection is rejected without effect | Net | invariant by induction; negation for update | proved |
| C56 | Replacing a connection keeps lookups consistent | Net | invariant by induction; negation for update | partial |
| C57 | Closing the manager closes every connection once and forgets the closed ones | Net | invariant by induction; negation for update | proved |
| C58 | Concurrent manager calls are linearizable | NetConc, NetPaired | linearizability for single-critical-section operations; analysis of the two-step ones `C58_paired_partial` covers RemoveConnByUID and RemoveConnByUUID as long as an id always goes with the same UUID: removing what was found earlier is then removing what is found now, so the call takes effect at its second section. | partial |
| C59 | Closing a connection is idempotent | Net | induction over histories | proved |
| C60 | Session schemas stay duplicate-free and belong to the current database | Net, NetSchemas | induction over histories Exact for connections created with any schemas, repeated or not, and every history (C60_exact), and exactly when the claim holds (C60_iff). | partial |
| C61 | information_schema rows describe the given schemas | ExactMore, System | map lemmas; negation for the table name; parser model for generated queries The exact condition for the table names follows from the constant rows. C61_constant names the three constant columns. | partial |
| C62 | information_schema result sets round-trip | System | map lemmas; negation for the table name; parser model for generated queries | proved |
| C63 | information_schema queries are recognised | System | map lemmas; negation for the table name; parser model for generated queries | proved |
| C64 | information_schema conditions are extracted exactly | System | map lemmas; negation for the table name; parser model for generated queries | proved |
| C65 | Generated information_schema queries are well-formed | LongCond, RoundTrip | map lemmas; negation for the table name; parser model for generated queries | partial |
| C66 | A parser can be reused after a syntax error | Parser, Reuse | negation; partial for histories without errors Also exact: a parser object answers as a new one for every query iff no query of its history was a syntax error; after one it refuses every good query for ever. | partial |
| C67 | Lexing is total and lossless | Lexer | induction on input length | proved |
| C68 | Keywords are recognised in any letter case | Lexer | induction on input length | proved |
| C69 | INSERT pairs the k-th value with the k-th column | LostValue, Parser | list induction; first-result calculus for every other kind of value, so the shift holds for all rows | partial |
| C70 | ORDER BY terms are all kept | Parser | list induction; negations | partial |
| C71 | LIMIT and OFFSET are read as written | Parser | list induction; negations | partial |
| C72 | SQLSTATE codes are distinct, described, and belong to a described class | Errors | whole-table decision | proved |
| C73 | SQRT is defined on every non-negative number | Exact, Exec | case analysis over abstract floats; C73_sqrt_iff is the exact form | partial |
| C74 | RAND stays in [0,1) | Exec | function of the random source; exact range | partial |
| C75 | A function selector's executor reads the selector's own arguments | Exec | case analysis of function construction | proved |
| C76 | Concurrent Close calls close the network connection at most once | CloseMany, NetConc | interleavings; invariant With n goroutines (`ClosersRun n`) at most n closes succeed, by an invariant with the set of those that have closed, and n is reached. | partial |
| C77 | Error constructors wrap the condition they are named for | Errors | whole table | partial |
| C78 | Exist and not-exist errors can be told apart | Errors | whole table | partial |
| C79 | The parser accepts exactly the grammar | Parser | parser run = derivation, both directions, by induction on fuel and grammar; negation for the parser that failed before | proved |
| C80 | Every accepted statement is returned | Parser | every statement tree is visited by its handler, over all trees; negation for unhandled kinds | partial |
| C81 | A WHERE condition is never lost | LostCond, Parser | parse of every writing; every condition of ten other kinds is lost, in every statement (calculus of preferred parses) | partial |
| C82 | Parsing never panics | Parser | trees of each rule have the children the visitor uses, from the grammar; negations | partial |
| C83 | Layout and comments do not matter | Layout, Parser | token streams decide the result; lexing of blanks, comments and each token class | partial |
| C84 | Clauses that change the meaning are not ignored | Compound, DmlSchemas, Ignored, Joins, Parser, Whole | Every statement with EXPLAIN, DISTINCT/ALL, a conflict clause or REPLACE: its preferred parse is taken from the one without the words (inversion of the parse) and the visitor does not look at the extra leaves. On the texts of printable statements, C88 gives that nothing is lost. `C84_schema_fails`: the schema before the table of an INSERT changes nothing in the report, in any layout. Joins: the syntax of any number of JOIN, LEFT JOIN, INNER JOIN and CROSS JOIN with ON conditions is given in Spec/Joins.lean; by induction on the number of joins the parser takes the join_clause alternative, whose tables lie below a node the visitor does not look into, so the report is that of the SELECT without FROM (`C84_join_fails`), whatever was joined (`C84_joins_fails`), and differs from that of a SELECT from a list of tables (`C84_join_partial`). Compound SELECTs (UNION, UNION ALL, INTERSECT, EXCEPT) of any number of parts, none of which ends with a table before an operator: accepted, and reported as the first part alone with the final ORDER BY and LIMIT (C84_compound_fails, C84_compounds_fails), by following the parser through the repeated parts and the visitor through its first select_core. | partial |
| C85 | A list of statements is parsed statement by statement | Parser | induction over the statement list | proved |
| C86 | Statements must be separated | Parser, Whole | A derivation does not depend on what follows it, so derivations of two queries can be put one behind the other: C86 fails for all statements. The number of reported statements is bounded by the number of starting keywords, by C139. | partial |
| C87 | The letter case of keywords does not matter | Parser | lexer classes closed under case | partial |
| C88 | Printed scripts re-parse to the same statements | RoundTrip | induction over statements | partial |
| C89 | Queries for table names select exactly these tables | LongCond, RoundTrip | parse of the printed query | partial |
| C90 | Built-in mathematical functions compute the operation they are named for | ExecValues | case analysis over abstract floats | partial |
| C91 | An operator symbol selects its operation | ExecValues | whole table | proved |
| C92 | String functions return the specified text and take exactly one argument | ExecValues | case analysis | proved |
| C93 | ALTER TABLE performs its clauses in order | QueryMore | fold over clauses | proved |
| C94 | Executors and aggregators of a selector list are collected in order | QueryMore, Universal | induction over selectors `C94_any_fails` is the failure for every list. | partial |
| C95 | Reading a column by position is total | QueryMore | case analysis | partial |
| C96 | A copied column equals its original | ExactMore, QueryMore | case analysis | partial |
| C97 | Every documented function is known with its type | ExactMore, ExecValues | whole table The other spellings of every documented name are treated for all names. | partial |
| C98 | Aggregators accept a single argument | ExactMore, QueryMore | case analysis | partial |
| C99 | Bind parameters are written in the documented text form | QueryMore | case analysis over value kinds | proved |
| C100 | A quoted name is one identifier token | Quoted | lexing of quoted names by induction, exact condition | partial |
| C101 | A quoted table name denotes the same table as the plain one | Quoted, QuotedKept | parse of every writing The failure is universal: every SELECT, UPDATE and DELETE of the read-back kinds with a table name in backquotes reports the name with its backquotes (C101_kept_fails). | partial |
| C102 | CREATE TABLE reports the table that is written | Ddl, NoConstraints | parse of every writing, induction over columns C102_never_fails: no CREATE TABLE reported for any query has a schema or a column with a constraint. | partial |
| C103 | The other definition and transaction statements report what is written | Ddl, DdlQuoted | parse of every writing The quotes stay in every database name and in every table name of TRUNCATE and VACUUM, in any layout (C103_quotes_fails). | partial |
| C104 | ALTER TABLE reports the change that is written | Ddl, DdlQuoted | parse of every writing The quotes stay in every table name and every renamed column, and every dropped column has the wrong name, in any layout (C104_quotes_fails, C104_drop_fails). | partial |
| C105 | Definition and transaction statements can be read back | Ddl, DdlSchemas | print = writing; negations With schemas the outcome is exact for plain names: DROP TABLE drops the schema of the first table silently and is a syntax error if a later table has one (`C105_drop_table`, `C105_drop_table_iff`), TRUNCATE, VACUUM and CREATE INDEX are syntax errors (`C105_truncate`, `C105_vacuum_fails`, `C105_create_index_fails`); the errors are proved with the `No` calculus of Lemmas/Best (no parse exists). | partial |
| C106 | ALTER TABLE statements can be read back | AlterRefused, Ddl, TableText | print = writing; negations `C106_exact` and `C106_iff` say what every ALTER TABLE with one change and plain names is read as; `C106_refused_fails` which combinations have a text that is a syntax error, whatever the other parts are. | partial |
| C107 | CREATE TABLE statements can be read back | Ddl, TableText | print = writing by induction over columns; negations `C107_exact`, `C107_iff` and `C107_lost_fails`: what the text of a table says, and that the schema, the constraints and lengths of zero are always lost. | partial |
| C108 | The type of a statement is the beginning of its text | Helpers | case analysis over all statements; prefix lemma for joined words | proved |
| C109 | Index statements as ALTER TABLE | DropIndex, Helpers | unfolding; negation with a witness DROP INDEX exactly, on every schema (C109_drop_index_exact); it never removes the index it names (C109_drop_index_every_fails). | partial |
| C110 | The aggregators of a SELECT | HelpersRow | induction over the selection list | proved |
| C111 | Scanning a row | HelpersRow, Universal | induction over the values `C111_short_fails` is the failure for every row that is too short. | partial |
| C112 | Asking a reported column for its value or type does not panic | ExactMore, Helpers | postconditions of the visitor over all parse trees | partial |
| C113 | The data type chosen for a Go value holds it | HelpersRow | case analysis over all kinds, ranges for all values | partial |
| C114 | Executors by type and by name | HelpersRow, Universal | induction over the selection list `C114_any_fails` is the failure for every list. | partial |
| C115 | Group column texts and aggregator sets by name | HelpersRow | induction over the text / list | partial |
| C116 | Asterisks and placeholders are recognised | Helpers | postconditions of the visitor; parse of every writing C116_value_fails says exactly which INSERT values the code takes for asterisks. | partial |
| C117 | Every parsed statement has a text | Helpers | postconditions of the visitor over all parse trees | proved |
| C118 | A column or index list obtained from a schema does not change later | Alias | memory model of slices; invariant by induction over calls; refinement of the schema model | partial |
| C119 | A copy of a column is independent of the original | Alias | memory model of literals; refinement of the column model | partial |
| C120 | Nothing in a reported statement is made up | Provenance | leaves of parse trees: derivations use up exactly the tokens of their trees, children are consecutive tokens; postconditions of all visitor functions; semicolon-freeness of the grammar by one check per rule | proved |
| C121 | CREATE TABLE reports every declared column | TableExact, Tables | postcondition of the column loop by induction; counterexamples Exact for every written CREATE TABLE: which columns are lost (C121_exact, C121_iff). | partial |
| C122 | Keys of CREATE TABLE are on columns of the table | TableExact, Tables | invariant of the column and key loop; counterexamples Exact for every written CREATE TABLE: which keys are reported on which columns (C122_exact), and no PRIMARY KEY (...) is on columns of the table (C122_primary_fails). | partial |
| C123 | A row may be reused after it was aggregated | AliasRow, OneArray | memory model of the rows passed; invariant over all actions; refinement of the aggregator model C123_one_array_fails: whatever is written into the one array between the calls, all groups are shown with its last values. | partial |
| C124 | A query that passes the test helper keeps its text | TestHelper | formalizing keeps all but white space (induction over the text); witness for the default mode | partial |
| C125 | Printed statements pass the test helper | TestHelper | round trip theorems and stability of printing | partial |
| C126 | Validation modes and skipping are ordered | TestHelper | case analysis over all outcomes of the parser | proved |
| C127 | The test helper does not panic | TestHelper | case analysis; uses C117 | partial |
| C128 | Every query of a test file is tested | FileQueries, TestHelper | induction over the queries of a file `C128_exact` describes the queries of every file by the texts between its semicolons; `C128_comment_fails` says that a text that begins with a comment is left out whole, whatever it contains. | partial |
| C129 | The last test option wins | TestHelper | induction over the arguments | proved |
| C130 | The reported condition is exactly the statement's own WHERE clause | Where | grammar analyses on derivations; handlers' conditions inverted to tokens, lifted over the pieces of the query | proved |
| C131 | Accepted queries and reported statements have balanced parentheses | Where | depth analysis of the grammar by induction on derivations | proved |
| C132 | A reported UPDATE has the written table and assignments | Dml, LostValue | derivations of UPDATE inverted to tokens; lost values named, witness for the failure; first-result calculus for every other kind of value | partial |
| C133 | A reported INSERT has the written table and rows | Dml, LostValue | derivations of INSERT inverted to tokens; rows by induction over the element list; witness for the failure; comparisons in rows for all rows | partial |
| C134 | A reported DELETE has the written table | Dml | derivations of DELETE inverted to tokens | proved |
| C135 | A reported SELECT is what was written: selectors, tables, group, orders and limit, clause by clause | SelectWritten | derivations of SELECT inverted to tokens clause by clause; witnesses for the failures | partial |
| C136 | CREATE TABLE is reported as written | IgnoredDdl, TableWritten | Spec/Table describes the tokens of definitions, types, sizes, constraints and keys without trees. Inversion of derivations gives the tokens of each definition; the loop over the definitions is an induction over the list split at commas, with the columns declared so far as state. That the text of a word is not a parenthesis needs the lexer: a token with the text ( is an opening parenthesis. C136_temp_fails: for every CREATE TABLE the forward parse of Lemmas/IgnoredDdl shows that TEMP and the schema name are not looked at. | partial |
| C137 | Definition and transaction statements are reported as written | IgnoredDdl, Others | Inversion of the derivation of each statement's tokens (Lemmas/Others), for the spec `Written` that lists the token forms statement by statement; the words of the format of COPY come from the lexer rules. Witnesses for what is lost. C137_parts_fails: forward parse of every such statement with its optional parts, and equality of what the visitor reads with and without them. | partial |
| C138 | ALTER TABLE is reported as written | AlterDrop, Others | Corollary of the same lemma: the change of ALTER TABLE is in the last part only, so the other fields are empty. Witnesses for DROP COLUMN, keys of an added column, UNIQUE and quotes. C138_drop_never_fails: for every accepted query the dropped column is reported with DROP or DROPCOLUMN in front of its written name. | partial |
| C139 | Every token of an accepted query is accounted for | Whole | Induction over the preferred derivation (`Chosen`) of the start rule: each part is a semicolon, a statement with a handler (whose tokens then say what C131 to C138 state) or one of the kinds without a handler, whose first tokens are read off the grammar. | partial |
| C140 | The schema of a query's result has one column per selector | RsSchema | Induction over the selection list against `SelectorColumn` (first column of that name; data type of a call). Witnesses for `*`, NOW() and a function name in small letters. | partial |
| C141 | An option that cannot be applied is reported | RsOptions, RsSchema | Induction over the options, any state and any option type: the strict loop fails exactly at a failing option; the lenient loop equals the strict one on the options that do not fail. `C141_resultset_exact` and `C141_schema_exact` name the options that are refused without the functions of the model. | partial |
| C142 | Options that concern different things can be given in any order | RsOptions, RsSchema, Universal | Swapping two neighbouring options that are apart commutes; lifted to permutations by induction. `Apart` says which part an option sets and which it reads. Witnesses for orders that differ. `C142_selectors_fails` is the failure for every list and table. `C142_resultset_parts` says of every part of a result set which option it comes from. | partial |
| C143 | IsFunction says whether a column has a function | RsSchema | Case distinction on the two kinds of columns; every plain column made by the result-set package is a counterexample. | partial |
| C144 | A result-set column can be made from any column | RsSchema | Case distinction on the definition; panic exactly without one. | partial |
| C145 | The schema made from an object has its keys and types | ExactMore, RsSchema | Induction over the keys in the order of traversal; a swapped order is the counterexample. Schemas made from the same object in two orders are compared for all permutations. | partial |
| C146 | An aggregated result set needs a table schema, selectors and a source | RsSchema | The swapping lemma of C142 for the four options, then case distinction. | proved |
| C147 | Using a connection from several goroutines has no data race | ConnConc | Lock discipline as an inductive predicate on programs of field accesses; invariant over all executions: who holds the mutex is the only one past `Lock`. Witness executions for the flag of `Close` and the tracer context. | partial |
| C148 | The session methods of a connection take effect at once | ConnConc | Forward simulation: the linearization point is `Unlock`; while a goroutine holds the mutex, running the rest of its method alone would give what the session specification says. Other methods touch other fields only. | proved |
| C149 | Calls on connections and on the manager can always return | ConnConc | Under the lock discipline the goroutine that holds the lock can run to its end by itself, then any other; for the manager the writer and all readers leave one after the other first. | proved |
| C150 | A new connection has what its options say | ConnConc | Induction over the options. | proved |
| C151 | Tracing calls on a connection do not panic | ConnConc | Case distinction; every connection made without a tracer context is a counterexample. | partial |
| C152 | Closing the manager leaves no connection | CloseMeanwhile, ConnConc | Invariants over the concurrent executions of C58: the UUID map is keyed by UUID, only shrinks without adders, contains only listed connections after `Conns`, and none that was removed. Witness execution with a connection added meanwhile. `C152_any_fails`: after any history, and for any connection added meanwhile. | partial |
| C153 | Asking a function again gives the same | FnState | Functions and aggregators as objects of a heap; a history of calls keeps name, arguments, executor and aggregator (induction over the history). | partial |
| C154 | The type of a function does not change | FnState | Invariant: nothing the name gives has another type. Exact condition on the name; witness `max`. | partial |
| C155 | A function has what its options say | FnState, Universal | One lemma about options as a fold, for each field. Witness for the dropped aggregator. `C155_any_fails` is the failure for every function. | partial |
| C156 | Using the selectors of a statement again gives what a first use gives | FnState | Simulation of the heap by the value model of C49: between uses each function keeps its own aggregator, set up for it and for the GROUP BY last given. Exact: a use gives what a first use with the GROUP BY in force gives. | partial |
| C157 | Statements do not influence each other | FnState | From the exact theorem of C156, which is about histories of uses of several statements. | proved |
| C158 | Listing a directory gives exactly the files below it | Files, Universal, Unlisted | Mutual induction over directories and their entries, against an inductive `Below`. Witnesses for links and unreadable directories. `C158_any_link_fails` is the failure for every link. | partial |
| C159 | Listing a directory does not panic | Files | Same induction; exact condition for the panic. | partial |
| C160 | Listing by extension gives the files with that extension | Files, Universal | Induction over the reversed path; the extension is unique. `C160_exact` says which files are listed for every extension. | partial |
| C161 | Testing a directory runs every query of every matching file | Files, Unlisted | From C158 and C159, by induction over the list of files. The contents behind links are an inductive relation of the specification. Universal failure: a directory that cannot be listed gives the same test as an empty one, for every tree (mutual induction on trees and entries). | partial |
| C162 | Things made with options have what the last option of each kind gives | Options | Each constructor is a left fold of its options; each part is a projection that one kind of option sets, so the fold gives the last of that kind. | proved |
| C163 | A column made with options can be made and asked | Options, Universal | The loop stops with a panic exactly at a nil executor; otherwise a fold as in C162. Accessors by cases on the missing parts. `C163_any_fails` is the failure for every list of options without definition and literal. | partial |
| C164 | An ALTER TABLE made with options reports and shows its clauses | Options | Fold as in C162; the text is a join of words whose clauses are contiguous sublists. | partial |
| C165 | COPY options are honoured or refused | ExactMore, Options | Fold as in C162 with the words that name no format passed over. | partial |
| C166 | Columns and selectors convert into each other | Options | Induction over the lists. | proved |
| C167 | A parser answers each goroutine for its own query | ParserConc | A predicate on the rest of a program (what it leads to if nobody else uses the parser) is kept by every step; with calls apart, each parser has at most one goroutine inside, so the answer is that of the sequential parser object of C66. Ownership gives apartness by counting calls and returns. Wrong answers: executions built for any two queries. | partial |
| C168 | Parsers are free of data races | ParserConc | From the invariant of C167 at most one goroutine is inside a parser. Race: execution for any two queries. | partial |
| C169 | A function can be used by several goroutines | FnConc | Settled functions: every program reads only, by recursion on programs. One call settles since no name is that of an executor and of an aggregator. Race: execution for any function. | partial |
| C170 | First calls for executor and aggregator from several goroutines agree | FnConc | Rely-guarantee: a predicate on programs, for all sets of executors and references that others may write, kept by every step; never nil again after a write. Two aggregators: execution for any function. | partial |
| C171 | Reported statements can be read back | ReadBack | written-as theorems C130-C138 show that what is reported is printable, then C88; witnesses for the failures | partial |
| C172 | Parameters are reported as bind parameters | ReadBack | first-alternative parse never chooses bind_param (Lemmas/NoBind), then C130-C133; witness for the failure | partial |
| C173 | Applying a reported ALTER TABLE changes the schema as written | Migration | composition of the token description of ALTER TABLE (C138) with the schema calls; induction over scripts; the text of a keyword token comes from the lexer rules | partial |
| C174 | Written function calls compute what is written | Pipeline | the division of a list at its commas is unique, so the description of the written list (C135) determines the selectors; then C110, C26-C29, C44 and C49 | partial |
| C175 | Result-set schemas find columns as tables do | Lookups, Universal | `find?` against first-match specification; the case-sensitive lookup of result sets is a witness against the full statement `C175_case_iff` says for every spelling whether it is found. | partial |
| C176 | HasAggregator and HasExecutor say what the selection list has | Lookups | composition with C94 (executors pointwise); exact condition by `_iff` | partial |
| C177 | Cast functions return the cast of their argument | Lookups | by computation for every cast; arguments by name never reach it | partial |
| C178 | A table answers to its qualified name only | Lookups | C17 and character-wise comparison; only a dot folds to a dot | proved |
| C179 | A prepared statement with bound values is reported as the statement with the values in place | NeverReported, Prepared | a template relation with question marks for values is turned into a substitution of texts, joined piece by piece, then composed with C50 and the round trips C08-C10; universal counterexamples for quotes and question marks Universal failure: every value of every reported statement has paired quotes and bare ends, so a statement with another string value is never reported for any text. | partial |
| C180 | Conditions that are syntax errors whatever surrounds them | LongCond | The parser fails on the token sequences: for every derivation of a condition, what is left is rejected by everything that may follow (`BadCond`, `BadCmp` in Lemmas/LongCond, over the `No` calculus of Lemmas/Best). Texts are tied to tokens by the `Writing` lemmas; a condition tree is a chain of comparisons, so three comparisons start with two and a joining word. | proved |
| C181 | Names and values do not decide how a query is read | Blank | parsing commutes with erasing the texts of tokens (induction over the parser's fuel), and every visitor function gives equal outcomes up to names and values for equal erased trees; keywords and operators have one spelling up to case | proved |
| C182 | Bound strings do not decide how a query is read | Blank, Injection | C52 gives the tokens of the bound query, whose kinds do not depend on the strings; then C181 Failure in full: for every prepared statement with a string placeholder and every script there is a string that makes the bound query report the statement followed by the script, the rest of the line having become a comment (script_writing plus the comment token). | partial |
| C183 | Letter case changes nothing but letter case | Letters | The parse tree of the recased query is the recased parse tree, because the parser looks at the kinds of tokens only; by induction over the handlers of the visitor the objects made from a tree in capital letters are the objects of the tree, in capital letters. Types of functions and keys of CREATE TABLE are left out because the code compares them exactly (two `_fails` theorems). | partial |
| C184 | Appending to a row changes no row obtained earlier | Shared |  Invariant over the history: every row has its values, and a row of which no other was made shares its array only with rows that end before it; the case of two appends to one row is computed exactly cell by cell. | partial |
| C185 | Options given as a slice are applied and left alone | SharedOpts |  The effect of an append to the first n elements of a slice on the whole slice is computed cell by cell; the applied options follow from the law of append. | partial |
| C186 | Connections do not share their schemas | SharedConns |  Invariant over interleaved calls: slices of different connections are in different arrays or without room. The counterexample uses the exact law of two appends to one slice. | partial |
| C187 | The list of registered names is the caller's to use | SharedNames |  The list is a composite literal and so has no room; appends never write to it. Assignments do. | partial |
| C188 | Words after a complete statement are refused | Trailing, TrailingDml, TrailingTable |  For every statement rule it is shown by the refusal calculus (`No`, Lemmas/LongCond and MoreNo) that no parse of the rule, whichever alternatives and optional parts are taken, ends where the rest begins with another token than those listed; the lists of tokens are in Props/Trailing and the first of them is proved to be the set of tokens that can begin a statement. The text side comes from the writing lemmas of C105.  For SELECT, INSERT, UPDATE and DELETE a name after the text is refused too (`C188_insert`, `C188_update`, `C188_delete`, `C188_select_partial`, together `C188_name_partial`): the continuation lemmas of C180 and C08 (`No`) are applied to a tail that begins with an identifier, for both of the rules of UPDATE and of DELETE and both ways to read the rows of an INSERT. A SELECT without any clause is left out, since a name after it is an alias of the table, and so is one with GROUP BY. CREATE TABLE with anything balanced between its parentheses (C188_create): the grammar rules keep parentheses balanced (level_sound), so the matching closing parenthesis is the same in all readings and only what follows it decides; the printed texts (C188_table) and renames (C188_rename) are instances. | partial |
| C189 | Aliases are not part of names | Aliases |  The grammar is followed as for C08, with the alias of each table and of each selected item read by the optional part of its rule; the visitor takes the text of the whole part, so the alias belongs to the name (negative theorems for all SELECT, UPDATE and DELETE statements of the modelled kinds), while INSERT and function calls take the text of the name alone (positive theorems). | partial |
| C190 | Clauses are not ignored | Clauses |  Statements with the extra clauses are given tokens of their own in Spec/Clauses.lean. Lemmas/Clauses.lean shows that the first parse of these tokens is the tree of the statement with the extra subtrees at its end, by the same First calculus as for plain statements, and that the visitor reads the same values from it. C190_returning_fails and C190_group_fails say that the reports are equal to those of the statements without the clauses; C190_group_exact says that the first column of GROUP BY is all that is kept of it. | partial |
| C191 | Rows without a schema keep their values in order | Unnamed |  The keys of the object are shown to be the numerals from 1 on (numerals are those of Lean, Nat.repr), merge sort gives a strictly ascending permutation of them, and the least two of ten or more numerals as texts are 1 and 10. C191_back_iff says that the order survives exactly up to nine values. | partial |
| C192 | Asking a selection list does not change it | Asking |  By induction on the selection list: `Executor` and `Aggregator` of a function change only its cached executor or aggregator and its type, so selectors stay alike and both questions are idempotent; executor types are never the aggregate type, so asking for executors first changes nothing (`C192_executors_first`). Asking for aggregators first sets the type of every function to aggregate (`C192_aggregators_first_fails`), which matters for names not written in capitals (`C192_before_fails`); `C192_known_partial` is the remaining case. | partial |
| C193 | The text of an error tells what it is about | ErrorTexts |  The fixed texts are tabulated in Spec/ErrorTexts.lean; two texts around arbitrary things differ if neither beginning is a prefix of the other, or neither end a suffix of the other (`clash_ne`), which is checked for all pairs of the finitely many kinds. The two numbers are recovered by cutting at the first closing bracket. | partial |
| C194 | The last option of a kind decides about an executor | ExecOptions |  Folding the options is related to the last option of each kind by induction on the list. | proved |
| C195 | The words a statement begins with decide what it is reported as | FirstWord |  Every rule for a statement begins with its verb: for the rules with a WITH clause by the computed sets of first tokens, for those about tables, databases and indexes by taking the rule apart. With the stretches of tokens of C120 this gives the verb of every reported statement, and the keyword rules of the lexer give its letters. | proved |
| C196 | Several goroutines can aggregate into one aggregator | AggrConc |  AggregateRow is a program of single reads and writes of the accumulators and the count; a run of it without interruption is shown to be the sequential model. Calls that do not overlap are in turn by an invariant over executions. The bound on the count is an invariant with the list of goroutines that have not yet written it in their call. Two overlapping calls lose a value or a count for every one-column aggregator. | partial |

## Where the code and the properties disagree

Each line is a theorem; its text is the theorem's comment.

* `C02_escape_roundtrip_fails`: C02 as stated is false: a value that ends with a quote loses it.
* `C03_name_roundtrip_fails`: C03 as stated is false for identifiers ending in a stripped character (a call such as `f()`).
* `C06_grouping_fails`: C06 fails for every AND with an OR on its right: the condition that groups from the left has the same text, and where only the last comparison is true, only that condition is true.
* `C06_where_text_structure_fails`: C06 as stated is false: `a = 1 AND (b = 2 OR c = 3)` and `(a = 1 AND b = 2) OR c = 3` print alike.
* `C07_fails`: C07, negation: `it's` is printed as three tokens, and `"x"` loses its double quotes.
* `C08_fails`: C08 is false of the code: with both GROUP BY and ORDER BY the parser rejects the printed text, and with an offset alone as well; a table with a schema comes back with the schema in its name; no selectors come back as `*`; and a function made with a name in small letters has another type.
* `C08_refused_fails`: C08 for the SELECT statements whose clauses do not fit: with a term of the ordering without a direction, an offset without a limit, or a grouping besides an ordering or a limit, the text is a syntax error, whatever is selected from whatever tables under whatever condition.
* `C09_fails`: C09 is false of the code: the schema of the table is lost, a row with other column names comes back with those of the first row, and a nil value is printed as a text the parser rejects.
* `C09_longer_fails`: C09 is false of the code for all INSERT statements of the grammar with rows longer than the first one: what is read has no more values in any row than the first row has, and does not depend on the values beyond.
* `C10_fails`: C10 is false of the code: a condition of three comparisons is rejected, and an assignment of a function other than the arithmetic operators is printed as a text the parser rejects.
* `C10_function_fails`: C10 is false of the code for all UPDATE statements whose first assignment is a function with an executor that is a name, like ABS: the text is a syntax error, with a column as the first argument whatever follows, and without arguments if the condition is one of the grammar.
* `C13_drop_column_fails`: C13 as stated is false: dropping `b` from (a, b) keeps `b` and removes `a`.
* `C14_drop_index_fails`: C14 as stated is false: the only index of a schema cannot be dropped by its name.
* `C16_alter_atomic_fails`: C16 as stated is false: a statement that adds a column and renames the table fails and leaves the column added.
* `C16_column_left_fails`: C16 fails for every schema and every statement that adds a column, drops none and renames anything: it does not succeed, and the column is added.
* `C16_index_left_fails`: C16 fails for every schema and every statement that adds an index, drops none and renames anything: it does not succeed, and the index is added.
* `C19_set_definition_fails`: C19 as stated is false, first way: a failing conversion leaves the new definition in the column.
* `C19_unconverted_types_fails`: C19 as stated is false, second way: numeric types outside the converted ones accept any value unchanged.
* `C20_set_schema_atomic_fails`: C20 as stated is false: when the second column is unknown to the schema the first one has already been changed.
* `C22_column_def_fails`: C22 as stated is false: a definition with length 0 prints without a length and reads back as −1, and a list whose second token is not a parenthesis is accepted.
* `C22_length_fails`: C22 is false of the code for every length that is not positive, and not the one that stands for none: the text has no length, and its tokens are read as a definition without one.
* `C23_constraint_text_fails`: C23, the text, is false of combinations: they print nothing.
* `C24_has_function_fails`: C24 as stated is false, both ways: a function alone gives false, a plain column alone gives true.
* `C28_min_fails`: C28 (MIN) is false in general: for any number above the largest finite one (plus infinity), MIN of that single value is the largest finite number instead.
* `C30_merged_fails`: C30 is false of the code for every two rows whose group values have the same texts joined with commas: they make one result row, which shows the group values of the first and aggregates both, whatever the values are.
* `C31_fails`: C31 (and with it C30 and C34) is false in general: the tuples (`a,b`, `c`) and (`a`, `b,c`) are merged into one group, and which tuple the result shows depends on the row order.
* `C33_effect_fails`: What a row leaves behind that is rejected at a value that is no number, in every state without grouping: exactly the values before that one are accumulated, and the row is not counted.
* `C33_fails`: C33 is false in general: a rejected row adds its first value to SUM(x), SUM(y); and a rejected first row of a group adds a row for that group to the result.
* `C34_fails`: C34 is false in general with grouping: when two tuples share a text key, the tuple shown is that of the first row.
* `C34_merged_fails`: C34 is false of the code for every two rows whose group values differ but have the same texts joined with commas: in the one order the only result row shows the group values of the one, in the other order those of the other.
* `C36_descending_fails`: C36 (descending) is false in general: with a sorter that keeps every promise of `sort.Slice` (sorted under every strict weak order), two groups with different comparable numbers come out ascending, because the comparison given to the sorter puts every group before itself.
* `C37_fails`: C37 is false in general: `SUM(x), COUNT(x)` without grouping returns one column and two values.
* `C38_fails`: C38 is false in general: when the two aggregators' maps enumerate the groups in different orders (both are allowed), group `u` with SUM 7 is paired with the COUNT of group `v`.
* `C39_aggregator_names_fails`: C39 as stated is false: `SUMMARY` names the SUM aggregator.
* `C40_executor_lookup_fails`: C40 as stated is false: `LOG10` gives the natural logarithm, `PINK` gives PI.
* `C41_registered_fails`: C41 as stated is false: anything ending in `)` is a registered function.
* `C42_row_after_end_fails`: C42 is not met in one point: after Next has returned false, Row still returns the last row instead of an error.
* `C43_fails`: C43, negation: `%` of 5 and 0 panics instead of returning an error.
* `C45_fails`: C45, negation: with offset 1 and the largest limit the loop visits nothing, although the window has two rows.
* `C46_fails`: C46, negation: three rows with limit 1; Next returns true, then false, and Row still returns a row.
* `C47_fails`: C47, negation: a row built from an object without column b has nil at b's position but an error by its name; a row built from one value has nil by b's name but an error at its position.
* `C49_fails`: C49, negation: SELECT SUM(a), MAX(a) over the rows 1, 2, 3 gives 6 for the sum but null for the maximum.
* `C49_others_fails`: C49 is false of the code for every selection with two or more aggregate functions and no grouping: the value of every function but the first (and those with the same text) is null in the aggregated result set, whatever the rows are, also if the aggregate is a number.
* `C50_fails`: C50, negation: a value containing a question mark is itself taken for a placeholder by the next parameter, and a placeholder at the very start of the query is not seen.
* `C50_value_fails`: C50 is false of the code for every value with a question mark that is not the last: the value after it is written into it, and the placeholder meant for that value stays.
* `C51_fails`: C51, negation: a query with as many placeholders as parameters is refused when it begins with one, and a query with fewer is accepted when a value contains a question mark.
* `C51_start_fails`: C51 is false of the code for every query that begins with a placeholder and has no numbered ones: binding fails, however many placeholders it has.
* `C52_fails`: C52, negation: a bound string with a quote ends the literal early and the rest of it is read as SQL.
* `C53_digits_fails`: C53 is false of the code for every placeholder `$1` behind one that begins with the same digit, `$10` or `$1` itself: the value of `$1` is written into the first, whose other digits stay behind it, and `$1` stays.
* `C53_fails`: C53, negation: `$10` standing before `$1` is damaged, and a repeated placeholder is replaced only once.
* `C54_fails`: C54, negation: removing a connection whose AddConn was refused because of its id takes the id entry of the managed connection away; that one is then found by UUID but not by id.
* `C56_fails`: C56, negation: after replacing a connection by one with another id and UUID, the new one is not found under its own keys but under the old ones, and removing it leaves it managed.
* `C58_fails`: C58, negation: two goroutines removing by id while a connection with that id is added again can leave the new connection found by UUID but not by id, a history that no order of atomic calls explains.
* `C60_fails`: C60, negation for connections created with repeated schema names: they stay repeated.
* `C61_fails`: C61 fails: the row of the table "users" does not carry that name.
* `C65_empty_fails`: C65 is false of the code: without a database and tables the query is accepted, but the word WHERE has become part of the table name, so that the query is none of the information schema any more, and it cannot be traversed.
* `C65_fails`: C65 is false of the code: two tables give a query the parser rejects, so does a table without a database, and so does a database name with a quote.
* `C65_several_fails`: C65 for names without quote characters: several tables never make a statement.
* `C65_without_database_fails`: C65: a table without a database never makes a statement, whatever the names of the tables are.
* `C66_ever_after_fails`: C66 fails for every history with a syntax error: every query that a new parser answers with statements, the old one answers with an error, and it stays so whatever it is asked in between.
* `C66_reuse_fails`: C66 is false of the code: after one syntax error the parser rejects a query that a new parser accepts.
* `C69_pairing_fails`: C69 is false of the code: a value that is not a literal is skipped, so that the next one is reported for its column; without a column list no value is reported at all.
* `C69_shift_fails`: C69 is false of the code for every row in which something other than a literal or comparison stands before a literal: what is reported for the column of the first such element is a later value.
* `C69_unlisted_fails`: C69 is false of the code for every INSERT without a column list: the rows are reported, each without any value.
* `C70_order_fails`: C70 is false of the code: of `ORDER BY b, c DESC` only the second term is reported.
* `C71_limit_fails`: C71 is false of the code for the second written form: `LIMIT m, n` (offset m, at most n rows) is reported with the two numbers exchanged, so correctly only if they are equal.
* `C73_fails`: C73, negation: SQRT of zero is rejected although zero is not negative.
* `C74_fails`: C74, negation: RAND can return exactly one. For every float arithmetic in which dividing the largest masked value by itself gives one, the random bytes 0xFFFFFFFFFFFFFFFF yield one, so the documented range [0,1) is left.
* `C76_fails`: C76, negation: two goroutines that both look at the flag before either has closed the network connection both close it.
* `C76_many_fails`: C76 is false of the code for any number of goroutines: `n` goroutines that all look at the flag before one of them has set it close the network connection `n` times, which with `C76_bound_partial` is the most there can be.
* `C77_fails`: C77 fails for three constructors, for every argument: they wrap nothing.
* `C77_no_table_fails`: C77 fails for a query without a table: whatever the query, the error is recognised as no condition at all, so it can be told from others by its text only; the text has the query in it.
* `C78_fails`: C78 fails: the error for something that exists and the error for something that does not are the same value, for every name.
* `C80_statements_fails`: C80 is false of the code: `DELETE FROM t WHERE a = 1 LIMIT 1` is accepted and no statement is returned; neither is one for PRAGMA.
* `C81_lost_fails`: C81 is false of the code for every condition in parentheses, every negated condition, and every test with IS, LIKE, IN, NOT IN, BETWEEN, ISNULL and NOTNULL, in SELECT, UPDATE and DELETE: the query is accepted, and the statement is reported without a condition, so for all rows.
* `C81_lost_same_fails`: Such a query is reported exactly as if its WHERE clause were not there.
* `C81_where_fails`: C81 is false of the code: these statements are accepted and returned without any condition, so for all rows.
* `C82_no_panic_fails`: C82 is false of the code: four queries of the grammar on which parsing panics.
* `C83_layout_fails`: C83 is false of the code: the empty text is an error, a blank is not.
* `C84_clauses_fails`: C84 is false of the code: EXPLAIN, DISTINCT, OR IGNORE and the second table of a join are accepted and leave no trace in the objects, and UNION is taken for the name of the table and splits the query in two.
* `C84_compound_fails`: C84 is false of the code for compound SELECTs. In any layout and whatever statements follow, a SELECT of any number of parts with UNION, UNION ALL, INTERSECT or EXCEPT between them, none of which ends with a table before such an operator, is accepted and reported exactly as the SELECT of its first part alone, with the ORDER BY and LIMIT that stand after the last part.
* `C84_compounds_fails`: Two compound SELECTs that agree in the first part and in what stands after the last give the same report, whatever the operators and the other parts are, and however many.
* `C84_join_fails`: C84 is false of the code for every join. In any layout and whatever statements follow, a SELECT from a table with others joined to it, by any number of JOIN, LEFT JOIN, INNER JOIN or CROSS JOIN with or without an ON condition, is accepted and reported exactly as the SELECT without a FROM clause: neither the first table, nor the joined ones, nor the conditions are reported.
* `C84_joins_fails`: Two SELECTs that agree but for the tables that they join, the words before JOIN and the ON conditions give the same report, so no program can tell from it what was joined.
* `C84_schema_fails`: C84 fails for the schema of the table of an INSERT: in any layout, and whatever statements follow, a query that begins with an INSERT is reported in the same way with any schema written before the table and without one.
* `C84_words_fails`: C84 is false of the code for every statement: with EXPLAIN or EXPLAIN QUERY PLAN in front of any statement, with DISTINCT or ALL in any SELECT, with any conflict clause in any INSERT or UPDATE, and with REPLACE for INSERT, the query is accepted and reported exactly as without these words.
* `C86_never_rejected_fails`: C86 fails for all statements: whenever two queries are accepted, so is every text whose tokens are those of the first and, with nothing between them, those of the second.
* `C86_separators_fails`: C86 is false of the code: two statements without anything between them are accepted as two.
* `C87_index_case_fails`: C87 is false of the code for INDEX in a table definition, which is lost in small letters, and for DROP in ALTER TABLE, which becomes part of the column's name.
* `C87_keyword_case_fails`: C87 is false of the code: `NULL` and `null` give different values.
* `C88_fails`: C88 is false of the code: a statement without text in its condition (a comparison with a nil literal) makes the whole script unreadable.
* `C89_fails`: C89 is false of the code: the query for three table names is rejected by the parser.
* `C90_fails`: C90, negation: LOG10 computes the natural logarithm, for every arithmetic and every positive argument.
* `C94_any_fails`: C94 is false as far as the aggregators of the aggregate functions are meant: every selection list with a function that is no aggregate function has no aggregators at all, whatever others are in it.
* `C94_mixed_fails`: C94, negation of "the aggregators of the aggregate functions": a selector list with an aggregate and another function has no aggregators at all.
* `C95_fails`: C95, negation: every negative position panics.
* `C96_fails`: C96, negation: the copy of a column with a function has none; the assignment `a = b + 1` is copied to one that prints as `a = `.
* `C97_case_fails`: C97, negation of the same for other letter cases: `sum` is accepted by the aggregator and executor lookups and counts as registered, but has no type, so a selector `sum(x)` does not count as an aggregate.
* `C97_spelling_fails`: C97 is false of the code for every other spelling of every documented function: the name is registered and its executor or aggregator is found, but it has no type.
* `C98_any_fails`: C98 is false of the code for every list of arguments: an aggregator is created of all of them, unless there is none.
* `C98_fails`: C98, negation: an aggregator of two arguments is created without an error, for every aggregate function.
* `C100_fails`: C100, negation: a name with a backquote is split, and the rest of it is read as SQL.
* `C101_fails`: C101, negation: SELECT, UPDATE and DELETE report a quoted table name with its quotes.
* `C101_kept_fails`: C101, negation, for every table name and every SELECT, UPDATE and DELETE of the kinds that are read back: each one with the table name in backquotes is accepted, whatever its other clauses are, and is about a table whose name has the backquotes in it. None is about the table of the plain name.
* `C102_fails`: C102 is false of the code: the constraints NOT NULL and UNIQUE are not reported; a type with a precision and scale is reported as unknown; a column of type BINARY is a syntax error; a column without a type, and one in backquotes that is called like a keyword, are not reported; an index is lost if its keyword is in small letters; an index on two columns is a syntax error; the columns of a primary key have no type; and the schema of the table is lost.
* `C102_never_fails`: C102 fails for every table with a schema or with constraints on its columns: in no CREATE TABLE that ParseString reports, for any query, does the table have a schema or any column a constraint; NOT NULL, UNIQUE and PRIMARY KEY tests are false of all columns.
* `C103_fails`: C103 is false of the code: DROP TABLE and CREATE INDEX lose the schema; TRUNCATE, VACUUM and CREATE INDEX reject a table with a schema, and COPY takes it as part of the name; the names of databases and of the tables of TRUNCATE keep their backquotes; CREATE UNIQUE INDEX is reported as a plain index; ROLLBACK TO a savepoint is reported as ROLLBACK.
* `C103_quotes_fails`: C103, negation for every name: CREATE, DROP and ALTER DATABASE, USE, TRUNCATE and VACUUM, in any layout and letter case, with the name in backquotes are accepted and report the name with its backquotes, never the plain one.
* `C104_drop_fails`: C104, negation for every column: in any layout and letter case, `ALTER TABLE t DROP c` reports a column to be dropped whose name is the word DROP with the written name behind it, never the written one.
* `C104_fails`: C104 is false of the code: DROP reports a column whose name is the whole clause; the name of a table and renamed columns keep their backquotes; a table of a schema as the new name is rejected; a UNIQUE key is reported as an index of an unknown kind; the PRIMARY KEY of an added column is lost; and an added column that is called like a keyword is not reported at all.
* `C104_quotes_fails`: C104, negation for every name: in any layout and letter case, an ALTER TABLE of a table in backquotes reports a table with the backquotes in its name, and renaming a column in backquotes reports a column with the backquotes in its name, whatever the rest of the statement is.
* `C105_create_index_fails`: C105 for CREATE INDEX: the text of the statement on a table with a schema is a syntax error, for all plain names of the table and the index, and whatever the columns and further indexes.
* `C105_fails`: C105 is false of the code for tables with schemas: DROP TABLE loses the schema, and the texts of TRUNCATE, VACUUM and CREATE INDEX are rejected; it is false for a CREATE INDEX without an index, and for DROP TABLE without tables.
* `C105_vacuum_fails`: C105 for VACUUM: the text of the statement on a table with a schema is a syntax error, for all plain names.
* `C106_fails`: C106 is false of the code: dropping a column comes back with the keyword in the name of the column; dropping an index is not printed at all, which leaves a text that is rejected; the name of an added primary key is lost; an added column with a constraint comes back as a column named `NOT`; a column without definition makes the printer panic; and of two changes the second makes the text unreadable.
* `C106_lost_fails`: C106 fails for every removal of a column, every named primary key, and every change with which an index is dropped, of the kinds of `C106_exact`.
* `C106_refused_fails`: C106 fails for all these statements, with plain names: without a change that has a text, for example when only an index is dropped; when the table gets a name with a schema, whatever else is changed; and when a table or a column is renamed and there is another change behind it. If the statement has a text, it is a syntax error.
* `C107_fails`: C107 is false of the code: an index on two columns and a column of type BINARY make a text that is rejected; a DOUBLE PRECISION comes back as DOUBLE; constraints are not printed; a length of 0 comes back as −1; a column without definition is lost; the columns of a primary key lose their definitions; a table of a schema loses it; and a table without columns has a text that is rejected.
* `C107_lost_fails`: C107 fails for every table of a schema, every table with a constraint on a column, and every table with a column of length zero, of the kinds of `C107_exact`.
* `C109_drop_index_every_fails`: C109, negation for every index and every schema: no ALTER TABLE statement made of a DROP INDEX removes an index of the name it is about. On a schema with that index it is an error, or another index is lost.
* `C109_drop_index_fails`: C109 is false for DROP INDEX: applied to a schema with the index it is an error, and the text of the ALTER TABLE statement does not mention the index at all.
* `C111_fails`: C111 is false of the code as far as a failure should change nothing: with one value and two destinations the first one is overwritten before the error.
* `C111_short_fails`: C111 is false as far as a failure should change nothing, for every row and all destinations of which there are more than values: if each value converts, the scan is an error, but every destination that has a value holds it.
* `C112_update_fails`: C112 is false of UPDATE: the column of an assignment that is neither a literal nor an operation on a column has no value (and no function either), so that asking for its value panics.
* `C113_fails`: C113 as stated is false: a Go `int` gets the 32-bit type INT, and a `uint8` a type that ends at 127.
* `C114_any_fails`: C114 as stated is false for every selection list with a function that has no executor, every aggregate function for instance: asking for the executors of whatever type is an error, whatever executors the others have.
* `C114_by_type_fails`: C114 as stated is false: `SELECT ABS(a), SUM(b)` has the executor of ABS, but asking for the mathematical executors is an error because of the aggregate function.
* `C115_fails`: C115 as stated is false: a group column whose name has a comma is read as two.
* `C116_asterisk_fails`: C116 is false for every asterisk: no column of the selection list of a reported SELECT is recognised as an asterisk by `IsAsterisk`, the selector `*` included. For all queries, whatever safecast's comparison is.
* `C116_fails`: C116 is false of the code: the asterisk of `SELECT *` is not recognised by the column's `IsAsterisk`, a text literal `'?'` is taken for a placeholder, and the placeholder `$1` is not. Whatever safecast's comparison is, as long as it compares texts.
* `C116_value_fails`: C116 is false of the code for values, too: among the literals of an INSERT exactly those written `*`, and the string literal of this one character, which is no asterisk, are taken for asterisks.
* `C118_fails`: C118 as stated is false: a caller holding the column list `[a, b, c]` of a schema sees `[b, c, c]` in it after `DropColumn("c")` (which removes `a`).
* `C119_fails`: C119 as stated is false: a column with the value 1 has the value 2 after the value of its copy is set to 2.
* `C121_fails`: C121: not every declared column is reported: a quoted column named like one of these words is left out, a column without a type is left out, and neither is an error.
* `C122_fails`: C122: a primary key can be on a column the table does not have; keys written in small letters, without a name, on an unknown column, before the column, or UNIQUE are left out; and none of this is an error.
* `C122_primary_fails`: C122, negation for every PRIMARY KEY (...): none of the columns of the reported key is a column of the table unless that column has an unknown type, whatever columns the table declares.
* `C123_fails`: C123 is false of the code: a caller that reads its rows into one array sees the last group values in every group: the groups `a` and `b` are reported as `b` and `b`.
* `C123_one_array_fails`: C123 fails for every caller that passes all rows of a grouped aggregation in one array: whatever it wrote into the array before each call, every row of the result begins with the group values that are in the array at the end, so all groups are shown as the same.
* `C124_fails`: C124 is false of the code in the default mode, which all the tests of the repository use: a DELETE whose condition is lost by the parser, and which therefore deletes all rows, passes; so does a SELECT whose ORDER BY is lost. In the strict mode both fail.
* `C125_fails`: C125 is false of the code: the text of a statement that drops a column, and that of one that renames a table and also a column, fail.
* `C127_fails`: C127 is false of the code: a query that is accepted without a statement, such as a PRAGMA or an empty line, makes the helper panic if it only parses.
* `C128_comment_fails`: C128 fails for every query after a comment: if the text between two semicolons begins with `#`, perhaps after line ends and then spaces, nothing of it is tested, whatever lines follow the comment.
* `C128_fails`: C128 is false of the code: a query after a line with a comment is not tested, a query with a semicolon in a string is cut in two, and the line ends of other systems are tested as a query.
* `C132_fails`: C132 fails: the value of an assignment written in parentheses is missing from the reported UPDATE.
* `C132_lost_fails`: C132 is false of the code for every assignment whose value is a column, a call, a list in parentheses, two literals with `||`, a condition or a test, in every UPDATE: the query is accepted, and the column is reported without a value.
* `C133_comparison_fails`: C133 is false of the code for every row with a comparison: it is reported as a value of the column it names, whatever its operator and whether the column is in the list or not, behind the pairs of the literals before it.
* `C133_fails`: C133 fails: a comparison among the values is reported as an assignment to the column it names, whatever its operator, and the next value moves to the first column.
* `C135_fails`: C135 fails: the alias behind a function call and the second group are missing from the reported SELECT.
* `C135_join_fails`: C135 fails: a join reports no tables at all.
* `C136_fails`: C136 fails: with AUTO_INCREMENT behind it, the primary key of a column is not reported.
* `C136_lower_fails`: C136 fails: a primary key in lower case with further columns behind it is not reported, and neither is a unique key.
* `C136_temp_fails`: C136 is false of the code for every CREATE TABLE with a schema name or one of the words TEMP and TEMPORARY: it is reported exactly as the permanent table of that name without schema.
* `C136_type_fails`: C136 fails: a type with two numbers is reported as unknown, and a length behind two words is not reported.
* `C137_parts_fails`: C137 is false of the code for every statement of these forms: UNIQUE, the schema name and the condition of any CREATE INDEX, TEMP, TEMPORARY and the schema name of any CREATE TABLE, the schema name and CASCADE of any DROP TABLE, the schema name of ALTER DATABASE, the kind and the name of a transaction, the savepoint of ROLLBACK, and ANALYZE and the file of VACUUM are not reported. The query is accepted and reported exactly as without these parts, whatever statements follow.
* `C137_quotes_fails`: C137 fails: the quotes of a name stay in the name reported by USE and TRUNCATE.
* `C137_savepoint_fails`: C137 fails: rolling back to a savepoint is reported as rolling back the whole transaction.
* `C137_schema_fails`: C137 fails: DROP TABLE of a table of another schema is reported as one of the table of that name.
* `C137_unique_fails`: C137 fails: a UNIQUE index is reported like an ordinary one, with the schema name lost.
* `C138_add_key_fails`: C138 fails: the primary key of an added column is not reported.
* `C138_drop_column_fails`: C138 fails: dropping a column is reported as dropping a column that is named by the whole clause.
* `C138_drop_never_fails`: C138 fails for every dropped column: in every accepted query, the column that a reported ALTER TABLE drops has the written name with DROP or DROPCOLUMN in front of it, in the case in which that was written, and so never the written name.
* `C138_quotes_fails`: C138 fails: a quoted table name is reported with its quotes, a quoted new name without them.
* `C138_unique_fails`: C138 fails: an added UNIQUE constraint is reported as an index of unknown kind.
* `C139_skipped_fails`: C139 fails: three of the four statements of this query are accepted and not reported.
* `C140_star_fails`: C140 fails: the selection lists `*`, `NOW()` and, the name of the function being in small letters, `max(a)` are refused.
* `C141_empty_fails`: C141 fails: the schema of `SELECT *` on a table, made with `NewSchema`, silently has no columns.
* `C141_resultset_silent_fails`: C141 fails for all options: `NewResultSet` never reports an error either.
* `C141_schema_silent_fails`: C141 fails for all options: `NewSchema` never reports an error. What it makes is what `NewSchemaFrom` makes of the options that do not fail, all of them if none fails.
* `C142_rows_fails`: C142 fails: rows given as maps before the schema have no schema of their own, so that their values come in the order of their names instead of that of the columns.
* `C142_schema_fails`: C142 fails: the selection list given before the table schema is refused, and `NewSchema` then leaves it out.
* `C142_selectors_fails`: C142 is false of the code for every selection list and every table: the list before the table is refused, and `NewSchema` leaves it out.
* `C143_fails`: C143 fails: a plain column of a result set says it is a function, and has none.
* `C144_fails`: C144 fails: a column of a selection list makes it panic.
* `C144_text_fails`: C144 fails for the definition text: for every column with a length, the text of the column made from it lacks the length.
* `C145_order_fails`: C145 fails: the same object, its keys met in another order, gives another schema.
* `C147_fails`: C147 fails: one goroutine closes the connection and sets the flag while another, closing it as well, looks at it; and two goroutines may use the tracer context at once.
* `C151_fails`: C151 fails: on every connection made without a tracer context, whatever else it is made with, they panic until one is set.
* `C152_any_fails`: C152 fails for every connection: after any history, when the lock is free, one goroutine may ask for the connections, get all of them in any order, and remove each of them, and yet a connection that another goroutine has added meanwhile, whichever it is, is there at the end. Both goroutines have finished, and every call has succeeded.
* `C152_fails`: C152 fails: a connection that is added between the time when the list was made and the end of Close stays in the manager.
* `C153_refused_fails`: C153, negation of the rest: `COUNT()` has no aggregator until one was asked for with a group column.
* `C154_fails`: C154, negation: `max(x)` is no aggregate until its aggregator is asked for, and then is one.
* `C155_aggregator_fails`: C155, negation of the rest: a function made with an aggregator `SUM(x)` and no arguments of its own has no aggregator; made with the arguments too, it returns an aggregator, but another one than it was given.
* `C155_any_fails`: C155 is false of the code for every function and every aggregator given to it: what `Aggregator` returns first, if anything, is a new aggregator and none of those there were.
* `C156_group_fails`: C156, negation: `SELECT SUM(a)` gives a result; after it was used with a GROUP BY, the same use is an error.
* `C156_type_fails`: C156, negation: `SELECT SUM(a), max(a)` gives a result set without columns when it is used for the first time, and one with two columns when it is used for the second time.
* `C158_any_link_fails`: C158 is false of the code for every directory given as a symbolic link: the link itself is listed, and nothing of what is in the directory.
* `C158_closed_fails`: C158, negation: files in a directory that cannot be listed are left out without an error.
* `C158_link_fails`: C158, negation: a directory given as a symbolic link is accepted, but instead of the files in it the link itself is listed.
* `C158_unlisted_fails`: C158 fails for every tree with a directory that cannot be listed: by listing, with an extension or an expression or without, such a directory cannot be told from an empty one; no error is reported for it.
* `C159_fails`: C159, negation: a file that is removed after its directory was read makes the listing panic.
* `C160_fails`: C160, negation: asked for the extension `sql`, files with the extension `.mysql` are listed too.
* `C161_fails`: C161, negation: a test passes although the only directory with queries could not be listed.
* `C161_unlisted_fails`: C161 fails for every tree with a directory that cannot be listed: the test of the tree runs the same queries and reports the same as the test of the tree in which it is empty.
* `C163_any_fails`: C163 is false of the code for every list of options that has neither a definition nor a literal in it: if the column can be made at all, asking for its data type, size, constraints, value or value type panics.
* `C163_fails`: C163 fails: a column made from its name alone, as every column of a selection list, panics when asked for its data type or value; and the arguments given together with an executor are not those of the function the column reports.
* `C164_fails`: C164 fails: two ALTER TABLEs that drop different things have the same text, which moreover says nothing is to be done.
* `C165_any_fails`: C165 fails for every word that names no format: the COPY is made with the format of the options before it, TEXT if they name none.
* `C165_fails`: C165 fails: a misspelt format is not refused but read as TEXT.
* `C167_fails`: C167 is false of the code: a goroutine that passed `BEGIN` to a parser is answered with the statement of another goroutine's `COMMIT`.
* `C168_fails`: C168 is false of the code, for two queries.
* `C169_fails`: C169 is false of the code, for `ABS(a)`.
* `C170_fails`: C170 is false of the code, for `SUM(a)`.
* `C171_fails`: C171 fails: the text of a statement that the parser reported need not be read as that statement. A function named in small letters gets another type, a lost value makes the text wrong, a key on a column loses the type of the column, and the name of a dropped column grows.
* `C171_name_fails`: C171 fails for quoted names that lose their quotes: INSERT and DROP TABLE report the name without its backquotes, and their text has it without them.
* `C172_fails`: C172 fails: a parameter is reported as an untyped text, in the same way as a number; no bind parameter is made of it.
* `C173_drop_column_fails`: C173 fails for every dropped column: whichever column is written behind DROP, applying the reported statement to a schema whose first column is not named `DROP…` removes that first column.
* `C173_rename_fails`: C173 fails for every renaming: applying it to any schema is an error and changes nothing.
* `C174_case_fails`: C174 fails for other letter cases: when no call of the written selection list has the name of an aggregate function in upper case, `select sum(a)` for instance, the aggregated result set of the SELECT is the source itself, with all of its rows.
* `C175_case_fails`: C175 fails: a table finds its column `a` under the name `A`, and the result-set schema made from the table and from a query that asks for `A` has a column, but it does not find it under the name that the query uses.
* `C176_fails`: C176 as stated fails: with one function that is unknown the answer is no, though the list has a function with an executor; and asking for the executors gives none of them.
* `C177_map_fails`: C177 fails for arguments given by name: a cast function has no argument names, and there is no option to give it any, so on a map or an object it is always an error, whatever the cast and whatever the map.
* `C179_injection_fails`: C179 fails when a string has quotes, whatever the names are, as long as they have no question mark: a string that closes its quotes adds a condition.
* `C179_mark_fails`: C179 fails when a string that is not the last one has a question mark, whatever the names are, as long as they have none: the next value is put into the string, and its own placeholder stays in the condition.
* `C179_name_fails`: C179 fails when a quoted name has a question mark: the value is put into the name, and its own placeholder stays in the condition.
* `C179_never_fails`: C179 fails for every string with a quote that is not doubled, and for every string that begins or ends with a quote character: a statement with such a value is never reported, for no query text, so for none that binding gives.
* `C179_quote_fails`: C179 fails for a string with one quote: nothing can be parsed. With the quote doubled, both quotes are reported.
* `C182_dropped_fails`: Without further statements: the condition after the placeholder is dropped.
* `C182_injection_fails`: C182 fails for strings with quotes, whatever the names are, as long as they have no question mark: with some strings the condition has one comparison, with others it has two.
* `C182_script_fails`: C52, C179 and C182 fail as badly as they can: if a query has a placeholder where a string belongs, then for any statements there is a string with which the bound query is the beginning of the query followed by these statements, and all that follows the placeholder is dropped, as long as it has no further placeholder and no line break.
* `C183_keys_fails`: C183 fails for the keys of CREATE TABLE: in small letters they are lost.
* `C183_types_fails`: C183 fails for the types of functions: in small letters they are not known.
* `C184_fails`: C184 is false of the code for all values: of a row that was appended to, with room to spare, two rows are made; the first of them has the value of the second one.
* `C185_fails`: C185 is false of the code for all options: given the first `n` of more options, `Executor` and `Aggregator` put the option for their arguments in the place of the next one of the caller's options.
* `C186_assign_fails`: C186 is false of the code for all schemas: what the caller assigns to an element of the slice that a connection was created with becomes a schema of the connection.
* `C186_fails`: C186 is false of the code for all schemas: two connections are created with the same slice, which has room; a schema `a` is set on the first and another one `b` on the second. Then the first connection has the schema `b` instead of `a`.
* `C187_fails`: C187 is false of the code for every name: after the caller assigns the name, in upper case, to any element of what `RegisteredFunctionNames` returned, `IsRegisteredFunction` answers that the name is registered.
* `C187_lost_fails`: C187 is false of the code: after an assignment to its element of what `RegisteredFunctionNames` returned, a function of the library is not registered.
* `C189_confused_fails`: C189 is false of the code for SELECT also in this way: two SELECTs from tables whose schemas and texts are the same are reported in the same way, wherever the names end and the aliases begin.
* `C189_delete_fails`: C189 is false of the code for DELETE: a table with an alias is reported under its name with AS and the alias run into it, which is not its name.
* `C189_select_fails`: C189 is false of the code for SELECT. In any layout, with any other clauses and whatever statements follow, a SELECT whose tables and columns have aliases is accepted, and the name that it reports for each table and for each selected column is the written name with the alias, and the word AS if it is there, run into it. So no table and no column with an alias is reported under its written name.
* `C189_update_fails`: C189 is false of the code for UPDATE: a table with an alias is reported under its name with AS and the alias run into it, which is not its name.
* `C190_group_fails`: C190 is false of the code for GROUP BY and HAVING. A SELECT that is grouped by more columns than one, or that has a HAVING clause, or both, is accepted and reported exactly as the SELECT that is grouped by the first column only and has no HAVING clause.
* `C190_returning_fails`: C190 is false of the code for RETURNING and ON CONFLICT DO NOTHING. In any layout and whatever statements follow, an INSERT, UPDATE or DELETE that ends with such a clause is accepted and reported exactly as the same statement without it.
* `C191_back_fails`: C191 is false of the code for ten values and more: in a row built from the object of a row of these values, there are as many values, and the second of them is the tenth of the given ones, because the names are sorted as texts, 10 before 2.
* `C192_aggregators_first_fails`: C192 is false of the code for asking for the aggregators first. Whatever functions a selection list consists of, if none was asked before and all have aggregators, then afterwards every one of them counts as an aggregate function: the list has an aggregate function if it has a function at all, and asking for the executors gives no executors and no error.
* `C192_before_fails`: Before that, the same list may have had no aggregate function, and asking for its executors may have been an error: the type of a function is taken from its name as written, so `sum(a)` is not known as an aggregate function until its aggregator is asked for.
* `C193_general_fails`: C193 is false for the general constructors: the text of `NewErrNotSupported` can be that of another kind about another thing, for every thing, and the text for something that exists says that it does not.
* `C196_count_fails`: And of two rows counted at the same time one can be lost in the count, although both calls return without an error.
* `C196_fails`: C196 is false of the code: SUM of 3 and 4 can be 3, and COUNT of two rows 1.
* `C196_value_fails`: C196 is false of the code, whatever the aggregator: of two rows aggregated at the same time one can be lost in the accumulator, although both calls return without an error and both rows are counted. An AVG is then wrong too.

## Trusted base

* The Lean 4.33.0 kernel. There are no axioms of our own, no `sorry`, no `native_decide`, no `bv_decide`. The axioms of
  every property theorem are listed at the end.
* `krfl` closes a goal `a = b` with the term `Eq.refl a` without an elaborator check; the kernel then checks it as any
  other term. It adds nothing to the trusted base. `decide +kernel` likewise evaluates in the kernel.
* The hand translation from Go to Lean (citations in every definition) and the conventions above.
* That ANTLR takes the first complete parse, and the two validation runs above.

## Mutation testing

The model was edited in a scratch copy as realistic bugs would edit it (wrong boundary, missed case, swapped argument,
dropped update), one edit at a time, and rebuilt. `seeded/LOG.jsonl` has one line per edit, with the theorems that
failed. Where an edit broke a claim and everything still proved, theorems were added or strengthened (field
`tightened`) and the edit was repeated. Survivors that are left are equivalent edits; their lines say why.

## Axioms of the property theorems

By `#print axioms`.

### none (28)

`C02_escape_roundtrip_fails`, `C03_name_roundtrip_fails`, `C13_drop_column_fails`, `C14_drop_index_fails`, `C40_executor_lookup_fails`, `C54_fails`, `C56_fails`, `C60_database`, `C60_fails`, `C76_fails`, `C77_fails`, `C77_no_table_fails`, `C78_fails`, `C97_case_fails`, `C108_names`, `C113_fails`, `C115_fails`, `C128_fails`, `C141_resultset_silent_fails`, `C142_rows_fails`, `C143_fails`, `C152_fails`, `C158_closed_fails`, `C159_fails`, `C160_fails`, `C163_fails`, `C165_fails`, `C187_lost_fails`

### propext (115)

`C19_set_definition_fails`, `C19_unconverted_types_fails`, `C23_constraint_text_partial`, `C28_min_fails`, `C32_reset_keeps`, `C35_finalize_pure`, `C39_aggregator_names_fails`, `C56_error_iff`, `C59_closed`, `C65_empty_fails`, `C65_fails`, `C66_reuse_fails`, `C69_pairing_fails`, `C70_order_fails`, `C80_statements_fails`, `C81_where_fails`, `C82_no_panic_fails`, `C83_layout_fails`, `C84_clauses_fails`, `C86_separators_fails`, `C87_index_case_fails`, `C87_keyword_case_fails`, `C89_fails`, `C94_mixed_fails`, `C98_any_fails`, `C98_fails`, `C99_text`, `C100_fails`, `C101_fails`, `C102_fails`, `C103_fails`, `C104_fails`, `C109_refused`, `C112_update_fails`, `C113_class`, `C113_fits_iff`, `C113_supported`, `C114_by_type_fails`, `C115_text`, `C116_fails`, `C118_fails`, `C119_fails`, `C119_partial`, `C121_fails`, `C122_fails`, `C129_last_option`, `C132_fails`, `C133_fails`, `C133_row`, `C135_columns`, `C135_fails`, `C135_join_fails`, `C136_fails`, `C136_lower_fails`, `C136_type_fails`, `C137_quotes_fails`, `C137_savepoint_fails`, `C137_schema_fails`, `C137_unique_fails`, `C138_add_key_fails`, `C138_drop_column_fails`, `C138_quotes_fails`, `C138_unique_fails`, `C139_skipped_fails`, `C140_star_fails`, `C141_empty_fails`, `C141_resultset_exact`, `C141_resultset_partial`, `C141_schema_partial`, `C141_schema_silent_fails`, `C142_schema_fails`, `C142_selectors_fails`, `C144_columns`, `C144_fails`, `C144_own`, `C144_panic_iff`, `C145_order_fails`, `C147_fails`, `C147_race_partial`, `C148_linearizable`, `C149_connection`, `C150_options`, `C151_span_partial`, `C158_link_fails`, `C158_unlisted_fails`, `C160_ext`, `C161_fails`, `C161_unlisted_fails`, `C162_parts`, `C162_rows`, `C162_select`, `C162_statement`, `C163_answers_partial`, `C163_any_fails`, `C163_asked`, `C163_options`, `C164_reported`, `C165_any_fails`, `C165_options`, `C166_asterisk`, `C166_back`, `C172_fails`, `C175_case_fails`, `C176_fails`, `C177_cast_partial`, `C177_map_fails`, `C183_keys_fails`, `C183_types_fails`, `C192_aggregators`, `C192_before_fails`, `C192_executors`, `C192_executors_first`, `C192_known_partial`, `C193_general_fails`, `C193_text`

### propext, Quot.sound (213)

`C01_stack_lifo`, `C02_escape_roundtrip_iff`, `C02_escape_roundtrip_partial`, `C03_name_roundtrip_iff`, `C03_name_roundtrip_partial`, `C03_unescape_idempotent`, `C05_order_text_injective`, `C06_grouping_fails`, `C06_where_text_structure_fails`, `C06_where_text_structure_partial`, `C07_fails`, `C08_fails`, `C09_fails`, `C10_fails`, `C15_add_extends`, `C16_alter_atomic_fails`, `C16_alter_sequence`, `C16_rename_refused`, `C17_full_table_name`, `C19_exact`, `C19_set_definition_partial`, `C22_column_def_fails`, `C23_constraint_flags`, `C23_constraint_text_fails`, `C24_has_function_fails`, `C24_has_function_iff`, `C25_is_asterisk`, `C31_fails`, `C32_reset`, `C33_early_partial`, `C33_effect_fails`, `C33_fails`, `C33_sum_iff`, `C34_fails`, `C36_descending_fails`, `C37_fails`, `C38_fails`, `C40_log10_unreachable`, `C41_registered_fails`, `C42_iterates`, `C42_map`, `C42_row_after_end_fails`, `C43_arg_count`, `C43_fails`, `C43_no_panic_partial`, `C43_panic_iff`, `C44_by_name`, `C44_object`, `C44_values_exist`, `C45_diverges`, `C45_fails`, `C46_after_false_iff`, `C46_before_next`, `C46_fails`, `C46_no_limit_partial`, `C47_agree_iff`, `C47_agree_partial`, `C47_fails`, `C47_from_object`, `C47_from_values`, `C47_result_rows`, `C47_stable`, `C48_built_iff`, `C48_values`, `C49_fails`, `C50_bind_partial`, `C50_fails`, `C51_error_iff_partial`, `C51_fails`, `C51_no_text`, `C52_fails`, `C53_fails`, `C55_added`, `C55_duplicate`, `C55_history`, `C56_iff`, `C56_update_partial`, `C58_fails`, `C59_close`, `C60_schemas_partial`, `C61_fails`, `C64_error`, `C72_distinct`, `C72_names`, `C73_fails`, `C73_positive_partial`, `C74_fails`, `C74_range_partial`, `C75_cached`, `C75_own_arguments`, `C77_is_partial`, `C78_messages_partial`, `C88_fails`, `C90_constants`, `C90_fails`, `C90_remainder`, `C90_unary_partial`, `C91_operator`, `C91_same`, `C92_arg_count`, `C93_clauses`, `C93_panic_iff`, `C94_aggregators`, `C94_any_fails`, `C94_executors`, `C95_column_at_partial`, `C95_fails`, `C96_columns_iff`, `C96_columns_partial`, `C96_copy_iff`, `C96_copy_partial`, `C96_fails`, `C105_fails`, `C106_fails`, `C107_fails`, `C108_kind`, `C108_text`, `C109_create_index_partial`, `C109_drop_index_fails`, `C109_drop_index_partial`, `C111_fails`, `C111_scan`, `C111_scan_at`, `C111_scan_by`, `C112_accessors`, `C114_any_fails`, `C114_by_type_partial`, `C115_aggregator_set`, `C115_names_iff`, `C118_additions_partial`, `C123_fails`, `C123_one_array_fails`, `C124_fails`, `C125_fails`, `C127_fails`, `C128_files_partial`, `C133_numbers`, `C135_call`, `C135_orders`, `C142_resultset_partial`, `C142_resultset_parts`, `C142_schema_partial`, `C143_function_iff`, `C143_query_partial`, `C144_column_partial`, `C144_text_fails`, `C144_text_partial`, `C145_object_partial`, `C145_order_iff`, `C146_required`, `C151_fails`, `C152_any_fails`, `C152_close_partial`, `C153_aggregator`, `C153_executor`, `C153_fixed`, `C153_refused_fails`, `C153_refused_partial`, `C154_fails`, `C155_aggregator_fails`, `C155_any_fails`, `C155_executor_partial`, `C155_options`, `C156_group_fails`, `C156_type_fails`, `C157_shared`, `C158_once_partial`, `C158_refused`, `C158_regexp_partial`, `C159_panic_iff`, `C160_exact`, `C160_listed_partial`, `C161_directory_partial`, `C161_file`, `C161_refused`, `C164_fails`, `C164_text_panic_iff`, `C164_text_partial`, `C165_format_partial`, `C166_columns`, `C166_names`, `C167_mixed`, `C167_own`, `C168_fails`, `C168_race`, `C169_fails`, `C169_race`, `C169_settled_partial`, `C170_aggregator_partial`, `C170_executor`, `C170_fails`, `C170_two`, `C171_fails`, `C171_name_fails`, `C175_result_set_partial`, `C175_rows_partial`, `C176_has_aggregator`, `C176_has_executor_iff`, `C176_has_executor_partial`, `C179_quote_fails`, `C184_fails`, `C185_applied`, `C186_assign_fails`, `C192_again`, `C192_aggregators_first_fails`, `C193_apart`, `C193_general_partial`, `C193_numbers`, `C194_bare`, `C194_builtin`, `C194_last`, `C194_own_arguments`, `C196_serial_partial`

### propext, Classical.choice, Quot.sound (361)

`C04_limit_text_injective`, `C06_text_iff`, `C06_written_partial`, `C07_string_literal_iff`, `C07_string_literal_partial`, `C08_accepted_iff`, `C08_exact`, `C08_iff`, `C08_refused_fails`, `C08_roundtrip_partial`, `C08_schemas`, `C08_schemas_iff`, `C09_exact`, `C09_iff`, `C09_longer_fails`, `C09_roundtrip_partial`, `C09_schema`, `C09_schema_iff`, `C10_delete_exact`, `C10_delete_partial`, `C10_delete_schema`, `C10_function_fails`, `C10_iff`, `C10_schema_iff`, `C10_update_exact`, `C10_update_partial`, `C10_update_schema`, `C11_lookup_column`, `C12_lookup_index`, `C13_drop_column_iff`, `C13_drop_column_partial`, `C14_drop_index_iff`, `C14_drop_index_partial`, `C16_alter_atomic_partial`, `C16_column_left_fails`, `C16_index_left_fails`, `C18_has_table`, `C20_exact`, `C20_set_schema_atomic_fails`, `C20_set_schema_partial`, `C21_data_type_names`, `C21_order_irrelevant`, `C22_column_def_partial`, `C22_exact`, `C22_length_fails`, `C24_functions_partial`, `C26_accepted`, `C26_sum`, `C27_avg`, `C28_max`, `C28_min_iff`, `C28_min_partial`, `C29_count`, `C30_accepted`, `C30_group_by_partial`, `C30_iff`, `C30_merged_fails`, `C30_per_key`, `C31_distinct_partial`, `C31_pair_iff`, `C33_late_partial`, `C34_iff`, `C34_merged_fails`, `C34_order_grouped_partial`, `C34_order_ungrouped`, `C36_ascending`, `C36_descending_partial`, `C37_width_iff`, `C37_width_partial`, `C38_aligned_partial`, `C38_exact`, `C39_aggregator_iff`, `C39_aggregator_names_partial`, `C40_executor_iff`, `C40_executor_lookup_partial`, `C41_registered_partial`, `C43_value`, `C45_exhausted`, `C45_iff`, `C45_overflow`, `C45_window_partial`, `C49_grouped_error`, `C49_others_fails`, `C49_single_partial`, `C49_ungrouped_partial`, `C50_exact`, `C50_value_fails`, `C51_numbered_iff_partial`, `C51_start_fails`, `C52_bound_strings_partial`, `C52_iff`, `C53_digits_fails`, `C53_numbered_partial`, `C53_usual_partial`, `C54_concurrent_partial`, `C54_history_iff`, `C54_lookup_partial`, `C54_remove_iff`, `C54_uid_exact`, `C54_uuid_exact`, `C57_close`, `C58_exclusion`, `C58_linearizable_partial`, `C58_paired_partial`, `C58_sections`, `C60_exact`, `C60_iff`, `C61_constant`, `C61_names_iff`, `C61_rows_partial`, `C61_undefined`, `C62_round_trip`, `C63_iff`, `C64_iff`, `C65_generated_partial`, `C65_made_iff`, `C65_several_fails`, `C65_without_database_fails`, `C66_ever_after_fails`, `C66_history`, `C66_iff`, `C66_reuse_partial`, `C67_lexing`, `C68_recasing`, `C68_words`, `C69_pairing_partial`, `C69_shift`, `C69_shift_fails`, `C69_unlisted_fails`, `C70_order_iff`, `C70_order_partial`, `C71_limit_fails`, `C71_limit_partial`, `C71_out_of_range`, `C72_class`, `C72_described`, `C73_sqrt_iff`, `C76_bound_partial`, `C76_many_fails`, `C76_serial_partial`, `C79_error_iff`, `C80_statements`, `C81_lost_fails`, `C81_lost_same_fails`, `C81_where_partial`, `C82_no_panic_partial`, `C82_panic_iff`, `C83_blanks`, `C83_comments`, `C83_layout_partial`, `C83_tokens`, `C84_compound_fails`, `C84_compounds_fails`, `C84_join_fails`, `C84_join_partial`, `C84_joins_fails`, `C84_printed_partial`, `C84_schema_fails`, `C84_words_fails`, `C85_lists`, `C86_keywords_partial`, `C86_never_rejected_fails`, `C87_keyword_case_partial`, `C88_script_partial`, `C89_exact_partial`, `C89_table_names_partial`, `C90_binary`, `C92_string`, `C92_trimmed_exists`, `C97_known`, `C97_spelling_fails`, `C98_options_partial`, `C100_identifier_iff`, `C100_identifier_partial`, `C101_insert_partial`, `C101_kept_fails`, `C102_create_table_partial`, `C102_never_fails`, `C103_quotes_fails`, `C103_reports_partial`, `C104_drop_fails`, `C104_quotes_fails`, `C104_reports_partial`, `C105_create_index_fails`, `C105_drop_table`, `C105_drop_table_iff`, `C105_roundtrip_partial`, `C105_truncate`, `C105_vacuum_fails`, `C106_exact`, `C106_iff`, `C106_lost_fails`, `C106_refused_fails`, `C106_roundtrip_partial`, `C107_exact`, `C107_iff`, `C107_lost_fails`, `C107_roundtrip_partial`, `C109_drop_index_every_fails`, `C109_drop_index_exact`, `C109_parsed`, `C110_aggregators`, `C110_columns`, `C111_failure_partial`, `C111_short_fails`, `C112_create_table`, `C112_insert`, `C112_update_iff`, `C114_lookup`, `C116_asterisk_fails`, `C116_placeholder_partial`, `C116_value_fails`, `C117_printable`, `C118_current`, `C118_removal_exact`, `C118_schema`, `C119_shared`, `C120_contained`, `C120_written`, `C121_exact`, `C121_iff`, `C121_never`, `C122_exact`, `C122_keys_partial`, `C122_primary_fails`, `C123_aggregates`, `C123_by_value_partial`, `C123_maps`, `C124_default_partial`, `C124_strict_partial`, `C125_passes_partial`, `C126_modes`, `C126_skip`, `C127_default`, `C127_parse_only_iff`, `C127_strict_iff`, `C128_comment_fails`, `C128_exact`, `C130_no_where`, `C130_where`, `C131_balanced`, `C131_each`, `C132_lost_fails`, `C132_reported_iff`, `C132_update_partial`, `C133_comparison_fails`, `C133_insert_partial`, `C134_delete`, `C135_select_partial`, `C136_columns`, `C136_create_table_partial`, `C136_temp_fails`, `C137_others_partial`, `C137_parts_fails`, `C138_alter_table_partial`, `C138_drop_never_fails`, `C139_whole_partial`, `C140_columns_partial`, `C140_error_iff`, `C141_schema_exact`, `C149_manager`, `C154_type_iff`, `C154_type_partial`, `C156_again_partial`, `C156_exact`, `C156_group`, `C157_independent`, `C158_all_partial`, `C158_any_link_fails`, `C167_apart_partial`, `C167_fails`, `C167_spoiled`, `C168_apart_partial`, `C169_once`, `C171_one_partial`, `C171_readback_partial`, `C172_texts_partial`, `C173_adds`, `C173_create`, `C173_drop_column_fails`, `C173_effect_partial`, `C173_rename_fails`, `C174_aggregates`, `C174_case_fails`, `C174_has_aggregator_iff`, `C174_query`, `C174_result_partial`, `C174_selectors`, `C174_values`, `C175_case_iff`, `C175_system`, `C175_table_partial`, `C178_plain`, `C178_qualified`, `C179_bound_partial`, `C179_injection_fails`, `C179_mark_fails`, `C179_name_fails`, `C179_never_fails`, `C179_strings_partial`, `C179_values`, `C180_delete`, `C180_never`, `C180_select`, `C180_update`, `C181_recased`, `C181_shape`, `C181_written`, `C182_bound_partial`, `C182_dropped_fails`, `C182_injection_fails`, `C182_script_fails`, `C183_capitals_partial`, `C183_letters_partial`, `C184_append`, `C184_once_partial`, `C184_twice_exact`, `C185_exact`, `C185_fails`, `C185_kept_partial`, `C186_apart_partial`, `C186_default_partial`, `C186_fails`, `C186_returned`, `C187_append_partial`, `C187_fails`, `C188_create`, `C188_delete`, `C188_grouped`, `C188_insert`, `C188_name_partial`, `C188_refused_partial`, `C188_rename`, `C188_select_partial`, `C188_table`, `C188_update`, `C188_word_partial`, `C189_bare_partial`, `C189_confused_fails`, `C189_delete_fails`, `C189_functions`, `C189_insert`, `C189_select_fails`, `C189_update_fails`, `C190_first_partial`, `C190_group_exact`, `C190_group_fails`, `C190_returning_fails`, `C191_back_fails`, `C191_back_iff`, `C191_back_partial`, `C191_names`, `C191_order`, `C195_count`, `C195_first`, `C195_letters`, `C196_count_fails`, `C196_fails`, `C196_never_more`, `C196_race`, `C196_value_fails`
