{"id": "C01", "title": "Stack is LIFO for every history", "statement": "Any history of Push, Pop, Peek and Size calls on a new stack behaves like an abstract last-in-first-out list: every Pop and Peek returns the most recently pushed element not yet popped, Size is pushes minus successful pops, and Pop or Peek on an empty stack returns nil and changes nothing.", "quantifier": "every finite sequence of stack operations with arbitrary element values", "why_tests_cant": "A test runs a handful of push/pop sequences; the claim is about every history.", "anchors": ["sql/util/stack.go: Stack.Push, Stack.Pop, Stack.Peek, Stack.Size"]}
{"id": "C02", "title": "Quoting then unquoting a string returns it", "statement": "UnEscapeString(EscapeString(s)) = s for every string s a user can hand in.", "quantifier": "every string", "why_tests_cant": "Fails only for strings whose first or last character is a quote; sampled strings miss the boundary, and success must hold for all others.", "anchors": ["sql/util/strings/strings.go: EscapeString, UnEscapeString"]}
{"id": "C03", "title": "Quoting then unquoting a name returns it", "statement": "UnEscapeNameString(EscapeNameString(s)) = s for every identifier s, and UnEscapeNameString is idempotent.", "quantifier": "every string", "why_tests_cant": "Depends on every possible first/last character of the identifier.", "anchors": ["sql/util/strings/strings.go: EscapeNameString, UnEscapeNameString"]}
{"id": "C04", "title": "LIMIT/OFFSET text identifies the window", "statement": "Two limit clauses print the same text exactly when they have the same limit and the same offset; a clause with neither prints nothing.", "quantifier": "every pair of unsigned limit and offset values", "why_tests_cant": "Injectivity over all pairs of numbers cannot be sampled.", "anchors": ["sql/query/limit.go: Limit.String, NewLimitWith"]}
{"id": "C05", "title": "ORDER BY text identifies the ordering", "statement": "Printing an ORDER BY clause keeps every column in order with its direction: two lists of (column, ASC/DESC) terms over identifier names print the same text only if they are equal.", "quantifier": "every list of ordering terms whose column names are identifiers", "why_tests_cant": "Unbounded lists of arbitrary names.", "anchors": ["sql/query/order.go: OrderBy.String, Order.String", "sql/query/order_type.go: NewOrderTypeWith"]}
{"id": "C06", "title": "Printed WHERE expression keeps its structure", "statement": "Two WHERE expressions that print the same text select the same rows under every assignment of truth values to comparisons (AND/OR nesting is not lost in printing).", "quantifier": "every pair of expression trees of any depth and every truth assignment", "why_tests_cant": "Needs all trees; the failure only shows for mixed AND/OR nesting.", "anchors": ["sql/query/expr_and.go: AndExpr.String", "sql/query/expr_or.go: OrExpr.String", "sql/query/expr_cmp.go: CmpExpr.String"]}
{"id": "C07", "title": "String literals survive printing and re-lexing", "statement": "The text printed for a string literal value v is read back by the SQL lexer as exactly one string-literal token whose value is v.", "quantifier": "every string value", "why_tests_cant": "A quote character anywhere in the value changes the tokenisation of everything that follows; only a proof covers all strings.", "anchors": ["sql/query/literal.go: Literal.ValueString", "sql/util/strings/strings.go: EscapeString", "sql/parser/sqlite/antlr/SQLiteLexer.g4: STRING_LITERAL", "sql/parser/sqlite/parser_antlr_visitor.go: newLiteralValueWith"]}
{"id": "C08", "title": "SELECT text re-parses to the same statement", "statement": "Printing a SELECT statement and parsing the text again yields a statement with the same selectors, tables, condition, ordering, limit and offset.", "quantifier": "every SELECT with any number of selectors, tables and order terms, identifier names and simple conditions", "why_tests_cant": "Round trip over unboundedly many statements; the test suite checks a fixed list of queries.", "anchors": ["sql/query/select.go: selectStmt.String", "sql/parser/sqlite/parser_antlr_visitor.go: newSelectWith"]}
{"id": "C09", "title": "INSERT text re-parses to the same statement", "statement": "Printing an INSERT statement and parsing the text yields the same table, column names and row values.", "quantifier": "every INSERT with any number of columns and rows", "why_tests_cant": "Round trip over unboundedly many statements.", "anchors": ["sql/query/insert.go: insertStmt.String", "sql/parser/sqlite/parser_antlr_visitor.go: newInsertWith"]}
{"id": "C10", "title": "UPDATE and DELETE text re-parse to the same statement", "statement": "Printing an UPDATE or DELETE statement and parsing the text yields the same table, assignments and condition.", "quantifier": "every UPDATE/DELETE with any number of assignments and a simple condition", "why_tests_cant": "Round trip over unboundedly many statements.", "anchors": ["sql/query/update.go: updateStmt.String", "sql/query/delete.go: deleteStmt.String", "sql/parser/sqlite/parser_antlr_visitor.go: newUpdateWith, newDeleteWith"]}
{"id": "C11", "title": "Column lookup finds the first case-insensitive match", "statement": "Looking a column up by name returns the first column whose name equals it ignoring case, and fails exactly when there is none; the index lookup returns the position of that same column.", "quantifier": "every column list and every name", "why_tests_cant": "All list lengths and all positions of the match.", "anchors": ["sql/query/columns.go: Columns.LookupColumn, Columns.LookupIndexOfColumn"]}
{"id": "C12", "title": "Index lookup finds the first case-insensitive match", "statement": "Looking an index up by name returns the first index whose name equals it ignoring case, and fails exactly when there is none; the positional lookup agrees with it.", "quantifier": "every index list and every name", "why_tests_cant": "All list lengths and all positions of the match.", "anchors": ["sql/query/indexes.go: Indexes.LookupIndex, Indexes.LookupIndexOfIndex"]}
{"id": "C13", "title": "Dropping a column removes that column and nothing else", "statement": "After DropColumn(name) succeeds, the first column with that name (ignoring case) is gone and all other columns remain in order; if no column has the name, an error is returned and the schema is unchanged.", "quantifier": "every schema and every name", "why_tests_cant": "Must hold for every schema shape; a test with a particular layout can pass or fail by accident.", "anchors": ["sql/query/schema.go: schema.DropColumn"]}
{"id": "C14", "title": "Dropping an index removes that index and nothing else", "statement": "After DropIndex(name) succeeds, the first index with that name (ignoring case) is gone and all other indexes remain in order; if none has the name, an error is returned and the schema is unchanged.", "quantifier": "every schema and every name", "why_tests_cant": "Must hold for every schema shape.", "anchors": ["sql/query/schema.go: schema.DropIndex"]}
{"id": "C15", "title": "Adding columns and indexes only extends the schema", "statement": "AddColumn/AddIndex append exactly the given item: every earlier column and index keeps its position and every lookup that succeeded before still returns the same item.", "quantifier": "every schema, every sequence of additions and every looked-up name", "why_tests_cant": "All histories of additions.", "anchors": ["sql/query/schema.go: schema.AddColumn, schema.AddIndex, schema.LookupColumn, schema.LookupIndex"]}
{"id": "C16", "title": "ALTER TABLE is all-or-nothing", "statement": "If applying an ALTER TABLE statement to a schema returns an error, the schema is left exactly as it was.", "quantifier": "every schema and every combination of add/drop/rename clauses", "why_tests_cant": "Every error point of every clause combination.", "anchors": ["sql/query/schema.go: schema.Alter"]}
{"id": "C17", "title": "Full table names are qualified at most once", "statement": "FullTableName is the bare name when there is no schema or the name already contains a dot, schema.name otherwise, and empty when the name is empty; qualifying an already full name again does not change it.", "quantifier": "every schema string and table name", "why_tests_cant": "All strings, including those containing dots.", "anchors": ["sql/query/table.go: table.FullTableName, table.IsFullTableName"]}
{"id": "C18", "title": "Table list membership ignores case and checks every pair", "statement": "HasTable(names...) is true exactly when some given name equals some listed table's name ignoring case; the printed list is the full names in order.", "quantifier": "every table list and every list of names", "why_tests_cant": "All list lengths.", "anchors": ["sql/query/tables.go: TableList.HasTable, TableList.HasTableName, TableList.HasSchemaTable, TableList.String"]}
{"id": "C19", "title": "Column values are coerced to the declared type or rejected", "statement": "After SetDefinition succeeds with a numeric or boolean type the column's value has that type; when the value cannot be converted an error is returned and the column is unchanged.", "quantifier": "every column value and every declared type", "why_tests_cant": "Every value/type pair and every conversion outcome.", "anchors": ["sql/query/column.go: column.SetDefinition, column.SetValue"]}
{"id": "C20", "title": "Applying a schema to columns is all-or-nothing", "statement": "Columns.SetSchema either coerces every column to its schema definition or returns an error leaving every column unchanged.", "quantifier": "every column list, schema and conversion behaviour", "why_tests_cant": "Every failing position in lists of any length.", "anchors": ["sql/query/columns.go: Columns.SetSchema"]}
{"id": "C21", "title": "Data type names round-trip", "statement": "For every data type that has a name, parsing its printed name in any letter case, with or without inner spaces, returns that same type whatever order the type table is iterated in.", "quantifier": "every named data type, every letter-casing, every table iteration order", "why_tests_cant": "Go map iteration order is random per run; only a proof covers all orders.", "anchors": ["sql/query/data_type.go: NewDataTypeFromString, DataType.String"]}
{"id": "C22", "title": "Column type definitions round-trip", "statement": "Parsing the token strings of a printed column definition (type, optionally a length in parentheses) returns the same type and length; malformed lengths are rejected.", "quantifier": "every data type and every length", "why_tests_cant": "All lengths and all token lists.", "anchors": ["sql/query/column_def.go: NewDataDefFromStrings, dataDef.String"]}
{"id": "C23", "title": "Constraint flags are independent", "statement": "IsPrimaryKey, IsNotNull and IsUnique each report exactly whether their own flag was included, for every combination of flags, and the printed text mentions every included constraint.", "quantifier": "every integer flag combination", "why_tests_cant": "All combinations of a machine integer.", "anchors": ["sql/query/constraint.go: Constraint.IsPrimaryKey, IsNotNull, IsUnique, String"]}
{"id": "C24", "title": "Selector queries agree with the selector list", "statement": "HasFunction is true exactly when some selector is a function; Functions lists exactly the function selectors in order; LookupFunction returns the first function with the name.", "quantifier": "every selector list", "why_tests_cant": "All mixtures of columns and functions of any length.", "anchors": ["sql/query/selectors_helper.go: Selectors.HasFunction, Functions, LookupFunction"]}
{"id": "C25", "title": "Selector list is classified as asterisk only when it is", "statement": "IsAsterisk is true exactly for the empty selector list and the single selector named *.", "quantifier": "every selector list", "why_tests_cant": "All lists.", "anchors": ["sql/query/selectors_helper.go: Selectors.IsAsterisk", "sql/query/columns.go: Columns.IsAsterisk"]}
{"id": "C26", "title": "SUM equals the sum of all aggregated values", "statement": "After Reset and any sequence of successfully aggregated rows without GROUP BY, Finalize of SUM returns one row holding the sum of the row values.", "quantifier": "every sequence of rows of any length", "why_tests_cant": "All histories of rows.", "anchors": ["sql/fn/sum.go: NewSum", "sql/fn/aggr_impl.go: aggrImpl.Reset, AggregateRow, Finalize"]}
{"id": "C27", "title": "AVG equals sum over count", "statement": "After Reset and any sequence of aggregated rows without GROUP BY, Finalize of AVG returns the sum divided by the number of rows, and a null value when there were no rows.", "quantifier": "every sequence of rows of any length", "why_tests_cant": "All histories of rows.", "anchors": ["sql/fn/avg.go: NewAvg", "sql/fn/aggr_impl.go: aggrImpl.Finalize"]}
{"id": "C28", "title": "MIN and MAX bound and are attained", "statement": "After any non-empty sequence of rows, MIN (MAX) is one of the aggregated values and no aggregated value is smaller (larger).", "quantifier": "every non-empty sequence of rows over a linear order of values", "why_tests_cant": "All histories; failures appear only at extreme values.", "anchors": ["sql/fn/min.go: NewMin", "sql/fn/max.go: NewMax", "sql/fn/aggr_impl.go"]}
{"id": "C29", "title": "COUNT equals the number of rows", "statement": "After Reset and any sequence of aggregated rows, COUNT returns the number of rows.", "quantifier": "every sequence of rows", "why_tests_cant": "All histories of rows.", "anchors": ["sql/fn/count.go: NewCount", "sql/fn/aggr_impl.go"]}
{"id": "C30", "title": "GROUP BY aggregates each group over exactly its own rows", "statement": "With grouping, Finalize returns exactly one row per distinct group value tuple that occurred, and each row's aggregate is the aggregate of exactly the rows with that tuple, whatever order the groups are enumerated in.", "quantifier": "every sequence of rows, any number of group columns, every enumeration order of groups", "why_tests_cant": "Map iteration order and arbitrary key values; collisions need adversarial keys.", "anchors": ["sql/fn/aggr_impl.go: aggrImpl.AggregateRow, Finalize", "sql/fn/groupby.go: NewGroupBySetKey"]}
{"id": "C31", "title": "Distinct group tuples never share a group", "statement": "Two rows with different group-by value tuples are never merged into one group.", "quantifier": "every pair of group value tuples", "why_tests_cant": "Key collisions are adversarial strings.", "anchors": ["sql/fn/groupby.go: NewGroupBySetKey", "sql/fn/aggr_impl.go: aggrImpl.AggregateRow"]}
{"id": "C32", "title": "Reset forgets all earlier rows", "statement": "After Reset, the result of any further aggregation is the same as if the aggregator were new.", "quantifier": "every history before the reset and every history after it", "why_tests_cant": "All pairs of histories.", "anchors": ["sql/fn/aggr_impl.go: aggrImpl.Reset"]}
{"id": "C33", "title": "A rejected row leaves the aggregate unchanged", "statement": "If aggregating a row returns an error, a later Finalize gives the same result as if that row had never been offered.", "quantifier": "every aggregator state and every rejected row", "why_tests_cant": "Every failing position in rows of any width.", "anchors": ["sql/fn/aggr_impl.go: aggrImpl.AggregateRow"]}
{"id": "C34", "title": "Aggregation does not depend on row order", "statement": "Aggregating a permutation of the same rows gives the same final rows (up to group enumeration order) when addition is associative and commutative.", "quantifier": "every row sequence and every permutation of it", "why_tests_cant": "Factorially many permutations.", "anchors": ["sql/fn/aggr_impl.go: aggrImpl.AggregateRow, Finalize"]}
{"id": "C35", "title": "Finalize does not disturb the aggregate", "statement": "Calling Finalize any number of times, in between rows, does not change later results.", "quantifier": "every interleaving of rows and Finalize calls", "why_tests_cant": "All interleavings.", "anchors": ["sql/fn/aggr_impl.go: aggrImpl.Finalize"]}
{"id": "C36", "title": "Ordered finalisation is sorted", "statement": "Finalize with ascending (descending) order returns the group rows sorted ascending (descending) by their group values.", "quantifier": "every set of groups and every enumeration order", "why_tests_cant": "All group sets and all map orders; the comparator must be a strict weak order.", "anchors": ["sql/fn/aggr_impl.go: aggrImpl.Finalize", "sql/fn/orderby.go"]}
{"id": "C37", "title": "An aggregator set returns rows as wide as its columns", "statement": "Every row of the result of an aggregator set has exactly one value per result column.", "quantifier": "every list of aggregators and every row history", "why_tests_cant": "All aggregator lists; failing shapes are specific.", "anchors": ["sql/fn/aggr_set.go: AggregatorSet.Finalize"]}
{"id": "C38", "title": "An aggregator set keeps group rows aligned", "statement": "In the merged result, the values in one row from different aggregators belong to the same group.", "quantifier": "every list of aggregators, every row history, every enumeration order of groups in each aggregator", "why_tests_cant": "Map iteration order differs between aggregators at random.", "anchors": ["sql/fn/aggr_set.go: AggregatorSet.Finalize"]}
{"id": "C39", "title": "Aggregator lookup recognises exactly the five names", "statement": "NewAggregatorForName succeeds exactly for SUM, AVG, MIN, MAX and COUNT in any letter case, with the matching aggregator.", "quantifier": "every string", "why_tests_cant": "Prefix matching errors need names outside the samples.", "anchors": ["sql/fn/aggr_func.go: NewAggregatorForName"]}
{"id": "C40", "title": "Executor lookup returns the executor of that name", "statement": "NewExecutorForName returns an executor of the requested function for every supported name, and an error for every other name.", "quantifier": "every string", "why_tests_cant": "Order of prefix checks decides; all names must be considered.", "anchors": ["sql/fn/executor_func.go: NewExecutorForName"]}
{"id": "C41", "title": "Registered function test accepts only registered functions", "statement": "IsRegisteredFunction(name) is true exactly when name is a registered function name or a call of one.", "quantifier": "every string", "why_tests_cant": "Adversarial strings.", "anchors": ["sql/fn/names.go: IsRegisteredFunction"]}
{"id": "C42", "title": "Function result sets enumerate every row once", "statement": "Iterating a function result set with Next/Row yields all its rows once in order, then Next returns false forever; Row outside that window is an error; Map pairs columns with the row values.", "quantifier": "every row list and every call sequence", "why_tests_cant": "All call sequences.", "anchors": ["sql/fn/resultset_impl.go: resultSet.Next, Row, Map", "sql/fn/map.go: NewMapWithRow"]}
{"id": "C43", "title": "Arithmetic and math executors never crash", "statement": "Executing an arithmetic or math function on any argument list returns either a value or an error, never a panic, and exactly the documented argument count is required.", "quantifier": "every executor and every argument list", "why_tests_cant": "All argument values including zero divisors.", "anchors": ["sql/fn/arith_func.go", "sql/fn/math_func.go", "sql/fn/executor_impl.go: Execute"]}
{"id": "C44", "title": "Executors read their arguments from the row object", "statement": "Executing a function on a row object applies it to the values of its argument names in order, using the argument text itself where the object has no such key.", "quantifier": "every argument list and every object", "why_tests_cant": "All objects and argument lists.", "anchors": ["sql/fn/executor_impl.go: ExecuteMap"]}
{"id": "C45", "title": "Result set iteration yields exactly the window rows[offset, offset+limit)", "statement": "Iterating a result set until Next returns false yields exactly the rows after the first offset ones, at most limit of them (all if the limit is zero), in order.", "quantifier": "every row list, offset and limit", "why_tests_cant": "All sizes; overflow only at extreme limits.", "anchors": ["sql/query/response/resultset/resultset_impl.go: resultset.Next, Row"]}
{"id": "C46", "title": "Row is only available inside the window", "statement": "Row returns an error before the first Next and after Next has returned false.", "quantifier": "every row list, offset, limit and call sequence", "why_tests_cant": "All call sequences.", "anchors": ["sql/query/response/resultset/resultset_impl.go: resultset.Row"]}
{"id": "C47", "title": "Row object and row values agree", "statement": "For a row with a schema, the value at column position i equals the value looked up by the name of column i, whichever of object or values the row was built from, and reading never changes later reads.", "quantifier": "every schema with distinct column names, every row, every sequence of reads", "why_tests_cant": "Caching makes reads order-dependent in principle; all sequences are needed.", "anchors": ["sql/query/response/resultset/row_impl.go: row.Object, Values, ValueAt, ValueBy"]}
{"id": "C48", "title": "Projection keeps selector order and width", "statement": "Building a row from an object with a selector list gives one value per selector in selector order: the object's value for plain columns (null when absent) and the executed value for functions.", "quantifier": "every object and selector list", "why_tests_cant": "All lists and objects.", "anchors": ["sql/query/response/resultset/row_helper.go: NewRowFromObject"]}
{"id": "C49", "title": "Aggregated result sets agree with the aggregates of the source rows", "statement": "Aggregating a result set yields the aggregate values over all source rows for each group, or an error.", "quantifier": "every source result set and aggregator selection", "why_tests_cant": "All row histories.", "anchors": ["sql/query/response/resultset/resultset_aggr.go: NewAggregatedResultSetFrom"]}
{"id": "C50", "title": "Binding replaces the k-th placeholder by the k-th value", "statement": "Binding n parameters to a query with ? placeholders replaces the first n placeholders in order, each by the text of its own parameter, leaving all other text unchanged.", "quantifier": "every query and parameter list", "why_tests_cant": "A value containing a placeholder character, or a placeholder inside a literal, breaks it; adversarial values.", "anchors": ["sql/stmt/bind_impl.go: bindStmt.Bind"]}
{"id": "C51", "title": "Binding fails exactly when there are more parameters than placeholders", "statement": "Bind returns an error exactly when the query has fewer placeholders than parameters.", "quantifier": "every query and parameter list", "why_tests_cant": "Boundary positions such as a placeholder at the very start.", "anchors": ["sql/stmt/bind_impl.go: bindStmt.Bind"]}
{"id": "C52", "title": "A bound string cannot change the query structure", "statement": "Binding a string parameter yields a query in which that parameter is one string literal token with exactly that value, whatever the string contains.", "quantifier": "every query and every string value", "why_tests_cant": "Injection strings are adversarial.", "anchors": ["sql/stmt/bind_param_impl.go: bindParam.String", "sql/stmt/bind_impl.go"]}
{"id": "C53", "title": "Numbered placeholders are bound by number", "statement": "Binding to a query with $1..$n placeholders replaces $k by the k-th value and does not touch $j for j different from k.", "quantifier": "every query and parameter list", "why_tests_cant": "$1 is a prefix of $10; needs all numbers.", "anchors": ["sql/stmt/bind_impl.go: bindStmt.Bind"]}
{"id": "C54", "title": "Connections are found by id and by UUID until removed", "statement": "After any history of adding and removing connections, looking up by id and by UUID both return exactly the connections added and not yet removed, and the two lookups agree.", "quantifier": "every history of AddConn/RemoveConn/RemoveConnByUID/RemoveConnByUUID calls", "why_tests_cant": "All histories.", "anchors": ["sql/net/conn_manager_impl.go: mgr.AddConn, RemoveConn, LookupConnByUID, LookupConnByUUID, Conns"]}
{"id": "C55", "title": "Adding a duplicate connection is rejected without effect", "statement": "AddConn fails exactly when a managed connection has the same UUID or the same id, and then nothing changes.", "quantifier": "every manager state and connection", "why_tests_cant": "All states.", "anchors": ["sql/net/conn_manager_impl.go: mgr.AddConn"]}
{"id": "C56", "title": "Replacing a connection keeps lookups consistent", "statement": "After UpdateConn(from, to) succeeds, the manager finds `to` under its own id and UUID, no longer finds `from`, and later removal of `to` leaves no trace.", "quantifier": "every manager state and pair of connections", "why_tests_cant": "All states and identifiers.", "anchors": ["sql/net/conn_manager_impl.go: mgr.UpdateConn, RemoveConn"]}
{"id": "C57", "title": "Closing the manager closes every connection once and forgets the closed ones", "statement": "Close calls Close on each managed connection, removes exactly those whose Close succeeded, keeps the others, and returns an error exactly when some Close failed, in any enumeration order.", "quantifier": "every set of connections, every enumeration order, every pattern of close failures", "why_tests_cant": "All failure patterns and map orders.", "anchors": ["sql/net/conn_manager_impl.go: mgr.Close, Stop"]}
{"id": "C58", "title": "Concurrent manager calls are linearizable", "statement": "Under any interleaving of concurrent calls, each manager operation takes effect atomically at some point between its call and return.", "quantifier": "every interleaving of any number of goroutines", "why_tests_cant": "Schedules cannot be enumerated by tests; remove-by-id is a lookup followed by a separate removal.", "anchors": ["sql/net/conn_manager_impl.go: RemoveConnByUID, RemoveConnByUUID"]}
{"id": "C59", "title": "Closing a connection is idempotent", "statement": "After a successful Close, further Close calls succeed without touching the network connection again; a failed Close can be retried.", "quantifier": "every sequence of Close calls and every pattern of underlying failures", "why_tests_cant": "All call and failure sequences.", "anchors": ["sql/net/conn_impl.go: conn.Close"]}
{"id": "C60", "title": "Session schemas stay duplicate-free and belong to the current database", "statement": "Over any history of SetDatabase and SetSchemas calls starting from a new connection, Schemas lists without duplicates exactly the schemas set since the last SetDatabase, in first-set order.", "quantifier": "every history of setter calls", "why_tests_cant": "All histories.", "anchors": ["sql/net/conn_impl.go: conn.SetDatabase, SetSchemas, Schemas"]}
{"id": "C61", "title": "information_schema rows describe the given schemas", "statement": "The result set built from table schemas has one row per column of every schema, in order, carrying that schema's table name, the column's name and its type name.", "quantifier": "every list of schemas", "why_tests_cant": "All lists; a constant in the wrong place passes row-count tests.", "anchors": ["sql/system/schema_columns_resutset_from.go: NewSchemaColumnsResultSetFromSchemas"]}
{"id": "C62", "title": "information_schema result sets round-trip", "statement": "Reading back the result set built from table schemas yields exactly the columns' names and data types in order.", "quantifier": "every list of schemas whose columns have named types", "why_tests_cant": "All lists.", "anchors": ["sql/system/schema_columns_resutset_from.go: NewSchemaColumnsResultSetFromResultSet, NewSchemaColumnsResultSetFromSchemas"]}
{"id": "C63", "title": "information_schema queries are recognised", "statement": "IsSchemaColumsQuery is true exactly for a SELECT from the single table information_schema.columns (any letter case).", "quantifier": "every table list", "why_tests_cant": "All table lists and casings.", "anchors": ["sql/system/schema_columns.go: IsSchemaColumsQuery"]}
{"id": "C64", "title": "information_schema conditions are extracted exactly", "statement": "From a condition that is a conjunction of equalities, the statement reports the last database value and every table name, in order; any other condition is an error.", "quantifier": "every expression tree", "why_tests_cant": "All trees of any depth.", "anchors": ["sql/system/schema_columns_stmt_impl.go: traverseSelectStatement"]}
{"id": "C65", "title": "Generated information_schema queries are well-formed", "statement": "For every database name and list of table names, the generated query is accepted by the parser and reports the same database and tables when traversed.", "quantifier": "every database name and table name list", "why_tests_cant": "Empty database names and list lengths.", "anchors": ["sql/system/schema_columns_stmt_impl.go: generateSelectStatement", "sql/system/schema_columns_resutset.go: NewSchemaColumnsQueryFromTableNames"]}
{"id": "C66", "title": "A parser can be reused after a syntax error", "statement": "Whether a query is accepted depends only on the query, not on what the same parser instance parsed before.", "quantifier": "every history of parsed queries", "why_tests_cant": "All histories.", "anchors": ["sql/parser/sqlite/parser_antlr.go: Parser.ParseString", "sql/parser/sqlite/parser_antlr_error_listener.go"]}
{"id": "C67", "title": "Lexing is total and lossless", "statement": "Every input text is split into tokens whose texts concatenate to the input, each token being a longest match; no input is rejected by the lexer.", "quantifier": "every input text", "why_tests_cant": "All texts.", "anchors": ["sql/parser/sqlite/antlr/SQLiteLexer.g4"]}
{"id": "C68", "title": "Keywords are recognised in any letter case", "statement": "Changing the letter case of a keyword or unquoted identifier changes neither where tokens begin and end nor their kinds.", "quantifier": "every input text and every recasing of its letters outside literals", "why_tests_cant": "All recasings.", "anchors": ["sql/parser/sqlite/antlr/SQLiteLexer.g4: caseInsensitive"]}
{"id": "C69", "title": "INSERT pairs the k-th value with the k-th column", "statement": "In a parsed INSERT, the k-th value of every row is assigned to the k-th listed column.", "quantifier": "every column list and value rows", "why_tests_cant": "All row widths and value kinds.", "anchors": ["sql/parser/sqlite/parser_antlr_visitor.go: newInsertWith"]}
{"id": "C70", "title": "ORDER BY terms are all kept", "statement": "A parsed SELECT reports every ORDER BY term in order, with ascending as the default direction.", "quantifier": "every list of ordering terms", "why_tests_cant": "All lists.", "anchors": ["sql/parser/sqlite/parser_antlr_visitor.go: newSelectWith"]}
{"id": "C71", "title": "LIMIT and OFFSET are read as written", "statement": "A parsed SELECT reports the numbers written after LIMIT and OFFSET.", "quantifier": "every pair of numbers, both written forms", "why_tests_cant": "All numbers.", "anchors": ["sql/parser/sqlite/parser_antlr_visitor.go: newSelectWith"]}
{"id": "C72", "title": "SQLSTATE codes are distinct, described, and belong to a described class", "statement": "No two declared error codes share a SQLSTATE value, every declared code prints a description other than the unknown one, and its two-character class is a declared class with a description.", "quantifier": "every declared error code and class (whole table) and every other string (unknown)", "why_tests_cant": "Whole-table claim and default branch for all other strings.", "anchors": ["sql/errors/code.go: Code.String", "sql/errors/class.go: Class.String"]}
{"id": "C73", "title": "SQRT is defined on every non-negative number", "statement": "Executing SQRT on a number that is not negative returns its square root.", "quantifier": "every argument convertible to a non-negative number", "why_tests_cant": "Boundary value among all numbers.", "anchors": ["sql/fn/math_func.go: NewSqrt"]}
{"id": "C74", "title": "RAND stays in [0,1)", "statement": "Executing RAND returns a number at least zero and strictly below one, whatever the random source delivers.", "quantifier": "every outcome of the random source", "why_tests_cant": "The boundary outcome has probability about 2^-63.", "anchors": ["sql/fn/math_func.go: NewRand"]}
{"id": "C75", "title": "A function selector's executor reads the selector's own arguments", "statement": "Every executor obtained from a function selector reads the selector's argument names, whatever options are passed and however often it is asked for; asking again returns the same executor.", "quantifier": "every function name, argument list, and sequence of calls with options", "why_tests_cant": "All option lists and call sequences.", "anchors": ["sql/fn/func_impl.go: function.Executor", "sql/fn/executor_impl.go: WithExecutorArguments"]}
{"id": "C76", "title": "Concurrent Close calls close the network connection at most once", "statement": "However many goroutines call Close on the same connection at the same time, the underlying network connection is closed successfully at most once.", "quantifier": "every interleaving of any number of Close calls and every pattern of underlying failures", "why_tests_cant": "the window between reading and setting the flag is a few instructions wide; a test run rarely hits it, and passing runs say nothing about the other schedules", "anchors": ["sql/net/conn_impl.go:98-107"]}
{"id": "C77", "title": "Error constructors wrap the condition they are named for", "statement": "An error made by a NewErr… constructor named for a condition (not exist, exist, not supported, not found, not equal, not implemented) satisfies errors.Is for that condition's exported error value and for no other.", "quantifier": "every constructor and every argument", "why_tests_cant": "All arguments, and the constructors nobody calls.", "anchors": ["sql/errors/errors.go: NewErrNotExist, NewErrExist, NewErrNotSupported, NewErrNotImplemented", "sql/errors/query.go"]}
{"id": "C78", "title": "Exist and not-exist errors can be told apart", "statement": "The message for an existing object and the message for a missing object of the same kind are different for all names, and each determines the name.", "quantifier": "every pair of names", "why_tests_cant": "All names, including ones containing the surrounding text.", "anchors": ["sql/errors/errors.go: NewErrNotExist, NewErrExist", "sql/errors/query.go"]}
{"id": "C79", "title": "The parser accepts exactly the grammar", "statement": "On a new parser, ParseString returns an error for a text exactly if the text is empty, a single semicolon, or its tokens (without spaces and comments) are not derived by the grammar's start rule; it returns for every text.", "quantifier": "every text", "why_tests_cant": "All texts, including the ones that are not SQL, and the whole grammar.", "anchors": ["sql/parser/sqlite/parser_antlr.go: Parser.ParseString", "sql/parser/sqlite/antlr/SQLiteParser.g4", "sql/parser/sqlite/antlr/SQLiteLexer.g4"]}
{"id": "C80", "title": "Every accepted statement is returned", "statement": "The statements returned for an accepted query correspond one for one and in order to the statements in the query, each of the same kind.", "quantifier": "every accepted query", "why_tests_cant": "The grammar has statement kinds that no test uses.", "anchors": ["sql/parser/sqlite/parser_antlr_visitor.go: newStatementWith, newStatementListWith"]}
{"id": "C81", "title": "A WHERE condition is never lost", "statement": "If an accepted SELECT, UPDATE or DELETE has a WHERE clause, the statement object reports that condition.", "quantifier": "every accepted statement with a condition", "why_tests_cant": "All conditions of the grammar; a lost condition makes a DELETE apply to all rows.", "anchors": ["sql/parser/sqlite/parser_antlr_visitor.go: newExprWith, newUpdateWith, newDeleteWith"]}
{"id": "C82", "title": "Parsing never panics", "statement": "ParseString returns statements or an error for every text and every history of the parser, without a nil dereference.", "quantifier": "every text and every history", "why_tests_cant": "All texts of the grammar.", "anchors": ["sql/parser/sqlite/parser_antlr_visitor.go"]}
{"id": "C83", "title": "Layout and comments do not matter", "statement": "Two texts with the same tokens apart from spaces and comments get the same answer.", "quantifier": "every pair of texts", "why_tests_cant": "All texts and layouts.", "anchors": ["sql/parser/sqlite/antlr/SQLiteLexer.g4", "sql/parser/sqlite/parser_antlr.go: Parser.ParseString"]}
{"id": "C84", "title": "Clauses that change the meaning are not ignored", "statement": "Two accepted queries that differ in EXPLAIN, DISTINCT, a conflict clause, a join or a compound operator give different statement objects.", "quantifier": "every accepted query", "why_tests_cant": "All clauses of the grammar.", "anchors": ["sql/parser/sqlite/parser_antlr_visitor.go: newStatementWith, newSelectWith, newInsertWith"]}
{"id": "C85", "title": "A list of statements is parsed statement by statement", "statement": "A query of several SELECT, INSERT, UPDATE and DELETE statements separated by semicolons returns what the statements return each by itself, in order.", "quantifier": "every list of statements with conditions of one or two comparisons, any spelling and layout", "why_tests_cant": "All lists.", "anchors": ["sql/parser/sqlite/parser_antlr_visitor.go: VisitParse, newStatementListWith"]}
{"id": "C86", "title": "Statements must be separated", "statement": "A query with two statements and no semicolon between them is rejected.", "quantifier": "every query", "why_tests_cant": "All queries.", "anchors": ["sql/parser/sqlite/antlr/SQLiteParser.g4: parse, sql_stmt_list"]}
{"id": "C87", "title": "The letter case of keywords does not matter", "statement": "Two texts that write the same statements with keywords in different letter case give equal statement objects.", "quantifier": "every list of SELECT, INSERT, UPDATE and DELETE statements and every pair of spellings", "why_tests_cant": "All statements and spellings.", "anchors": ["sql/parser/sqlite/antlr/SQLiteLexer.g4", "sql/parser/sqlite/parser_antlr_visitor.go"]}
{"id": "C88", "title": "Printed scripts re-parse to the same statements", "statement": "Printing several statements, joining their texts with semicolons and parsing the result yields the same statements in the same order.", "quantifier": "every non-empty list of SELECT, INSERT, UPDATE and DELETE statements", "why_tests_cant": "Lists of any length of unboundedly many statements; one statement's text could swallow its neighbour.", "anchors": ["sql/parser/sqlite/parser_antlr.go: ParseString", "sql/query/select.go: String", "sql/query/insert.go: String", "sql/query/update.go: String", "sql/query/delete.go: String"]}
{"id": "C89", "title": "Queries for table names select exactly these tables", "statement": "For every list of table names the returned SELECT reads the information schema's column table and its condition holds for exactly the given table names.", "quantifier": "every list of table names", "why_tests_cant": "List lengths: the repository only tries one and two names.", "anchors": ["sql/system/schema_columns_resutset.go: NewSchemaColumnsQueryFromTableNames"]}
{"id": "C90", "title": "Built-in mathematical functions compute the operation they are named for", "statement": "For every built-in mathematical or arithmetic function and every argument on which it is defined, the executor obtained by name returns the value of the operation the name documents (FLOOR the floor, LOG10 the base-10 logarithm, x - y the difference in that order, x % y the remainder, PI and E the constants), and an error instead of a result where the operation is undefined.", "quantifier": "for all functions in the documented table, all numeric arguments and all interpretations of the floating-point operations", "why_tests_cant": "a test picks a few arguments; two functions that agree on them (natural and base-10 logarithm at 1) cannot be told apart, and the operand order is only visible on asymmetric inputs", "anchors": ["sql/fn/math.go", "sql/fn/math_func.go", "sql/fn/arith.go", "sql/fn/arith_func.go"]}
{"id": "C91", "title": "An operator symbol selects its operation", "statement": "Each of the arithmetic operator symbols of the grammar selects the arithmetic executor of that operation, different symbols select different operations, and a symbol outside the table selects none.", "quantifier": "for all strings", "why_tests_cant": "the table is indexed by arbitrary strings; tests check the listed symbols only", "anchors": ["sql/fn/arith.go", "sql/fn/arith_func.go"]}
{"id": "C92", "title": "String functions return the specified text and take exactly one argument", "statement": "UPPER and LOWER return the argument with every letter mapped to that case and the rest unchanged, TRIM returns the argument without the white space at both ends and nothing else removed, and each returns an error unless called with exactly one argument.", "quantifier": "for all argument lists and all strings", "why_tests_cant": "removal on the right side only or an ignored extra argument is only visible on particular shapes of input", "anchors": ["sql/fn/string.go", "sql/fn/string_func.go"]}
{"id": "C93", "title": "ALTER TABLE performs its clauses in order", "statement": "Applying an ALTER TABLE statement to a schema has the effect of its clauses one after the other (add column, add index, drop column, drop index, rename), stops at the first clause that fails with that error, and panics exactly on the statements whose clauses carry no definition.", "quantifier": "for all schemas and ALTER TABLE statements", "why_tests_cant": "tests alter a handful of schemas with one clause each; a dropped clause or ignored error shows only in combinations", "anchors": ["sql/query/schema.go"]}
{"id": "C94", "title": "Executors and aggregators of a selector list are collected in order", "statement": "Selectors.Executors returns one executor per function selector, in selector order, each with the arguments of its selector; Selectors.Aggregators returns one aggregator per aggregate selector in order.", "quantifier": "for all selector lists", "why_tests_cant": "lists are unbounded; order and mixtures of aggregate and other functions must be right for all of them", "anchors": ["sql/query/selectors_helper.go", "sql/query/func.go"]}
{"id": "C95", "title": "Reading a column by position is total", "statement": "ColumnAt returns the column at a position inside the list and an error at every other position, never panicking.", "quantifier": "for all column lists and all integers", "why_tests_cant": "positions range over all integers, boundaries on both sides matter", "anchors": ["sql/query/columns.go"]}
{"id": "C96", "title": "A copied column equals its original", "statement": "Column.Copy returns a column with the same name, type, constraints, literal, function and arguments as the original.", "quantifier": "for all columns", "why_tests_cant": "a dropped field is only visible on columns that carry it", "anchors": ["sql/query/column.go"]}
{"id": "C97", "title": "Every documented function is known with its type", "statement": "Every documented built-in function name, in any letter case, is registered and has the function type documented for it (aggregate, mathematical, arithmetic or string).", "quantifier": "for all documented names and all letter cases of them", "why_tests_cant": "each name has exponentially many casings; tests use the upper-case ones", "anchors": ["sql/fn/names.go", "sql/fn/type.go", "sql/query/func.go"]}
{"id": "C98", "title": "Aggregators accept a single argument", "statement": "Constructing an aggregator succeeds exactly when it is given exactly one argument name, and otherwise returns an error.", "quantifier": "for all option lists", "why_tests_cant": "option lists are unbounded and the order of the options matters", "anchors": ["sql/fn/aggr_impl.go", "sql/fn/aggr.go"]}
{"id": "C99", "title": "Bind parameters are written in the documented text form", "statement": "The text substituted for a bind parameter is determined by its type: a string is written between single quotes, a time between single quotes in the layout with a fraction exactly when it has one, a floating-point number and every other value in its own text without quotes.", "quantifier": "for all parameter values", "why_tests_cant": "parameter values are unbounded; tests use a few of each type", "anchors": ["sql/query/bind.go"]}
{"id": "C100", "title": "A quoted name is one identifier token", "statement": "For every name, the text produced by EscapeNameString is read by the lexer as exactly one identifier token covering the whole text, so the name cannot change the structure of a query it is put into.", "quantifier": "for all strings", "why_tests_cant": "names are arbitrary strings; only particular characters break out of the quotes", "anchors": ["sql/util/strings", "sql/parser/sqlite/antlr/SQLiteLexer.g4: IDENTIFIER"]}
{"id": "C101", "title": "A quoted table name denotes the same table as the plain one", "statement": "In INSERT, SELECT, UPDATE and DELETE statements, writing the table name in backquotes gives a statement about the table with the plain name.", "quantifier": "for all table names without backquotes and all such statements", "why_tests_cant": "tests quote names in some statements only; the four statements are read by different code", "anchors": ["sql/parser/sqlite/parser_antlr_visitor.go", "sql/util/strings"]}
{"id": "C102", "title": "CREATE TABLE reports the table that is written", "statement": "Parsing the text of a CREATE TABLE statement gives one statement that reports the name of the table (with its schema), every column with its name, type, length and constraints, a primary key for every PRIMARY KEY constraint and clause, and every secondary index with its name and columns, all in the order written, whatever the layout and letter case.", "quantifier": "every CREATE TABLE text: any number of columns, types, lengths, constraints, indexes and keys, any names, any layout and letter case", "why_tests_cant": "The texts of tables are unbounded in the number of columns, indexes and keys, in their names and in their layout.", "anchors": ["sql/parser/sqlite/parser_antlr_visitor.go", "sql/query/create_table.go", "sql/query/data_type.go"]}
{"id": "C103", "title": "The other definition and transaction statements report what is written", "statement": "Parsing the text of CREATE, DROP or ALTER DATABASE, USE, CREATE INDEX, DROP TABLE, DROP INDEX, TRUNCATE, VACUUM, COPY, BEGIN, COMMIT or ROLLBACK gives one statement of that kind that reports the names (without their quotes), the schemas and the options IF EXISTS and IF NOT EXISTS that are written, in the order written.", "quantifier": "every text of these statements: any names, any number of tables and columns, any layout and letter case", "why_tests_cant": "There are unboundedly many lists of names, names and layouts, and a name or schema that is lost goes unnoticed unless that very text is tested.", "anchors": ["sql/parser/sqlite/parser_antlr_visitor.go"]}
{"id": "C104", "title": "ALTER TABLE reports the change that is written", "statement": "Parsing the text of an ALTER TABLE statement gives one statement that reports the table, with its schema, and exactly the change written: the new name, the renamed column, the added column, index or key, or the dropped column or index.", "quantifier": "every ALTER TABLE text: any table, any change, any names and column definitions, any layout and letter case", "why_tests_cant": "There are unboundedly many names, lists of columns and layouts for every kind of change.", "anchors": ["sql/parser/sqlite/parser_antlr_visitor.go", "sql/query/alter_table.go"]}
{"id": "C105", "title": "Definition and transaction statements can be read back", "statement": "The text of a CREATE, DROP or ALTER DATABASE, USE, CREATE INDEX, DROP TABLE, DROP INDEX, TRUNCATE, VACUUM, COPY, BEGIN, COMMIT or ROLLBACK statement object is accepted by the parser, which gives back an equal object.", "quantifier": "every such statement object", "why_tests_cant": "Objects hold arbitrary names and lists of any length; a printer that drops a schema or a parser that reads another name is only seen for the names that are tested.", "anchors": ["sql/query/create_database.go", "sql/query/create_index.go", "sql/query/drop_table.go", "sql/query/drop_index.go", "sql/query/alter_database.go", "sql/query/truncate.go", "sql/query/vacuum.go", "sql/query/copy.go", "sql/parser/sqlite/parser_antlr_visitor.go"]}
{"id": "C106", "title": "ALTER TABLE statements can be read back", "statement": "The text of an ALTER TABLE statement object is accepted by the parser, which gives back an equal object.", "quantifier": "every ALTER TABLE object: any table, schema and change", "why_tests_cant": "The objects hold arbitrary names, types, lengths and lists of columns.", "anchors": ["sql/query/alter_table.go", "sql/parser/sqlite/parser_antlr_visitor.go"]}
{"id": "C107", "title": "CREATE TABLE statements can be read back", "statement": "The text of a CREATE TABLE statement object is accepted by the parser, which gives back an equal object.", "quantifier": "every CREATE TABLE object: any schema with any columns, definitions and indexes", "why_tests_cant": "The objects hold any number of columns and indexes with arbitrary names, types and lengths.", "anchors": ["sql/query/create_table.go", "sql/query/schema.go", "sql/parser/sqlite/parser_antlr_visitor.go"]}
{"id": "C108", "title": "The type of a statement is the beginning of its text", "statement": "The text returned by String() of any statement equals the name of its StatementType, or begins with that name followed by a space; distinct types have distinct names, so two statements with the same text have the same type.", "quantifier": "every statement object, whatever it holds", "why_tests_cant": "There are nineteen statement kinds with unboundedly many texts each.", "anchors": ["sql/query/statement_type.go", "sql/query/statement.go", "sql/query/alter_table.go"]}
{"id": "C109", "title": "Index statements as ALTER TABLE", "statement": "NewAlterTableFrom turns a CREATE INDEX into an ALTER TABLE on the same table that adds exactly this index, and a DROP INDEX into one that drops exactly this index; applying it to a schema has that effect and no other. Any other statement is refused.", "quantifier": "every statement and every schema", "why_tests_cant": "The effect is on arbitrary schemas and arbitrary index names.", "anchors": ["sql/query/alter_table_from.go", "sql/query/schema.go"]}
{"id": "C110", "title": "The aggregators of a SELECT", "statement": "Aggregators() of a SELECT returns one aggregator per function in its selection list, in order, each set up with the function's arguments and with the GROUP BY column if there is one; it fails exactly if some function is no aggregate function or has no argument.", "quantifier": "every selection list and every GROUP BY column", "why_tests_cant": "Selection lists are unbounded and the grouping is applied by a second reset of every aggregator.", "anchors": ["sql/query/select_helper.go", "sql/query/selectors_helper.go", "sql/fn/aggr_set.go"]}
{"id": "C111", "title": "Scanning a row", "statement": "Scan stores the converted k-th value of the row in the k-th destination and fails exactly if there are more destinations than values or a value does not convert; a failing Scan changes no destination. ScanAt and ScanBy do the same for one position or name.", "quantifier": "every row, all destinations and every conversion", "why_tests_cant": "The number of values and destinations is unbounded and the conversion is arbitrary.", "anchors": ["sql/query/response/resultset/row_impl.go"]}
{"id": "C112", "title": "Asking a reported column for its value or type does not panic", "statement": "The columns of a parsed CREATE TABLE and of its indexes have a data type, the columns of a parsed INSERT have a value, and so do the columns of a parsed UPDATE; asking for them does not panic.", "quantifier": "every query text that is accepted", "why_tests_cant": "The query texts are unbounded; a single shape without a value makes the accessors dereference nil.", "anchors": ["sql/parser/sqlite/parser_antlr_visitor.go", "sql/query/column.go", "sql/query/literal.go"]}
{"id": "C113", "title": "The data type chosen for a Go value holds it", "statement": "NewDataTypeForValue fails exactly for unsupported Go types, gives integer types to integers only, and the column type chosen for a Go integer type can hold all its values.", "quantifier": "every Go type it distinguishes and every value of it", "why_tests_cant": "The values that do not fit are at the ends of 32 and 64 bit ranges.", "anchors": ["sql/query/data_type.go"]}
{"id": "C114", "title": "Executors by type and by name", "statement": "ExecutorsForType returns the executors of the given type in selection order; LookupExecutor returns the executor of the first function of the given name and fails if there is none.", "quantifier": "every selection list, type and name", "why_tests_cant": "Selection lists mix columns, aggregate functions and other functions in any order.", "anchors": ["sql/query/selectors_helper.go"]}
{"id": "C115", "title": "Group column texts and aggregator sets by name", "statement": "Writing a list of group columns as one text and reading it back gives the list, and reading a text and writing it gives the text. NewAggregatorSetForNames makes one aggregator per name, in order.", "quantifier": "every list of names and every text", "why_tests_cant": "The separator may occur in names, and names may be empty.", "anchors": ["sql/fn/groupby.go", "sql/fn/aggr_set.go"]}
{"id": "C116", "title": "Asterisks and placeholders are recognised", "statement": "IsAsterisk() of a parsed selector is true exactly for `*`, and IsPlaceHolder() of a parsed value is true exactly if it is written as a placeholder.", "quantifier": "every accepted query", "why_tests_cant": "The literal texts are arbitrary, and strings with the same text as a placeholder exist.", "anchors": ["sql/query/literal.go", "sql/query/column.go", "sql/parser/sqlite/parser_antlr_visitor.go"]}
{"id": "C117", "title": "Every parsed statement has a text", "statement": "String() of any statement returned by the parser does not panic.", "quantifier": "every accepted query and every statement in it", "why_tests_cant": "The queries are unbounded, and String() dereferences the definition of an added column.", "anchors": ["sql/parser/sqlite/parser_antlr_visitor.go", "sql/query/alter_table.go"]}
{"id": "C118", "title": "A column or index list obtained from a schema does not change later", "statement": "The list returned by Columns() or Indexes() keeps its elements whatever is added to or dropped from the schema afterwards, and the schema's own list is always the one expected.", "quantifier": "every sequence of additions and removals, every list, whatever room the runtime leaves in its arrays", "why_tests_cant": "Whether an append writes in place depends on the capacity left by all earlier calls.", "anchors": ["sql/query/schema.go"]}
{"id": "C119", "title": "A copy of a column is independent of the original", "statement": "Setting the value of a copy made with Column.Copy leaves the original as it was.", "quantifier": "every column, value and conversion", "why_tests_cant": "The sharing is invisible as long as only values are compared.", "anchors": ["sql/query/column.go", "sql/query/literal.go"]}
{"id": "C120", "title": "Nothing in a reported statement is made up", "statement": "Every statement that ParseString reports is made from its own stretch of consecutive tokens of the query: the stretches are in order, do not overlap and contain no `;`, and every table, column, index, database and file name, every value and every argument in the statement is the text of consecutive tokens of that stretch, up to quote characters and parentheses at the ends of the text; function names also up to letter case.", "quantifier": "every query text, every conversion of LIMIT texts, every reported statement", "why_tests_cant": "Tests compare some statements with expected ones; that no text can leak from another statement, a comment or a default is a claim about all parse trees.", "anchors": ["sql/parser/sqlite/parser_antlr_visitor.go", "sql/parser/sqlite/parser_antlr.go"]}
{"id": "C121", "title": "CREATE TABLE reports every declared column", "statement": "A CREATE TABLE statement reported by ParseString has one column for every column declaration of the text, and none for a constraint or key declaration.", "quantifier": "every query text with a CREATE TABLE statement", "why_tests_cant": "The words that begin a constraint are also accepted as quoted column names; tests use ordinary names.", "anchors": ["sql/parser/sqlite/parser_antlr_visitor.go"]}
{"id": "C122", "title": "Keys of CREATE TABLE are on columns of the table", "statement": "Every key of a CREATE TABLE statement reported by ParseString is a primary or secondary key on columns of the same table, and every key declaration that is accepted is reported.", "quantifier": "every query text with a CREATE TABLE statement", "why_tests_cant": "MySQL key declarations are recognised by scanning words of what the grammar takes for a column declaration; tests cover the spellings that work.", "anchors": ["sql/parser/sqlite/parser_antlr_visitor.go"]}
{"id": "C123", "title": "A row may be reused after it was aggregated", "statement": "What an aggregator's calls return does not depend on what the caller does with a row after Aggregate or AggregateRow has returned: the result is the one for the contents the rows had when they were passed.", "quantifier": "every aggregator, every sequence of row allocations, writes into rows and calls (aggregate, finalize, reset), every map order and sorter", "why_tests_cant": "Tests pass literals as rows; the aliasing only shows when a buffer is reused between calls, and depends on the whole history.", "anchors": ["sql/fn/aggr_impl.go"]}
{"id": "C124", "title": "A query that passes the test helper keeps its text", "statement": "If TestQueryString passes for a query, the query is parsed to one statement whose String differs from the query only in white space, the case of letters, and semicolons at the ends; so nothing of the query was lost.", "quantifier": "every query text and configuration", "why_tests_cant": "This is about the tests themselves: a helper that accepts a lost clause makes every test that uses it pass.", "anchors": ["sqltest/test_helper.go", "sqltest/query_file_helper.go"]}
{"id": "C125", "title": "Printed statements pass the test helper", "statement": "TestQueryString passes for the text that String gives for a statement, in every validation mode.", "quantifier": "every statement and every list of options", "why_tests_cant": "Test files hold a few dozen texts; the claim is about all names, literals, row counts and clause combinations.", "anchors": ["sqltest/test_helper.go", "sqltest/query_file_helper.go"]}
{"id": "C126", "title": "Validation modes and skipping are ordered", "statement": "A query that passes in strict mode passes in default mode, and one that passes in default mode passes in parse-only mode. Skipping errors never changes a pass, and turns nothing but failures into skips.", "quantifier": "every query text, both values of the skip option, every mode", "why_tests_cant": "It relates the outcomes of different configurations for all queries; each test run has one configuration.", "anchors": ["sqltest/test_helper.go", "sqltest/config.go"]}
{"id": "C127", "title": "The test helper does not panic", "statement": "TestQueryString does not panic for a query that the parser can parse without a panic.", "quantifier": "every query text and configuration", "why_tests_cant": "The panic needs a query that is accepted without a statement, in a mode that no test uses.", "anchors": ["sqltest/test_helper.go"]}
{"id": "C128", "title": "Every query of a test file is tested", "statement": "TestQueryFile runs TestQueryString on exactly the queries of the file, in their order.", "quantifier": "every list of queries and every file layout of them", "why_tests_cant": "A query that is skipped or cut in two without notice is not seen by any test.", "anchors": ["sqltest/query_file_helper.go"]}
{"id": "C129", "title": "The last test option wins", "statement": "The mode and the skip setting of a test are those of the last option that sets them; without one they are the default mode and not skipping; other arguments have no effect.", "quantifier": "every list of arguments", "why_tests_cant": "Options can come in any number and order.", "anchors": ["sqltest/test_helper.go", "sqltest/config.go"]}
{"id": "C130", "title": "The reported condition is exactly the statement's own WHERE clause", "statement": "For every accepted query, the condition of a reported SELECT, UPDATE or DELETE is what stands among the statement's own tokens between a WHERE outside parentheses and the end of that clause: one comparison of a name with a value, or two of them joined by AND or OR, with the operator, name and value as written. It is never a part of a longer condition and never taken from a subquery, a WITH clause or another statement. Without a WHERE there is no condition.", "quantifier": "all query texts, all accepted results, every reported statement", "why_tests_cant": "the number of ways to nest subqueries, WITH clauses and statements around a condition is unbounded; tests look at a handful of texts.", "anchors": ["sql/parser/sqlite/parser_antlr_visitor.go 492-568, 591-598, 460-490, 665-705"]}
{"id": "C131", "title": "Accepted queries and reported statements have balanced parentheses", "statement": "The parentheses among the tokens of every accepted query are balanced, and so are those of each reported statement taken on its own; parentheses inside strings, quoted names and comments do not count.", "quantifier": "all query texts and their accepted results", "why_tests_cant": "the grammar is recursive; every rule has to keep the balance at every depth.", "anchors": ["sql/parser/sqlite/parser_antlr.go", "sql/parser/sqlite/antlr/SQLiteParser.g4"]}
{"id": "C132", "title": "A reported UPDATE has the written table and assignments", "statement": "For every accepted query, a reported UPDATE has the table written between UPDATE and SET, and one column for each assignment of the SET clause, in order, with the written name and value.", "quantifier": "all query texts, every reported UPDATE", "why_tests_cant": "assignment lists have any length and values any form; the value forms that get lost are not in the tests.", "anchors": ["sql/parser/sqlite/parser_antlr_visitor.go 460-490"]}
{"id": "C133", "title": "A reported INSERT has the written table and rows", "statement": "For every accepted query, a reported INSERT has the table written behind INTO and one row for each row of its VALUES clause, in order, whose values are those written, with the names of the column list in order.", "quantifier": "all query texts, every reported INSERT, any number of rows and columns", "why_tests_cant": "rows and lists have any length; elements that shift later values are not in the tests.", "anchors": ["sql/parser/sqlite/parser_antlr_visitor.go 423-458"]}
{"id": "C134", "title": "A reported DELETE has the written table", "statement": "For every accepted query, a reported DELETE has the table written behind its own DELETE FROM, up to its WHERE or RETURNING clause or its end; never that of a WITH clause, a subquery or another statement.", "quantifier": "all query texts, every reported DELETE", "why_tests_cant": "WITH clauses and neighbouring statements that could provide a wrong table are unbounded in number and form.", "anchors": ["sql/parser/sqlite/parser_antlr_visitor.go 591-598"]}
{"id": "C135", "title": "A reported SELECT is what was written: selectors, tables, group, orders and limit, clause by clause", "statement": "For every query the parser accepts, the tokens of each reported SELECT divide into WITH clause, body, compound bodies, ORDER BY and LIMIT; its selectors are exactly the elements of the result list in order (a call with the written name and arguments, or a column named by the text), its tables exactly those of FROM, its group that of GROUP BY, its orders exactly the terms of ORDER BY with their directions, its limit and offset the numbers of LIMIT. Fails where aliases of calls, joins, later groups and terms without direction are dropped.", "quantifier": "for all query strings the parser accepts, all their statements and all number conversions", "why_tests_cant": "The tests run fixed queries; this relates every clause of every accepted SELECT to its own tokens, whatever expressions, subqueries and names they contain.", "anchors": ["sql/parser/sqlite/parser_antlr_visitor.go 460-589", "sql/parser/sqlite/antlr/SQLiteParser.g4 551-660"]}
{"id": "C136", "title": "CREATE TABLE is reported as written", "statement": "For every query that ParseString accepts, each reported CREATE TABLE is what its own piece of the query says: the flag says whether IF NOT EXISTS is written, the table is the written one without quotes, and the elements in parentheses, split at their own commas, are definitions followed by constraints. Definitions are read in order: each one with a type and a name that is no keyword gives one column with the written name without quotes, the type named by the first word and the length behind it, and a primary key for each PRIMARY KEY constraint. PRIMARY KEY (c), KEY i (c) and INDEX i (c) give a key on the column of that name declared before. Constraints PRIMARY KEY (...) give a key on the written columns, in order. Nothing else is reported. The full claim, that every written key, length and constraint is reported, is false of the code.", "quantifier": "all query texts, all statements in them, all lists of definitions and constraints of any length and nesting", "why_tests_cant": "The tests compare the text of a handful of CREATE TABLE statements; they cannot show that no list of definitions makes the parser drop, reorder or misread a column or key, and they miss keys that are silently lost.", "anchors": ["sql/parser/sqlite/parser_antlr_visitor.go 134-140", "sql/parser/sqlite/parser_antlr_visitor.go 247-421", "sql/query/schema.go 28-70"]}
{"id": "C137", "title": "Definition and transaction statements are reported as written", "statement": "For every query that ParseString accepts, each reported CREATE or DROP DATABASE, CREATE INDEX, DROP TABLE, DROP INDEX, ALTER DATABASE, USE, TRUNCATE, VACUUM, COPY, BEGIN, COMMIT or ROLLBACK is what its own piece of the query says: the names, flags, lists and options reported are the written ones, without quotes, and nothing that is written is lost.", "quantifier": "all query texts that ParseString accepts, and every statement reported for them", "why_tests_cant": "The tests have one or two texts per kind of statement; names can be quoted, in parentheses, or keywords, lists have any length, and every optional part can be there or not.", "anchors": ["sql/parser/sqlite/parser_antlr_visitor.go 125-193", "sql/parser/sqlite/parser_antlr_visitor.go 340-354", "sql/parser/sqlite/parser_antlr_visitor.go 600-646", "sql/parser/sqlite/parser_antlr_visitor.go 707-709"]}
{"id": "C138", "title": "ALTER TABLE is reported as written", "statement": "For every query that ParseString accepts, each reported ALTER TABLE names the written table and reports exactly the one change that is written: the new table name, the two names of a renamed column, the added column with its type and keys, the added index with kind, name and columns, or the dropped column.", "quantifier": "all query texts that ParseString accepts, and every ALTER TABLE reported for them", "why_tests_cant": "A test looks at a few texts; the five kinds of change combine with any names, definitions, constraints and lists of columns.", "anchors": ["sql/parser/sqlite/parser_antlr_visitor.go 194-246"]}
{"id": "C139", "title": "Every token of an accepted query is accounted for", "statement": "The tokens of an accepted query are, one after the other and with nothing between them, semicolons and the reported statements in their order, each statement being all that its own tokens say.", "quantifier": "every accepted query text", "why_tests_cant": "A parser or visitor that silently passes over part of a text is found only by the texts that contain such a part; there are unboundedly many ways to combine statements.", "anchors": ["sql/parser/sqlite/antlr/SQLiteParser.g4: parse, sql_stmt_list, sql_stmt", "sql/parser/sqlite/parser_antlr.go: ParseString", "sql/parser/sqlite/parser_antlr_visitor.go: newStatementWith"]}
{"id": "C140", "title": "The schema of a query's result has one column per selector", "statement": "The result-set schema made from a table schema and a selection list has one column per selector, in the order of the list: for a plain selector the column of the table of that name, for a call a column named by the text of the call with the data type of the function. It is refused exactly if a selector names no column and no known function.", "quantifier": "all table schemas and selection lists", "why_tests_cant": "The tests use one table and a few lists; repeated, differently spelled, missing and computed columns can occur anywhere in a list of any length.", "anchors": ["sql/query/response/resultset/schema_helper.go: WithSchemaTableSchema, WithSchemaSelectors", "sql/query/response/resultset/schema_impl.go: NewSchemaFrom"]}
{"id": "C141", "title": "An option that cannot be applied is reported", "statement": "A schema or result set is made only if every option given could be applied; if one fails, the caller gets the error.", "quantifier": "all lists of options, both ways of making a schema and a result set", "why_tests_cant": "The tests give options that succeed. Which option fails can depend on those before it, in lists of any length.", "anchors": ["sql/query/response/resultset/schema_impl.go: NewSchema, NewSchemaFrom", "sql/query/response/resultset/resultset_impl.go: NewResultSet, NewResultSetFrom"]}
{"id": "C142", "title": "Options that concern different things can be given in any order", "statement": "Two lists of options with the same members, no two of which set the same part, make the same schema or the same result set.", "quantifier": "all lists of options and all their orders", "why_tests_cant": "The number of orders grows as a factorial and tests use one.", "anchors": ["sql/query/response/resultset/schema_helper.go", "sql/query/response/resultset/resultset_impl.go, resultset_helper.go"]}
{"id": "C143", "title": "IsFunction says whether a column has a function", "statement": "IsFunction() of a column of a result-set schema is true exactly if Function() returns one.", "quantifier": "all columns a result-set schema can have", "why_tests_cant": "It relates two methods on every column, made in either package with any options.", "anchors": ["sql/query/response/resultset/column_impl.go: IsFunction, Function"]}
{"id": "C144", "title": "A result-set column can be made from any column", "statement": "NewColumnFrom returns a column with the name, data type and constraints of the given column, and reports an error if it cannot.", "quantifier": "all columns", "why_tests_cant": "The columns of a table have a definition, those of a selection list do not; the tests use the first kind only.", "anchors": ["sql/query/response/resultset/column_from.go: NewColumnFrom"]}
{"id": "C145", "title": "The schema made from an object has its keys and types", "statement": "The schema made from a row object has exactly one column per key, named by the key, with the data type for its value, always in the same order; it is refused exactly if some value has no data type.", "quantifier": "all objects and all orders in which a map can be traversed", "why_tests_cant": "Go traverses maps in random order, so a test sees some orders only, and there is no bound on the number of keys.", "anchors": ["sql/query/response/resultset/schema_helper.go: WithSchemaRowObject"]}
{"id": "C146", "title": "An aggregated result set needs a table schema, selectors and a source", "statement": "NewAggregatedResultSetFrom fails if the table schema, the selectors or the source is not given, whatever the order of the options; given all and no aggregate function, it returns the source.", "quantifier": "all values of the options, all their orders, all behaviours of the functions", "why_tests_cant": "The claim is over all result sets, selectors and orders of the options.", "anchors": ["sql/query/response/resultset/resultset_aggr.go: NewAggregatedResultSetFrom"]}
{"id": "C147", "title": "Using a connection from several goroutines has no data race", "statement": "Whatever methods any number of goroutines call on one connection at the same time, no two of them use a field at once with one of them writing it.", "quantifier": "all options a connection is made with, all numbers of goroutines, all sequences of calls, all interleavings", "why_tests_cant": "The race detector sees the interleavings that happen; the claim is for all.", "anchors": ["sql/net/conn_impl.go"]}
{"id": "C148", "title": "The session methods of a connection take effect at once", "statement": "User, Database, Schemas and their setters behave, called from any number of goroutines, as if each call took effect at one moment between its call and its return: SetDatabase sets the database and forgets the schemas, SetSchemas adds the names not yet there, once each and in order.", "quantifier": "all options, all numbers of goroutines, all calls with all arguments, all interleavings of single field accesses", "why_tests_cant": "A test runs a few of the interleavings, chosen by the scheduler.", "anchors": ["sql/net/conn_impl.go: SetUser, User, SetDatabase, Database, SetSchemas, Schemas"]}
{"id": "C149", "title": "Calls on connections and on the manager can always return", "statement": "At every point of every concurrent execution, each goroutine that is in a call on a connection or on the connection manager can come to its return without any further call being made: there is no deadlock.", "quantifier": "all reachable states of all concurrent executions", "why_tests_cant": "A deadlock needs a particular interleaving.", "anchors": ["sql/net/conn_impl.go", "sql/net/conn_manager_impl.go"]}
{"id": "C150", "title": "A new connection has what its options say", "statement": "Database, schemas, tracer context, user and id of a new connection are those of the last option given for each, or empty, nil and zero; the connection is open.", "quantifier": "all lists of options", "why_tests_cant": "Options may be repeated and come in any order.", "anchors": ["sql/net/conn_impl.go: NewConnWith and its options"]}
{"id": "C151", "title": "Tracing calls on a connection do not panic", "statement": "Span, StartSpan and FinishSpan of a connection do not panic.", "quantifier": "all connections", "why_tests_cant": "The tests make connections with a tracer context only.", "anchors": ["sql/net/conn_impl.go: Span, StartSpan, FinishSpan"]}
{"id": "C152", "title": "Closing the manager leaves no connection", "statement": "When Close of the manager has returned and all connections could be closed, no connection is left in it, whatever other goroutines did meanwhile.", "quantifier": "all concurrent executions of the manager", "why_tests_cant": "It depends on the interleaving of Close with the calls of others.", "anchors": ["sql/net/conn_manager_impl.go: Close, Conns, RemoveConn"]}
{"id": "C153", "title": "Asking a function again gives the same", "statement": "Name, arguments and text of a function never change. Executor returns at every call what it returned the first time, be it an executor or an error, whatever the options. Once Aggregator has returned an aggregator it returns that same object ever after; an Aggregator call without options that failed fails again when it is repeated without options.", "quantifier": "all function objects, all options, all histories of calls on functions and aggregators in between", "why_tests_cant": "The answers depend on what an object remembers from any earlier sequence of calls.", "anchors": ["sql/fn/func_impl.go: Executor, Aggregator, Name, Arguments, String"]}
{"id": "C154", "title": "The type of a function does not change", "statement": "Type and IsAggregator of a function give the same answer before and after any other calls.", "quantifier": "all names, arguments and histories of calls that do not ask for an executor of another type", "why_tests_cant": "Names are unbounded strings, and the answer may change with any earlier call.", "anchors": ["sql/fn/func_impl.go: WithFunctionName, Type, IsAggregator, Executor, Aggregator", "sql/fn/type.go: NewFunctionTypeForName"]}
{"id": "C155", "title": "A function has what its options say", "statement": "Name, type, arguments and executor of a new function are those of the last option that gives one. A function made with an executor returns that executor, and one made with an aggregator returns that aggregator.", "quantifier": "all lists of options, all later histories of calls", "why_tests_cant": "Options combine in unboundedly many orders.", "anchors": ["sql/fn/func_impl.go: NewFunction, WithFunctionName, WithFunctionType, WithFunctionExecutor, WithFunctionAggregator, WithFunctionArguments"]}
{"id": "C156", "title": "Using the selectors of a statement again gives what a first use gives", "statement": "Aggregating a source with the selectors of a statement gives the same result however often and with whatever sources the selectors were used before.", "quantifier": "all selectors, sources, GROUP BYs, map iteration orders, and histories of earlier uses", "why_tests_cant": "What is left over from earlier uses depends on any number of earlier sources.", "anchors": ["sql/query/response/resultset/resultset_aggr.go: NewAggregatedResultSetFrom", "sql/query/selectors_helper.go: Aggregators", "sql/fn/aggr_impl.go: Reset", "sql/fn/func_impl.go: Aggregator"]}
{"id": "C157", "title": "Statements do not influence each other", "statement": "For statements without a function object in common, using one of them after any uses of all of them gives what it gives after its own uses alone. The aggregators one statement gives are the same objects every time.", "quantifier": "all statements of distinct unused functions of known type, all interleavings of their uses, all map iteration orders", "why_tests_cant": "Independence is about all interleavings of uses.", "anchors": ["sql/query/response/resultset/resultset_aggr.go: NewAggregatedResultSetFrom", "sql/query/selectors_helper.go: Aggregators", "sql/fn/func_impl.go: Aggregator"]}
{"id": "C158", "title": "Listing a directory gives exactly the files below it", "statement": "Listing a directory gives everything below it that is not a directory and that matches the extension or expression, each once, and nothing else; a path that is no directory is refused.", "quantifier": "all directory trees with links and unreadable parts, all expressions", "why_tests_cant": "Directory trees have unbounded depth and width.", "anchors": ["sqltest/util/file.go: ListFilesWithRegexp, ListFilesWithExtention, ListFiles, IsDir"]}
{"id": "C159", "title": "Listing a directory does not panic", "statement": "Listing a directory returns a list or an error.", "quantifier": "all directory trees, including entries that disappear while they are listed", "why_tests_cant": "It depends on files that disappear at any depth while the directory is read.", "anchors": ["sqltest/util/file.go: ListFilesWithRegexp, ListFilesWithExtention"]}
{"id": "C160", "title": "Listing by extension gives the files with that extension", "statement": "The extension of a path is the part of its last element from the last dot on. Listing by extension gives exactly the files with that extension.", "quantifier": "all paths, extensions and directory trees", "why_tests_cant": "Paths and extensions are unbounded texts.", "anchors": ["sqltest/util/file.go: Ext, ListFilesWithExtention"]}
{"id": "C161", "title": "Testing a directory runs every query of every matching file", "statement": "Testing a directory runs all queries of all matching files below it, file by file, and reports an error if one of them could not be read, if the expression does not compile or if the path is no directory.", "quantifier": "all directory trees, file contents and expressions", "why_tests_cant": "Trees and contents are unbounded.", "anchors": ["sqltest/query_file_helper.go: TestQueryDirectoryWithRegex, TestQueryFile, readQueryFile", "sqltest/util/file.go: ListFilesWithRegexp"]}
{"id": "C162", "title": "Things made with options have what the last option of each kind gives", "statement": "NewTableWith, NewLiteralWith, NewSchemaWith, NewSelectWith, NewSchemaColumnsStatement, NewRow and NewBindStatement give an object whose plain arguments are those passed and each of whose optional parts is that of the last option for it, or the documented default when there is none; options for different parts do not disturb each other.", "quantifier": "every list of options of any length, in any order, with repetitions", "why_tests_cant": "Option lists are unbounded and the claim is about every order and repetition.", "anchors": ["sql/query/table.go: NewTableWith", "sql/query/literal.go: NewLiteralWith", "sql/query/schema.go: NewSchemaWith", "sql/query/select.go: NewSelectWith", "sql/system/schema_columns_stmt_impl.go: NewSchemaColumnsStatement", "sql/query/response/resultset/row_impl.go: NewRow", "sql/stmt/bind_impl.go: NewBindStatement"]}
{"id": "C163", "title": "A column made with options can be made and asked", "statement": "NewColumnWithOptions never panics and gives a column whose name, definition, literal, function and arguments are those of the last option for each; asking the column for its data type, size, constraints, value and value type returns them, and the function of a column made with an executor has the arguments of the column.", "quantifier": "every list of column options, including nil ones", "why_tests_cant": "Every combination, order and repetition of options and of missing parts.", "anchors": ["sql/query/column.go: NewColumnWithOptions", "sql/query/column.go: WithColumnFunctionExecutor", "sql/query/column_def.go: dataDef", "sql/query/literal.go: Literal.Value"]}
{"id": "C164", "title": "An ALTER TABLE made with options reports and shows its clauses", "statement": "NewAlterTableWith reports, for the schema and each clause, what the last option for it gives (nil takes it back, a renaming needs both columns); its text is always available, begins with ALTER TABLE and the full table name and shows every reported clause.", "quantifier": "every table name and every list of options", "why_tests_cant": "Every combination, order and repetition of the options.", "anchors": ["sql/query/alter_table.go: NewAlterTableWith", "sql/query/alter_table.go: alterTableStmt.String"]}
{"id": "C165", "title": "COPY options are honoured or refused", "statement": "NewCopyWith gives a COPY with the given table and source, the columns of the last option for them and the format the last format option names in any letter case; a word that names no format is refused.", "quantifier": "every list of options and every word given as a format", "why_tests_cant": "All words and all option lists.", "anchors": ["sql/query/copy.go: NewCopyWith", "sql/query/copy.go: WithCopyFormat"]}
{"id": "C166", "title": "Columns and selectors convert into each other", "statement": "The selectors of a list of columns, asked for their columns, give the list back and have its names; the columns of any selectors are exactly those selectors that are columns, in order; an argument list is an asterisk exactly if it is empty or is the single argument *.", "quantifier": "every list of columns, selectors and arguments", "why_tests_cant": "Lists of any length and mixture.", "anchors": ["sql/query/columns.go: Columns.Selectors", "sql/query/selectors.go: Selectors.Columns", "sql/query/selectors.go: Selectors.Names", "sql/fn/args.go: Arguments.IsAsterisk"]}
{"id": "C167", "title": "A parser answers each goroutine for its own query", "statement": "When several goroutines call ParseString at the same time, on the same parser or on different ones, each call returns what it would return alone. False of the code when calls of the same parser overlap: a goroutine can be given the statements of another goroutine's query, and another goroutine's syntax error makes its call fail, whatever the two queries are. Proved: calls of the same parser that do not overlap, with any use of other parsers meanwhile, answer as one after the other (so with an error after an earlier syntax error, C66); parsers that belong to one goroutine each never disturb each other.", "quantifier": "every number of parsers and goroutines, every query, every interleaving of the single accesses", "why_tests_cant": "The wrong answer needs one particular interleaving, which a test meets by chance only; that separate parsers do not disturb each other is a claim about all interleavings.", "anchors": ["sql/parser/sqlite/parser_antlr.go: Parser.ParseString", "sql/parser/sqlite/parser_antlr_error_listener.go: antlrParserErrorListener.SyntaxError"]}
{"id": "C168", "title": "Parsers are free of data races", "statement": "No two goroutines ever use the same field of a parser at the same time with one of them writing. False of the code: any two non-empty queries passed to the same parser at the same time race from the first assignment on. Proved for all executions in which calls of the same parser do not overlap, so in particular if every parser belongs to one goroutine.", "quantifier": "every number of parsers and goroutines, every query, every interleaving", "why_tests_cant": "The race detector reports the executions it sees; freedom from races is about all of them.", "anchors": ["sql/parser/sqlite/parser_antlr.go: Parser.ParseString", "sql/parser/sqlite/parser_antlr.go: Parser"]}
{"id": "C169", "title": "A function can be used by several goroutines", "statement": "Whatever goroutines call on one function object at the same time, there is no data race and every call answers as it would alone. False of the code: the first calls of Executor write the function without a lock, so any two of them at the same time race. Proved for every function that calls no longer change; one call of Executor (for a name that has an executor) or one successful call of Aggregator (for a name that has none) made before the goroutines start is enough for that.", "quantifier": "every function, name, argument list and option list, any number of goroutines, every interleaving", "why_tests_cant": "All interleavings of all calls.", "anchors": ["sql/fn/func_impl.go: function.Executor", "sql/fn/func_impl.go: function.Aggregator", "sql/fn/func_impl.go: function.IsAggregator"]}
{"id": "C170", "title": "First calls for executor and aggregator from several goroutines agree", "statement": "Goroutines that ask a function for its executor or its aggregator, the first time included, all get one that answers like the one a call alone would get, and all get the same aggregator. Proved for executors: the answer is that of a call alone with the options of some call that had begun. Aggregators, in part: an error only where the call alone is an error, and otherwise an object made for the function's name. False of the code: two goroutines can get two different aggregators, and one of them is given the other's when it asks again, so what it has aggregated is lost.", "quantifier": "every function, all options, any number of goroutines, every interleaving", "why_tests_cant": "The two objects appear only in some interleavings; the agreement is about all of them.", "anchors": ["sql/fn/func_impl.go: function.Executor", "sql/fn/func_impl.go: function.Aggregator"]}
{"id": "C171", "title": "Reported statements can be read back", "statement": "For every accepted query, the text of a reported statement, given to the parser again, is read as exactly that statement; the texts of all of them with `;` between them are read as exactly these statements.", "quantifier": "all query texts that are accepted, every reported statement", "why_tests_cant": "It is about every text the grammar accepts and two runs of the parser; tests compare a few printed texts with what was written.", "anchors": ["sql/parser/sqlite/parser_antlr_visitor.go", "sql/query/select.go: selectStmt.String", "sql/query/insert.go", "sql/query/update.go", "sql/query/delete.go", "sql/query/literal.go 117-126"]}
{"id": "C172", "title": "Parameters are reported as bind parameters", "statement": "A parameter such as `?`, `$1` or `:name` that is written as a value in a condition, a row of values or an assignment is reported as a bind parameter, so that it can be told from other values.", "quantifier": "all accepted queries, all values of conditions, rows and assignments", "why_tests_cant": "Which of two alternatives that both match is taken is decided by the grammar for all texts; a test sees the same printed text in both cases.", "anchors": ["sql/parser/sqlite/parser_antlr_visitor.go 443-452", "sql/parser/sqlite/parser_antlr_visitor.go 465-472", "sql/parser/sqlite/parser_antlr_visitor.go 658-663", "sql/parser/sqlite/antlr/SQLiteParser.g4: literal_value, expr"]}
{"id": "C173", "title": "Applying a reported ALTER TABLE changes the schema as written", "statement": "Applying the statements that a query reports to a schema, CREATE TABLE first and then ALTER TABLE and CREATE INDEX one after the other, gives the schema that is written: added columns and indexes are appended in order, renamed things have the new name, and a dropped column is gone while all others stay.", "quantifier": "all accepted queries, all schemas, scripts of any length", "why_tests_cant": "It joins the parser and the schema calls for every text; tests of either part alone use statements made by hand, where the name of a dropped column is not the text of a clause.", "anchors": ["sql/query/schema.go: Alter, DropColumn", "sql/parser/sqlite/parser_antlr_visitor.go: newAlterTableWith", "sql/query/alter_table_from.go"]}
{"id": "C174", "title": "Written function calls compute what is written", "statement": "For every accepted SELECT whose selection list consists of names and calls, the functions are those with the written names and arguments: calls of the aggregate functions, in any letter case, give one aggregator each whose result is the aggregate of the rows, and the aggregated result set has one row with it; other calls have executors whose value on a row is that of the function on the values of the arguments.", "quantifier": "all accepted queries, all selection lists of names and calls, all rows", "why_tests_cant": "It joins the parser, the function tables and the evaluation for every text, letter case and row; the tests of each part do not meet.", "anchors": ["sql/parser/sqlite/parser_antlr_visitor.go 570-589", "sql/query/selectors_helper.go", "sql/fn/func_impl.go", "sql/query/response/resultset/resultset_aggr.go"]}
{"id": "C175", "title": "Result-set schemas find columns as tables do", "statement": "LookupColumn of a result-set schema, of the schema rows are read with, and of an information_schema result set returns the first column whose name is the given one, letter case aside, and an error exactly if there is none; so a column that a query names in some letter case is found in the schema of its result under that name.", "quantifier": "all schemas, all column lists, all names", "why_tests_cant": "The claim is about every list of columns, with repeated names and names differing in letter case only; tests look up a few literal names in the spelling they were created with.", "anchors": ["sql/query/response/resultset/schema_impl.go:107", "sql/system/schema_columns_resutset_impl.go:57", "sql/query/response/resultset/column_from.go:31"]}
{"id": "C176", "title": "HasAggregator and HasExecutor say what the selection list has", "statement": "HasAggregator of a selection list (and of a SELECT) is true exactly if one of its functions is an aggregate function, and HasExecutor exactly if one of its functions that is not an aggregate has an executor.", "quantifier": "all selection lists", "why_tests_cant": "Selection lists mix columns, aggregates, known and unknown functions in any number and order; tests use lists with one function.", "anchors": ["sql/query/selectors_helper.go:59", "sql/query/selectors_helper.go:64", "sql/query/select_helper.go:30"]}
{"id": "C177", "title": "Cast functions return the cast of their argument", "statement": "A cast function made with a name and a cast has this name and the cast type; executed with one argument, given in an argument list, a row, by itself or by name, it returns what the cast returns, and with any other number of arguments it returns an error.", "quantifier": "all names, casts, argument lists and maps", "why_tests_cant": "The claim holds for arbitrary cast functions, including failing ones, and argument lists of any length; tests fix one cast.", "anchors": ["sql/fn/cast.go:28", "sql/fn/executor_impl.go:98", "sql/fn/executor_impl.go:111"]}
{"id": "C178", "title": "A table answers to its qualified name only", "statement": "IsFullTableName of a table with a schema is true exactly for the names that consist of the schema, a dot and the table name, letter case aside; without a schema, or if the table name has a dot itself, exactly for the table name, letter case aside.", "quantifier": "all tables and all names", "why_tests_cant": "Names may have any length, letter case and dots anywhere; tests compare a handful of names.", "anchors": ["sql/query/table.go:83", "sql/query/table.go:68"]}
{"id": "C179", "title": "A prepared statement with bound values is reported as the statement with the values in place", "statement": "If a statement has placeholders for some of its values, then binding values to the text of the statement and parsing the result reports exactly the statement with these values in the places of the placeholders; a value never changes any other part of the statement.", "quantifier": "every INSERT, UPDATE, DELETE and SELECT with any number of placeholders in rows, assignments and conditions, and every list of values", "why_tests_cant": "Binding substitutes texts: a quote in a value ends the literal and the rest of the value is read as SQL, and a question mark in a value catches the next value. Tests bind tame values.", "anchors": ["sql/stmt/bind_impl.go: bindStmt.Statements", "sql/stmt/bind_param_impl.go: bindParam.String", "sql/query/literal.go: ValueString", "sql/parser/sqlite/parser_antlr.go: ParseString"]}
{"id": "C180", "title": "Conditions that are syntax errors whatever surrounds them", "statement": "A DELETE, UPDATE or SELECT whose condition consists of comparisons of columns with literals is read back from its text if there are at most two comparisons and is a syntax error if there are three or more, however they are joined with AND and OR. A condition that starts with a comparison of two columns, of a qualified column, or of a literal with something, or whose second comparison is one of these or uses IN, is a syntax error whatever text follows.", "quantifier": "every printable statement, every tree of comparisons joined by AND and OR, every text after the offending beginning", "why_tests_cant": "That a text is never accepted is a statement about every possible derivation of an ambiguous grammar and every continuation of the text; tests show single rejected texts.", "anchors": ["sql/parser/sqlite/parser_antlr.go: ParseString", "sql/query/expr_and.go: String", "sql/query/delete.go: String", "sql/query/update.go: String", "sql/query/select.go: String", "sql/system/schema_columns_stmt_impl.go: NewSchemaColumnsStatement"]}
{"id": "C181", "title": "Names and values do not decide how a query is read", "statement": "If two query texts have the same kinds of tokens in the same order, ParseString has the same outcome for both up to names and values: both are errors, or both report as many statements, of the same kinds, with the same clauses, items, operators, directions and kinds of values. In particular changing the case of letters anywhere, or replacing names by names and values by values of the same kind, never turns a statement into another one.", "quantifier": "all pairs of query texts with the same kinds of tokens, and all pairs that differ in letter case only", "why_tests_cant": "Tests parse some names and values; a name or value that is mistaken for syntax, or an operator recognised by its text in one case only, shows for others.", "anchors": ["sql/parser/sqlite/parser_antlr.go: ParseString", "sql/parser/sqlite/parser_antlr_visitor.go"]}
{"id": "C182", "title": "Bound strings do not decide how a query is read", "statement": "Whatever strings are bound to the placeholders of a query, parsing the bound query has the same outcome up to names and values: the strings cannot add conditions, statements or clauses, or turn the query into an error.", "quantifier": "all query texts with placeholders and all pairs of lists of strings", "why_tests_cant": "Tests bind a few harmless strings; this is the absence of injection for every string and every query.", "anchors": ["sql/query/bind.go", "sql/parser/sqlite/parser_antlr.go: ParseString"]}
{"id": "C183", "title": "Letter case changes nothing but letter case", "statement": "Two queries that differ only in the case of ASCII letters have the same outcome up to the case of letters: both are errors, both panic, or both report the same statements once names and values are written in capital letters - the same tables, columns, column types, values, conditions, operators, directions, limits, functions with their types, and keys.", "quantifier": "All query texts, of every statement kind, accepted or not, and every conversion of LIMIT numbers that does not depend on letter case.", "why_tests_cant": "There are exponentially many ways to recase one query, and every query would have to be tried; tests recase a few keywords of a few queries.", "anchors": ["sql/parser/sqlite/parser_antlr_visitor.go: VisitParse, newStatementWith", "sql/parser/sqlite/parser_antlr.go: ParseString"]}
{"id": "C184", "title": "Appending to a row changes no row obtained earlier", "statement": "Row.Append returns a row with the values of the row it is called on followed by the given values, and no row that the program holds - made by NewRow or returned by an earlier Append - changes.", "quantifier": "All histories of NewRow and Append calls, with any values, any rows reused any number of times, and any room that the runtime leaves behind a grown slice.", "why_tests_cant": "Whether two rows share memory depends on the room the runtime happens to leave and on which rows were appended to before; tests append once and look at the result only.", "anchors": ["sql/fn/row.go: NewRow, Row.Append"]}
{"id": "C185", "title": "Options given as a slice are applied and left alone", "statement": "Given a slice of options, the constructors of aggregators and the methods Executor and Aggregator of a function apply exactly these options in their order, followed by the one for the arguments and the constructor's own, and leave the caller's slices as they were.", "quantifier": "All slices of options with any length and room, all further slices of the caller over the same memory, and any options.", "why_tests_cant": "Tests pass options one by one; only a prefix of a longer slice has room behind it, and the damage shows in options that the call was never given.", "anchors": ["sql/fn/func_impl.go: Executor, Aggregator", "sql/fn/sum.go: NewSum", "sql/fn/avg.go: NewAvg", "sql/fn/min.go: NewMin", "sql/fn/max.go: NewMax", "sql/fn/count.go: NewCount"]}
{"id": "C186", "title": "Connections do not share their schemas", "statement": "The schemas of a connection are those it was created with and those set on it: no call on another connection and nothing the program does with the slice the connection was created with or with a list that Schemas returned changes them, and no call on a connection changes a list that Schemas returned.", "quantifier": "All interleavings of SetDatabase, SetSchemas and Schemas calls on any number of connections, created with any slices of schemas, with any room the runtime leaves.", "why_tests_cant": "The sharing shows only when several connections are created from one slice with room and their calls interleave; tests create one connection at a time from literals.", "anchors": ["sql/net/conn_impl.go: WithConnSchemas, SetDatabase, SetSchemas, Schemas"]}
{"id": "C187", "title": "The list of registered names is the caller's to use", "statement": "Nothing that a program does with the list that RegisteredFunctionNames returns changes what IsRegisteredFunction answers.", "quantifier": "All names asked for, all names appended or assigned to the list, at all positions.", "why_tests_cant": "Tests read the list; they do not assign to every element and ask for every name.", "anchors": ["sql/fn/names.go: RegisteredFunctionNames, IsRegisteredFunction"]}
{"id": "C188", "title": "Words after a complete statement are refused", "statement": "If the text of a statement is followed by a space and something that is neither a semicolon, nor the beginning of a statement, nor one of the words with which that kind of statement goes on, parsing reports a syntax error whatever comes after it: no text is dropped silently.", "quantifier": "all statements with plain names, all following texts that can be divided into tokens", "why_tests_cant": "The statements, the words after them and the texts after those words are unlimited; a test tries a few misspelt statements, while a grammar rule that lets one keyword too many through shows only with that keyword.", "anchors": ["sql/parser/sqlite/antlr/SQLiteParser.g4: parse, sql_stmt_list and the rules of the statements", "sql/parser/sqlite/parser_antlr.go: ParseString"]}
{"id": "C189", "title": "Aliases are not part of names", "statement": "A table or a selected column that is written with an alias, with or without AS, is reported under its own name: the alias is not run into the name. So a SELECT from the table ab with the alias c and one from the table a with the alias bc are told apart.", "quantifier": "all SELECT, INSERT, UPDATE and DELETE statements of the modelled kinds, all names and aliases, all layouts, all statements that follow", "why_tests_cant": "The names and aliases are unlimited; the tests print statements and compare texts, and no test reads a statement with an alias and looks at the name of the table.", "anchors": ["sql/parser/sqlite/parser_antlr_visitor.go: newSelectWith, newSelectorFrom, newUpdateWith, newDeleteWith, newInsertWith", "sql/parser/sqlite/antlr/SQLiteParser.g4: from_table, qualified_table_name, result_column"]}
{"id": "C190", "title": "Clauses are not ignored", "statement": "A clause that changes what a statement asks for is reported or refused, never silently dropped: a RETURNING clause or ON CONFLICT DO NOTHING at the end of an INSERT, UPDATE or DELETE, the columns after the first of a GROUP BY, and a HAVING clause. So two statements that differ in such a clause are told apart.", "quantifier": "all SELECT, INSERT, UPDATE and DELETE statements of the modelled kinds with such clauses, all names, items and conditions in them, all layouts, all statements that follow", "why_tests_cant": "The clauses are unlimited in length and content, and the tests check that statements with them are accepted, not that the report distinguishes them.", "anchors": ["sql/parser/sqlite/parser_antlr_visitor.go: newSelectWith, newUpdateWith, newDeleteWith, newInsertWith", "sql/parser/sqlite/antlr/SQLiteParser.g4: returning_clause, upsert_clause, select_core"]}
{"id": "C191", "title": "Rows without a schema keep their values in order", "statement": "In a row built from values and no schema, the value at position i, counted from one, is found under the name i written in decimal, and no other name is found. The values of a row built from an object and no schema are listed in ascending order of their names. So a row built from the object of a row of values has the same values in the same order.", "quantifier": "all lists of values of any length, all objects, all names", "why_tests_cant": "The order only breaks from the tenth value on, where the names 10 and 2 are sorted as texts; the tests use rows of a few values.", "anchors": ["sql/query/response/resultset/row_impl.go: Object, Values, ValueBy"]}
{"id": "C192", "title": "Asking a selection list does not change it", "statement": "Asking a selection list for its executors or for its aggregators, whatever the answer, leaves the selectors as they were: their number and order, names, texts, functions and arguments, and whether the list has an aggregate function. Asking again gives the same answer, and asking for one does not change the answer to asking for the other.", "quantifier": "every selection list, of columns, functions and columns with functions, asked before or not, every sequence of the two questions", "why_tests_cant": "Selection lists are unlimited; the answers depend on what was asked before, on the letter case of function names and on the position of a function that has no executor.", "anchors": ["sql/query/selectors_helper.go: Executors, Aggregators, HasAggregator", "sql/fn/func_impl.go: Executor, Aggregator"]}
{"id": "C193", "title": "The text of an error tells what it is about", "statement": "The text of an error made by one of the constructors for databases, tables, columns, prepared statements and queries contains the name or query it was made with, verbatim, between fixed texts, so that different kinds of errors and different names never have the same text; and the text of the error about numbers of columns determines both numbers.", "quantifier": "every constructor, all pairs of constructors, all names and queries, all numbers", "why_tests_cant": "The names are unlimited and may contain the brackets and words that the texts are made of.", "anchors": ["sql/errors/query.go: NewErrDatabaseNotExist, NewErrColumnsNotEqual, NewErrNoTable", "sql/errors/errors.go: NewErrNotSupported, NewErrExist"]}
{"id": "C194", "title": "The last option of a kind decides about an executor", "statement": "An executor has the name, the arguments, the type and the function that the last option of that kind gives, else those of the built-in function it was made for; an executor without a function answers every call with an error; and a function's executor reads the function's own arguments, whatever options the caller gives.", "quantifier": "all lists of options, all built-in functions, all arguments and objects", "why_tests_cant": "Option lists are unlimited and options of different kinds interleave.", "anchors": ["sql/fn/executor_impl.go: NewExecutor, WithExecutorName, WithExecutorArguments, WithExecutorType, WithExecutorFunc, Execute", "sql/fn/func_impl.go: Executor"]}
{"id": "C195", "title": "The words a statement begins with decide what it is reported as", "statement": "For every query ParseString accepts, the reported statements are made from disjoint stretches of the query's tokens, in order, and every stretch begins with the verb of its statement (CREATE, DROP, ALTER, INSERT or REPLACE, UPDATE, DELETE, SELECT or VALUES, COMMIT or END, BEGIN, ROLLBACK, USE, COPY, TRUNCATE, VACUUM), with nothing before it but the WITH clause of a SELECT, INSERT, UPDATE or DELETE. For the statements about tables, databases and indexes the kind of object follows the verb, after at most one of TEMP, TEMPORARY and UNIQUE. So a statement is only reported if its verb stands in the query's text in some letter case, and there are never more statements of a verb than occurrences of it among the tokens.", "quantifier": "all queries and all statements reported of them", "why_tests_cant": "A test shows that some DELETE is reported as a DELETE; that no query at all without the word is reported as one, whatever names, strings, comments, subqueries and other statements it holds, ranges over all texts.", "anchors": ["sql/parser/sqlite/parser_antlr.go: ParseString", "sql/parser/sqlite/antlr/SQLiteParser.g4: sql_stmt and the statement rules", "sql/parser/sqlite/parser_antlr_visitor.go: newStatementWith"]}
{"id": "C196", "title": "Several goroutines can aggregate into one aggregator", "statement": "When goroutines call AggregateRow on one aggregator without GROUP BY, every row whose call returns without an error counts once: the count and the accumulators are those of the same rows aggregated one after the other. No row is ever counted twice.", "quantifier": "all aggregators without GROUP BY, all rows, all numbers of goroutines and all interleavings of their accesses", "why_tests_cant": "A lost row needs one particular interleaving of single accesses among unboundedly many, and a test run shows only the ones the scheduler happens to choose.", "anchors": ["sql/fn/aggr_impl.go: AggregateRow"]}
