{
 "claims": [
  {
   "property": "C01",
   "status": "proved",
   "theorems": [
    "Verif.Props.C01_stack_lifo"
   ],
   "note": "C01: every history of calls on a new stack returns what the abstract LIFO list returns."
  },
  {
   "property": "C02",
   "status": "partial",
   "theorems": [
    "Verif.Props.C02_escape_roundtrip_iff",
    "Verif.Props.C02_escape_roundtrip_fails",
    "Verif.Props.C02_escape_roundtrip_partial"
   ],
   "note": "C02, full statement of the round trip: it holds exactly when the value neither starts nor ends with a quote character. | C02 as stated is false: a value that ends with a quote loses it. | C02, the part that holds: values that do not start or end with a quote come back unchanged. Missing: values starting or ending with a quote, for which the claim is false."
  },
  {
   "property": "C03",
   "status": "partial",
   "theorems": [
    "Verif.Props.C03_name_roundtrip_iff",
    "Verif.Props.C03_unescape_idempotent",
    "Verif.Props.C03_name_roundtrip_fails",
    "Verif.Props.C03_name_roundtrip_partial"
   ],
   "note": "C03: the identifier round trip holds exactly when the identifier neither starts nor ends with one of the four stripped characters. | C03, the second half: stripping twice is stripping once, for every string. | C03 as stated is false for identifiers ending in a stripped character (a call such as `f()`). | C03, the part of the round trip that holds: ordinary identifiers."
  },
  {
   "property": "C04",
   "status": "proved",
   "theorems": [
    "Verif.Props.C04_limit_text_injective"
   ],
   "note": "C04: two limit clauses print the same text exactly when both limit and offset agree, and a clause prints nothing exactly when it has neither."
  },
  {
   "property": "C05",
   "status": "proved",
   "theorems": [
    "Verif.Props.C05_order_text_injective"
   ],
   "note": "C05: the ORDER BY text determines the list of (column, direction) terms, for every list of terms with a direction over names without spaces and commas."
  },
  {
   "property": "C06",
   "status": "partial",
   "theorems": [
    "Verif.Props.C06_where_text_structure_fails",
    "Verif.Props.C06_where_text_structure_partial",
    "Verif.Props.C06_text_iff",
    "Verif.Props.C06_written_partial",
    "Verif.Props.C06_grouping_fails"
   ],
   "note": "C06 as stated is false: `a = 1 AND (b = 2 OR c = 3)` and `(a = 1 AND b = 2) OR c = 3` print alike. | C06, the part that holds: for expressions without an OR below an AND (what SQL text without parentheses can say) over comparisons whose printed parts contain no space, expressions printing the same text are true under the same valuations. Missing: OR below AND (the claim is false there) and string values containing spaces (a value such as `x' AND b = 'y` prints like two comparisons). | C06, exactly what the text of a condition keeps: two conditions made of comparisons of columns, with or without quotes, with literals, have the same text if and only if they have the same comparisons and the same words between them, from left to right. How the comparisons are grouped is lost. | C06 for every condition without an OR below an AND whose comparisons are of columns, with or without quotes, with literals, also strings with blanks: conditions with the same text are true of the same rows. Missing: an OR below an AND, see `C06_where_text_structure_fails`, and values that no literal has. | C06 fails for every AND with an OR on its right: the condition that groups from the left has the same text, and where only the last comparison is true, only that condition is true."
  },
  {
   "property": "C07",
   "status": "partial",
   "theorems": [
    "Verif.Props.C07_string_literal_iff",
    "Verif.Props.C07_string_literal_partial",
    "Verif.Props.C07_fails"
   ],
   "note": "C07, exactly: the text printed for the string value `v` is one string literal token with the value `v` (what newLiteralValueWith makes of the token text) if and only if every quote in `v` is doubled and `v` neither starts nor ends with a quote character. | C07, with the condition the code needs: a value without single quotes that neither starts nor ends with a double quote. Missing: values with quotes, which are printed unescaped (`C07_fails`); `C07_string_literal_iff` is the exact condition. | C07, negation: `it's` is printed as three tokens, and `\"x\"` loses its double quotes."
  },
  {
   "property": "C08",
   "status": "partial",
   "theorems": [
    "Verif.Props.C08_schemas",
    "Verif.Props.C08_schemas_iff",
    "Verif.Props.C08_exact",
    "Verif.Props.C08_iff",
    "Verif.Props.C08_roundtrip_partial",
    "Verif.Props.C08_fails",
    "Verif.Props.C08_refused_fails",
    "Verif.Props.C08_accepted_iff"
   ],
   "note": "C08 for tables with schemas: a SELECT of the kinds of C08, with plain table names of which any may have schemas, is read as the same SELECT in which the name of each table repeats its schema. | C08 for tables with schemas: a SELECT of the kinds of C08 with plain table names is read back if and only if none of its tables has a schema. | C08 for all SELECT statements of the grammar, also with nothing selected, functions of any kind, columns that know more than their names and tables with schemas: the text is read as the SELECT with what its text says. | C08 for all SELECT statements of the grammar: the text is read as the SELECT itself, with its literals as texts, if and only if something is selected, columns have nothing but names, functions are as made from their names, and no table has a schema besides the one in its name. | C08 for SELECT statements with at least one selector and table, names with or without quotes, conditions of at most two comparisons, explicit directions, an offset only with a limit, and no GROUP BY together with ORDER BY or LIMIT: parsing the printed text gives exactly the statement, with the values of literals as texts. Missing: the other ones, see `C08_fails`. | C08 is false of the code: with both GROUP BY and ORDER BY the parser rejects the printed text, and with an offset alone as well; a table with a schema comes back with the schema in its name; no selectors come back as `*`; and a function made with a name in small letters has another type. | C08 for the SELECT statements whose clauses do not fit: with a term of the ordering without a direction, an offset without a limit, or a grouping besides an ordering or a limit, the text is a syntax error, whatever is selected from whatever tables under whatever condition. | C08 for all SELECT statements with readable parts: the text is accepted exactly if the clauses fit, and then read as the SELECT with what its text says."
  },
  {
   "property": "C09",
   "status": "partial",
   "theorems": [
    "Verif.Props.C09_schema",
    "Verif.Props.C09_schema_iff",
    "Verif.Props.C09_exact",
    "Verif.Props.C09_iff",
    "Verif.Props.C09_longer_fails",
    "Verif.Props.C09_roundtrip_partial",
    "Verif.Props.C09_fails"
   ],
   "note": "C09 for a table with a schema: an INSERT of the kinds of C09 into a table with a plain name is read as the same INSERT into the table of that name without its schema. | C09 for a table with a plain name: an INSERT of the kinds of C09 is read back if and only if its table has no schema. | C09 for all INSERT statements of the grammar, also with rows of other lengths and other column names and a table with a schema: the text is read as an INSERT in which the values of every row belong to the columns of the first one. | C09 for all INSERT statements of the grammar: the text is read as the INSERT itself, with its literals as texts, if and only if the table has no schema, columns have names and literals only, and the names of each row begin those of the first row. | C09 is false of the code for all INSERT statements of the grammar with rows longer than the first one: what is read has no more values in any row than the first row has, and does not depend on the values beyond. | C09 for INSERT statements into a table with or without quotes, but no backquotes, with at least one row and column, the same column names in every row, and printable values: parsing the printed text gives exactly the statement, with the values as texts. Missing: the other ones, see `C09_fails`. | C09 is false of the code: the schema of the table is lost, a row with other column names comes back with those of the first row, and a nil value is printed as a text the parser rejects."
  },
  {
   "property": "C10",
   "status": "partial",
   "theorems": [
    "Verif.Props.C10_update_schema",
    "Verif.Props.C10_delete_schema",
    "Verif.Props.C10_schema_iff",
    "Verif.Props.C10_update_exact",
    "Verif.Props.C10_delete_exact",
    "Verif.Props.C10_iff",
    "Verif.Props.C10_update_partial",
    "Verif.Props.C10_delete_partial",
    "Verif.Props.C10_fails",
    "Verif.Props.C10_function_fails"
   ],
   "note": "C10 for a table with a schema: an UPDATE of the kinds of C10 of a table with a plain name is read as the same UPDATE of a table without a schema whose name is the schema, a dot and the name. | C10 for a table with a schema: a DELETE of the kinds of C10 from a table with a plain name is read as the same DELETE from a table without a schema whose name is the schema, a dot and the name. | C10 for a table with a plain name: an UPDATE or a DELETE of the kinds of C10 is read back if and only if its table has no schema. | C10 for all UPDATE statements of the grammar, also with columns that know more than their names and values, with functions without an executor, and a table with a schema: the text is read as the UPDATE with what its text says. | C10 for all DELETE statements of the grammar, also with columns that know more than their names, and a table with a schema: the text is read as the DELETE with what its text says. | C10 for all UPDATE and DELETE statements of the grammar: the text is read as the statement itself, with its literals as texts, if and only if the table has no schema, assigned columns are a literal or an operation as the parser makes them, and the columns of the condition have nothing but their names. | C10 for UPDATE statements of a table without a schema with assignments of printable literals or of an arithmetic operation on a column, and a condition of at most two comparisons: parsing the printed text gives exactly the statement. Missing: the other ones, see `C10_fails`. | C10 for DELETE statements from a table without a schema with a condition of at most two comparisons: parsing the printed text gives exactly the statement. Missing: the other ones, see `C10_fails`. | C10 is false of the code: a condition of three comparisons is rejected, and an assignment of a function other than the arithmetic operators is printed as a text the parser rejects. | C10 is false of the code for all UPDATE statements whose first assignment is a function with an executor that is a name, like ABS: the text is a syntax error, with a column as the first argument whatever follows, and without arguments if the condition is one of the grammar."
  },
  {
   "property": "C11",
   "status": "proved",
   "theorems": [
    "Verif.Props.C11_lookup_column"
   ],
   "note": "C11: the column lookup returns the first column with the name (ignoring case) and fails exactly when there is none; the index lookup returns the position of that column."
  },
  {
   "property": "C12",
   "status": "proved",
   "theorems": [
    "Verif.Props.C12_lookup_index"
   ],
   "note": "C12: the same for indexes."
  },
  {
   "property": "C13",
   "status": "partial",
   "theorems": [
    "Verif.Props.C13_drop_column_iff",
    "Verif.Props.C13_drop_column_fails",
    "Verif.Props.C13_drop_column_partial"
   ],
   "note": "C13 characterised: DropColumn meets its specification exactly on a schema without columns. | C13 as stated is false: dropping `b` from (a, b) keeps `b` and removes `a`. | C13, what does hold: at most one column disappears, nothing is reordered, indexes and table are kept, and a failing call changes nothing. Missing: that the column removed is the one named (false)."
  },
  {
   "property": "C14",
   "status": "partial",
   "theorems": [
    "Verif.Props.C14_drop_index_iff",
    "Verif.Props.C14_drop_index_fails",
    "Verif.Props.C14_drop_index_partial"
   ],
   "note": "C14 characterised: DropIndex meets its specification exactly on a schema without indexes. | C14 as stated is false: the only index of a schema cannot be dropped by its name. | C14, what does hold; see C13."
  },
  {
   "property": "C15",
   "status": "proved",
   "theorems": [
    "Verif.Props.C15_add_extends"
   ],
   "note": "C15: for every history of additions, the columns (indexes) are the old ones followed by the added ones in order, positions are kept, and successful lookups are unchanged."
  },
  {
   "property": "C16",
   "status": "partial",
   "theorems": [
    "Verif.Props.C16_rename_refused",
    "Verif.Props.C16_column_left_fails",
    "Verif.Props.C16_index_left_fails",
    "Verif.Props.C16_alter_sequence",
    "Verif.Props.C16_alter_atomic_fails",
    "Verif.Props.C16_alter_atomic_partial"
   ],
   "note": "C16: a statement that renames anything never succeeds, whatever the schema and the other clauses are. | C16 fails for every schema and every statement that adds a column, drops none and renames anything: it does not succeed, and the column is added. | C16 fails for every schema and every statement that adds an index, drops none and renames anything: it does not succeed, and the index is added. | C16 characterised, for every schema and every combination of clauses: an ALTER TABLE statement does what its clauses do as separate statements, in the order add column, add index, drop column, drop index, rename, until one does not succeed. So the effect that a failing statement leaves behind is exactly that of the clauses before the failing one. | C16 as stated is false: a statement that adds a column and renames the table fails and leaves the column added. | C16, the part that holds: a statement with at most one clause (all the parser produces) that does not succeed leaves the schema as it was. Missing: statements built with several clauses (false)."
  },
  {
   "property": "C17",
   "status": "proved",
   "theorems": [
    "Verif.Props.C17_full_table_name"
   ],
   "note": "C17: the full name is the bare name when there is no schema or the name already contains a dot, `schema.name` otherwise, empty for an empty name; qualifying a full name again changes nothing."
  },
  {
   "property": "C18",
   "status": "proved",
   "theorems": [
    "Verif.Props.C18_has_table"
   ],
   "note": "C18: membership holds exactly when some given name equals some listed table name ignoring case; the printed list is the full names in order."
  },
  {
   "property": "C19",
   "status": "partial",
   "theorems": [
    "Verif.Props.C19_set_definition_fails",
    "Verif.Props.C19_unconverted_types_fails",
    "Verif.Props.C19_set_definition_partial",
    "Verif.Props.C19_exact"
   ],
   "note": "C19 as stated is false, first way: a failing conversion leaves the new definition in the column. | C19 as stated is false, second way: numeric types outside the converted ones accept any value unchanged. | C19, the part that holds: on success with one of the eight converted types the value has that type; on failure the value is unchanged (only the definition is replaced). Missing: the definition after a failure, and the numeric types the code does not convert (both false). | C19, exactly: setting a definition succeeds if and only if the literal can be converted by the type of the definition, and then the column has the definition and the converted literal; when it fails, the column has the definition, and the literal as it was."
  },
  {
   "property": "C20",
   "status": "partial",
   "theorems": [
    "Verif.Props.C20_set_schema_atomic_fails",
    "Verif.Props.C20_set_schema_partial",
    "Verif.Props.C20_exact"
   ],
   "note": "C20 as stated is false: when the second column is unknown to the schema the first one has already been changed. | C20, the part that holds: success means every column was brought to its schema definition; failure means exactly a prefix was, then one column failed (unknown, or not convertible and keeping its value), and all later columns are untouched. Missing: that a failure changes nothing (false). | C20, exactly: setting a schema succeeds if and only if every column can become the column it should, and then every one has; when it fails, the columns before the first one that cannot are changed, this one has the definition if the schema has its name, and the others are as they were."
  },
  {
   "property": "C21",
   "status": "proved",
   "theorems": [
    "Verif.Props.C21_data_type_names",
    "Verif.Props.C21_order_irrelevant"
   ],
   "note": "C21: whatever the iteration order of the type table, the name of a named type, in any case, with or without its inner spaces, parses to that type; and nothing else parses to it. | C21, corollary: two iteration orders never disagree."
  },
  {
   "property": "C22",
   "status": "partial",
   "theorems": [
    "Verif.Props.C22_exact",
    "Verif.Props.C22_length_fails",
    "Verif.Props.C22_column_def_fails",
    "Verif.Props.C22_column_def_partial"
   ],
   "note": "C22, exactly which lists of tokens are read, and as what: a type name in any case, and the length in the third token behind it, if it has an opening parenthesis before it or a closing one behind it, one of them being enough. | C22 is false of the code for every length that is not positive, and not the one that stands for none: the text has no length, and its tokens are read as a definition without one. | C22 as stated is false: a definition with length 0 prints without a length and reads back as −1, and a list whose second token is not a parenthesis is accepted. | C22, the part that holds: for every named type and every positive length a 64-bit integer can hold, or no length, the printed text is the concatenation of the tokens and the tokens read back to the same type and length; a text between the parentheses that is not a decimal integer, or is too large for the integer, is rejected. Missing: length 0 and unbalanced parentheses (false)."
  },
  {
   "property": "C23",
   "status": "partial",
   "theorems": [
    "Verif.Props.C23_constraint_flags",
    "Verif.Props.C23_constraint_text_fails",
    "Verif.Props.C23_constraint_text_partial"
   ],
   "note": "C23, the flags: each test reads exactly its own bit, whatever the other 63 are. | C23, the text, is false of combinations: they print nothing. | C23, the text, characterised: something is printed exactly for the three single flags, and it is the text of that flag. Missing: combinations (false)."
  },
  {
   "property": "C24",
   "status": "partial",
   "theorems": [
    "Verif.Props.C24_has_function_iff",
    "Verif.Props.C24_has_function_fails",
    "Verif.Props.C24_functions_partial"
   ],
   "note": "C24, HasFunction characterised: it is true exactly when some selector is *not* a function. | C24 as stated is false, both ways: a function alone gives false, a plain column alone gives true. | C24, the parts that hold: Functions lists exactly the functions, in order; LookupFunction returns the first of them with exactly that name and fails when there is none; HasFunctionWithType looks at exactly these functions. Missing: HasFunction (false)."
  },
  {
   "property": "C25",
   "status": "proved",
   "theorems": [
    "Verif.Props.C25_is_asterisk"
   ],
   "note": "C25: IsAsterisk holds exactly for the empty list and the single `*`, for selectors and columns."
  },
  {
   "property": "C26",
   "status": "proved",
   "theorems": [
    "Verif.Props.C26_sum",
    "Verif.Props.C26_accepted"
   ],
   "note": "C26: SUM without grouping: after a construction or `Reset` and any accepted rows, `Finalize` returns one row, which holds in each column the sum of the numbers of that column. | C26: which rows are accepted without grouping: those with one value per column, every value nil or a number."
  },
  {
   "property": "C27",
   "status": "proved",
   "theorems": [
    "Verif.Props.C27_avg"
   ],
   "note": "C27: AVG without grouping: the sum divided by the number of rows in each column, null when there were no rows."
  },
  {
   "property": "C28",
   "status": "partial",
   "theorems": [
    "Verif.Props.C28_max",
    "Verif.Props.C28_min_iff",
    "Verif.Props.C28_min_partial",
    "Verif.Props.C28_min_fails"
   ],
   "note": "C28 (MAX): over numbers in a linear order with minus infinity below all of them, MAX is one of the aggregated numbers and none is larger. | C28 (MIN), exactly: MIN is the minimum of the aggregated numbers if and only if one of them is not above the largest finite number. | C28 (MIN) as far as it holds: when some aggregated number is not above the largest finite number, MIN is one of the numbers and none is smaller. Missing: columns holding only numbers above it (plus infinity). | C28 (MIN) is false in general: for any number above the largest finite one (plus infinity), MIN of that single value is the largest finite number instead."
  },
  {
   "property": "C29",
   "status": "proved",
   "theorems": [
    "Verif.Props.C29_count"
   ],
   "note": "C29: COUNT without grouping: the number of rows, in every column."
  },
  {
   "property": "C30",
   "status": "partial",
   "theorems": [
    "Verif.Props.C30_per_key",
    "Verif.Props.C30_group_by_partial",
    "Verif.Props.C30_accepted",
    "Verif.Props.C30_iff",
    "Verif.Props.C30_merged_fails"
   ],
   "note": "C30, for any group values: `Finalize` returns one row per distinct key text (the texts of the group values joined with commas), and each row is the group values of the first row with that key followed by the aggregates of exactly the rows with that key, whatever order the groups are enumerated in. | C30 as far as it holds: when the texts of the group values tell them apart and (with two or more group columns) have no commas, `Finalize` returns exactly one row per distinct group value tuple, holding the tuple and the aggregates of exactly the rows with that tuple, whatever order the groups are enumerated in. Missing: group values whose texts contain commas or coincide (see `C31_fails`). | C30: which rows are accepted with grouping: those with one value per column, convertible group values and nil or numeric arguments. | C30, exactly: `Finalize` returns one row per distinct tuple of group values, with the aggregates of exactly the rows with that tuple, if and only if different tuples among the rows have different texts joined with commas. | C30 is false of the code for every two rows whose group values have the same texts joined with commas: they make one result row, which shows the group values of the first and aggregates both, whatever the values are."
  },
  {
   "property": "C31",
   "status": "partial",
   "theorems": [
    "Verif.Props.C31_distinct_partial",
    "Verif.Props.C31_fails",
    "Verif.Props.C31_pair_iff"
   ],
   "note": "C31 as far as it holds: under the same condition on the texts, two rows with different group values end up in two different result rows, each starting with its own values. | C31 (and with it C30 and C34) is false in general: the tuples (`a,b`, `c`) and (`a`, `b,c`) are merged into one group, and which tuple the result shows depends on the row order. | C31, exactly: two accepted rows end up in two result rows if and only if the texts of their group values, joined with commas, differ."
  },
  {
   "property": "C32",
   "status": "proved",
   "theorems": [
    "Verif.Props.C32_reset",
    "Verif.Props.C32_reset_keeps"
   ],
   "note": "C32: after a successful `Reset`, every further history of calls returns the same as on any newly started aggregator of the same kind, name, arguments and group columns (whatever happened before the reset). | C32: `Reset` without options succeeds on every started aggregator after every history of aggregations and finalisations, and keeps its kind, name, arguments and group columns."
  },
  {
   "property": "C33",
   "status": "partial",
   "theorems": [
    "Verif.Props.C33_early_partial",
    "Verif.Props.C33_late_partial",
    "Verif.Props.C33_fails",
    "Verif.Props.C33_effect_fails",
    "Verif.Props.C33_sum_iff"
   ],
   "note": "C33 as far as it holds, for rows rejected before anything is accumulated: a row of the wrong width, a row with a group value that has no text, a map without one of the arguments and a value that is neither row nor map leave the aggregator exactly as it was, in every state. | C33 as far as it holds, for rows rejected by a value that is not a number: with at most one argument, and without grouping or with a group that already has a row, the aggregator stays exactly as it was. Missing: several arguments, and a first row of a group (see `C33_fails`). | C33 is false in general: a rejected row adds its first value to SUM(x), SUM(y); and a rejected first row of a group adds a row for that group to the result. | What a row leaves behind that is rejected at a value that is no number, in every state without grouping: exactly the values before that one are accumulated, and the row is not counted. | C33 characterised for SUM without grouping: a row rejected at a value that is no number leaves the result of Finalize as it was if and only if none of the numbers before that value changes its sum."
  },
  {
   "property": "C34",
   "status": "partial",
   "theorems": [
    "Verif.Props.C34_order_ungrouped",
    "Verif.Props.C34_order_grouped_partial",
    "Verif.Props.C34_fails",
    "Verif.Props.C34_iff",
    "Verif.Props.C34_merged_fails"
   ],
   "note": "C34 without grouping: any permutation of accepted rows is accepted and gives the same result, when addition is associative and commutative and the order is linear. | C34 with grouping, as far as it holds: when the group values have faithful texts, any permutation of accepted rows is accepted and gives the same rows up to their order. Missing: groups merged by their texts (`C34_fails`). | C34 is false in general with grouping: when two tuples share a text key, the tuple shown is that of the first row. | C34, exactly, with grouping: every order of the rows gives the same result rows up to their order if and only if different tuples of group values among the rows have different texts joined with commas. | C34 is false of the code for every two rows whose group values differ but have the same texts joined with commas: in the one order the only result row shows the group values of the one, in the other order those of the other."
  },
  {
   "property": "C35",
   "status": "proved",
   "theorems": [
    "Verif.Props.C35_finalize_pure"
   ],
   "note": "C35: leaving all `Finalize` calls out of any history of calls changes neither the state reached nor what the other calls return."
  },
  {
   "property": "C36",
   "status": "partial",
   "theorems": [
    "Verif.Props.C36_ascending",
    "Verif.Props.C36_descending_partial",
    "Verif.Props.C36_descending_fails"
   ],
   "note": "C36 (ascending): when `safecast.Compare` is a total preorder on the group values, `Finalize` ascending returns the group rows sorted by their group values, for any sorter that sorts under a strict weak order. | C36 (descending) as far as it holds: sorted strictly descending when different groups are strictly ordered, for a sorter that never needs to compare a group with itself. Missing: groups that compare equal, and sorters relying on a strict weak order (see `C36_descending_fails`). | C36 (descending) is false in general: with a sorter that keeps every promise of `sort.Slice` (sorted under every strict weak order), two groups with different comparable numbers come out ascending, because the comparison given to the sorter puts every group before itself."
  },
  {
   "property": "C37",
   "status": "partial",
   "theorems": [
    "Verif.Props.C37_width_iff",
    "Verif.Props.C37_width_partial",
    "Verif.Props.C37_fails"
   ],
   "note": "C37, exactly: the rows of the merged result of a set of aggregators (all with the same number of group columns, fed the same rows) are as wide as its columns if and only if there are no rows or none of the later aggregators has exactly one column. | C37 as far as it holds: with grouping and at least one argument each, every row of the merged result has one value per column. Missing: two or more aggregators without grouping (see `C37_fails`). | C37 is false in general: `SUM(x), COUNT(x)` without grouping returns one column and two values."
  },
  {
   "property": "C38",
   "status": "partial",
   "theorems": [
    "Verif.Props.C38_exact",
    "Verif.Props.C38_aligned_partial",
    "Verif.Props.C38_fails"
   ],
   "note": "C38, exactly, for enumeration orders that may differ between the aggregators: all aggregators have the same keys, those of the rows, and row `i` of the merge is the first aggregator's row for the key at place `i` of its own order followed by the later aggregators' rows, each for the key at place `i` of its own order (without the first value, unless it is the only one). So the rows are aligned where the orders have the same key. | C38 as far as it holds: when all aggregators enumerate their groups in the same way, each merged row is made of the rows of one and the same group key in every aggregator: there is a list of keys such that row `i` of the merge is the first aggregator's row for key `i` followed by the later aggregators' rows for key `i` (without their first value, unless it is their only one). Missing: enumeration orders that differ between aggregators, as Go's map iteration may choose (see `C38_fails`). | C38 is false in general: when the two aggregators' maps enumerate the groups in different orders (both are allowed), group `u` with SUM 7 is paired with the COUNT of group `v`."
  },
  {
   "property": "C39",
   "status": "partial",
   "theorems": [
    "Verif.Props.C39_aggregator_iff",
    "Verif.Props.C39_aggregator_names_fails",
    "Verif.Props.C39_aggregator_names_partial"
   ],
   "note": "C39 characterised: the aggregator found is the one whose name *begins* the given name, ignoring case. | C39 as stated is false: `SUMMARY` names the SUM aggregator. | C39, the part that holds: each of the five names in any case finds its own aggregator, and every name that does not begin with one of them is rejected. Missing: rejection of longer names (false)."
  },
  {
   "property": "C40",
   "status": "partial",
   "theorems": [
    "Verif.Props.C40_executor_iff",
    "Verif.Props.C40_executor_lookup_fails",
    "Verif.Props.C40_log10_unreachable",
    "Verif.Props.C40_executor_lookup_partial"
   ],
   "note": "C40 characterised: the executor of the name is found exactly for the texts that begin with the function's name in any case, and for the operators written exactly, with one exception: LOG10 is never found. So two names are never confused except LOG10 with LOG. | C40 as stated is false: `LOG10` gives the natural logarithm, `PINK` gives PI. | C40: LOG10 can never be obtained by name. | C40, the part that holds: every supported name except LOG10 finds its executor in any case, and the executor found always has a name the given one begins with. Missing: LOG10 and longer names (false)."
  },
  {
   "property": "C41",
   "status": "partial",
   "theorems": [
    "Verif.Props.C41_registered_fails",
    "Verif.Props.C41_registered_partial"
   ],
   "note": "C41 as stated is false: anything ending in `)` is a registered function. | C41 characterised: accepted are exactly the registered names in any case, the texts that begin with a registered name of several letters and `(`, and the texts that end with `)`. Missing from the claim as stated: the last two should be one condition on one name (false, see above)."
  },
  {
   "property": "C42",
   "status": "partial",
   "theorems": [
    "Verif.Props.C42_iterates",
    "Verif.Props.C42_map",
    "Verif.Props.C42_row_after_end_fails"
   ],
   "note": "C42: every sequence of Next, Row and Map calls on a fresh result set returns what an iterator over its rows returns: Next visits all rows once in order and then is false forever; Row and Map are an error before the first Next, and afterwards give the row last visited. | C42: the map of a row pairs each column with the value at its position (nil when the row is too short), and has no other keys; columns are taken to have different names. | C42 is not met in one point: after Next has returned false, Row still returns the last row instead of an error."
  },
  {
   "property": "C43",
   "status": "partial",
   "theorems": [
    "Verif.Props.C43_fails",
    "Verif.Props.C43_panic_iff",
    "Verif.Props.C43_no_panic_partial",
    "Verif.Props.C43_arg_count",
    "Verif.Props.C43_value"
   ],
   "note": "C43, negation: `%` of 5 and 0 panics instead of returning an error. | C43: exactly which executions panic: those of the operator `%` whose second argument truncates to zero (so also 0.5). Every executor, arithmetic, math, string or time, every argument list, every behaviour of the float operations. | C43 without `%`: no math function and no other arithmetic operator ever panics. Missing from the full statement: `%`, see `C43_fails` and `C43_panic_iff`. | C43: the argument count. A math function or operator given any other number of arguments than the documented one returns an error. | C43: with the documented number of arguments, all convertible to numbers, in the function's domain, and with entropy available, a math function or operator returns a value (or `%` panics as characterised above)."
  },
  {
   "property": "C44",
   "status": "proved",
   "theorems": [
    "Verif.Props.C44_object",
    "Verif.Props.C44_values_exist",
    "Verif.Props.C44_by_name"
   ],
   "note": "C44: executing a function on a row object gives what executing it on the argument values gives, where the value of an argument is the object's value under that name, or the argument text when the object has no such key. For every executor (whatever options it was built with), object and argument list, for both object types. | C44: such values exist for every object and argument list, so the previous theorem determines the result of every execution on an object. | C44: the executor built by name with `WithExecutorArguments args` reads exactly those arguments."
  },
  {
   "property": "C45",
   "status": "partial",
   "theorems": [
    "Verif.Props.C45_iff",
    "Verif.Props.C45_window_partial",
    "Verif.Props.C45_exhausted",
    "Verif.Props.C45_overflow",
    "Verif.Props.C45_diverges",
    "Verif.Props.C45_fails"
   ],
   "note": "C45, exactly: the loop of a new result set ends and visits the rows of the window if and only if the offset is not the largest number, and the sum of offset and limit does not wrap around or the window is empty. | C45 where no unsigned sum wraps around: a new result set's `for Next { Row }` loop ends, and the rows it visits are exactly the window: those after the first `offset`, at most `limit` of them, all if the limit is zero, in order. Missing from the full statement: offset + limit of 2^64 or more, see `C45_fails` and `C45_overflow`, `C45_diverges`. | C45 after the loop: the same loop once more visits nothing (with the loop's calls below 2^63). | C45, when offset + limit wraps around (limit not zero): no row at all is visited. | C45, with the largest offset: the loop never ends (each `Next` returns true and wraps the cursor to zero, where `Row` reports an error). | C45, negation: with offset 1 and the largest limit the loop visits nothing, although the window has two rows."
  },
  {
   "property": "C46",
   "status": "partial",
   "theorems": [
    "Verif.Props.C46_before_next",
    "Verif.Props.C46_after_false_iff",
    "Verif.Props.C46_no_limit_partial",
    "Verif.Props.C46_fails"
   ],
   "note": "C46 (before the first Next): `Row` returns an error and changes nothing. | C46 (after Next returned false), exactly: `Row` finds no row if and only if the cursor has not stopped inside the rows because of the limit. | C46 without a limit: after `Next` has returned false, `Row` returns an error. Missing: result sets stopped by their limit, see `C46_fails`. | C46, negation: three rows with limit 1; Next returns true, then false, and Row still returns a row."
  },
  {
   "property": "C47",
   "status": "partial",
   "theorems": [
    "Verif.Props.C47_agree_iff",
    "Verif.Props.C47_stable",
    "Verif.Props.C47_from_object",
    "Verif.Props.C47_from_values",
    "Verif.Props.C47_agree_partial",
    "Verif.Props.C47_fails",
    "Verif.Props.C47_result_rows"
   ],
   "note": "C47, exactly: for a row built from an object, position and name give the same value of a column if and only if the object has the column; for a row built from values, if and only if there is a value at its position. | C47: reads never change later reads. For every row, however built, and every sequence of calls, each call returns what it would return on the row as built. | C47 for rows built from an object: the value at a column's position is the object's value of that name, nil when the object has none; the value by name is the same, except that it is an error when the object has none. | C47 for rows built from values, with distinct column names: the value by a column's name is the value at its position, nil when there are too few values; the value by position is the same, except that it is an error when there are too few values. | C47 as far as it holds: position and name give the same value for a row built from an object holding every column, or from at least as many values as columns. Missing: rows lacking a column, see `C47_fails`. | C47, negation: a row built from an object without column b has nil at b's position but an error by its name; a row built from one value has nil by b's name but an error at its position. | C47 for the rows a result set hands out: position and name always agree, because the row holds a value for every column."
  },
  {
   "property": "C48",
   "status": "proved",
   "theorems": [
    "Verif.Props.C48_values",
    "Verif.Props.C48_built_iff"
   ],
   "note": "C48: a row built from an object with a selector list has one value per selector, in selector order, each the value the selector contributes; selectors of the same name are taken to be the same selector. | C48: the row is built exactly when every selector has a value (only the execution of a function can fail)."
  },
  {
   "property": "C49",
   "status": "partial",
   "theorems": [
    "Verif.Props.C49_single_partial",
    "Verif.Props.C49_grouped_error",
    "Verif.Props.C49_fails",
    "Verif.Props.C49_ungrouped_partial",
    "Verif.Props.C49_others_fails"
   ],
   "note": "C49 for a selection with one aggregate function and no grouping: when every row of the source has a number (or null) under the argument name, the aggregated result set iterates over exactly one row, whose value under the function's text is the aggregate of those numbers, and whose value for every plain column is null. `*` as argument counts every row. Missing: two or more aggregate functions (`C49_fails`), and grouping, which is always an error when the source has a row (`C49_grouped_error`). | C49 with a GROUP BY column: as soon as the source has a row, aggregating it is an error, whatever the selectors and the rows are. | C49, negation: SELECT SUM(a), MAX(a) over the rows 1, 2, 3 gives 6 for the sum but null for the maximum. | C49, exactly for selections with any number of aggregate functions and no grouping: when every row of the source has a number (or null) under the arguments, the aggregated result set iterates over exactly one row. Its value under the text of the first function is the aggregate of those numbers, and every other column, also that of every other function, is null. | C49 is false of the code for every selection with two or more aggregate functions and no grouping: the value of every function but the first (and those with the same text) is null in the aggregated result set, whatever the rows are, also if the aggregate is a number."
  },
  {
   "property": "C50",
   "status": "partial",
   "theorems": [
    "Verif.Props.C50_bind_partial",
    "Verif.Props.C50_fails",
    "Verif.Props.C50_exact",
    "Verif.Props.C50_value_fails"
   ],
   "note": "C50, with the conditions the code needs: the query does not begin with a placeholder and only the last value may contain a question mark. Then the first placeholders are replaced in order by the texts of the parameters and nothing else changes, and the parser sees exactly that text. Missing: queries starting with a placeholder and values containing `?` (`C50_fails`). | C50, negation: a value containing a question mark is itself taken for a placeholder by the next parameter, and a placeholder at the very start of the query is not seen. | C50, C51 and C53, exactly: what binding makes of any text with any parameters, and when it succeeds. Each parameter in turn takes the place of the first question mark in the text as it is then, values bound before it included, or else of the first `$k`. | C50 is false of the code for every value with a question mark that is not the last: the value after it is written into it, and the placeholder meant for that value stays."
  },
  {
   "property": "C51",
   "status": "partial",
   "theorems": [
    "Verif.Props.C51_error_iff_partial",
    "Verif.Props.C51_no_text",
    "Verif.Props.C51_fails",
    "Verif.Props.C51_numbered_iff_partial",
    "Verif.Props.C51_start_fails"
   ],
   "note": "C51, with the conditions the code needs: for a query with `?` placeholders only, not beginning with one, and values without `?` and `$`, binding succeeds exactly when there are at least as many placeholders as parameters. Missing: the cases of `C51_fails`. | C51: a parameter whose text cannot be made is an error whatever the query is. | C51, negation: a query with as many placeholders as parameters is refused when it begins with one, and a query with fewer is accepted when a value contains a question mark. | C51 for numbered placeholders: under the same conditions, and when no placeholder extends the digits of a missing one, binding fails exactly when some number up to the number of parameters has no placeholder. | C51 is false of the code for every query that begins with a placeholder and has no numbered ones: binding fails, however many placeholders it has."
  },
  {
   "property": "C52",
   "status": "partial",
   "theorems": [
    "Verif.Props.C52_iff",
    "Verif.Props.C52_bound_strings_partial",
    "Verif.Props.C52_fails"
   ],
   "note": "C52, exactly: in a query whose text up to the last placeholder contains no quotation and no comment, and whose placeholders do not touch each other and do not follow an `x`, the strings that are bound to the placeholders, all without question marks but the last, are each read as one string literal with the bound string as its value if and only if in every one of them quotes only occur doubled, and none begins or ends with a quote character. | C52, with the conditions the code needs: in a query whose text up to the last placeholder contains no quotation and no comment, whose placeholders do not touch each other and do not follow an `x`, with values free of quotes and question marks, the tokens of the bound query are the tokens of the pieces of the query with exactly one string literal token per value between them, and each of these has the value that was bound. Missing: values with quotes, which are inserted as they are, and placeholders inside quotations (`C52_fails`). | C52, negation: a bound string with a quote ends the literal early and the rest of it is read as SQL."
  },
  {
   "property": "C53",
   "status": "partial",
   "theorems": [
    "Verif.Props.C53_numbered_partial",
    "Verif.Props.C53_usual_partial",
    "Verif.Props.C53_fails",
    "Verif.Props.C53_digits_fails"
   ],
   "note": "C53, with the conditions the code needs: numbers are at least one and not repeated, no placeholder stands before one whose digits it extends (`$10` before `$1`), pieces and values contain neither `?` nor `$`, and the query does not begin with a placeholder. Then `$k` is replaced by the `k`-th value for every `k` up to the number of parameters, and the other placeholders stay. Missing: the cases of `C53_fails`. | C53 for the two usual shapes: placeholders in increasing order (any number of them), or numbers below ten in any order. | C53, negation: `$10` standing before `$1` is damaged, and a repeated placeholder is replaced only once. | C53 is false of the code for every placeholder `$1` behind one that begins with the same digit, `$10` or `$1` itself: the value of `$1` is written into the first, whose other digits stay behind it, and `$1` stays."
  },
  {
   "property": "C54",
   "status": "partial",
   "theorems": [
    "Verif.Props.C54_lookup_partial",
    "Verif.Props.C54_remove_iff",
    "Verif.Props.C54_fails",
    "Verif.Props.C54_uid_exact",
    "Verif.Props.C54_uuid_exact",
    "Verif.Props.C54_history_iff",
    "Verif.Props.C54_concurrent_partial"
   ],
   "note": "C54 for histories in which RemoveConn is called with a managed connection, or with one that shares neither its id nor its UUID with a managed one: both lookups find exactly the connections added and not yet removed, `Conns` lists each of them once, and the two lookups agree. Missing: RemoveConn with a foreign connection that shares only its id, or only its UUID, with a managed one (`C54_fails`, `C54_remove_iff`). | C54: in a state where the lookups agree, RemoveConn keeps them agreeing exactly when every managed connection shares both its id and its UUID with the removed one or neither. | C54, negation: removing a connection whose AddConn was refused because of its id takes the id entry of the managed connection away; that one is then found by UUID but not by id. | C54, exactly, for every history of all the calls there are: `LookupConnByUID` finds a connection under an id if and only if some call entered it there — an accepted `AddConn`, or an accepted `UpdateConn` of a connection with that id — and since then no connection with that id was removed or replaced. | C54, exactly, the same for `LookupConnByUUID`: the connection was entered under the UUID, and since then no connection with that UUID was removed or replaced. | C54, exactly, for every history of adding and removing: the two lookups agree at every point of it if and only if every connection given to `RemoveConn` shares both its id and its UUID with a managed one or neither. | C54 under concurrency: under the same condition the two lookups agree whenever no writer is inside."
  },
  {
   "property": "C55",
   "status": "proved",
   "theorems": [
    "Verif.Props.C55_duplicate",
    "Verif.Props.C55_added",
    "Verif.Props.C55_history"
   ],
   "note": "C55: on every manager state, AddConn fails exactly when one of the two lookups finds a connection with the UUID or the id of the new one, and then the state is as before. | C55: when it succeeds, the new connection is found under its id and its UUID and all other lookups are as before. | C55 over histories: AddConn fails exactly when a managed connection has the same UUID or the same id."
  },
  {
   "property": "C56",
   "status": "partial",
   "theorems": [
    "Verif.Props.C56_update_partial",
    "Verif.Props.C56_error_iff",
    "Verif.Props.C56_iff",
    "Verif.Props.C56_fails"
   ],
   "note": "C56, when the replacement has the id and the UUID of the replaced connection: lookups find the new one and no longer the old one, and removing the new one leaves no trace. Missing: other replacements (`C56_fails`). | C56: UpdateConn fails exactly when the old connection's UUID or id is not managed, and then nothing changes. | C56: replacing a managed connection by one that is not managed makes the new one found under its own id and UUID exactly when it has the id and the UUID of the old one. | C56, negation: after replacing a connection by one with another id and UUID, the new one is not found under its own keys but under the old ones, and removing it leaves it managed."
  },
  {
   "property": "C57",
   "status": "proved",
   "theorems": [
    "Verif.Props.C57_close"
   ],
   "note": "C57: closing the manager calls Close once on each managed connection, keeps exactly those whose Close failed, finds no other connection afterwards, and returns an error exactly when some Close failed; in any enumeration order of the connections and whatever their Close does to the outside world."
  },
  {
   "property": "C58",
   "status": "partial",
   "theorems": [
    "Verif.Props.C58_linearizable_partial",
    "Verif.Props.C58_sections",
    "Verif.Props.C58_exclusion",
    "Verif.Props.C58_fails",
    "Verif.Props.C58_paired_partial"
   ],
   "note": "C58 for AddConn, UpdateConn, RemoveConn, Conns and the two lookups: whatever the interleaving of any number of goroutines, down to single map accesses, the history of calls and returns is one in which every call takes effect at once between its call and its return; and when no writer is inside, the shared maps are those of that execution. Missing: RemoveConnByUID and RemoveConnByUUID (`C58_fails`, `C58_sections`), and Close. | C58 for all calls: every history is one of the machine in which each critical section is atomic. RemoveConnByUID and RemoveConnByUUID are two such sections. | C58: at no point of any execution are two goroutines inside when one of them may write. | C58, negation: two goroutines removing by id while a connection with that id is added again can leave the new connection found by UUID but not by id, a history that no order of atomic calls explains. | C58 for all calls but Close, RemoveConnByUID and RemoveConnByUUID among them, as long as an id always goes with the same UUID: whatever the interleaving of any number of goroutines, down to single map accesses, the history is one in which every call takes effect at once between its call and its return, and when no writer is inside, the shared maps are those of that execution. Connections may be removed and added again. Missing: histories in which an id comes with two UUIDs, see `C58_fails`."
  },
  {
   "property": "C59",
   "status": "proved",
   "theorems": [
    "Verif.Props.C59_close",
    "Verif.Props.C59_closed"
   ],
   "note": "C59: once a Close succeeded, every further Close succeeds and does not touch the network connection; before that each Close is passed on to it, so a failed one can be retried. The whole history of `n` calls: with `k` the number of network calls until the first success, the first `k` results are the network's and the rest are successes. | C59: a Close on a closed connection changes nothing and succeeds."
  },
  {
   "property": "C60",
   "status": "partial",
   "theorems": [
    "Verif.Props.C60_schemas_partial",
    "Verif.Props.C60_database",
    "Verif.Props.C60_fails",
    "Verif.Props.C60_exact",
    "Verif.Props.C60_iff"
   ],
   "note": "C60: after any history of SetDatabase and SetSchemas calls on a connection created with the schemas `init` without duplicates (none by default), Schemas lists the first occurrences of the names set since the last SetDatabase, in order and without duplicates. | C60: after SetDatabase the database is the new one and no schema is left. | C60, negation for connections created with repeated schema names: they stay repeated. | C60, exactly, for every connection and every history: without a SetDatabase call the schemas the connection was created with stay as they were given, repeated or not, and the first occurrences of the other names set follow them; after a SetDatabase call Schemas lists the first occurrences of the names set since the last one. | C60 holds of exactly these connections and histories: those created with schemas without repeated names, and those whose database is set at least once."
  },
  {
   "property": "C61",
   "status": "partial",
   "theorems": [
    "Verif.Props.C61_names_iff",
    "Verif.Props.C61_rows_partial",
    "Verif.Props.C61_constant",
    "Verif.Props.C61_fails",
    "Verif.Props.C61_undefined"
   ],
   "note": "C61, the table name, exactly: the rows name the tables that their columns belong to if and only if every table that has columns is itself named COLUMNS. | C61 without the table name: for all schemas whose columns have definitions the result set is built, its `for Next { Row }` loop ends, and the rows visited are, in order, one per column of every schema, giving the column's name as COLUMN_NAME and its type's name as DATA_TYPE. Missing from the full statement: the schema's table name, see `C61_fails`, and columns without definition, see `C61_undefined`. | C61, what the rows say instead of the schema's names: every row has \"def\" as TABLE_CATALOG, \"information_schema\" as TABLE_SCHEMA and \"COLUMNS\" as TABLE_NAME, whatever the schema. | C61 fails: the row of the table \"users\" does not carry that name. | C61: with a column without definition the call panics."
  },
  {
   "property": "C62",
   "status": "proved",
   "theorems": [
    "Verif.Props.C62_round_trip"
   ],
   "note": "C62: for all schemas whose columns have named types (and whatever the iteration order of the type table), reading back the result set built from them ends without error, with exactly the columns' names and data types, in order."
  },
  {
   "property": "C63",
   "status": "proved",
   "theorems": [
    "Verif.Props.C63_iff"
   ],
   "note": "C63: a SELECT is recognised exactly when its FROM list is the single table information_schema.columns, in any letter case, given as schema and name or as a full name."
  },
  {
   "property": "C64",
   "status": "proved",
   "theorems": [
    "Verif.Props.C64_iff",
    "Verif.Props.C64_error"
   ],
   "note": "C64: a condition is traversed successfully exactly when it is a conjunction of equalities with strings; the statement then reports the last value given for TABLE_SCHEMA (the database name it had before, when there is none) and every value given for TABLE_NAME, in order. | C64: any other condition whose comparisons all have a right-hand side (those of parsed statements do), and a missing condition, is an error."
  },
  {
   "property": "C65",
   "status": "partial",
   "theorems": [
    "Verif.Props.C65_several_fails",
    "Verif.Props.C65_without_database_fails",
    "Verif.Props.C65_made_iff",
    "Verif.Props.C65_generated_partial",
    "Verif.Props.C65_fails",
    "Verif.Props.C65_empty_fails"
   ],
   "note": "C65 for names without quote characters: several tables never make a statement. | C65: a table without a database never makes a statement, whatever the names of the tables are. | C65 for names without quote characters: a statement is made exactly for a database with at most one table, and for nothing at all. | C65 for a database name that is not empty and at most one table name, both without quote characters (or with doubled ones inside): the statement is made, its query is a query of the information schema, and traversing that query reports the same database and table. Missing: an empty database name, several tables, other names; see `C65_fails`. | C65 is false of the code: two tables give a query the parser rejects, so does a table without a database, and so does a database name with a quote. | C65 is false of the code: without a database and tables the query is accepted, but the word WHERE has become part of the table name, so that the query is none of the information schema any more, and it cannot be traversed."
  },
  {
   "property": "C66",
   "status": "partial",
   "theorems": [
    "Verif.Props.C66_history",
    "Verif.Props.C66_reuse_partial",
    "Verif.Props.C66_reuse_fails",
    "Verif.Props.C66_iff",
    "Verif.Props.C66_ever_after_fails"
   ],
   "note": "C66, exactly: what a parser object answers after any history. Once a query of the history was a syntax error, every later query is answered with an error; otherwise the answer is that of a new parser. | C66 for histories without a syntax error: the answer depends only on the query. Missing: histories with one, see `C66_reuse_fails`. | C66 is false of the code: after one syntax error the parser rejects a query that a new parser accepts. | C66, exactly: a parser object answers every query as a new one does if and only if no query of its history was a syntax error. | C66 fails for every history with a syntax error: every query that a new parser answers with statements, the old one answers with an error, and it stays so whatever it is asked in between."
  },
  {
   "property": "C67",
   "status": "proved",
   "theorems": [
    "Verif.Props.C67_lexing"
   ],
   "note": "C67: every text has tokens. They are not empty, their texts in order are the text, and they are the only list in which every token is the longest match of any rule and of the first such rule."
  },
  {
   "property": "C68",
   "status": "proved",
   "theorems": [
    "Verif.Props.C68_recasing",
    "Verif.Props.C68_words"
   ],
   "note": "C68: two texts that differ only in letter case have the same tokens up to letter case: as many, of the same kinds, and of the same lengths. | A word is one token whatever stands after it, as long as that is neither a word character nor a quote: the keyword with these letters if there is one, otherwise an identifier."
  },
  {
   "property": "C69",
   "status": "partial",
   "theorems": [
    "Verif.Props.C69_shift",
    "Verif.Props.C69_shift_fails",
    "Verif.Props.C69_unlisted_fails",
    "Verif.Props.C69_pairing_partial",
    "Verif.Props.C69_pairing_fails"
   ],
   "note": "C69, exact for rows with any values but comparisons: an INSERT with a column list reports for every row the names in order, each with the next of the literals of the row. So the pairing is the one written just if all literals come first. Without a column list (`names` empty) nothing is reported of any row. | C69 is false of the code for every row in which something other than a literal or comparison stands before a literal: what is reported for the column of the first such element is a later value. | C69 is false of the code for every INSERT without a column list: the rows are reported, each without any value. | C69 for rows of literals: in every row the k-th value is reported for the k-th listed column, and a row reports as many columns as both lists have. `q` is any text with the tokens of the INSERT. Missing: values that are not literals and INSERT without a column list, see `C69_pairing_fails`. | C69 is false of the code: a value that is not a literal is skipped, so that the next one is reported for its column; without a column list no value is reported at all."
  },
  {
   "property": "C70",
   "status": "partial",
   "theorems": [
    "Verif.Props.C70_order_iff",
    "Verif.Props.C70_order_partial",
    "Verif.Props.C70_order_fails"
   ],
   "note": "C70, exactly: for every text with the tokens of a SELECT, the reported ordering terms are the written ones, in order and ascending by default, if and only if every term has a direction. | C70 for ordering terms that all have a direction: they are reported as written. Missing: terms without one, which are dropped, see `C70_order_fails`. | C70 is false of the code: of `ORDER BY b, c DESC` only the second term is reported."
  },
  {
   "property": "C71",
   "status": "partial",
   "theorems": [
    "Verif.Props.C71_limit_partial",
    "Verif.Props.C71_limit_fails",
    "Verif.Props.C71_out_of_range"
   ],
   "note": "C71 for `LIMIT n` and `LIMIT n OFFSET m` with numbers that the conversion to `uint` accepts: the limit and the offset are the numbers written. Missing: the form `LIMIT m, n`, see `C71_limit_fails`, and numbers out of range, see `C71_out_of_range`. | C71 is false of the code for the second written form: `LIMIT m, n` (offset m, at most n rows) is reported with the two numbers exchanged, so correctly only if they are equal. | A number after LIMIT that the conversion rejects is not an error: the SELECT is returned without a limit."
  },
  {
   "property": "C72",
   "status": "proved",
   "theorems": [
    "Verif.Props.C72_distinct",
    "Verif.Props.C72_described",
    "Verif.Props.C72_class",
    "Verif.Props.C72_names"
   ],
   "note": "C72: no two declared codes (and no two declared classes) have the same value. | C72: exactly the declared codes print a description other than the unknown one: a string that is no declared code prints \"Unknown Code\". | C72: every declared code has five characters, the first two of which are a declared class; exactly the declared classes print a description other than the unknown one. | C72: the codes' descriptions are words of the constant's name: for every declared code the description is the constant's name with spaces put in."
  },
  {
   "property": "C73",
   "status": "partial",
   "theorems": [
    "Verif.Props.C73_sqrt_iff",
    "Verif.Props.C73_fails",
    "Verif.Props.C73_positive_partial"
   ],
   "note": "C73 characterised, for every name that begins with SQRT and every list of arguments: the square root is returned exactly when there is one argument, it converts to a number, and the number is not less than or equal to zero; in all other cases there is an error and never a panic. So zero is the only wrong case. | C73, negation: SQRT of zero is rejected although zero is not negative. | C73: SQRT of a positive number is its square root. Missing: zero, see `C73_fails`."
  },
  {
   "property": "C74",
   "status": "partial",
   "theorems": [
    "Verif.Props.C74_fails",
    "Verif.Props.C74_range_partial"
   ],
   "note": "C74, negation: RAND can return exactly one. For every float arithmetic in which dividing the largest masked value by itself gives one, the random bytes 0xFFFFFFFFFFFFFFFF yield one, so the documented range [0,1) is left. | C74: RAND returns k / (2^63 - 1) for some 0 ≤ k ≤ 2^63 - 1, so within [0,1] before rounding. Missing: the upper bound is not strict, see `C74_fails`."
  },
  {
   "property": "C75",
   "status": "proved",
   "theorems": [
    "Verif.Props.C75_own_arguments",
    "Verif.Props.C75_cached"
   ],
   "note": "C75: every executor obtained from a function selector, at any call, with any options, reads the selector's own argument names. | C75: asking again returns the same executor, whatever the options."
  },
  {
   "property": "C76",
   "status": "partial",
   "theorems": [
    "Verif.Props.C76_bound_partial",
    "Verif.Props.C76_many_fails",
    "Verif.Props.C76_serial_partial",
    "Verif.Props.C76_fails"
   ],
   "note": "C76, as far as it holds when calls overlap: among `n` goroutines the network connection is closed successfully at most `n` times, however often each of them calls `Close` and in whatever interleaving. Missing: at most once in all, see `C76_many_fails`. | C76 is false of the code for any number of goroutines: `n` goroutines that all look at the flag before one of them has set it close the network connection `n` times, which with `C76_bound_partial` is the most there can be. | C76 when the calls do not overlap: the network connection is closed successfully at most once, and exactly when the connection counts as closed between calls. Missing: overlapping calls (`C76_fails`). | C76, negation: two goroutines that both look at the flag before either has closed the network connection both close it."
  },
  {
   "property": "C77",
   "status": "partial",
   "theorems": [
    "Verif.Props.C77_is_partial",
    "Verif.Props.C77_fails",
    "Verif.Props.C77_no_table_fails"
   ],
   "note": "C77 for the constructors of query.go and `NewErrNotImplemented`: whatever the argument, the error is recognised by `errors.Is` as the condition the constructor is named for, and as no other. Missing from the full statement: `NewErrNotExist`, `NewErrExist` and `NewErrNotSupported`, see `C77_fails`. | C77 fails for three constructors, for every argument: they wrap nothing. | C77 fails for a query without a table: whatever the query, the error is recognised as no condition at all, so it can be told from others by its text only; the text has the query in it."
  },
  {
   "property": "C78",
   "status": "partial",
   "theorems": [
    "Verif.Props.C78_fails",
    "Verif.Props.C78_messages_partial"
   ],
   "note": "C78 fails: the error for something that exists and the error for something that does not are the same value, for every name. | C78 for databases and tables: the four messages determine the constructor and the name, whatever the names. Missing from the full statement: the general constructors, see `C78_fails`."
  },
  {
   "property": "C79",
   "status": "proved",
   "theorems": [
    "Verif.Props.C79_error_iff"
   ],
   "note": "C79: a new parser reports an error for a text exactly if the text is empty, a single `;`, or its tokens (spaces and comments left out) are not derived by the grammar."
  },
  {
   "property": "C80",
   "status": "partial",
   "theorems": [
    "Verif.Props.C80_statements",
    "Verif.Props.C80_statements_fails"
   ],
   "note": "C80, exactly: the objects returned for a query are, in order and one for one, those of the statements in it that have an object at all; `t` is a derivation of the query's tokens by the grammar. | C80 is false of the code: `DELETE FROM t WHERE a = 1 LIMIT 1` is accepted and no statement is returned; neither is one for PRAGMA."
  },
  {
   "property": "C81",
   "status": "partial",
   "theorems": [
    "Verif.Props.C81_lost_fails",
    "Verif.Props.C81_lost_same_fails",
    "Verif.Props.C81_where_partial",
    "Verif.Props.C81_where_fails"
   ],
   "note": "C81 is false of the code for every condition in parentheses, every negated condition, and every test with IS, LIKE, IN, NOT IN, BETWEEN, ISNULL and NOTNULL, in SELECT, UPDATE and DELETE: the query is accepted, and the statement is reported without a condition, so for all rows. | Such a query is reported exactly as if its WHERE clause were not there. | C81 for conditions that are a comparison of a column with a literal, or two of them with AND or OR: the condition is reported as written. Missing: all other conditions, see `C81_where_fails`. | C81 is false of the code: these statements are accepted and returned without any condition, so for all rows."
  },
  {
   "property": "C82",
   "status": "partial",
   "theorems": [
    "Verif.Props.C82_panic_iff",
    "Verif.Props.C82_no_panic_partial",
    "Verif.Props.C82_no_panic_fails"
   ],
   "note": "C82, exactly: parsing panics if and only if the query is one of the grammar and some statement in it is one the code is not prepared for. | C82 for queries all of whose statements the code is prepared for: whatever history the parser object has, parsing returns statements or an error. Missing: the four forms of statement in `Unprepared`. | C82 is false of the code: four queries of the grammar on which parsing panics."
  },
  {
   "property": "C83",
   "status": "partial",
   "theorems": [
    "Verif.Props.C83_blanks",
    "Verif.Props.C83_comments",
    "Verif.Props.C83_tokens",
    "Verif.Props.C83_layout_partial",
    "Verif.Props.C83_layout_fails"
   ],
   "note": "C83: a query gives the same result, whatever white space and comments stand before, between and after its tokens; there has to be some between two tokens unless one of them is a parenthesis, a comma or a semicolon. A block comment ends with the first `*/`, a line comment with its line. | The comments of C83: whatever follows, a block comment is one token that ends with the first `*/`, and a line comment is one token that ends with its line. | The tokens of C83: words (keywords and names), numbers, strings, names in double quotes and backquotes, `?`, `$` and named parameters, blobs, and operators. | C83 for two texts neither of which is empty: if they have the same tokens, spaces and comments left out, every parser object gives the same answer to both and is left in the same state. Missing: the empty text, see `C83_layout_fails`. | C83 is false of the code: the empty text is an error, a blank is not."
  },
  {
   "property": "C84",
   "status": "partial",
   "theorems": [
    "Verif.Props.C84_compound_fails",
    "Verif.Props.C84_compounds_fails",
    "Verif.Props.C84_schema_fails",
    "Verif.Props.C84_words_fails",
    "Verif.Props.C84_join_fails",
    "Verif.Props.C84_joins_fails",
    "Verif.Props.C84_join_partial",
    "Verif.Props.C84_clauses_fails",
    "Verif.Props.C84_printed_partial"
   ],
   "note": "C84 is false of the code for compound SELECTs. In any layout and whatever statements follow, a SELECT of any number of parts with UNION, UNION ALL, INTERSECT or EXCEPT between them, none of which ends with a table before such an operator, is accepted and reported exactly as the SELECT of its first part alone, with the ORDER BY and LIMIT that stand after the last part. | Two compound SELECTs that agree in the first part and in what stands after the last give the same report, whatever the operators and the other parts are, and however many. | C84 fails for the schema of the table of an INSERT: in any layout, and whatever statements follow, a query that begins with an INSERT is reported in the same way with any schema written before the table and without one. | C84 is false of the code for every statement: with EXPLAIN or EXPLAIN QUERY PLAN in front of any statement, with DISTINCT or ALL in any SELECT, with any conflict clause in any INSERT or UPDATE, and with REPLACE for INSERT, the query is accepted and reported exactly as without these words. | C84 is false of the code for every join. In any layout and whatever statements follow, a SELECT from a table with others joined to it, by any number of JOIN, LEFT JOIN, INNER JOIN or CROSS JOIN with or without an ON condition, is accepted and reported exactly as the SELECT without a FROM clause: neither the first table, nor the joined ones, nor the conditions are reported. | Two SELECTs that agree but for the tables that they join, the words before JOIN and the ON conditions give the same report, so no program can tell from it what was joined. | What holds of C84 of joins: a SELECT with at least one join is told apart from the one from its first table alone, and from every SELECT from a list of tables. | C84 is false of the code: EXPLAIN, DISTINCT, OR IGNORE and the second table of a join are accepted and leave no trace in the objects, and UNION is taken for the name of the table and splits the query in two. | What holds of C84: on the texts of the printable statements nothing is lost. Two scripts of such texts, with semicolons between, that are read as the same statements are the same text."
  },
  {
   "property": "C85",
   "status": "proved",
   "theorems": [
    "Verif.Props.C85_lists"
   ],
   "note": "C85: a query of several statements of Spec/Syntax.lean (SELECT, INSERT, UPDATE, DELETE, CREATE, DROP, ALTER, COPY, USE, TRUNCATE, VACUUM, BEGIN, COMMIT, ROLLBACK) with `;` between them gives the statements that the parts give each by itself, in order."
  },
  {
   "property": "C86",
   "status": "partial",
   "theorems": [
    "Verif.Props.C86_separators_fails",
    "Verif.Props.C86_never_rejected_fails",
    "Verif.Props.C86_keywords_partial"
   ],
   "note": "C86 is false of the code: two statements without anything between them are accepted as two. | C86 fails for all statements: whenever two queries are accepted, so is every text whose tokens are those of the first and, with nothing between them, those of the second. | What holds instead of C86: no statement is reported without its keyword. There are at most as many reported statements as there are tokens that a statement can begin with."
  },
  {
   "property": "C87",
   "status": "partial",
   "theorems": [
    "Verif.Props.C87_keyword_case_partial",
    "Verif.Props.C87_keyword_case_fails",
    "Verif.Props.C87_index_case_fails"
   ],
   "note": "C87 for queries of the statements of Spec/Syntax.lean: two texts that write the same statements with keywords in different letter case give equal objects; the words NULL, TRUE, FALSE, CURRENT_…, and INDEX and DROP inside of tables, have to be written alike. Missing: those words, whose letter case changes the objects, see `C87_keyword_case_fails` and `C87_index_case_fails`. | C87 is false of the code: `NULL` and `null` give different values. | C87 is false of the code for INDEX in a table definition, which is lost in small letters, and for DROP in ALTER TABLE, which becomes part of the column's name."
  },
  {
   "property": "C88",
   "status": "partial",
   "theorems": [
    "Verif.Props.C88_script_partial",
    "Verif.Props.C88_fails"
   ],
   "note": "C88 for the statements of C08, C09, C10 and C105 to C107: the texts of any number of them, with semicolons between, are parsed to those statements in the same order. Missing: the statements for which these fail. | C88 is false of the code: a statement without text in its condition (a comparison with a nil literal) makes the whole script unreadable."
  },
  {
   "property": "C89",
   "status": "partial",
   "theorems": [
    "Verif.Props.C89_exact_partial",
    "Verif.Props.C89_table_names_partial",
    "Verif.Props.C89_fails"
   ],
   "note": "C89 for names without quote characters: the query is made for at most two tables, and never for more. | C89 for at most two table names without quote characters (or with doubled ones inside): the query returned is the query of the information schema for exactly these table names. Missing: three or more names and other names; see `C89_fails`. | C89 is false of the code: the query for three table names is rejected by the parser."
  },
  {
   "property": "C90",
   "status": "partial",
   "theorems": [
    "Verif.Props.C90_fails",
    "Verif.Props.C90_unary_partial",
    "Verif.Props.C90_binary",
    "Verif.Props.C90_remainder",
    "Verif.Props.C90_constants"
   ],
   "note": "C90, negation: LOG10 computes the natural logarithm, for every arithmetic and every positive argument. | C90 for functions of one number other than LOG10: called in any letter case on one convertible argument in the domain they return what they are named for, outside the domain an error. Missing: LOG10, see `C90_fails`. | C90 for functions of two numbers and the operators + - * /: the operands are used in order, and arguments outside the domain (a zero divisor of MOD, a fractional power of a negative number) are an error. | C90 for `%`: the remainder, truncated toward zero, of the numbers cut to integers. | C90 for PI and the clock functions."
  },
  {
   "property": "C91",
   "status": "proved",
   "theorems": [
    "Verif.Props.C91_operator",
    "Verif.Props.C91_same"
   ],
   "note": "C91: an operator symbol gives an executor of exactly that name, and only the five symbols are known. | C91: the executor for a symbol computes what executing the function of that name computes."
  },
  {
   "property": "C92",
   "status": "proved",
   "theorems": [
    "Verif.Props.C92_string",
    "Verif.Props.C92_trimmed_exists",
    "Verif.Props.C92_arg_count"
   ],
   "note": "C92: UPPER, LOWER and TRIM take exactly one argument; TRIM returns the text without the white space around it, UPPER and LOWER change every character and keep the length. | C92: every text has such a trimmed form, so the value of TRIM is determined. | C92: with no or more than one argument they return an error."
  },
  {
   "property": "C93",
   "status": "proved",
   "theorems": [
    "Verif.Props.C93_clauses",
    "Verif.Props.C93_panic_iff"
   ],
   "note": "C93: an ALTER TABLE statement performs exactly its clauses, in the order ADD column, ADD index, DROP column, DROP index, RENAME, with the effect of the corresponding schema calls; it stops with an error at the first clause that fails. For every schema and statement. | C93: a statement fails with a panic exactly when it renames, also adds a column without a definition, and the clauses before the rename succeed."
  },
  {
   "property": "C94",
   "status": "partial",
   "theorems": [
    "Verif.Props.C94_executors",
    "Verif.Props.C94_aggregators",
    "Verif.Props.C94_mixed_fails",
    "Verif.Props.C94_any_fails"
   ],
   "note": "C94: `Executors` returns one executor per function selector that is not an aggregate, in selector order, each named like its function and reading its arguments. For every selector list. | C94: `Aggregators` returns one aggregator per function selector, in selector order; it is an error if some function selector is not an aggregate function. For every selector list. | C94, negation of \"the aggregators of the aggregate functions\": a selector list with an aggregate and another function has no aggregators at all. | C94 is false as far as the aggregators of the aggregate functions are meant: every selection list with a function that is no aggregate function has no aggregators at all, whatever others are in it."
  },
  {
   "property": "C95",
   "status": "partial",
   "theorems": [
    "Verif.Props.C95_column_at_partial",
    "Verif.Props.C95_fails"
   ],
   "note": "C95: `ColumnAt` returns the column at every position of the list, and an error beyond it. Missing: negative positions, see `C95_fails`. | C95, negation: every negative position panics."
  },
  {
   "property": "C96",
   "status": "partial",
   "theorems": [
    "Verif.Props.C96_copy_iff",
    "Verif.Props.C96_columns_iff",
    "Verif.Props.C96_copy_partial",
    "Verif.Props.C96_columns_partial",
    "Verif.Props.C96_fails"
   ],
   "note": "C96, exactly: the copy of a column is the column if and only if it has neither a function nor arguments. | C96, exactly, for lists: the copies are the columns if and only if no column has a function or arguments. | C96: a copy of a column has the same name, definition and literal, so the same name, definition and value texts. Missing: its function and arguments, see `C96_fails`. | C96 for lists: the copies are as many, in the same order, each the copy of the column at its place. So the names stay, and a list of columns without functions and arguments is copied to itself. | C96, negation: the copy of a column with a function has none; the assignment `a = b + 1` is copied to one that prints as `a = `."
  },
  {
   "property": "C97",
   "status": "partial",
   "theorems": [
    "Verif.Props.C97_spelling_fails",
    "Verif.Props.C97_known",
    "Verif.Props.C97_case_fails"
   ],
   "note": "C97 is false of the code for every other spelling of every documented function: the name is registered and its executor or aggregator is found, but it has no type. | C97: every documented function is registered, its type is looked up under its name, it can be created as an executor (or aggregator, for the aggregates) of that same type; and no other name has a type. | C97, negation of the same for other letter cases: `sum` is accepted by the aggregator and executor lookups and counts as registered, but has no type, so a selector `sum(x)` does not count as an aggregate."
  },
  {
   "property": "C98",
   "status": "partial",
   "theorems": [
    "Verif.Props.C98_any_fails",
    "Verif.Props.C98_options_partial",
    "Verif.Props.C98_fails"
   ],
   "note": "C98 is false of the code for every list of arguments: an aggregator is created of all of them, unless there is none. | C98: setting an aggregator's options fails exactly for an option of another kind, or when an argument list is given after one with two or more arguments. Missing: a list of several arguments is itself accepted, see `C98_fails`. | C98, negation: an aggregator of two arguments is created without an error, for every aggregate function."
  },
  {
   "property": "C99",
   "status": "proved",
   "theorems": [
    "Verif.Props.C99_text"
   ],
   "note": "C99: the text of a parameter. A string is written between single quotes as it is; a time without a fraction of a second in the format without fraction, otherwise in the one with, between single quotes; other values without quotes."
  },
  {
   "property": "C100",
   "status": "partial",
   "theorems": [
    "Verif.Props.C100_identifier_iff",
    "Verif.Props.C100_identifier_partial",
    "Verif.Props.C100_fails"
   ],
   "note": "C100, exactly: the text of a quoted name is one identifier token if and only if every backquote in the name is doubled. | C100 for names without backquotes. Missing: names with backquotes, which are not doubled (`C100_fails`). | C100, negation: a name with a backquote is split, and the rest of it is read as SQL."
  },
  {
   "property": "C101",
   "status": "partial",
   "theorems": [
    "Verif.Props.C101_insert_partial",
    "Verif.Props.C101_fails",
    "Verif.Props.C101_kept_fails"
   ],
   "note": "C101 for INSERT: with the table name quoted, whatever characters it has (no backquote, and none of the stripped characters at its ends), the statement reports the plain name. Missing: SELECT, UPDATE and DELETE, see `C101_fails`. | C101, negation: SELECT, UPDATE and DELETE report a quoted table name with its quotes. | C101, negation, for every table name and every SELECT, UPDATE and DELETE of the kinds that are read back: each one with the table name in backquotes is accepted, whatever its other clauses are, and is about a table whose name has the backquotes in it. None is about the table of the plain name."
  },
  {
   "property": "C102",
   "status": "partial",
   "theorems": [
    "Verif.Props.C102_create_table_partial",
    "Verif.Props.C102_fails",
    "Verif.Props.C102_never_fails"
   ],
   "note": "C102 for tables written with columns of known types of one word, then secondary indexes (with the word INDEX in capital letters) on one of the columns, then primary keys; names may be in backquotes. In any layout and letter case, the statement reports the name of the table, every column with its type and length, a primary key for every PRIMARY KEY constraint, and the indexes and keys, all in the order written. Missing: what `C102_fails` lists. | C102 is false of the code: the constraints NOT NULL and UNIQUE are not reported; a type with a precision and scale is reported as unknown; a column of type BINARY is a syntax error; a column without a type, and one in backquotes that is called like a keyword, are not reported; an index is lost if its keyword is in small letters; an index on two columns is a syntax error; the columns of a primary key have no type; and the schema of the table is lost. | C102 fails for every table with a schema or with constraints on its columns: in no CREATE TABLE that ParseString reports, for any query, does the table have a schema or any column a constraint; NOT NULL, UNIQUE and PRIMARY KEY tests are false of all columns."
  },
  {
   "property": "C103",
   "status": "partial",
   "theorems": [
    "Verif.Props.C103_reports_partial",
    "Verif.Props.C103_fails",
    "Verif.Props.C103_quotes_fails"
   ],
   "note": "C103 for one table, index or database at a time or several, without schemas except in DROP INDEX, and names in backquotes in CREATE INDEX, DROP TABLE and DROP INDEX: in any layout and letter case, the statement reports exactly the names and options written, in the order written. Missing: what `C103_fails` lists. | C103 is false of the code: DROP TABLE and CREATE INDEX lose the schema; TRUNCATE, VACUUM and CREATE INDEX reject a table with a schema, and COPY takes it as part of the name; the names of databases and of the tables of TRUNCATE keep their backquotes; CREATE UNIQUE INDEX is reported as a plain index; ROLLBACK TO a savepoint is reported as ROLLBACK. | C103, negation for every name: CREATE, DROP and ALTER DATABASE, USE, TRUNCATE and VACUUM, in any layout and letter case, with the name in backquotes are accepted and report the name with its backquotes, never the plain one."
  },
  {
   "property": "C104",
   "status": "partial",
   "theorems": [
    "Verif.Props.C104_reports_partial",
    "Verif.Props.C104_fails",
    "Verif.Props.C104_quotes_fails",
    "Verif.Props.C104_drop_fails"
   ],
   "note": "C104 for all changes but DROP; names may be in backquotes in RENAME TO and ADD: in any layout and letter case, the statement reports the table and exactly the change written. Missing: what `C104_fails` lists. | C104 is false of the code: DROP reports a column whose name is the whole clause; the name of a table and renamed columns keep their backquotes; a table of a schema as the new name is rejected; a UNIQUE key is reported as an index of an unknown kind; the PRIMARY KEY of an added column is lost; and an added column that is called like a keyword is not reported at all. | C104, negation for every name: in any layout and letter case, an ALTER TABLE of a table in backquotes reports a table with the backquotes in its name, and renaming a column in backquotes reports a column with the backquotes in its name, whatever the rest of the statement is. | C104, negation for every column: in any layout and letter case, `ALTER TABLE t DROP c` reports a column to be dropped whose name is the word DROP with the written name behind it, never the written one."
  },
  {
   "property": "C105",
   "status": "partial",
   "theorems": [
    "Verif.Props.C105_roundtrip_partial",
    "Verif.Props.C105_fails",
    "Verif.Props.C105_drop_table",
    "Verif.Props.C105_drop_table_iff",
    "Verif.Props.C105_truncate",
    "Verif.Props.C105_vacuum_fails",
    "Verif.Props.C105_create_index_fails"
   ],
   "note": "C105 for CREATE, DROP and ALTER DATABASE, USE, CREATE INDEX on a table without schema, DROP TABLE and TRUNCATE of tables without schemas, DROP INDEX, COPY, VACUUM, BEGIN, COMMIT and ROLLBACK with plain names: the statement has a text, and parsing the text gives exactly the statement. Missing: tables with schemas, see `C105_fails`. | C105 is false of the code for tables with schemas: DROP TABLE loses the schema, and the texts of TRUNCATE, VACUUM and CREATE INDEX are rejected; it is false for a CREATE INDEX without an index, and for DROP TABLE without tables. | C105 for DROP TABLE with plain names: if at most the first table has a schema, the text is read as the statement on the tables of these names without schemas; if another table has one, the text is a syntax error. | C105 for DROP TABLE with plain names: the text is read as the statement if and only if no table has a schema. | C105 for TRUNCATE with plain names: the text is read as the statement if no table has a schema, and is a syntax error otherwise. | C105 for VACUUM: the text of the statement on a table with a schema is a syntax error, for all plain names. | C105 for CREATE INDEX: the text of the statement on a table with a schema is a syntax error, for all plain names of the table and the index, and whatever the columns and further indexes."
  },
  {
   "property": "C106",
   "status": "partial",
   "theorems": [
    "Verif.Props.C106_refused_fails",
    "Verif.Props.C106_roundtrip_partial",
    "Verif.Props.C106_fails",
    "Verif.Props.C106_exact",
    "Verif.Props.C106_iff",
    "Verif.Props.C106_lost_fails"
   ],
   "note": "C106 fails for all these statements, with plain names: without a change that has a text, for example when only an index is dropped; when the table gets a name with a schema, whatever else is changed; and when a table or a column is renamed and there is another change behind it. If the statement has a text, it is a syntax error. | C106 for renaming a table or a column, adding a column without constraints, and adding a secondary index, on a table with or without a schema: parsing the text gives exactly the statement. Missing: the other changes, see `C106_fails`. | C106 is false of the code: dropping a column comes back with the keyword in the name of the column; dropping an index is not printed at all, which leaves a text that is rejected; the name of an added primary key is lost; an added column with a constraint comes back as a column named `NOT`; a column without definition makes the printer panic; and of two changes the second makes the text unreadable. | C106 for one change with plain names, whatever index is dropped with it: the statement has a text, which is read as what the text says. An index to be dropped and the name of a primary key are always lost, and the column to be dropped always has the word DROP in its name. | C106 for one change with plain names: the statement is read back if and only if its change is not the addition of a primary key with a name or the removal of a column, no index is dropped with it, and its columns have nothing that is not said. | C106 fails for every removal of a column, every named primary key, and every change with which an index is dropped, of the kinds of `C106_exact`."
  },
  {
   "property": "C107",
   "status": "partial",
   "theorems": [
    "Verif.Props.C107_roundtrip_partial",
    "Verif.Props.C107_fails",
    "Verif.Props.C107_exact",
    "Verif.Props.C107_iff",
    "Verif.Props.C107_lost_fails"
   ],
   "note": "C107 for tables with at least one column, all with types of one word and without constraints, then secondary indexes on one of the columns, then primary keys as the parser makes them: parsing the text gives exactly the statement. Missing: the other tables, see `C107_fails`. | C107 is false of the code: an index on two columns and a column of type BINARY make a text that is rejected; a DOUBLE PRECISION comes back as DOUBLE; constraints are not printed; a length of 0 comes back as −1; a column without definition is lost; the columns of a primary key lose their definitions; a table of a schema loses it; and a table without columns has a text that is rejected. | C107 for tables of schemas, with constraints, with any lengths, and with any keys: if what the text says can be read back, the text is read as exactly that. The schema of the table, the constraints of its columns, lengths that are not positive, the name of a primary key and the types of its columns are always lost. | C107: such a table is read back if and only if it is one of the tables of `C107_roundtrip_partial`. | C107 fails for every table of a schema, every table with a constraint on a column, and every table with a column of length zero, of the kinds of `C107_exact`."
  },
  {
   "property": "C108",
   "status": "proved",
   "theorems": [
    "Verif.Props.C108_text",
    "Verif.Props.C108_names",
    "Verif.Props.C108_kind"
   ],
   "note": "C108: the text of every statement is the name of its type, or begins with that name and a space. For all statements that have a text. | C108: different types have different names, so the name of a statement's type tells its kind. | C108: two statements with the same text have the same type. For all statements."
  },
  {
   "property": "C109",
   "status": "partial",
   "theorems": [
    "Verif.Props.C109_drop_index_exact",
    "Verif.Props.C109_drop_index_every_fails",
    "Verif.Props.C109_create_index_partial",
    "Verif.Props.C109_refused",
    "Verif.Props.C109_drop_index_partial",
    "Verif.Props.C109_drop_index_fails",
    "Verif.Props.C109_parsed"
   ],
   "note": "C109 for DROP INDEX, exactly, on every schema: the ALTER TABLE statement made of it is an error if and only if all indexes of the schema have the name that is to be dropped, and changes nothing then; otherwise it removes the first index that has another name, and changes nothing else. | C109, negation for every index and every schema: no ALTER TABLE statement made of a DROP INDEX removes an index of the name it is about. On a schema with that index it is an error, or another index is lost. | C109 for CREATE INDEX: the ALTER TABLE statement made of it names the same table, and applied to any schema it appends exactly the first index of the statement and changes nothing else. Missing: DROP INDEX, see `C109_drop_index_fails`. | C109: of all other statements but DROP INDEX no ALTER TABLE statement can be made. | C109 for DROP INDEX: the statement made of it asks to drop the index of that name and nothing else. | C109 is false for DROP INDEX: applied to a schema with the index it is an error, and the text of the ALTER TABLE statement does not mention the index at all. | C109 for parsed statements: every CREATE INDEX that the parser reports has exactly one index, so that the ALTER TABLE statement made of it adds that index. For all queries and schemas."
  },
  {
   "property": "C110",
   "status": "proved",
   "theorems": [
    "Verif.Props.C110_aggregators",
    "Verif.Props.C110_columns"
   ],
   "note": "C110: a SELECT's `Aggregators` succeeds exactly if every function in its selection list is an aggregate function with an argument, and then returns one aggregator per function, in order, namely the one that the constructor makes of the function's arguments and the GROUP BY column. For every selection list and group column (empty for none). | C110: the columns of such an aggregator are the GROUP BY column, if there is one, and then the call texts of its arguments."
  },
  {
   "property": "C111",
   "status": "partial",
   "theorems": [
    "Verif.Props.C111_scan",
    "Verif.Props.C111_failure_partial",
    "Verif.Props.C111_fails",
    "Verif.Props.C111_scan_at",
    "Verif.Props.C111_scan_by",
    "Verif.Props.C111_short_fails"
   ],
   "note": "C111: `Scan` succeeds exactly if there are at most as many destinations as values and every destination's value converts, and then each destination holds its converted value. For every row and all destinations. | C111, what a failing `Scan` leaves behind: the destinations before the failure hold their converted values, and those after it are untouched; the one at the failure is whatever the conversion left there. | C111 is false of the code as far as a failure should change nothing: with one value and two destinations the first one is overwritten before the error. | C111: `ScanAt` converts the value at that position of the row; past the last one it is an error and before the first one a panic, and the destination is left alone. | C111: `ScanBy` converts the value that `ValueBy` gives for that name, and is an error without touching the destination if the row has no such name. | C111 is false as far as a failure should change nothing, for every row and all destinations of which there are more than values: if each value converts, the scan is an error, but every destination that has a value holds it."
  },
  {
   "property": "C112",
   "status": "partial",
   "theorems": [
    "Verif.Props.C112_update_iff",
    "Verif.Props.C112_accessors",
    "Verif.Props.C112_create_table",
    "Verif.Props.C112_insert",
    "Verif.Props.C112_update_fails"
   ],
   "note": "C112 for UPDATE, exactly: asking a reported column for its value panics if and only if the value assigned is not a literal. For every UPDATE, in every spelling and layout. | C112: `Value` and `ValueType` of a column work exactly if it has a literal, and `DataType`, `DataTypeSize` and `Constraint` exactly if it has a definition; otherwise they panic. | C112: in everything the parser reports, for all queries: the columns and the index columns of a CREATE TABLE have a data type. | C112: every column of every row of a reported INSERT has a value. For all queries. | C112 is false of UPDATE: the column of an assignment that is neither a literal nor an operation on a column has no value (and no function either), so that asking for its value panics."
  },
  {
   "property": "C113",
   "status": "partial",
   "theorems": [
    "Verif.Props.C113_supported",
    "Verif.Props.C113_fits_iff",
    "Verif.Props.C113_class",
    "Verif.Props.C113_fails"
   ],
   "note": "C113: a data type is chosen for exactly the supported Go types. | C113 characterised: every value of a Go integer type fits the column type chosen for it exactly for the signed types of a fixed size. | C113: an integer gets an integer type, and only an integer does. | C113 as stated is false: a Go `int` gets the 32-bit type INT, and a `uint8` a type that ends at 127."
  },
  {
   "property": "C114",
   "status": "partial",
   "theorems": [
    "Verif.Props.C114_by_type_partial",
    "Verif.Props.C114_by_type_fails",
    "Verif.Props.C114_lookup",
    "Verif.Props.C114_any_fails"
   ],
   "note": "C114, what the code does: `ExecutorsForType` returns, in order, the executors of that type of all functions in the selection list, and is an error exactly if some function, an aggregate one for instance, has no executor. For every selection list. | C114 as stated is false: `SELECT ABS(a), SUM(b)` has the executor of ABS, but asking for the mathematical executors is an error because of the aggregate function. | C114: `LookupExecutor` finds an executor exactly if there is a function of exactly that name and its executor can be obtained; it is then the executor of the first such function. For every selection list and name. | C114 as stated is false for every selection list with a function that has no executor, every aggregate function for instance: asking for the executors of whatever type is an error, whatever executors the others have."
  },
  {
   "property": "C115",
   "status": "partial",
   "theorems": [
    "Verif.Props.C115_text",
    "Verif.Props.C115_names_iff",
    "Verif.Props.C115_fails",
    "Verif.Props.C115_aggregator_set"
   ],
   "note": "C115: reading a group column text and writing it again gives the same text. For all texts. | C115 characterised: writing a list of group columns as one text and reading it again gives the list exactly if no name has a comma and the list is not one empty name. | C115 as stated is false: a group column whose name has a comma is read as two. | C115: `NewAggregatorSetForNames` makes one aggregator per name, in the order of the names, each as its own constructor makes it with the options, and is an error exactly if one of them cannot be made."
  },
  {
   "property": "C116",
   "status": "partial",
   "theorems": [
    "Verif.Props.C116_asterisk_fails",
    "Verif.Props.C116_fails",
    "Verif.Props.C116_placeholder_partial",
    "Verif.Props.C116_value_fails"
   ],
   "note": "C116 is false for every asterisk: no column of the selection list of a reported SELECT is recognised as an asterisk by `IsAsterisk`, the selector `*` included. For all queries, whatever safecast's comparison is. | C116 is false of the code: the asterisk of `SELECT *` is not recognised by the column's `IsAsterisk`, a text literal `'?'` is taken for a placeholder, and the placeholder `$1` is not. Whatever safecast's comparison is, as long as it compares texts. | C116 for the rows of literals of an INSERT: a value is taken for a placeholder exactly if it is written `?`, or is a string literal of this one character. Missing: the string literal and the other placeholders, see `C116_fails`. | C116 is false of the code for values, too: among the literals of an INSERT exactly those written `*`, and the string literal of this one character, which is no asterisk, are taken for asterisks."
  },
  {
   "property": "C117",
   "status": "proved",
   "theorems": [
    "Verif.Props.C117_printable"
   ],
   "note": "C117: every statement the parser reports has a text: `String` does not panic. For all queries."
  },
  {
   "property": "C118",
   "status": "partial",
   "theorems": [
    "Verif.Props.C118_current",
    "Verif.Props.C118_schema",
    "Verif.Props.C118_additions_partial",
    "Verif.Props.C118_removal_exact",
    "Verif.Props.C118_fails"
   ],
   "note": "C118, first part: whatever the runtime's growth policy, the list of the schema itself is after any sequence of additions and removals the one that the schema model (lists as values) computes. | C118, first part, against the schema model: the memory model of any sequence of `AddColumn` and `DropColumn` calls and the schema model (which the other theorems are about) give the same columns. | C118 for additions: a list obtained from the schema at any time keeps its elements through any number of later additions. `old` is the slice handed out, `s` the schema's slice now. Missing: removals, see `C118_fails`. | C118 for one removal, exactly: the list obtained before reads afterwards as the list without the removed element, with its last element once more at the end. | C118 as stated is false: a caller holding the column list `[a, b, c]` of a schema sees `[b, c, c]` in it after `DropColumn(\"c\")` (which removes `a`)."
  },
  {
   "property": "C119",
   "status": "partial",
   "theorems": [
    "Verif.Props.C119_shared",
    "Verif.Props.C119_partial",
    "Verif.Props.C119_fails"
   ],
   "note": "C119, the exact behaviour: after `SetValue` on a copy of a column that has a literal, the original has the very value of the copy. For every column, value and conversion. | C119 for what does hold: setting the value of a copy leaves the name and the definition of the original, and a column without a literal altogether. Missing: the value, see `C119_fails`. | C119 as stated is false: a column with the value 1 has the value 2 after the value of its copy is set to 2."
  },
  {
   "property": "C120",
   "status": "proved",
   "theorems": [
    "Verif.Props.C120_written",
    "Verif.Props.C120_contained"
   ],
   "note": "C120: for every accepted query the tokens contain, in order and without overlap, one stretch without `;` for each reported statement, and every name, value and argument of the statement is the text of consecutive tokens of its own stretch, up to quote characters and parentheses taken off its ends (function names also up to letter case). | C120: in particular every text of a reported statement is part of the text of the query's tokens."
  },
  {
   "property": "C121",
   "status": "partial",
   "theorems": [
    "Verif.Props.C121_exact",
    "Verif.Props.C121_iff",
    "Verif.Props.C121_never",
    "Verif.Props.C121_fails"
   ],
   "note": "C121, exactly, for every CREATE TABLE of columns with one-word types, secondary indexes and primary keys, in any layout and letter case: the reported columns are, in the order written, the declared ones whose name is none of the words with which a constraint or key begins; the others are lost without an error. | C121 holds of exactly these texts: those in which no column is named, in quotes, by a word with which a constraint or key begins. | C121: no reported CREATE TABLE has a column named like one of the words that begin a constraint or key, in any letter case. | C121: not every declared column is reported: a quoted column named like one of these words is left out, a column without a type is left out, and neither is an error."
  },
  {
   "property": "C122",
   "status": "partial",
   "theorems": [
    "Verif.Props.C122_exact",
    "Verif.Props.C122_primary_fails",
    "Verif.Props.C122_keys_partial",
    "Verif.Props.C122_fails"
   ],
   "note": "C122, exactly, for every such CREATE TABLE: the reported keys are, in this order, one for each PRIMARY KEY constraint of a reported column, on that column; one for each INDEX on a reported column, on the first column of that name, and none for the others; and one for each PRIMARY KEY (...), on the written names, whether or not the table has such columns. | C122, negation for every PRIMARY KEY (...): none of the columns of the reported key is a column of the table unless that column has an unknown type, whatever columns the table declares. | C122: every key of a reported CREATE TABLE is a primary key, or a secondary key on exactly one column, which is a column of the table. | C122: a primary key can be on a column the table does not have; keys written in small letters, without a name, on an unknown column, before the column, or UNIQUE are left out; and none of this is an error."
  },
  {
   "property": "C123",
   "status": "partial",
   "theorems": [
    "Verif.Props.C123_by_value_partial",
    "Verif.Props.C123_maps",
    "Verif.Props.C123_aggregates",
    "Verif.Props.C123_fails",
    "Verif.Props.C123_one_array_fails"
   ],
   "note": "C123 for callers that do not write into a row after they have passed it: any sequence of allocations, writes and calls on a new aggregator returns what it returns if every row is passed by value. For every aggregator and any behaviour of the runtime. Missing: rows that are reused, see `C123_fails`. | C123 for rows passed as maps only: the caller may write where it likes. | C123 for reused rows, what does hold: whatever the caller writes where and when, all calls succeed or fail as if rows were passed by value, and an unordered result has the same columns and as many rows, which can differ in nothing but the group values shown. | C123 is false of the code: a caller that reads its rows into one array sees the last group values in every group: the groups `a` and `b` are reported as `b` and `b`. | C123 fails for every caller that passes all rows of a grouped aggregation in one array: whatever it wrote into the array before each call, every row of the result begins with the group values that are in the array at the end, so all groups are shown as the same."
  },
  {
   "property": "C124",
   "status": "partial",
   "theorems": [
    "Verif.Props.C124_strict_partial",
    "Verif.Props.C124_default_partial",
    "Verif.Props.C124_fails"
   ],
   "note": "C124 for the strict mode: if a query passes, it is parsed to one statement whose text differs from the query only in white space, the case of letters, and semicolons at the ends. Missing: the default mode, see `C124_fails`. | C124, what passing in the default mode says: the query is parsed to one statement, and either its text is the query or its text is parsed to one statement with the same text (up to white space, case and semicolons at the ends). | C124 is false of the code in the default mode, which all the tests of the repository use: a DELETE whose condition is lost by the parser, and which therefore deletes all rows, passes; so does a SELECT whose ORDER BY is lost. In the strict mode both fail."
  },
  {
   "property": "C125",
   "status": "partial",
   "theorems": [
    "Verif.Props.C125_passes_partial",
    "Verif.Props.C125_fails"
   ],
   "note": "C125 for the statements of C08, C09, C10 and C105 to C107: their texts pass in every mode. Missing: the texts of the other statements, some of which fail, see `C125_fails`. | C125 is false of the code: the text of a statement that drops a column, and that of one that renames a table and also a column, fail."
  },
  {
   "property": "C126",
   "status": "proved",
   "theorems": [
    "Verif.Props.C126_modes",
    "Verif.Props.C126_skip"
   ],
   "note": "C126: the modes are ordered. A query that passes in the strict mode passes in the default mode, and one that passes in the default mode passes if it is only parsed; whether errors are skipped or not. | C126: skipping errors only turns failures into skipped tests: the verdict without and with it are the same, or fail and skip; and if one panics so does the other."
  },
  {
   "property": "C127",
   "status": "partial",
   "theorems": [
    "Verif.Props.C127_strict_iff",
    "Verif.Props.C127_parse_only_iff",
    "Verif.Props.C127_default",
    "Verif.Props.C127_fails"
   ],
   "note": "C127 for the strict mode: the helper panics exactly if the parser does. | C127 for the mode that only parses: the helper panics exactly if the parser does, or accepts the query without reporting a statement. | C127 for the default mode: if the helper panics, the parser panics on the query or on the text of the statement it is parsed to (up to white space, case and semicolons at the ends). | C127 is false of the code: a query that is accepted without a statement, such as a PRAGMA or an empty line, makes the helper panic if it only parses."
  },
  {
   "property": "C128",
   "status": "partial",
   "theorems": [
    "Verif.Props.C128_exact",
    "Verif.Props.C128_comment_fails",
    "Verif.Props.C128_files_partial",
    "Verif.Props.C128_fails"
   ],
   "note": "C128, exactly, for every file: the file is texts without semicolons with semicolons between them, and the queries that are tested are these texts, each without the line ends and then the spaces at its ends, in their order and without those that are then empty or begin with `#`. | C128 fails for every query after a comment: if the text between two semicolons begins with `#`, perhaps after line ends and then spaces, nothing of it is tested, whatever lines follow the comment. | C128 for files of queries without semicolons in them, without white space at their ends, not starting with `#`, each followed by a semicolon and any number of line ends: exactly these queries are tested, in their order. Missing: other layouts, see `C128_fails`. | C128 is false of the code: a query after a line with a comment is not tested, a query with a semicolon in a string is cut in two, and the line ends of other systems are tested as a query."
  },
  {
   "property": "C129",
   "status": "proved",
   "theorems": [
    "Verif.Props.C129_last_option"
   ],
   "note": "C129: of the arguments that set the mode (a configuration or the option for it) the last one decides, without one it is the default mode; likewise for skipping errors; other arguments are ignored."
  },
  {
   "property": "C130",
   "status": "proved",
   "theorems": [
    "Verif.Props.C130_where",
    "Verif.Props.C130_no_where"
   ],
   "note": "C130: for every accepted query, the condition of a reported SELECT, UPDATE or DELETE is what stands in its own tokens between a WHERE that is not in parentheses and the end of that clause: one comparison of a name with a value, or two joined by AND or OR, with the operator, name and value written there. A condition is never taken from another statement or a subquery, and never is a part of a longer condition. | C130: without a WHERE among the tokens of a query no reported statement has a condition."
  },
  {
   "property": "C131",
   "status": "proved",
   "theorems": [
    "Verif.Props.C131_balanced",
    "Verif.Props.C131_each"
   ],
   "note": "C131: the parentheses among the tokens of an accepted query are balanced (those in strings, quoted names and comments do not count). | C131: the parentheses of every reported statement are balanced on their own."
  },
  {
   "property": "C132",
   "status": "partial",
   "theorems": [
    "Verif.Props.C132_update_partial",
    "Verif.Props.C132_fails",
    "Verif.Props.C132_lost_fails",
    "Verif.Props.C132_reported_iff"
   ],
   "note": "C132, without the part that fails: for every accepted query, a reported UPDATE has the table written between UPDATE (with its OR clause) and SET, and one column for each assignment of its SET clause, in the order of the clause, with the written name and literal, parameter or calculation. What is missing: a value of another form is not reported at all, so its column has no value. Numbers, blobs and parameters are never missing. | C132 fails: the value of an assignment written in parentheses is missing from the reported UPDATE. | C132 is false of the code for every assignment whose value is a column, a call, a list in parentheses, two literals with `||`, a condition or a test, in every UPDATE: the query is accepted, and the column is reported without a value. | Exactly the literals and the calculations with a column are reported as values of an assignment."
  },
  {
   "property": "C133",
   "status": "partial",
   "theorems": [
    "Verif.Props.C133_insert_partial",
    "Verif.Props.C133_row",
    "Verif.Props.C133_numbers",
    "Verif.Props.C133_fails",
    "Verif.Props.C133_comparison_fails"
   ],
   "note": "C133, without the part that fails: for every accepted query, a reported INSERT has the table written behind INTO and one row for each row of its VALUES clause, in that order. The values of a row have the names of the column list in order. What is missing: elements of a row that are not values are left out, with the later values moved forward; comparisons in a row are taken as a value with a column; values without a column are left out. Numbers, blobs and parameters are always taken as values. | C133: a row that consists of values has the first name with the first value, the second with the second, and so on. | C133: a row that is written as numbers, blobs and parameters has, with the names of the column list in order, just these as they are written. | C133 fails: a comparison among the values is reported as an assignment to the column it names, whatever its operator, and the next value moves to the first column. | C133 is false of the code for every row with a comparison: it is reported as a value of the column it names, whatever its operator and whether the column is in the list or not, behind the pairs of the literals before it."
  },
  {
   "property": "C134",
   "status": "proved",
   "theorems": [
    "Verif.Props.C134_delete"
   ],
   "note": "C134: for every accepted query, a reported DELETE has the table written behind DELETE FROM and before its WHERE or RETURNING clause or its end; it is never that of another statement or of a WITH clause."
  },
  {
   "property": "C135",
   "status": "partial",
   "theorems": [
    "Verif.Props.C135_select_partial",
    "Verif.Props.C135_columns",
    "Verif.Props.C135_call",
    "Verif.Props.C135_orders",
    "Verif.Props.C135_fails",
    "Verif.Props.C135_join_fails"
   ],
   "note": "C135, without the part that fails: for every accepted query, the tokens of a reported SELECT divide into a WITH clause, the body, further bodies behind UNION, INTERSECT or EXCEPT, ORDER BY and LIMIT. The selectors are the elements of the list behind SELECT, one for each and in order: function calls with the written name in upper case, the written arguments and the type that the name has as it is written, and columns named by the whole text of the element; an element that is plainly a call is never taken for a column. The tables are those elements of the list behind FROM that are not in parentheses, in order; they are none at all only where FROM is missing, holds no table, or is a join, which has JOIN, ON or USING outside parentheses. The group is the first expression of GROUP BY. The orders are the terms of ORDER BY that have a direction, in order and with that direction. The limit and the offset are the numbers of LIMIT. What is missing: aliases, joins, later groups, terms without a direction and the further bodies are not reported. | C135: result columns without parentheses are columns named by their text, one for each and in order. | C135: a result column that is a name with parentheses behind it, and perhaps an alias, is reported as a function call: with the name in upper case, with the type that belongs to the name if it is the exact name of a documented function, and with the arguments between the parentheses. | C135: ordering terms that all have ASC or DESC behind them are all reported, one for each and in order. | C135 fails: the alias behind a function call and the second group are missing from the reported SELECT. | C135 fails: a join reports no tables at all."
  },
  {
   "property": "C136",
   "status": "partial",
   "theorems": [
    "Verif.Props.C136_temp_fails",
    "Verif.Props.C136_create_table_partial",
    "Verif.Props.C136_columns",
    "Verif.Props.C136_fails",
    "Verif.Props.C136_lower_fails",
    "Verif.Props.C136_type_fails"
   ],
   "note": "C136 is false of the code for every CREATE TABLE with a schema name or one of the words TEMP and TEMPORARY: it is reported exactly as the permanent table of that name without schema. | C136, without the part that fails: for every accepted query, the tokens of a reported CREATE TABLE divide into CREATE, TEMP or TEMPORARY, TABLE, IF NOT EXISTS, a schema name, the table name, and the elements in parentheses or AS with a SELECT. The flag says whether IF NOT EXISTS is written, the table has the written name without quotes, and the elements are definitions followed by constraints, split at their own commas. The definitions are read one after the other: each one declares at most one column, with the written name without quotes, the type named by its first word and the length behind it, and adds a primary key for each PRIMARY KEY constraint; a definition that reads `PRIMARY KEY (c)`, `KEY i (c)` or `INDEX i (c)` adds a key on the first column of that name declared so far. Behind these keys come those of the constraints PRIMARY KEY with the written columns. What is missing: the schema name, the other constraints and the options are not reported, a length behind several words or of two numbers is lost, and words that could be a constraint can be read as words of the type, or as a column of their own. | C136: definitions that have a type and an ordinary name declare one column each, in the order in which they are written, and the keys are one for each PRIMARY KEY constraint, on the column with the constraint. | C136 fails: with AUTO_INCREMENT behind it, the primary key of a column is not reported. | C136 fails: a primary key in lower case with further columns behind it is not reported, and neither is a unique key. | C136 fails: a type with two numbers is reported as unknown, and a length behind two words is not reported."
  },
  {
   "property": "C137",
   "status": "partial",
   "theorems": [
    "Verif.Props.C137_parts_fails",
    "Verif.Props.C137_others_partial",
    "Verif.Props.C137_unique_fails",
    "Verif.Props.C137_schema_fails",
    "Verif.Props.C137_quotes_fails",
    "Verif.Props.C137_savepoint_fails"
   ],
   "note": "C137 is false of the code for every statement of these forms: UNIQUE, the schema name and the condition of any CREATE INDEX, TEMP, TEMPORARY and the schema name of any CREATE TABLE, the schema name and CASCADE of any DROP TABLE, the schema name of ALTER DATABASE, the kind and the name of a transaction, the savepoint of ROLLBACK, and ANALYZE and the file of VACUUM are not reported. The query is accepted and reported exactly as without these parts, whatever statements follow. | C137, without the part that fails: for every accepted query, each reported CREATE or DROP DATABASE, CREATE INDEX, DROP TABLE, DROP INDEX, ALTER DATABASE, ALTER TABLE, USE, TRUNCATE, VACUUM, COPY, BEGIN, COMMIT or ROLLBACK is what its own piece of the query says: the tokens divide into the keywords and the parts of the statement, the flag says whether IF EXISTS or IF NOT EXISTS is written, the names are the written ones, the lists of tables and columns are the written ones split at their commas, and the format of COPY is the written one. What is missing: quotes stay in the names of databases and in those of TRUNCATE and VACUUM, and what is not reported at all is the schema name of CREATE INDEX, DROP TABLE and ALTER DATABASE, UNIQUE and WHERE of CREATE INDEX, CASCADE of DROP TABLE, the file of VACUUM INTO, the kind of a transaction, and the savepoint of ROLLBACK. | C137 fails: a UNIQUE index is reported like an ordinary one, with the schema name lost. | C137 fails: DROP TABLE of a table of another schema is reported as one of the table of that name. | C137 fails: the quotes of a name stay in the name reported by USE and TRUNCATE. | C137 fails: rolling back to a savepoint is reported as rolling back the whole transaction."
  },
  {
   "property": "C138",
   "status": "partial",
   "theorems": [
    "Verif.Props.C138_drop_never_fails",
    "Verif.Props.C138_alter_table_partial",
    "Verif.Props.C138_drop_column_fails",
    "Verif.Props.C138_add_key_fails",
    "Verif.Props.C138_unique_fails",
    "Verif.Props.C138_quotes_fails"
   ],
   "note": "C138 fails for every dropped column: in every accepted query, the column that a reported ALTER TABLE drops has the written name with DROP or DROPCOLUMN in front of it, in the case in which that was written, and so never the written name. | C138, without the part that fails: for every accepted query, a reported ALTER TABLE is what its own piece of the query says: the schema and the table are the written ones, and exactly one change is reported, the written one: the new name of the table, both names of a renamed column, the column of an added definition (by the rules of C136), an added index with its kind, name and columns, or a dropped column. What is missing: the quotes stay in the name of the table and in those of a renamed column, the name of a dropped column is the text of the whole clause, the keys of an added column are not reported, and an added constraint other than INDEX and PRIMARY KEY is reported as an index of unknown kind. | C138 fails: dropping a column is reported as dropping a column that is named by the whole clause. | C138 fails: the primary key of an added column is not reported. | C138 fails: an added UNIQUE constraint is reported as an index of unknown kind. | C138 fails: a quoted table name is reported with its quotes, a quoted new name without them."
  },
  {
   "property": "C139",
   "status": "partial",
   "theorems": [
    "Verif.Props.C139_whole_partial",
    "Verif.Props.C139_skipped_fails"
   ],
   "note": "C139, without the part that fails: the tokens of every accepted query are, one after the other and with nothing between them, semicolons, the statements that are reported, in order, each with all its tokens and saying what is reported (C131 to C138), and statements of the kinds that are never reported. What is missing: those kinds, and EXPLAIN in front of a statement, are accepted and not reported (C80, C84). | C139 fails: three of the four statements of this query are accepted and not reported."
  },
  {
   "property": "C140",
   "status": "partial",
   "theorems": [
    "Verif.Props.C140_columns_partial",
    "Verif.Props.C140_error_iff",
    "Verif.Props.C140_star_fails"
   ],
   "note": "C140, without the part that fails: a schema made from a table schema and a selection list has exactly one column per selector, in order: for a plain selector the first column of the table of that name, letter case aside, and for a mathematical, aggregate, cast or arithmetic function a FLOAT column named by the text of the call. It has the name of the table. What is missing: `*` and functions of other types are rejected, and a column keeps the table's spelling of the name. | C140, when it is refused: exactly if some selector has no such column. | C140 fails: the selection lists `*`, `NOW()` and, the name of the function being in small letters, `max(a)` are refused."
  },
  {
   "property": "C141",
   "status": "partial",
   "theorems": [
    "Verif.Props.C141_schema_exact",
    "Verif.Props.C141_resultset_exact",
    "Verif.Props.C141_schema_partial",
    "Verif.Props.C141_resultset_partial",
    "Verif.Props.C141_schema_silent_fails",
    "Verif.Props.C141_resultset_silent_fails",
    "Verif.Props.C141_empty_fails"
   ],
   "note": "C141, exactly, for schemas: `NewSchemaFrom` fails if and only if some option cannot be applied after those before it. | C141, exactly, for result sets: `NewResultSetFrom` fails if and only if rows of another type than the two known ones are given. | C141, without the part that fails: `NewSchemaFrom` fails exactly if, applied one after the other, some option fails. Missing: `NewSchema` does not. | As `C141_schema_partial`, for result sets. | C141 fails for all options: `NewSchema` never reports an error. What it makes is what `NewSchemaFrom` makes of the options that do not fail, all of them if none fails. | C141 fails for all options: `NewResultSet` never reports an error either. | C141 fails: the schema of `SELECT *` on a table, made with `NewSchema`, silently has no columns."
  },
  {
   "property": "C142",
   "status": "partial",
   "theorems": [
    "Verif.Props.C142_resultset_parts",
    "Verif.Props.C142_schema_partial",
    "Verif.Props.C142_resultset_partial",
    "Verif.Props.C142_schema_fails",
    "Verif.Props.C142_rows_fails",
    "Verif.Props.C142_selectors_fails"
   ],
   "note": "C142, what result sets are made of: every part is that of the last option for it, or empty; and maps become rows by the schema given before them, if any. | C142, without the part that fails: options that concern different parts of a schema can be given in any order. | As `C142_schema_partial`, for result sets. | C142 fails: the selection list given before the table schema is refused, and `NewSchema` then leaves it out. | C142 fails: rows given as maps before the schema have no schema of their own, so that their values come in the order of their names instead of that of the columns. | C142 is false of the code for every selection list and every table: the list before the table is refused, and `NewSchema` leaves it out."
  },
  {
   "property": "C143",
   "status": "partial",
   "theorems": [
    "Verif.Props.C143_function_iff",
    "Verif.Props.C143_fails",
    "Verif.Props.C143_query_partial"
   ],
   "note": "C143, exactly: `IsFunction()` agrees with `Function()` unless the column was made by the result-set package without a function. | C143 fails: a plain column of a result set says it is a function, and has none. | C143 for columns of the query package, such as those of a table schema."
  },
  {
   "property": "C144",
   "status": "partial",
   "theorems": [
    "Verif.Props.C144_column_partial",
    "Verif.Props.C144_panic_iff",
    "Verif.Props.C144_fails",
    "Verif.Props.C144_columns",
    "Verif.Props.C144_text_partial",
    "Verif.Props.C144_text_fails",
    "Verif.Props.C144_own"
   ],
   "note": "C144, without the part that fails: `NewColumnFrom` makes a column with the name, data type and constraints of the given one if that has a definition. Missing: it panics if not; and the function of the given column is lost. | C144: it panics exactly for a column without a definition, and never reports an error. | C144 fails: a column of a selection list makes it panic. | C144 for lists: `NewColumnsFrom` keeps every column as it is, in order: its name, its function, and its type, which can be asked for exactly if the column has a definition. | C144: the definition text of a column made from a column with a definition is its name, the name of its type and its constraints. It is the definition text of the given column if that has no length and no constraints. | C144 fails for the definition text: for every column with a length, the text of the column made from it lacks the length. | C144: a result-set column is an asterisk exactly if it is named so, and has the arguments of its function."
  },
  {
   "property": "C145",
   "status": "partial",
   "theorems": [
    "Verif.Props.C145_order_iff",
    "Verif.Props.C145_object_partial",
    "Verif.Props.C145_order_fails"
   ],
   "note": "C145, up to the order of the columns: whatever order Go yields the keys of an object in, the schema is refused or made all the same, with the same columns up to their order; it is the same schema if and only if names and types come in the same order. | C145, without the part that fails: the schema made from an object has one column for each of its keys, with the type for its value, and is refused exactly if a value has a type without a data type. Missing: the columns come in the order in which Go yields the keys of the map, which differs from call to call. | C145 fails: the same object, its keys met in another order, gives another schema."
  },
  {
   "property": "C146",
   "status": "proved",
   "theorems": [
    "Verif.Props.C146_required"
   ],
   "note": "C146: an aggregated result set cannot be made without a table schema, selectors and a source; for each of the three the last option given counts. With all three and no aggregate function among the selectors it is the source itself."
  },
  {
   "property": "C147",
   "status": "partial",
   "theorems": [
    "Verif.Props.C147_race_partial",
    "Verif.Props.C147_fails"
   ],
   "note": "C147, without the part that fails: whatever calls any number of goroutines make on a connection, two of them are never about to use the user, the database or the schemas when one of the two writes. Missing: the flag that `Close` keeps and the tracer context are used without the mutex. | C147 fails: one goroutine closes the connection and sets the flag while another, closing it as well, looks at it; and two goroutines may use the tracer context at once."
  },
  {
   "property": "C148",
   "status": "proved",
   "theorems": [
    "Verif.Props.C148_linearizable"
   ],
   "note": "C148: whatever calls any number of goroutines make, and however they interleave, the calls and returns of the methods of the session (user, database, schemas) are those of a machine in which each takes effect at once between its call and its return, on the session the connection was made with. When nobody is inside, the fields are the session of that machine."
  },
  {
   "property": "C149",
   "status": "proved",
   "theorems": [
    "Verif.Props.C149_connection",
    "Verif.Props.C149_manager"
   ],
   "note": "C149 for connections: at every point of every execution each goroutine that is in a call can come to its return without any new call being made, whichever method it is in. | C149 for the manager."
  },
  {
   "property": "C150",
   "status": "proved",
   "theorems": [
    "Verif.Props.C150_options"
   ],
   "note": "C150: the database, schemas, tracer context, user and id of a new connection are those of the last option given for each, or empty, nil and zero; it is not closed."
  },
  {
   "property": "C151",
   "status": "partial",
   "theorems": [
    "Verif.Props.C151_span_partial",
    "Verif.Props.C151_fails"
   ],
   "note": "C151, exactly: `Span`, `StartSpan` and `FinishSpan` panic if and only if the tracer context of the connection is nil. | C151 fails: on every connection made without a tracer context, whatever else it is made with, they panic until one is set."
  },
  {
   "property": "C152",
   "status": "partial",
   "theorems": [
    "Verif.Props.C152_any_fails",
    "Verif.Props.C152_close_partial",
    "Verif.Props.C152_fails"
   ],
   "note": "C152 fails for every connection: after any history, when the lock is free, one goroutine may ask for the connections, get all of them in any order, and remove each of them, and yet a connection that another goroutine has added meanwhile, whichever it is, is there at the end. Both goroutines have finished, and every call has succeeded. | C152, without the part that fails: a goroutine asks the manager for its connections, gets the list `l`, and then removes each of them, as Close does after each connection it could close. If meanwhile others only look up and remove, no connection is left when it has finished. Before, connections may have been added, removed and replaced in any interleaving, each replaced by one of the same UUID. Missing: connections added or replaced meanwhile. | C152 fails: a connection that is added between the time when the list was made and the end of Close stays in the manager."
  },
  {
   "property": "C153",
   "status": "partial",
   "theorems": [
    "Verif.Props.C153_fixed",
    "Verif.Props.C153_executor",
    "Verif.Props.C153_aggregator",
    "Verif.Props.C153_refused_partial",
    "Verif.Props.C153_refused_fails"
   ],
   "note": "C153: name, arguments and text of a function never change, whatever is called. | C153: every later call of `Executor` on a function, with whatever options and after whatever other calls, returns what the earlier one returned, be it an executor or an error. | C153: once `Aggregator` has returned an aggregator, it returns that same object at every later call, with whatever options and after whatever other calls. | C153, in part: a failed `Aggregator` without options fails at every later call without options, as long as no other call gives options. Missing: with options the answer may change. | C153, negation of the rest: `COUNT()` has no aggregator until one was asked for with a group column."
  },
  {
   "property": "C154",
   "status": "partial",
   "theorems": [
    "Verif.Props.C154_type_partial",
    "Verif.Props.C154_type_iff",
    "Verif.Props.C154_fails"
   ],
   "note": "C154, in part: a function made under a documented name has the documented type, and keeps it whatever is called, as long as no executor is asked for with a type of the caller's own. Missing: names in another letter case and names that merely begin like a documented one, see `C154_type_iff` and `C154_fails`. | C154, exactly: a function made under a name keeps its type whatever is called if and only if the name is documented, or has neither an executor nor an aggregator. | C154, negation: `max(x)` is no aggregate until its aggregator is asked for, and then is one."
  },
  {
   "property": "C155",
   "status": "partial",
   "theorems": [
    "Verif.Props.C155_options",
    "Verif.Props.C155_executor_partial",
    "Verif.Props.C155_aggregator_fails",
    "Verif.Props.C155_any_fails"
   ],
   "note": "C155: name, type, arguments and executor of a new function are those of the last option that gives one; without such an option they are empty. A function never has an aggregator from the start. | C155, in part: a function made with an executor returns that executor, at every call with whatever options and after whatever other calls. Missing: the same for the aggregator, which is false, see `C155_aggregator_fails`. | C155, negation of the rest: a function made with an aggregator `SUM(x)` and no arguments of its own has no aggregator; made with the arguments too, it returns an aggregator, but another one than it was given. | C155 is false of the code for every function and every aggregator given to it: what `Aggregator` returns first, if anything, is a new aggregator and none of those there were."
  },
  {
   "property": "C156",
   "status": "partial",
   "theorems": [
    "Verif.Props.C156_exact",
    "Verif.Props.C156_again_partial",
    "Verif.Props.C156_group",
    "Verif.Props.C156_group_fails",
    "Verif.Props.C156_type_fails"
   ],
   "note": "C156, exactly: whatever uses were made of several statements before, using one of them gives what its first use with the GROUP BY in force would have given. | C156, in part: using the selectors of a statement again gives what the first use would have given, provided a GROUP BY is given, or none was given to this statement before. Missing: a use without GROUP BY after one with, see `C156_group_fails`; and functions whose type is not known by their names as written, see `C156_type_fails`. | C156, what is different: once a statement was given a GROUP BY, using it without one is an error on every source that has a row. | C156, negation: `SELECT SUM(a)` gives a result; after it was used with a GROUP BY, the same use is an error. | C156, negation: `SELECT SUM(a), max(a)` gives a result set without columns when it is used for the first time, and one with two columns when it is used for the second time."
  },
  {
   "property": "C157",
   "status": "proved",
   "theorems": [
    "Verif.Props.C157_independent",
    "Verif.Props.C157_shared"
   ],
   "note": "C157: statements that have no function object in common do not influence each other: using one of them after any uses of all of them gives what it gives after its own uses alone. | C157, for one statement: the aggregators a statement gives are the same objects every time, so two sets of them share what they have accumulated."
  },
  {
   "property": "C158",
   "status": "partial",
   "theorems": [
    "Verif.Props.C158_regexp_partial",
    "Verif.Props.C158_once_partial",
    "Verif.Props.C158_all_partial",
    "Verif.Props.C158_refused",
    "Verif.Props.C158_link_fails",
    "Verif.Props.C158_closed_fails",
    "Verif.Props.C158_any_link_fails",
    "Verif.Props.C158_unlisted_fails"
   ],
   "note": "C158, in part: listing a directory gives exactly what is below it, is no directory and matches. Missing: a directory that is given as a symbolic link, see `C158_link_fails`, and the contents of directories that cannot be listed, see `C158_closed_fails`. | C158, in part: nothing is listed twice. | C158, in part: `ListFiles` gives all of what is below and is no directory. | C158: what is not a directory is refused. | C158, negation: a directory given as a symbolic link is accepted, but instead of the files in it the link itself is listed. | C158, negation: files in a directory that cannot be listed are left out without an error. | C158 is false of the code for every directory given as a symbolic link: the link itself is listed, and nothing of what is in the directory. | C158 fails for every tree with a directory that cannot be listed: by listing, with an extension or an expression or without, such a directory cannot be told from an empty one; no error is reported for it."
  },
  {
   "property": "C159",
   "status": "partial",
   "theorems": [
    "Verif.Props.C159_panic_iff",
    "Verif.Props.C159_fails"
   ],
   "note": "C159, exactly: listing a directory panics if and only if something below it is gone when it is looked at; and if not, it gives a list. | C159, negation: a file that is removed after its directory was read makes the listing panic."
  },
  {
   "property": "C160",
   "status": "partial",
   "theorems": [
    "Verif.Props.C160_ext",
    "Verif.Props.C160_listed_partial",
    "Verif.Props.C160_fails",
    "Verif.Props.C160_exact"
   ],
   "note": "C160: `Ext` gives the part of the last element from the last dot on, or nothing if there is no dot. | C160, in part: with an extension that begins with a dot, a file is listed if and only if this is its extension. Missing: extensions without the dot, see `C160_fails`. | C160, negation: asked for the extension `sql`, files with the extension `.mysql` are listed too. | C160, exactly: asked for an extension that is not empty, a file is listed if and only if its extension ends with what was asked for."
  },
  {
   "property": "C161",
   "status": "partial",
   "theorems": [
    "Verif.Props.C161_directory_partial",
    "Verif.Props.C161_file",
    "Verif.Props.C161_refused",
    "Verif.Props.C161_fails",
    "Verif.Props.C161_unlisted_fails"
   ],
   "note": "C161, in part: testing a directory runs the queries of all matching files, file by file, and reports an error if and only if a matching file cannot be read. Missing: files in directories that cannot be listed are left out without an error, see `C161_fails`. | C161: testing a file, also one behind links, runs its queries; and if it cannot be read an error is reported. | C161: an expression that does not compile, or a path that is no directory, is reported and nothing is run. | C161, negation: a test passes although the only directory with queries could not be listed. | C161 fails for every tree with a directory that cannot be listed: the test of the tree runs the same queries and reports the same as the test of the tree in which it is empty."
  },
  {
   "property": "C162",
   "status": "proved",
   "theorems": [
    "Verif.Props.C162_parts",
    "Verif.Props.C162_select",
    "Verif.Props.C162_statement",
    "Verif.Props.C162_rows"
   ],
   "note": "C162 for tables, literals and schemas: a table has the name it is made with and the schema name of the last option; a literal the value it is made with and the type of the last option; a schema the name it is made with, no schema name of its own, and the columns and indexes of the last option for them. Without an option they have none. | C162 for SELECT: selectors, tables and condition are those it is made with; ORDER BY, LIMIT and GROUP BY are those of the last option for them, and without one are empty (no LIMIT is the pair 0, 0). | C162 for schema columns statements: the statement is the one made from the last SELECT, database and list of tables given; in particular names given together with a SELECT do not add up. | C162 for rows and bind statements: each part is that of the last option for it."
  },
  {
   "property": "C163",
   "status": "partial",
   "theorems": [
    "Verif.Props.C163_options",
    "Verif.Props.C163_asked",
    "Verif.Props.C163_answers_partial",
    "Verif.Props.C163_fails",
    "Verif.Props.C163_any_fails"
   ],
   "note": "C163, exactly: making a column panics if and only if one of the options gives a nil executor, wherever it stands; otherwise each part of the column is that of the last option for it. | C163: asking a column for its data type, size or constraints panics exactly if it has no definition; asking for its value or value type exactly if it has no literal, which is what `HasValue` tells. | C163 as far as it holds: when every option gives a thing that is not nil and there are a definition and a literal, the column can be made and answers everything it is asked. Missing: columns made with a nil executor, without a definition or without a literal. | C163 fails: a column made from its name alone, as every column of a selection list, panics when asked for its data type or value; and the arguments given together with an executor are not those of the function the column reports. | C163 is false of the code for every list of options that has neither a definition nor a literal in it: if the column can be made at all, asking for its data type, size, constraints, value or value type panics."
  },
  {
   "property": "C164",
   "status": "partial",
   "theorems": [
    "Verif.Props.C164_reported",
    "Verif.Props.C164_text_panic_iff",
    "Verif.Props.C164_text_partial",
    "Verif.Props.C164_fails"
   ],
   "note": "C164: an ALTER TABLE made with options reports the table it is made with in the schema of the last option, and for each of the six clauses what the last option for it gives; a nil takes a clause back, and a renaming of a column with one side missing is none. | C164: asking an ALTER TABLE made with options for its text panics exactly if the column to add has no definition. | C164 without the part that fails: the text, when there is one, begins with `ALTER TABLE` and the full name of the table, and shows each reported clause: the new table name, both names of a renamed column, the definition of a column or index to add, and the name of a column to drop. Missing: the index to drop, which the text never shows. | C164 fails: two ALTER TABLEs that drop different things have the same text, which moreover says nothing is to be done."
  },
  {
   "property": "C165",
   "status": "partial",
   "theorems": [
    "Verif.Props.C165_any_fails",
    "Verif.Props.C165_options",
    "Verif.Props.C165_format_partial",
    "Verif.Props.C165_fails"
   ],
   "note": "C165 fails for every word that names no format: the COPY is made with the format of the options before it, TEXT if they name none. | C165, exactly: a COPY has the table and source it is made with, the columns of the last option for them, and the format of the last option that names one; options that name no format are passed over, and the default is TEXT. | C165 as far as it holds: if the last format option names a format, the COPY has that format. Missing: words that name none. | C165 fails: a misspelt format is not refused but read as TEXT."
  },
  {
   "property": "C166",
   "status": "proved",
   "theorems": [
    "Verif.Props.C166_back",
    "Verif.Props.C166_columns",
    "Verif.Props.C166_names",
    "Verif.Props.C166_asterisk"
   ],
   "note": "C166: the selectors of columns are those columns, so asking them for their columns gives the list back, in order; and their names are the names of the columns. | C166: the columns of any selectors are exactly those selectors that are columns, in the same order. | C166: the names of arguments are the arguments, in order; a column of the query package is a function exactly if it has one. | C166: an argument list is an asterisk exactly if it is empty or its only argument is `*`."
  },
  {
   "property": "C167",
   "status": "partial",
   "theorems": [
    "Verif.Props.C167_apart_partial",
    "Verif.Props.C167_own",
    "Verif.Props.C167_mixed",
    "Verif.Props.C167_spoiled",
    "Verif.Props.C167_fails"
   ],
   "note": "C167 for calls of the same parser that do not overlap, whatever the other parsers are used for meanwhile and by whichever goroutines: the answer is an error if a call of this parser that had returned before was a syntax error, and that of a new parser otherwise. Missing: calls that overlap, see `C167_mixed` and `C167_fails`; earlier syntax errors, see C66. | C167: if every parser is used by one goroutine only, calls of the same parser do not overlap, so the above holds of each of them: parsers of different goroutines do not disturb each other. | C167 is false for overlapping calls, whatever the two queries are: a goroutine can get the statements of the query that another goroutine passed to the same parser. | C167 is false for overlapping calls: a syntax error in the query of another goroutine makes a call that had begun before, on a good query, fail. | C167 is false of the code: a goroutine that passed `BEGIN` to a parser is answered with the statement of another goroutine's `COMMIT`."
  },
  {
   "property": "C168",
   "status": "partial",
   "theorems": [
    "Verif.Props.C168_apart_partial",
    "Verif.Props.C168_race",
    "Verif.Props.C168_fails"
   ],
   "note": "C168 for calls of the same parser that do not overlap: no field of any parser is in a data race. Missing: calls that overlap, see `C168_race`. | C168 is false of the code: any two non-empty queries passed to the same parser at the same time race, from the first assignment on. | C168 is false of the code, for two queries."
  },
  {
   "property": "C169",
   "status": "partial",
   "theorems": [
    "Verif.Props.C169_settled_partial",
    "Verif.Props.C169_once",
    "Verif.Props.C169_race",
    "Verif.Props.C169_fails"
   ],
   "note": "C169 for a function that calls alone no longer change: whatever any number of goroutines call on it, at the same time and with whatever options, no field is in a data race, the function stays as it is and every answer is that of the call alone. Missing: a function that is asked for its executor or aggregator for the first time, see `C169_race`. | C169: one call alone is enough. After `Executor` on a function whose name is that of an executor, or after `Aggregator` has returned an aggregator of a function whose name is not, calls no longer change the function. | C169 is false of the code: two goroutines that ask any function for its executor for the first time are in a data race. | C169 is false of the code, for `ABS(a)`."
  },
  {
   "property": "C170",
   "status": "partial",
   "theorems": [
    "Verif.Props.C170_executor",
    "Verif.Props.C170_aggregator_partial",
    "Verif.Props.C170_two",
    "Verif.Props.C170_fails"
   ],
   "note": "C170, executors: whatever the goroutines do at the same time, a call of `Executor` answers as a call alone on the function would, with the options of some call that had begun before. So if all calls are given the same options, all answers are the same. | C170, aggregators, in part: whatever the goroutines do at the same time, a call of `Aggregator` that returns an error is one that alone would return an error, and what it returns otherwise is the aggregator the function had, or an object made for the function's name, as it was made for a call that had begun before. Missing: that all calls return the same object, see `C170_two`. | C170 is false of the code: two goroutines that ask any function for its aggregator for the first time can get two different objects, and the first of them is given the other one's when it asks again. | C170 is false of the code, for `SUM(a)`."
  },
  {
   "property": "C171",
   "status": "partial",
   "theorems": [
    "Verif.Props.C171_readback_partial",
    "Verif.Props.C171_one_partial",
    "Verif.Props.C171_fails",
    "Verif.Props.C171_name_fails"
   ],
   "note": "C171 for statements with plain names, or with quoted ones if they concern rows: for every accepted query, the texts of its statements with `;` between them are read as exactly these statements. Names are plain if they need no quotes; a quoted name keeps its quotes. Further conditions are those of `PlainStatement`, that is an OFFSET has a LIMIT, GROUP BY stands alone, calls have the type of the name in capital letters, assignments have a value, rows have the same columns, and tables no keys on single columns. No condition is put on values and operators: those that are reported can always be read back. What is missing: the other statements, see `C171_fails` and `C171_name_fails`. | C171 for one statement: its text is read as exactly this statement. | C171 fails: the text of a statement that the parser reported need not be read as that statement. A function named in small letters gets another type, a lost value makes the text wrong, a key on a column loses the type of the column, and the name of a dropped column grows. | C171 fails for quoted names that lose their quotes: INSERT and DROP TABLE report the name without its backquotes, and their text has it without them."
  },
  {
   "property": "C172",
   "status": "partial",
   "theorems": [
    "Verif.Props.C172_texts_partial",
    "Verif.Props.C172_fails"
   ],
   "note": "C172, what holds instead: for every accepted query, every value in a condition, a row or an assignment is reported as a text, which for a parameter is the parameter as it is written (`C130_where`, `C132_update_partial`, `C133_insert_partial`); never is one reported as a bind parameter. What is missing: parameters that can be told from other values, see `C172_fails`. | C172 fails: a parameter is reported as an untyped text, in the same way as a number; no bind parameter is made of it."
  },
  {
   "property": "C173",
   "status": "partial",
   "theorems": [
    "Verif.Props.C173_effect_partial",
    "Verif.Props.C173_adds",
    "Verif.Props.C173_create",
    "Verif.Props.C173_rename_fails",
    "Verif.Props.C173_drop_column_fails"
   ],
   "note": "C173, without the part that fails: for every accepted query and every schema, applying a reported ALTER TABLE does exactly this: a written ADD of a column appends the declared column, or nothing where the definition declares none; ADD of an index appends the written index; RENAME changes nothing and is an error; DROP of a column removes the first column that is not named by the text of the whole clause, and is an error when there is none. What is missing: renaming, and that the dropped column is the written one. | C173 for scripts that add: when every statement of an accepted query is an ALTER TABLE that adds a column or an index, or a CREATE INDEX, applying them one after the other to any schema succeeds, keeps what is there, and appends the added columns and the added indexes in the order in which they are written. | C173 for a script that creates a table and then adds to it: whatever schema there was, the schema afterwards is the written one with the added columns and indexes behind it. | C173 fails for every renaming: applying it to any schema is an error and changes nothing. | C173 fails for every dropped column: whichever column is written behind DROP, applying the reported statement to a schema whose first column is not named `DROP…` removes that first column."
  },
  {
   "property": "C174",
   "status": "partial",
   "theorems": [
    "Verif.Props.C174_selectors",
    "Verif.Props.C174_query",
    "Verif.Props.C174_aggregates",
    "Verif.Props.C174_has_aggregator_iff",
    "Verif.Props.C174_case_fails",
    "Verif.Props.C174_result_partial",
    "Verif.Props.C174_values"
   ],
   "note": "C174: the selectors of a reported SELECT are those of its written selection list: for a list of names and calls, in any number and order, the functions are the ones made with the written name and arguments. | C174 for queries: in every accepted query, the tokens behind the SELECT of a reported statement are a selection list, and if it is a list of names and calls, the statement's selectors are the ones it stands for. A statement without selectors is VALUES. | C174 for the aggregators of a SELECT without GROUP BY: when all calls of the written selection list are calls of aggregate functions with arguments, their names in any letter case, then `Aggregators` gives one aggregator for each, in order. Given any rows with a number or null for each argument, it accepts them, and its result is one row with, for each argument, the aggregate of the numbers, named by the call. | C174 for `HasAggregator`: a SELECT has an aggregator exactly if a written call has the name of an aggregate function in upper case. | C174 fails for other letter cases: when no call of the written selection list has the name of an aggregate function in upper case, `select sum(a)` for instance, the aggregated result set of the SELECT is the source itself, with all of its rows. | C174 for the aggregated result set of a SELECT of names and one call of an aggregate function, in upper case and with one argument, without GROUP BY: it has exactly one row, whose value under the text of the call is the aggregate of the source's numbers under the argument name, or of all rows for `*`. What is missing: two aggregate functions and grouping, for which the code fails (C49), and other letter cases (`C174_case_fails`). | C174 for other functions: a written call, in any letter case, whose name the executors know has an executor, and its value on a row is the value of the function of that name on the values of the written arguments: the row's value under the argument, or the text of the argument where the row has none."
  },
  {
   "property": "C175",
   "status": "partial",
   "theorems": [
    "Verif.Props.C175_system",
    "Verif.Props.C175_result_set_partial",
    "Verif.Props.C175_rows_partial",
    "Verif.Props.C175_case_fails",
    "Verif.Props.C175_table_partial",
    "Verif.Props.C175_case_iff"
   ],
   "note": "C175 for information_schema result sets: the lookup gives the first column so named, letter case aside, and fails exactly if there is none. | C175 for the schemas of result sets: the lookup gives the first column with exactly that name, and fails exactly if there is none. Missing from the full statement: letter case matters, see `C175_case_fails`. | C175, the same for the schema that the rows of a result set are read with. | C175 fails: a table finds its column `a` under the name `A`, and the result-set schema made from the table and from a query that asks for `A` has a column, but it does not find it under the name that the query uses. | C175, what holds: under the table's own spelling, the result-set schema made of the columns of a table finds a column exactly if the table has one of that spelling, and if the table has only one column of that name, letter case aside, both find the same one. | C175, exactly, for every table with one column of a name, letter case aside: the table finds the column in whatever spelling, the result-set schema made of its columns finds it if and only if the spelling is the same."
  },
  {
   "property": "C176",
   "status": "partial",
   "theorems": [
    "Verif.Props.C176_has_aggregator",
    "Verif.Props.C176_has_executor_iff",
    "Verif.Props.C176_fails",
    "Verif.Props.C176_has_executor_partial"
   ],
   "note": "C176: a selection list has an aggregator exactly if one of its functions has the aggregate type. | C176, exactly when the answer is yes: some function is not an aggregate, and all of these have an executor. | C176 as stated fails: with one function that is unknown the answer is no, though the list has a function with an executor; and asking for the executors gives none of them. | C176, what holds: the answer is right if every function that is not an aggregate has an executor. Missing: lists with an unknown function."
  },
  {
   "property": "C177",
   "status": "partial",
   "theorems": [
    "Verif.Props.C177_cast_partial",
    "Verif.Props.C177_map_fails"
   ],
   "note": "C177: a cast function given its argument directly, in an argument list or in a row gives the cast of that argument, error or not; it has its name and the cast type. Given any other number of arguments it returns an error. Missing: arguments given by name, see `C177_map_fails`. | C177 fails for arguments given by name: a cast function has no argument names, and there is no option to give it any, so on a map or an object it is always an error, whatever the cast and whatever the map."
  },
  {
   "property": "C178",
   "status": "proved",
   "theorems": [
    "Verif.Props.C178_qualified",
    "Verif.Props.C178_plain"
   ],
   "note": "C178: a table with a schema, whose name has no dot in it, answers to exactly the names that consist of the schema, a dot and the name, letter case aside. | C178: a table without a schema, or with a dot in its name, answers to exactly its name, letter case aside; a table without a name answers to the empty name only."
  },
  {
   "property": "C179",
   "status": "partial",
   "theorems": [
    "Verif.Props.C179_values",
    "Verif.Props.C179_never_fails",
    "Verif.Props.C179_bound_partial",
    "Verif.Props.C179_strings_partial",
    "Verif.Props.C179_injection_fails",
    "Verif.Props.C179_mark_fails",
    "Verif.Props.C179_name_fails",
    "Verif.Props.C179_quote_fails"
   ],
   "note": "C179: every value of every reported statement is a text the printer and the parser agree on; for a string, its quotes come in pairs and it neither begins nor ends with a quote character. | C179 fails for every string with a quote that is not doubled, and for every string that begins or ends with a quote character: a statement with such a value is never reported, for no query text, so for none that binding gives. | C179, with the conditions the code needs: a statement with placeholders for some of its values is printed, parameters whose texts are those of the values are bound, and the result is parsed. If the statement with the values in place can be read back and only the last value has a question mark, what is reported is exactly that statement. Missing: strings with quotes or question marks and names with question marks, see `C179_injection_fails`, `C179_mark_fails`, `C179_quote_fails` and `C179_name_fails`. | C179 for strings: the reported statement has exactly the bound strings as values. | C179 fails when a string has quotes, whatever the names are, as long as they have no question mark: a string that closes its quotes adds a condition. | C179 fails when a string that is not the last one has a question mark, whatever the names are, as long as they have none: the next value is put into the string, and its own placeholder stays in the condition. | C179 fails when a quoted name has a question mark: the value is put into the name, and its own placeholder stays in the condition. | C179 fails for a string with one quote: nothing can be parsed. With the quote doubled, both quotes are reported."
  },
  {
   "property": "C180",
   "status": "proved",
   "theorems": [
    "Verif.Props.C180_never",
    "Verif.Props.C180_delete",
    "Verif.Props.C180_update",
    "Verif.Props.C180_select"
   ],
   "note": "C180: whatever DELETE, UPDATE or SELECT statement is printed before WHERE, and whatever text follows, a condition that starts with a comparison of two columns, of a qualified column, of a literal with something, with a second comparison of one of these kinds or with IN, with two comparisons and a word joining them with a third, or with AND, is a syntax error. | C180: a printed DELETE statement with a condition made of comparisons of columns with literals is read back if there are at most two comparisons, and is a syntax error otherwise, however they are joined. | C180: a printed UPDATE statement with a condition made of comparisons of columns with literals is read back if there are at most two comparisons, and is a syntax error otherwise, however they are joined. | C180: a printed SELECT statement with a condition made of comparisons of columns with literals is read back if there are at most two comparisons, and is a syntax error otherwise, however they are joined and whatever clauses follow."
  },
  {
   "property": "C181",
   "status": "proved",
   "theorems": [
    "Verif.Props.C181_shape",
    "Verif.Props.C181_recased",
    "Verif.Props.C181_written"
   ],
   "note": "C181: two queries with the same kinds of tokens in the same order, so that they differ in names, values, spaces, comments and letter case only, have the same outcome up to names and values: both are errors, both panic, or both report as many statements of the same kinds with the same clauses, items, operators, directions, and kinds of values. | C181 for letter case: changing the case of letters, wherever they stand, does not change the outcome of a query up to names and values. | C181 for tokens that are written down: whatever names and values take the places of others, and whatever white space and comments stand between them."
  },
  {
   "property": "C182",
   "status": "partial",
   "theorems": [
    "Verif.Props.C182_bound_partial",
    "Verif.Props.C182_injection_fails",
    "Verif.Props.C182_script_fails",
    "Verif.Props.C182_dropped_fails"
   ],
   "note": "C182, with the conditions the code needs: the strings that are bound to the placeholders of a query do not decide how it is read, as long as quotes only occur doubled in them. Whatever the strings are, both bound queries are errors, both panic, or both report the same up to names and values. Missing: strings with single quotes, see `C182_injection_fails` and `C182_script_fails`, strings with question marks other than the last, and placeholders inside quotations. | C182 fails for strings with quotes, whatever the names are, as long as they have no question mark: with some strings the condition has one comparison, with others it has two. | C52, C179 and C182 fail as badly as they can: if a query has a placeholder where a string belongs, then for any statements there is a string with which the bound query is the beginning of the query followed by these statements, and all that follows the placeholder is dropped, as long as it has no further placeholder and no line break. | Without further statements: the condition after the placeholder is dropped."
  },
  {
   "property": "C183",
   "status": "partial",
   "theorems": [
    "Verif.Props.C183_letters_partial",
    "Verif.Props.C183_capitals_partial",
    "Verif.Props.C183_keys_fails",
    "Verif.Props.C183_types_fails"
   ],
   "note": "C183: two queries that differ in letter case only have the same outcome up to letter case: both are errors, both panic, or both report statements that are the same once their names and values are written in capital letters. Not compared are the types of functions and the keys of CREATE TABLE. | C183 for a query that is written in capital letters. | C183 fails for the keys of CREATE TABLE: in small letters they are lost. | C183 fails for the types of functions: in small letters they are not known."
  },
  {
   "property": "C184",
   "status": "partial",
   "theorems": [
    "Verif.Props.C184_once_partial",
    "Verif.Props.C184_append",
    "Verif.Props.C184_twice_exact",
    "Verif.Props.C184_fails"
   ],
   "note": "C184 for programs that make other rows of each row at most once: whatever rows are made and appended to, in any order and with any room that the runtime leaves, each row has, at the end, exactly the values it was given. Missing: rows that are appended to twice, see `C184_twice_exact`. | C184: whatever rows share their arrays, `Append` returns the values of the row with the new ones behind them, and leaves the row itself as it was. | C184, exactly, for a row `r` that is appended to twice: the row that the first call returned keeps its values, unless there was room behind `r` for the values of both calls; then the values of the second call take the place of those of the first. | C184 is false of the code for all values: of a row that was appended to, with room to spare, two rows are made; the first of them has the value of the second one."
  },
  {
   "property": "C185",
   "status": "partial",
   "theorems": [
    "Verif.Props.C185_applied",
    "Verif.Props.C185_kept_partial",
    "Verif.Props.C185_exact",
    "Verif.Props.C185_fails"
   ],
   "note": "C185: whatever slice of options is given, exactly its options are applied, in their order, then the option for the arguments, and then the constructor's own options. | C185 for option slices without room behind their last option, for slices in another array, and for slices that end where the options end: the calls leave them as they were. Missing: slices with options behind those given, see `C185_exact`. | C185, exactly, when the first `n` options of a slice are given: if there is room behind them, the call overwrites the options that stand there with those it appends. | C185 is false of the code for all options: given the first `n` of more options, `Executor` and `Aggregator` put the option for their arguments in the place of the next one of the caller's options."
  },
  {
   "property": "C186",
   "status": "partial",
   "theorems": [
    "Verif.Props.C186_apart_partial",
    "Verif.Props.C186_default_partial",
    "Verif.Props.C186_fails",
    "Verif.Props.C186_assign_fails",
    "Verif.Props.C186_returned"
   ],
   "note": "C186 for connections created with slices that are apart, that is in different arrays or without room: after any calls on any of the connections, in any order, and any further connections, each connection has exactly the schemas set on it. Missing: connections created with the same slice with room, see `C186_fails`. | C186, for connections created without schemas or with slices of their own arrays: nothing is shared. | C186 is false of the code for all schemas: two connections are created with the same slice, which has room; a schema `a` is set on the first and another one `b` on the second. Then the first connection has the schema `b` instead of `a`. | C186 is false of the code for all schemas: what the caller assigns to an element of the slice that a connection was created with becomes a schema of the connection. | C186: the list that `Schemas` returned, `t`, is the caller's own: whatever slices the connections share, no later call on any connection changes it."
  },
  {
   "property": "C187",
   "status": "partial",
   "theorems": [
    "Verif.Props.C187_append_partial",
    "Verif.Props.C187_fails",
    "Verif.Props.C187_lost_fails"
   ],
   "note": "C187 for callers that read the list and append to it: the list has no room behind its names, so that whatever is appended to what `RegisteredFunctionNames` returned, any number of times, `IsRegisteredFunction` answers as before. Missing: callers that assign to its elements, see `C187_fails`. | C187 is false of the code for every name: after the caller assigns the name, in upper case, to any element of what `RegisteredFunctionNames` returned, `IsRegisteredFunction` answers that the name is registered. | C187 is false of the code: after an assignment to its element of what `RegisteredFunctionNames` returned, a function of the library is not registered."
  },
  {
   "property": "C188",
   "status": "partial",
   "theorems": [
    "Verif.Props.C188_refused_partial",
    "Verif.Props.C188_word_partial",
    "Verif.Props.C188_insert",
    "Verif.Props.C188_delete",
    "Verif.Props.C188_update",
    "Verif.Props.C188_select_partial",
    "Verif.Props.C188_grouped",
    "Verif.Props.C188_name_partial",
    "Verif.Props.C188_create",
    "Verif.Props.C188_table",
    "Verif.Props.C188_rename"
   ],
   "note": "C188 (statements other than SELECT, INSERT, UPDATE, DELETE, CREATE TABLE and ALTER TABLE, and VACUUM with a table): whatever follows the text of a statement after a space is a syntax error, unless its first token is a semicolon, begins a statement or is one of the few that lengthen that statement. | C188 for a word: the text of a statement followed by a name, quoted or not, and anything else is a syntax error. | C188 for INSERT statements. | C188 for DELETE statements, with a condition or without. | C188 for UPDATE statements, with a condition or without. | C188 for SELECT statements with a condition, an ordering or a limit. | C188 for SELECT statements with GROUP BY, which is printed last, without an ordering and a limit. | C188 for all statements together: a name after the text of a statement is a syntax error, whatever comes after the name. | C188 for CREATE TABLE with anything in its parentheses: whatever stands between them, as long as its own parentheses are balanced, a query in which the closing one is followed by something that is neither a semicolon, nor the beginning of a statement, nor WITHOUT or ENGINE is a syntax error. | C188 for the texts of CREATE TABLE statements. | C188 for ALTER TABLE statements that rename the table or a column."
  },
  {
   "property": "C189",
   "status": "partial",
   "theorems": [
    "Verif.Props.C189_select_fails",
    "Verif.Props.C189_confused_fails",
    "Verif.Props.C189_functions",
    "Verif.Props.C189_bare_partial",
    "Verif.Props.C189_update_fails",
    "Verif.Props.C189_delete_fails",
    "Verif.Props.C189_insert"
   ],
   "note": "C189 is false of the code for SELECT. In any layout, with any other clauses and whatever statements follow, a SELECT whose tables and columns have aliases is accepted, and the name that it reports for each table and for each selected column is the written name with the alias, and the word AS if it is there, run into it. So no table and no column with an alias is reported under its written name. | C189 is false of the code for SELECT also in this way: two SELECTs from tables whose schemas and texts are the same are reported in the same way, wherever the names end and the aliases begin. | C189 for function calls: a SELECT with aliases for the calls of functions is reported exactly as without these aliases. | C189 for tables and columns without aliases: their reported names are the written ones, whatever aliases the others have. | C189 is false of the code for UPDATE: a table with an alias is reported under its name with AS and the alias run into it, which is not its name. | C189 is false of the code for DELETE: a table with an alias is reported under its name with AS and the alias run into it, which is not its name. | C189 for INSERT: a query that begins with an INSERT into a table with an alias is reported exactly as without the alias."
  },
  {
   "property": "C190",
   "status": "partial",
   "theorems": [
    "Verif.Props.C190_returning_fails",
    "Verif.Props.C190_group_fails",
    "Verif.Props.C190_group_exact",
    "Verif.Props.C190_first_partial"
   ],
   "note": "C190 is false of the code for RETURNING and ON CONFLICT DO NOTHING. In any layout and whatever statements follow, an INSERT, UPDATE or DELETE that ends with such a clause is accepted and reported exactly as the same statement without it. | C190 is false of the code for GROUP BY and HAVING. A SELECT that is grouped by more columns than one, or that has a HAVING clause, or both, is accepted and reported exactly as the SELECT that is grouped by the first column only and has no HAVING clause. | What holds of C190, exactly: of two SELECTs that differ in the columns that they are grouped by and in their HAVING clauses only, the reports are equal if and only if the first columns are. | The reported first column, and what is left of the rest of the statement: a SELECT that is grouped by some columns reports the first of them as the column it is grouped by."
  },
  {
   "property": "C191",
   "status": "partial",
   "theorems": [
    "Verif.Props.C191_names",
    "Verif.Props.C191_order",
    "Verif.Props.C191_back_partial",
    "Verif.Props.C191_back_fails",
    "Verif.Props.C191_back_iff"
   ],
   "note": "C191, by name: in a row built from values and no schema, the value at position i (from 0) is found under the decimal numeral of i + 1, and there is an error for every other name. | C191, by position: the values of a row built from an object and no schema are the object's values in ascending order of their names. | C191 for at most nine values: a row built from the object of a row of these values has the same values in the same order. Missing from the full statement: ten values and more, see `C191_back_fails`. | C191 is false of the code for ten values and more: in a row built from the object of a row of these values, there are as many values, and the second of them is the tenth of the given ones, because the names are sorted as texts, 10 before 2. | C191, exactly: a list of values without repetition comes back in order if and only if there are at most nine."
  },
  {
   "property": "C192",
   "status": "partial",
   "theorems": [
    "Verif.Props.C192_executors",
    "Verif.Props.C192_aggregators",
    "Verif.Props.C192_again",
    "Verif.Props.C192_executors_first",
    "Verif.Props.C192_aggregators_first_fails",
    "Verif.Props.C192_before_fails",
    "Verif.Props.C192_known_partial"
   ],
   "note": "C192: asking a selection list for its executors, whatever the answer, leaves the number and order of the selectors, their names, the definitions and literals of columns, the names and arguments of functions and so the printed text as they were. | C192: the same of asking for the aggregators. | C192: asking for the executors again gives the same answer, an error included, and so does asking for the aggregators again. | C192: asking for the executors changes neither whether the list has an aggregate function nor the aggregators. | C192 is false of the code for asking for the aggregators first. Whatever functions a selection list consists of, if none was asked before and all have aggregators, then afterwards every one of them counts as an aggregate function: the list has an aggregate function if it has a function at all, and asking for the executors gives no executors and no error. | Before that, the same list may have had no aggregate function, and asking for its executors may have been an error: the type of a function is taken from its name as written, so `sum(a)` is not known as an aggregate function until its aggregator is asked for. | What holds of asking for the aggregators first: if all functions of the list are known as aggregate functions, as those written in capitals are, whether there is one and the answer to asking for the executors stay as they were."
  },
  {
   "property": "C193",
   "status": "partial",
   "theorems": [
    "Verif.Props.C193_text",
    "Verif.Props.C193_apart",
    "Verif.Props.C193_numbers",
    "Verif.Props.C193_general_fails",
    "Verif.Props.C193_general_partial"
   ],
   "note": "C193: the text of an error about one thing is the thing, verbatim, between the two fixed texts of its kind. | C193: the text of such an error determines which one it is and what it is about. No thing, whatever brackets and words occur in it, makes the text of one kind look like that of another. | C193: the text of the error about two numbers of columns determines both. | C193 is false for the general constructors: the text of `NewErrNotSupported` can be that of another kind about another thing, for every thing, and the text for something that exists says that it does not. | What holds of the general constructors: within each the text determines the thing, and it says what is the matter with it."
  },
  {
   "property": "C194",
   "status": "proved",
   "theorems": [
    "Verif.Props.C194_last",
    "Verif.Props.C194_bare",
    "Verif.Props.C194_builtin",
    "Verif.Props.C194_own_arguments"
   ],
   "note": "C194: of the options that a new executor is made with, the last name, the last arguments, the last type and the last function are in force, whatever other options stand before, between and after; without any, the name is empty, there are no arguments, the type is unknown. | C194: an executor made without a function answers every call with an error, whatever it is called with and whatever its other options are. It neither panics nor returns a value. | C194: options given to the executor of a built-in function are applied after its own, so each of them that is given replaces the built-in one, and each that is not leaves it. In particular, a caller can give the executor of one function the name of another without changing what it computes. | C194: a function asks for its executor with its own arguments last, so no option of the caller changes the arguments that are read: for every function that was not asked before and whatever options."
  },
  {
   "property": "C195",
   "status": "proved",
   "theorems": [
    "Verif.Props.C195_first",
    "Verif.Props.C195_letters",
    "Verif.Props.C195_count"
   ],
   "note": "C195: the reported statements are made from disjoint stretches of the query's tokens, in order, and every stretch begins with the verb of its statement, with nothing before it but a WITH clause of a SELECT, INSERT, UPDATE or DELETE; for the statements about tables, databases and indexes the kind of object follows. | C195: a statement is only reported if its verb stands in the text of the query, in any letter case. | C195: there are never more statements with a verb than the query's tokens have that verb. A query without the word DELETE deletes nothing, one with a single DROP drops once."
  },
  {
   "property": "C196",
   "status": "partial",
   "theorems": [
    "Verif.Props.C196_serial_partial",
    "Verif.Props.C196_never_more",
    "Verif.Props.C196_value_fails",
    "Verif.Props.C196_count_fails",
    "Verif.Props.C196_race",
    "Verif.Props.C196_fails"
   ],
   "note": "C196, part: if no two calls overlap, rows aggregated by any number of goroutines give exactly what one goroutine gets by aggregating the same rows one after the other: the same results of the calls and the same aggregator, refused rows included. Missing: calls that overlap, of which it is false. | C196: however the calls overlap, no row is counted twice: the count never exceeds the count at the beginning plus the number of calls. | C196 is false of the code, whatever the aggregator: of two rows aggregated at the same time one can be lost in the accumulator, although both calls return without an error and both rows are counted. An AVG is then wrong too. | And of two rows counted at the same time one can be lost in the count, although both calls return without an error. | Two rows aggregated at the same time race for the accumulator. | C196 is false of the code: SUM of 3 and 4 can be 3, and COUNT of two rows 1."
  }
 ]
}