import Verif.Model.Lexer
/-! The grammar of sql/parser/sqlite/antlr/SQLiteParser.g4 (generated from it; all 157 rules). -/
namespace Verif.Gram
open Verif Verif.Lex

/-- The parser rules of SQLiteParser.g4 in their order. SQLiteParser.g4 37-1122. -/
inductive Rule
  | parse | sql_stmt_list | sql_stmt | alter_database_stmt | rename_database_to | alter_table_stmt | rename_table_to
  | rename_table_colum | add_table_column | add_table_index | drop_table_column | analyze_stmt | attach_stmt
  | begin_stmt | commit_stmt | rollback_stmt | savepoint_stmt | release_stmt | create_index_stmt | indexed_column
  | create_database_stmt | if_not_exists | create_table_stmt | table_options | mysql_table_options | column_def
  | with_param | type_name | column_constraint | primary_key_constraint | index_constraint | signed_number
  | table_constraint | primary_key_def | unique_key_def | foreign_key_clause | conflict_clause | create_trigger_stmt
  | create_view_stmt | create_virtual_table_stmt | with_clause | cte_table_name | recursive_cte | common_table_expression
  | delete_stmt | delete_stmt_limited | detach_stmt | drop_stmt | drop_database_stmt | drop_index_stmt
  | drop_table_stmt | drop_trigger_stmt | drop_view_stmt | if_exists | use_stmt | copy_stmt | copy_column_list
  | copy_format | source_name | truncate_stmt | expr | «function» | comparison_expr | and_expr | or_expr
  | arithmetic_expr | raise_function | literal_value | bind_param | system_var | user_var | string_literal
  | value_row | values_clause | insert_stmt | returning_clause | upsert_clause | pragma_stmt | pragma_value
  | reindex_stmt | select_stmt | join_clause | select_core | factored_select_stmt | simple_select_stmt
  | compound_select_stmt | «from» | from_table | from_function | from_table_or_subquery | from_select
  | table_or_subquery | result_column | join_operator | join_constraint | compound_operator | update_stmt
  | update_column_set | column_name_list | update_stmt_limited | qualified_table_name | vacuum_stmt | filter_clause
  | window_defn | over_clause | frame_spec | frame_clause | simple_function_invocation | aggregate_function_invocation
  | window_function_invocation | common_table_stmt | order_by_stmt | limit_stmt | ordering_term | asc_desc
  | frame_left | frame_right | frame_single | window_function | offset | default_value | partition_by
  | order_by_expr | order_by_expr_asc_desc | expr_asc_desc | initial_select | recursive_select | unary_operator
  | error_message | module_argument | column_alias | keyword | «name» | database_name | function_name
  | schema_name | table_name | table_or_index_name | column_name | collation_name | foreign_table | index_name
  | trigger_name | view_name | module_name | pragma_name | savepoint_name | table_alias | transaction_name
  | window_name | «alias» | filename | base_window_name | simple_func | aggregate_func | table_function_name
  | any_name
  deriving DecidableEq, Repr

/-- The labels of SQLiteParser.g4. SQLiteParser.g4 37-1122. -/
inductive Lab
  | new_database_name | target_table_name | old_column_name | new_column_name | row_ROW_ID | table | whereExpr | object | format_type | ope | left | right | parentQuery | groupByExpr | havingExpr
  deriving DecidableEq, Repr

/-- The right-hand sides of rules. SQLiteParser.g4 37-1122. -/
inductive Elem
  /-- Nothing. -/
  | eps
  /-- One token of the kind. -/
  | tok (t : Tok)
  /-- One token of one of the kinds. -/
  | set (f : Tok → Bool)
  /-- The end of the input. -/
  | eof
  /-- One after the other. -/
  | seq (a b : Elem)
  /-- Alternatives, the first one preferred. -/
  | alt (a b : Elem)
  /-- A greedy loop: going on is preferred. -/
  | star (a : Elem)
  /-- A non-greedy loop: leaving is preferred. -/
  | nstar (a : Elem)
  /-- A labelled part. -/
  | lab (l : Lab) (a : Elem)
  /-- A rule. -/
  | nt (r : Rule)
  /-- `expr` in a context that binds with precedence `p`. -/
  | expr (p : Nat)
  /-- A suffix of an `expr` on the left. -/
  | seg (a : Elem)

/-- Sequence. -/
infixr:67 " ⬝ " => Elem.seq
/-- Alternatives. -/
infixr:66 " ∣ " => Elem.alt

/-- `?` (greedy). SQLiteParser.g4 37-1122. -/
def Elem.opt (a : Elem) : Elem := a ∣ .eps
/-- `+`. SQLiteParser.g4 37-1122. -/
def Elem.plus (a : Elem) : Elem := a ⬝ .star a
/-- `+?`. SQLiteParser.g4 37-1122. -/
def Elem.nplus (a : Elem) : Elem := a ⬝ .nstar a

/-- SQLiteParser.g4 860-1017: the tokens of `keyword`. -/
def isKeyword : Tok → Bool
  | .ABORT_ | .ACTION_ | .ADD_ | .AFTER_ | .ALL_ | .ALTER_ | .ANALYZE_ | .AND_ | .AS_ | .ASC_ | .ATTACH_
  | .AUTOINCREMENT_ | .BEFORE_ | .BEGIN_ | .BETWEEN_ | .BY_ | .CASCADE_ | .CASE_ | .CAST_ | .CHECK_ | .COLLATE_
  | .COLUMN_ | .COMMIT_ | .CONFLICT_ | .CONSTRAINT_ | .CREATE_ | .CROSS_ | .CURRENT_DATE_ | .CURRENT_TIME_
  | .CURRENT_TIMESTAMP_ | .DATABASE_ | .DEFAULT_ | .DEFERRABLE_ | .DEFERRED_ | .DELETE_ | .DESC_ | .DETACH_
  | .DISTINCT_ | .DROP_ | .EACH_ | .ELSE_ | .END_ | .ESCAPE_ | .EXCEPT_ | .EXCLUSIVE_ | .EXISTS_ | .EXPLAIN_
  | .FAIL_ | .FOR_ | .FOREIGN_ | .FROM_ | .FULL_ | .GLOB_ | .GROUP_ | .HAVING_ | .IF_ | .IGNORE_ | .IMMEDIATE_
  | .IN_ | .INDEX_ | .INDEXED_ | .INITIALLY_ | .INNER_ | .INSERT_ | .INSTEAD_ | .INTERSECT_ | .INTO_
  | .IS_ | .ISNULL_ | .JOIN_ | .KEY_ | .LEFT_ | .LIKE_ | .LIMIT_ | .MATCH_ | .NATURAL_ | .NO_ | .NOT_
  | .NOTNULL_ | .NULL_ | .OF_ | .OFFSET_ | .ON_ | .OR_ | .ORDER_ | .OUTER_ | .PLAN_ | .PRAGMA_ | .PRIMARY_
  | .QUERY_ | .RAISE_ | .RECURSIVE_ | .REFERENCES_ | .REGEXP_ | .REINDEX_ | .RELEASE_ | .RENAME_ | .REPLACE_
  | .RESTRICT_ | .RIGHT_ | .ROLLBACK_ | .ROW_ | .ROWS_ | .SAVEPOINT_ | .SELECT_ | .SET_ | .TABLE_ | .TEXT_
  | .TEMP_ | .TEMPORARY_ | .THEN_ | .TO_ | .TRANSACTION_ | .TRIGGER_ | .UNION_ | .UNIQUE_ | .UPDATE_
  | .USING_ | .VACUUM_ | .VALUES_ | .VIEW_ | .VIRTUAL_ | .WHEN_ | .WHERE_ | .WITH_ | .WITHOUT_ | .FIRST_VALUE_
  | .OVER_ | .PARTITION_ | .RANGE_ | .PRECEDING_ | .UNBOUNDED_ | .CURRENT_ | .FOLLOWING_ | .CUME_DIST_
  | .DENSE_RANK_ | .LAG_ | .LAST_VALUE_ | .LEAD_ | .NTH_VALUE_ | .NTILE_ | .PERCENT_RANK_ | .RANK_ | .ROW_NUMBER_
  | .GENERATED_ | .ALWAYS_ | .STORED_ | .TRUE_ | .FALSE_ | .WINDOW_ | .NULLS_ | .FIRST_ | .LAST_ | .FILTER_
  | .GROUPS_ | .EXCLUDE_ => true
  | _ => false

/-- SQLiteParser.g4 401-442: the alternatives of `expr` that do not start with `expr`; the prefix operator binds as
in the generated code (sqlite_parser.go, `expr(_p int)`). -/
def primary : Elem :=
    (.nt .literal_value) ∣ (.nt .arithmetic_expr) ∣ (.nt .bind_param) ∣ (.nt .system_var) ∣ (.nt .user_var) ∣
      ((.opt ((.opt ((.nt .schema_name) ⬝ (.tok .DOT))) ⬝ (.nt .table_name) ⬝ (.tok .DOT))) ⬝
      (.nt .column_name)) ∣ ((.nt .unary_operator) ⬝ (.expr 19)) ∣ (.nt .comparison_expr) ∣ (.nt .and_expr) ∣
      (.nt .or_expr) ∣ (.nt .«function») ∣ ((.tok .OPEN_PAR) ⬝ (.expr 0) ⬝ (.star ((.tok .COMMA) ⬝
      (.expr 0))) ⬝ (.tok .CLOSE_PAR)) ∣ ((.tok .CAST_) ⬝ (.tok .OPEN_PAR) ⬝ (.expr 0) ⬝ (.tok .AS_) ⬝
      (.nt .type_name) ⬝ (.tok .CLOSE_PAR)) ∣ ((.opt ((.opt (.tok .NOT_)) ⬝ (.tok .EXISTS_))) ⬝
      (.tok .OPEN_PAR) ⬝ (.nt .select_stmt) ⬝ (.tok .CLOSE_PAR)) ∣ ((.tok .CASE_) ⬝ (.opt (.expr 0)) ⬝
      (.plus ((.tok .WHEN_) ⬝ (.expr 0) ⬝ (.tok .THEN_) ⬝ (.expr 0))) ⬝ (.opt ((.tok .ELSE_) ⬝ (.expr 0))) ⬝
      (.tok .END_)) ∣ (.nt .raise_function)

/-- SQLiteParser.g4 401-442: the alternatives of `expr` that start with `expr`, with their precedences, in the
order of the generated code: first those that end with `expr`. -/
def suffixes : List (Nat × Elem) := [
    (18, ((.tok .PIPE2) ⬝ (.expr 19))),
    (17, (((.tok .LT2) ∣ (.tok .GT2) ∣ (.tok .AMP) ∣ (.tok .PIPE)) ⬝ (.expr 18))),
    (13, (((.tok .EQ) ∣ (.tok .IS_) ∣ ((.tok .IS_) ⬝ (.tok .NOT_)) ∣ (.tok .IN_) ∣ (.tok .LIKE_) ∣
      (.tok .GLOB_) ∣ (.tok .MATCH_) ∣ (.tok .REGEXP_)) ⬝ (.expr 14))),
    (6, ((.tok .IS_) ⬝ (.opt (.tok .NOT_)) ⬝ (.expr 7))),
    (5, ((.opt (.tok .NOT_)) ⬝ (.tok .BETWEEN_) ⬝ (.expr 0) ⬝ (.tok .AND_) ⬝ (.expr 6))),
    (9, ((.tok .COLLATE_) ⬝ (.nt .collation_name))),
    (8, ((.opt (.tok .NOT_)) ⬝ ((.tok .LIKE_) ∣ (.tok .GLOB_) ∣ (.tok .REGEXP_) ∣ (.tok .MATCH_)) ⬝ (.expr 0) ⬝
      (.opt ((.tok .ESCAPE_) ⬝ (.expr 0))))),
    (7, ((.tok .ISNULL_) ∣ (.tok .NOTNULL_) ∣ ((.tok .NOT_) ⬝ (.tok .NULL_)))),
    (4, ((.opt (.tok .NOT_)) ⬝ (.tok .IN_) ⬝ (((.tok .OPEN_PAR) ⬝ (.opt ((.nt .select_stmt) ∣ ((.expr 0) ⬝
      (.star ((.tok .COMMA) ⬝ (.expr 0)))))) ⬝ (.tok .CLOSE_PAR)) ∣ ((.opt ((.nt .schema_name) ⬝
      (.tok .DOT))) ⬝ (.nt .table_name)) ∣ ((.opt ((.nt .schema_name) ⬝ (.tok .DOT))) ⬝
      (.nt .table_function_name) ⬝ (.tok .OPEN_PAR) ⬝ (.opt ((.expr 0) ⬝ (.star ((.tok .COMMA) ⬝
      (.expr 0))))) ⬝ (.tok .CLOSE_PAR)))))]

/-- The suffixes allowed where precedence `p` is required (`precpred(ctx, k)` holds if `k ≥ p`).
SQLiteParser.g4 401-442. -/
def suffix (p : Nat) : Elem :=
  (suffixes.filter (fun s => p ≤ s.1)).foldr (fun s e => .seg s.2 ∣ e) (.set (fun _ => false))

/-- `expr` after the elimination of left recursion: a primary expression and suffixes. SQLiteParser.g4 401-442. -/
def exprBody (p : Nat) : Elem := primary ⬝ .star (suffix p)

/-- The right-hand side of every rule, with its lines in SQLiteParser.g4. SQLiteParser.g4 37-1122. -/
def body : Rule → Elem
  -- 37-38
  | .parse =>
    (.star (.nt .sql_stmt_list)) ⬝ .eof
  -- 40-42
  | .sql_stmt_list =>
    (.star (.tok .SCOL)) ⬝ (.nt .sql_stmt) ⬝ (.star ((.plus (.tok .SCOL)) ⬝ (.nt .sql_stmt))) ⬝
      (.star (.tok .SCOL))
  -- 44-79
  | .sql_stmt =>
    (.opt ((.tok .EXPLAIN_) ⬝ (.opt ((.tok .QUERY_) ⬝ (.tok .PLAN_))))) ⬝ ((.nt .alter_database_stmt) ∣
      (.nt .alter_table_stmt) ∣ (.nt .analyze_stmt) ∣ (.nt .attach_stmt) ∣ (.nt .begin_stmt) ∣
      (.nt .commit_stmt) ∣ (.nt .create_database_stmt) ∣ (.nt .create_index_stmt) ∣ (.nt .create_table_stmt) ∣
      (.nt .create_trigger_stmt) ∣ (.nt .create_view_stmt) ∣ (.nt .create_virtual_table_stmt) ∣
      (.nt .delete_stmt) ∣ (.nt .delete_stmt_limited) ∣ (.nt .detach_stmt) ∣ (.nt .drop_database_stmt) ∣
      (.nt .drop_index_stmt) ∣ (.nt .drop_table_stmt) ∣ (.nt .drop_trigger_stmt) ∣ (.nt .drop_view_stmt) ∣
      (.nt .insert_stmt) ∣ (.nt .pragma_stmt) ∣ (.nt .reindex_stmt) ∣ (.nt .release_stmt) ∣
      (.nt .rollback_stmt) ∣ (.nt .savepoint_stmt) ∣ (.nt .select_stmt) ∣ (.nt .update_stmt) ∣
      (.nt .update_stmt_limited) ∣ (.nt .use_stmt) ∣ (.nt .vacuum_stmt) ∣ (.nt .copy_stmt) ∣
      (.nt .truncate_stmt))
  -- 81-85
  | .alter_database_stmt =>
    (.tok .ALTER_) ⬝ (.tok .DATABASE_) ⬝ (.opt ((.nt .schema_name) ⬝ (.tok .DOT))) ⬝ (.nt .database_name) ⬝
      (.nt .rename_database_to)
  -- 87-89
  | .rename_database_to =>
    (.tok .RENAME_) ⬝ (.tok .TO_) ⬝ (.lab .new_database_name (.nt .database_name))
  -- 91-99
  | .alter_table_stmt =>
    (.tok .ALTER_) ⬝ (.tok .TABLE_) ⬝ (.opt ((.nt .schema_name) ⬝ (.tok .DOT))) ⬝
      (.lab .target_table_name (.nt .table_name)) ⬝ ((.nt .rename_table_to) ∣ (.nt .rename_table_colum) ∣
      (.nt .add_table_index) ∣ (.nt .add_table_column) ∣ (.nt .drop_table_column))
  -- 101-103
  | .rename_table_to =>
    (.tok .RENAME_) ⬝ (.tok .TO_) ⬝ (.nt .table_name)
  -- 105-107
  | .rename_table_colum =>
    (.tok .RENAME_) ⬝ (.opt (.tok .COLUMN_)) ⬝ (.lab .old_column_name (.nt .column_name)) ⬝ (.tok .TO_) ⬝
      (.lab .new_column_name (.nt .column_name))
  -- 109-111
  | .add_table_column =>
    (.tok .ADD_) ⬝ (.opt (.tok .COLUMN_)) ⬝ (.nt .column_def)
  -- 113-115
  | .add_table_index =>
    (.tok .ADD_) ⬝ (.nt .column_constraint) ⬝ (.tok .OPEN_PAR) ⬝ (.nt .column_name) ⬝ (.star ((.tok .COMMA) ⬝
      (.nt .column_name))) ⬝ (.tok .CLOSE_PAR)
  -- 117-119
  | .drop_table_column =>
    (.tok .DROP_) ⬝ (.opt (.tok .COLUMN_)) ⬝ (.nt .column_name)
  -- 121-123
  | .analyze_stmt =>
    (.tok .ANALYZE_) ⬝ (.opt ((.nt .schema_name) ∣ ((.opt ((.nt .schema_name) ⬝ (.tok .DOT))) ⬝
      (.nt .table_or_index_name))))
  -- 125-127
  | .attach_stmt =>
    (.tok .ATTACH_) ⬝ (.opt (.tok .DATABASE_)) ⬝ (.expr 0) ⬝ (.tok .AS_) ⬝ (.nt .schema_name)
  -- 129-133
  | .begin_stmt =>
    (.tok .BEGIN_) ⬝ (.opt ((.tok .DEFERRED_) ∣ (.tok .IMMEDIATE_) ∣ (.tok .EXCLUSIVE_))) ⬝
      (.opt ((.tok .TRANSACTION_) ⬝ (.opt (.nt .transaction_name))))
  -- 135-136
  | .commit_stmt =>
    ((.tok .COMMIT_) ∣ (.tok .END_)) ⬝ (.opt (.tok .TRANSACTION_))
  -- 138-140
  | .rollback_stmt =>
    (.tok .ROLLBACK_) ⬝ (.opt (.tok .TRANSACTION_)) ⬝ (.opt ((.tok .TO_) ⬝ (.opt (.tok .SAVEPOINT_)) ⬝
      (.nt .savepoint_name)))
  -- 142-144
  | .savepoint_stmt =>
    (.tok .SAVEPOINT_) ⬝ (.nt .savepoint_name)
  -- 146-148
  | .release_stmt =>
    (.tok .RELEASE_) ⬝ (.opt (.tok .SAVEPOINT_)) ⬝ (.nt .savepoint_name)
  -- 150-153
  | .create_index_stmt =>
    (.tok .CREATE_) ⬝ (.opt (.tok .UNIQUE_)) ⬝ (.tok .INDEX_) ⬝ (.opt (.nt .if_not_exists)) ⬝
      (.opt ((.nt .schema_name) ⬝ (.tok .DOT))) ⬝ (.nt .index_name) ⬝ (.tok .ON_) ⬝ (.nt .table_name) ⬝
      (.tok .OPEN_PAR) ⬝ (.nt .indexed_column) ⬝ (.star ((.tok .COMMA) ⬝ (.nt .indexed_column))) ⬝
      (.tok .CLOSE_PAR) ⬝ (.opt ((.tok .WHERE_) ⬝ (.expr 0)))
  -- 155-156
  | .indexed_column =>
    ((.nt .column_name) ∣ (.expr 0)) ⬝ (.opt ((.tok .COLLATE_) ⬝ (.nt .collation_name))) ⬝
      (.opt (.nt .asc_desc))
  -- 158-160
  | .create_database_stmt =>
    (.tok .CREATE_) ⬝ (.tok .DATABASE_) ⬝ (.opt (.nt .if_not_exists)) ⬝ (.nt .database_name)
  -- 162-164
  | .if_not_exists =>
    (.tok .IF_) ⬝ (.tok .NOT_) ⬝ (.tok .EXISTS_)
  -- 166-174
  | .create_table_stmt =>
    (.tok .CREATE_) ⬝ (.opt ((.tok .TEMP_) ∣ (.tok .TEMPORARY_))) ⬝ (.tok .TABLE_) ⬝
      (.opt (.nt .if_not_exists)) ⬝ (.opt ((.nt .schema_name) ⬝ (.tok .DOT))) ⬝ (.nt .table_name) ⬝
      (((.tok .OPEN_PAR) ⬝ (.nt .column_def) ⬝ (.nstar ((.tok .COMMA) ⬝ (.nt .column_def))) ⬝
      (.star ((.tok .COMMA) ⬝ (.nt .table_constraint))) ⬝ (.tok .CLOSE_PAR) ⬝ (.opt ((.nt .table_options) ∣
      (.nt .mysql_table_options)))) ∣ ((.tok .AS_) ⬝ (.nt .select_stmt)))
  -- 176-179
  | .table_options =>
    ((.tok .WITHOUT_) ⬝ (.lab .row_ROW_ID (.tok .IDENTIFIER))) ∣ ((.tok .WITH_) ⬝ (.tok .OPEN_PAR) ⬝
      (.nt .with_param) ⬝ (.nstar ((.tok .COMMA) ⬝ (.nt .column_def))) ⬝ (.tok .CLOSE_PAR))
  -- 181-183
  | .mysql_table_options =>
    (.tok .ENGINE_) ⬝ (.tok .ASSIGN) ⬝ (.tok .IDENTIFIER)
  -- 185-187
  | .column_def =>
    (.nt .column_name) ⬝ (.opt (.nt .type_name)) ⬝ (.star (.nt .column_constraint))
  -- 189-191
  | .with_param =>
    (.tok .IDENTIFIER) ⬝ (.tok .ASSIGN) ⬝ (.expr 0)
  -- 193-198
  | .type_name =>
    (.nplus (.nt .«name»)) ⬝ (.opt (((.tok .OPEN_PAR) ⬝ (.nt .signed_number) ⬝ (.tok .CLOSE_PAR)) ∣
      ((.tok .OPEN_PAR) ⬝ (.nt .signed_number) ⬝ (.tok .COMMA) ⬝ (.nt .signed_number) ⬝ (.tok .CLOSE_PAR))))
  -- 200-213
  | .column_constraint =>
    (.opt ((.tok .CONSTRAINT_) ⬝ (.nt .«name»))) ⬝ ((.nt .primary_key_constraint) ∣ (.nt .index_constraint) ∣
      ((((.opt (.tok .NOT_)) ⬝ (.tok .NULL_)) ∣ (.tok .UNIQUE_)) ⬝ (.opt (.nt .conflict_clause))) ∣
      ((.tok .CHECK_) ⬝ (.tok .OPEN_PAR) ⬝ (.expr 0) ⬝ (.tok .CLOSE_PAR)) ∣ ((.tok .DEFAULT_) ⬝
      ((.nt .signed_number) ∣ (.nt .literal_value) ∣ ((.tok .OPEN_PAR) ⬝ (.expr 0) ⬝ (.tok .CLOSE_PAR)))) ∣
      ((.tok .COLLATE_) ⬝ (.nt .collation_name)) ∣ (.nt .foreign_key_clause) ∣ ((.opt ((.tok .GENERATED_) ⬝
      (.tok .ALWAYS_))) ⬝ (.tok .AS_) ⬝ (.tok .OPEN_PAR) ⬝ (.expr 0) ⬝ (.tok .CLOSE_PAR) ⬝
      (.opt ((.tok .STORED_) ∣ (.tok .VIRTUAL_)))))
  -- 215-217
  | .primary_key_constraint =>
    (.tok .PRIMARY_) ⬝ (.tok .KEY_) ⬝ (.opt (.nt .asc_desc)) ⬝ (.opt (.nt .conflict_clause)) ⬝
      (.opt (.tok .AUTOINCREMENT_))
  -- 219-221
  | .index_constraint =>
    (.tok .INDEX_) ⬝ (.nt .index_name)
  -- 223-224
  | .signed_number =>
    (.opt ((.tok .PLUS) ∣ (.tok .MINUS))) ⬝ (.tok .NUMERIC_LITERAL)
  -- 226-232
  | .table_constraint =>
    (.opt ((.tok .CONSTRAINT_) ⬝ (.nt .«name»))) ⬝ ((.nt .primary_key_def) ∣ (.nt .unique_key_def) ∣
      ((.tok .CHECK_) ⬝ (.tok .OPEN_PAR) ⬝ (.expr 0) ⬝ (.tok .CLOSE_PAR)) ∣ ((.tok .FOREIGN_) ⬝ (.tok .KEY_) ⬝
      (.tok .OPEN_PAR) ⬝ (.nt .column_name) ⬝ (.star ((.tok .COMMA) ⬝ (.nt .column_name))) ⬝
      (.tok .CLOSE_PAR) ⬝ (.nt .foreign_key_clause)))
  -- 234-238
  | .primary_key_def =>
    (.tok .PRIMARY_) ⬝ (.tok .KEY_) ⬝ (.tok .OPEN_PAR) ⬝ (.nt .indexed_column) ⬝ (.star ((.tok .COMMA) ⬝
      (.nt .indexed_column))) ⬝ (.tok .CLOSE_PAR) ⬝ (.opt (.nt .conflict_clause))
  -- 240-244
  | .unique_key_def =>
    (.tok .UNIQUE_) ⬝ (.tok .OPEN_PAR) ⬝ (.nt .indexed_column) ⬝ (.star ((.tok .COMMA) ⬝
      (.nt .indexed_column))) ⬝ (.tok .CLOSE_PAR) ⬝ (.opt (.nt .conflict_clause))
  -- 246-258
  | .foreign_key_clause =>
    (.tok .REFERENCES_) ⬝ (.nt .foreign_table) ⬝ (.opt ((.tok .OPEN_PAR) ⬝ (.nt .column_name) ⬝
      (.star ((.tok .COMMA) ⬝ (.nt .column_name))) ⬝ (.tok .CLOSE_PAR))) ⬝ (.star (((.tok .ON_) ⬝
      ((.tok .DELETE_) ∣ (.tok .UPDATE_)) ⬝ (((.tok .SET_) ⬝ ((.tok .NULL_) ∣ (.tok .DEFAULT_))) ∣
      (.tok .CASCADE_) ∣ (.tok .RESTRICT_) ∣ ((.tok .NO_) ⬝ (.tok .ACTION_)))) ∣ ((.tok .MATCH_) ⬝
      (.nt .«name»)))) ⬝ (.opt ((.opt (.tok .NOT_)) ⬝ (.tok .DEFERRABLE_) ⬝ (.opt ((.tok .INITIALLY_) ⬝
      ((.tok .DEFERRED_) ∣ (.tok .IMMEDIATE_))))))
  -- 260-268
  | .conflict_clause =>
    (.tok .ON_) ⬝ (.tok .CONFLICT_) ⬝ ((.tok .ROLLBACK_) ∣ (.tok .ABORT_) ∣ (.tok .FAIL_) ∣ (.tok .IGNORE_) ∣
      (.tok .REPLACE_))
  -- 270-280
  | .create_trigger_stmt =>
    (.tok .CREATE_) ⬝ (.opt ((.tok .TEMP_) ∣ (.tok .TEMPORARY_))) ⬝ (.tok .TRIGGER_) ⬝
      (.opt (.nt .if_not_exists)) ⬝ (.opt ((.nt .schema_name) ⬝ (.tok .DOT))) ⬝ (.nt .trigger_name) ⬝
      (.opt ((.tok .BEFORE_) ∣ (.tok .AFTER_) ∣ ((.tok .INSTEAD_) ⬝ (.tok .OF_)))) ⬝ ((.tok .DELETE_) ∣
      (.tok .INSERT_) ∣ ((.tok .UPDATE_) ⬝ (.opt ((.tok .OF_) ⬝ (.nt .column_name) ⬝ (.star ((.tok .COMMA) ⬝
      (.nt .column_name))))))) ⬝ (.tok .ON_) ⬝ (.nt .table_name) ⬝ (.opt ((.tok .FOR_) ⬝ (.tok .EACH_) ⬝
      (.tok .ROW_))) ⬝ (.opt ((.tok .WHEN_) ⬝ (.expr 0))) ⬝ (.tok .BEGIN_) ⬝ (.plus (((.nt .update_stmt) ∣
      (.nt .insert_stmt) ∣ (.nt .delete_stmt) ∣ (.nt .select_stmt)) ⬝ (.tok .SCOL))) ⬝ (.tok .END_)
  -- 282-286
  | .create_view_stmt =>
    (.tok .CREATE_) ⬝ (.opt ((.tok .TEMP_) ∣ (.tok .TEMPORARY_))) ⬝ (.tok .VIEW_) ⬝
      (.opt (.nt .if_not_exists)) ⬝ (.opt ((.nt .schema_name) ⬝ (.tok .DOT))) ⬝ (.nt .view_name) ⬝
      (.opt ((.tok .OPEN_PAR) ⬝ (.nt .column_name) ⬝ (.star ((.tok .COMMA) ⬝ (.nt .column_name))) ⬝
      (.tok .CLOSE_PAR))) ⬝ (.tok .AS_) ⬝ (.nt .select_stmt)
  -- 288-292
  | .create_virtual_table_stmt =>
    (.tok .CREATE_) ⬝ (.tok .VIRTUAL_) ⬝ (.tok .TABLE_) ⬝ (.opt (.nt .if_not_exists)) ⬝
      (.opt ((.nt .schema_name) ⬝ (.tok .DOT))) ⬝ (.nt .table_name) ⬝ (.tok .USING_) ⬝ (.nt .module_name) ⬝
      (.opt ((.tok .OPEN_PAR) ⬝ (.nt .module_argument) ⬝ (.star ((.tok .COMMA) ⬝ (.nt .module_argument))) ⬝
      (.tok .CLOSE_PAR)))
  -- 294-298
  | .with_clause =>
    (.tok .WITH_) ⬝ (.opt (.tok .RECURSIVE_)) ⬝ (.nt .cte_table_name) ⬝ (.tok .AS_) ⬝ (.tok .OPEN_PAR) ⬝
      (.nt .select_stmt) ⬝ (.tok .CLOSE_PAR) ⬝ (.star ((.tok .COMMA) ⬝ (.nt .cte_table_name) ⬝ (.tok .AS_) ⬝
      (.tok .OPEN_PAR) ⬝ (.nt .select_stmt) ⬝ (.tok .CLOSE_PAR)))
  -- 300-302
  | .cte_table_name =>
    (.nt .table_name) ⬝ (.opt ((.tok .OPEN_PAR) ⬝ (.nt .column_name) ⬝ (.star ((.tok .COMMA) ⬝
      (.nt .column_name))) ⬝ (.tok .CLOSE_PAR)))
  -- 304-306
  | .recursive_cte =>
    (.nt .cte_table_name) ⬝ (.tok .AS_) ⬝ (.tok .OPEN_PAR) ⬝ (.nt .initial_select) ⬝ (.tok .UNION_) ⬝
      (.opt (.tok .ALL_)) ⬝ (.nt .recursive_select) ⬝ (.tok .CLOSE_PAR)
  -- 308-310
  | .common_table_expression =>
    (.nt .table_name) ⬝ (.opt ((.tok .OPEN_PAR) ⬝ (.nt .column_name) ⬝ (.star ((.tok .COMMA) ⬝
      (.nt .column_name))) ⬝ (.tok .CLOSE_PAR))) ⬝ (.tok .AS_) ⬝ (.tok .OPEN_PAR) ⬝ (.nt .select_stmt) ⬝
      (.tok .CLOSE_PAR)
  -- 312-314
  | .delete_stmt =>
    (.opt (.nt .with_clause)) ⬝ (.tok .DELETE_) ⬝ (.tok .FROM_) ⬝ (.lab .table (.nt .qualified_table_name)) ⬝
      (.opt ((.tok .WHERE_) ⬝ (.lab .whereExpr (.expr 0)))) ⬝ (.opt (.nt .returning_clause))
  -- 316-320
  | .delete_stmt_limited =>
    (.opt (.nt .with_clause)) ⬝ (.tok .DELETE_) ⬝ (.tok .FROM_) ⬝ (.nt .qualified_table_name) ⬝
      (.opt ((.tok .WHERE_) ⬝ (.expr 0))) ⬝ (.opt (.nt .returning_clause)) ⬝
      (.opt ((.opt (.nt .order_by_stmt)) ⬝ (.nt .limit_stmt)))
  -- 322-324
  | .detach_stmt =>
    (.tok .DETACH_) ⬝ (.opt (.tok .DATABASE_)) ⬝ (.nt .schema_name)
  -- 326-330
  | .drop_stmt =>
    (.tok .DROP_) ⬝ (.lab .object ((.tok .INDEX_) ∣ (.tok .TABLE_) ∣ (.tok .TRIGGER_) ∣ (.tok .VIEW_))) ⬝
      (.opt (.nt .if_exists)) ⬝ (.opt ((.nt .schema_name) ⬝ (.tok .DOT))) ⬝ (.nt .any_name)
  -- 332-336
  | .drop_database_stmt =>
    (.tok .DROP_) ⬝ (.tok .DATABASE_) ⬝ (.opt (.nt .if_exists)) ⬝ (.nt .database_name)
  -- 338-342
  | .drop_index_stmt =>
    (.tok .DROP_) ⬝ (.tok .INDEX_) ⬝ (.opt (.nt .if_exists)) ⬝ (.opt ((.nt .schema_name) ⬝ (.tok .DOT))) ⬝
      (.nt .index_name)
  -- 344-348
  | .drop_table_stmt =>
    (.tok .DROP_) ⬝ (.tok .TABLE_) ⬝ (.opt (.nt .if_exists)) ⬝ (.opt ((.nt .schema_name) ⬝ (.tok .DOT))) ⬝
      ((.nt .table_name) ⬝ (.star ((.tok .COMMA) ⬝ (.nt .table_name)))) ⬝ (.opt (.tok .CASCADE_))
  -- 350-354
  | .drop_trigger_stmt =>
    (.tok .DROP_) ⬝ (.tok .TRIGGER_) ⬝ (.opt (.nt .if_exists)) ⬝ (.opt ((.nt .schema_name) ⬝ (.tok .DOT))) ⬝
      (.nt .trigger_name)
  -- 356-360
  | .drop_view_stmt =>
    (.tok .DROP_) ⬝ (.tok .VIEW_) ⬝ (.opt (.nt .if_exists)) ⬝ (.opt ((.nt .schema_name) ⬝ (.tok .DOT))) ⬝
      (.nt .view_name)
  -- 362-364
  | .if_exists =>
    (.tok .IF_) ⬝ (.tok .EXISTS_)
  -- 366-368
  | .use_stmt =>
    (.tok .USE_) ⬝ (.nt .database_name)
  -- 370-372
  | .copy_stmt =>
    (.tok .COPY_) ⬝ (.lab .table (.nt .qualified_table_name)) ⬝ (.opt (.nt .copy_column_list)) ⬝
      (.tok .FROM_) ⬝ (.nt .source_name) ⬝ (.opt (.tok .WITH_)) ⬝ (.opt (.nt .copy_format))
  -- 374-376
  | .copy_column_list =>
    (.tok .OPEN_PAR) ⬝ (.nt .column_name) ⬝ (.star ((.tok .COMMA) ⬝ (.nt .column_name))) ⬝ (.tok .CLOSE_PAR)
  -- 378-380
  | .copy_format =>
    (.opt (.tok .FORMAT_)) ⬝ (.lab .format_type ((.tok .TEXT_) ∣ (.tok .CSV_) ∣ (.tok .BINARY_)))
  -- 382-384
  | .source_name =>
    .nt .any_name
  -- 386-388
  | .truncate_stmt =>
    (.tok .TRUNCATE_) ⬝ (.opt (.tok .TABLE_)) ⬝ ((.nt .table_name) ⬝ (.star ((.tok .COMMA) ⬝
      (.nt .table_name))))
  -- 401-442
  | .expr =>
    .expr 0
  -- 444-446
  | .«function» =>
    (.nt .function_name) ⬝ (.tok .OPEN_PAR) ⬝ (.opt (((.opt (.tok .DISTINCT_)) ⬝ (.expr 0) ⬝
      (.star ((.tok .COMMA) ⬝ (.expr 0)))) ∣ (.tok .STAR))) ⬝ (.tok .CLOSE_PAR) ⬝ (.opt (.nt .filter_clause)) ⬝
      (.opt (.nt .over_clause))
  -- 448-450
  | .comparison_expr =>
    (.nt .column_name) ⬝ (.lab .ope ((.tok .ASSIGN) ∣ (.tok .NOT_EQ1) ∣ (.tok .NOT_EQ2) ∣ (.tok .LT) ∣
      (.tok .LT_EQ) ∣ (.tok .GT) ∣ (.tok .GT_EQ))) ⬝ (.nt .literal_value)
  -- 452-454
  | .and_expr =>
    (.lab .left (.nt .comparison_expr)) ⬝ (.tok .AND_) ⬝ (.lab .right (.nt .comparison_expr))
  -- 456-458
  | .or_expr =>
    (.lab .left (.nt .comparison_expr)) ⬝ (.tok .OR_) ⬝ (.lab .right (.nt .comparison_expr))
  -- 459-461
  | .arithmetic_expr =>
    (.nt .column_name) ⬝ (.lab .ope ((.tok .PLUS) ∣ (.tok .MINUS) ∣ (.tok .STAR) ∣ (.tok .DIV) ∣
      (.tok .MOD))) ⬝ (.expr 0)
  -- 463-468
  | .raise_function =>
    (.tok .RAISE_) ⬝ (.tok .OPEN_PAR) ⬝ ((.tok .IGNORE_) ∣ (((.tok .ROLLBACK_) ∣ (.tok .ABORT_) ∣
      (.tok .FAIL_)) ⬝ (.tok .COMMA) ⬝ (.nt .error_message))) ⬝ (.tok .CLOSE_PAR)
  -- 470-481
  | .literal_value =>
    (.nt .signed_number) ∣ (.nt .string_literal) ∣ (.tok .BLOB_LITERAL) ∣ (.tok .NULL_) ∣ (.tok .TRUE_) ∣
      (.tok .FALSE_) ∣ (.tok .CURRENT_TIME_) ∣ (.tok .CURRENT_DATE_) ∣ (.tok .CURRENT_TIMESTAMP_) ∣
      (.nt .bind_param)
  -- 483-485
  | .bind_param =>
    .tok .BIND_PARAMETER
  -- 487-489
  | .system_var =>
    (.tok .SYSTEM_VARIABLE) ⬝ (.opt ((.tok .DOT) ⬝ (.tok .IDENTIFIER)))
  -- 491-493
  | .user_var =>
    .tok .USER_VARIABLE
  -- 495-497
  | .string_literal =>
    .tok .STRING_LITERAL
  -- 499-501
  | .value_row =>
    (.tok .OPEN_PAR) ⬝ (.expr 0) ⬝ (.star ((.tok .COMMA) ⬝ (.expr 0))) ⬝ (.tok .CLOSE_PAR)
  -- 503-505
  | .values_clause =>
    (.tok .VALUES_) ⬝ (.nt .value_row) ⬝ (.star ((.tok .COMMA) ⬝ (.nt .value_row)))
  -- 507-526
  | .insert_stmt =>
    (.opt (.nt .with_clause)) ⬝ ((.tok .INSERT_) ∣ (.tok .REPLACE_) ∣ ((.tok .INSERT_) ⬝ (.tok .OR_) ⬝
      ((.tok .REPLACE_) ∣ (.tok .ROLLBACK_) ∣ (.tok .ABORT_) ∣ (.tok .FAIL_) ∣ (.tok .IGNORE_)))) ⬝
      (.tok .INTO_) ⬝ (.opt ((.nt .schema_name) ⬝ (.tok .DOT))) ⬝ (.nt .table_name) ⬝ (.opt ((.tok .AS_) ⬝
      (.nt .table_alias))) ⬝ (.opt ((.tok .OPEN_PAR) ⬝ (.nt .column_name) ⬝ (.star ((.tok .COMMA) ⬝
      (.nt .column_name))) ⬝ (.tok .CLOSE_PAR))) ⬝ ((((.nt .values_clause) ∣ (.nt .select_stmt)) ⬝
      (.opt (.nt .upsert_clause))) ∣ ((.tok .DEFAULT_) ⬝ (.tok .VALUES_))) ⬝ (.opt (.nt .returning_clause))
  -- 528-530
  | .returning_clause =>
    (.tok .RETURNING_) ⬝ (.nt .result_column) ⬝ (.star ((.tok .COMMA) ⬝ (.nt .result_column)))
  -- 532-543
  | .upsert_clause =>
    (.tok .ON_) ⬝ (.tok .CONFLICT_) ⬝ (.opt ((.tok .OPEN_PAR) ⬝ (.nt .indexed_column) ⬝ (.star ((.tok .COMMA) ⬝
      (.nt .indexed_column))) ⬝ (.tok .CLOSE_PAR) ⬝ (.opt ((.tok .WHERE_) ⬝ (.expr 0))))) ⬝ (.tok .DO_) ⬝
      ((.tok .NOTHING_) ∣ ((.tok .UPDATE_) ⬝ (.tok .SET_) ⬝ (((.nt .column_name) ∣ (.nt .column_name_list)) ⬝
      (.tok .ASSIGN) ⬝ (.expr 0) ⬝ (.star ((.tok .COMMA) ⬝ ((.nt .column_name) ∣ (.nt .column_name_list)) ⬝
      (.tok .ASSIGN) ⬝ (.expr 0))) ⬝ (.opt ((.tok .WHERE_) ⬝ (.expr 0))))))
  -- 545-550
  | .pragma_stmt =>
    (.tok .PRAGMA_) ⬝ (.opt ((.nt .schema_name) ⬝ (.tok .DOT))) ⬝ (.nt .pragma_name) ⬝ (.opt (((.tok .ASSIGN) ⬝
      (.nt .pragma_value)) ∣ ((.tok .OPEN_PAR) ⬝ (.nt .pragma_value) ⬝ (.tok .CLOSE_PAR))))
  -- 552-556
  | .pragma_value =>
    (.nt .signed_number) ∣ (.nt .«name») ∣ (.tok .STRING_LITERAL)
  -- 558-560
  | .reindex_stmt =>
    (.tok .REINDEX_) ⬝ (.opt ((.nt .collation_name) ∣ ((.opt ((.nt .schema_name) ⬝ (.tok .DOT))) ⬝
      ((.nt .table_name) ∣ (.nt .index_name)))))
  -- 562-564
  | .select_stmt =>
    (.opt (.nt .common_table_stmt)) ⬝ (.lab .parentQuery (.nt .select_core)) ⬝
      (.star ((.nt .compound_operator) ⬝ (.nt .select_core))) ⬝ (.opt (.nt .order_by_stmt)) ⬝
      (.opt (.nt .limit_stmt))
  -- 566-568
  | .join_clause =>
    (.nt .table_or_subquery) ⬝ (.star ((.nt .join_operator) ⬝ (.nt .table_or_subquery) ⬝
      (.opt (.nt .join_constraint))))
  -- 570-584
  | .select_core =>
    ((.tok .SELECT_) ⬝ (.opt ((.tok .DISTINCT_) ∣ (.tok .ALL_))) ⬝ (.nt .result_column) ⬝
      (.star ((.tok .COMMA) ⬝ (.nt .result_column))) ⬝ (.opt ((.tok .FROM_) ⬝ ((.opt ((.nt .«from») ⬝
      (.star ((.tok .COMMA) ⬝ (.nt .«from»))))) ∣ (.nt .join_clause)))) ⬝ (.opt ((.tok .WHERE_) ⬝
      (.lab .whereExpr (.expr 0)))) ⬝ (.opt ((.tok .GROUP_) ⬝ (.tok .BY_) ⬝ (.lab .groupByExpr (.expr 0)) ⬝
      (.star ((.tok .COMMA) ⬝ (.lab .groupByExpr (.expr 0)))) ⬝ (.opt ((.tok .HAVING_) ⬝
      (.lab .havingExpr (.expr 0)))))) ⬝ (.opt ((.tok .WINDOW_) ⬝ (.nt .window_name) ⬝ (.tok .AS_) ⬝
      (.nt .window_defn) ⬝ (.star ((.tok .COMMA) ⬝ (.nt .window_name) ⬝ (.tok .AS_) ⬝ (.nt .window_defn)))))) ∣
      (.nt .values_clause)
  -- 586-588
  | .factored_select_stmt =>
    .nt .select_stmt
  -- 590-592
  | .simple_select_stmt =>
    (.opt (.nt .common_table_stmt)) ⬝ (.nt .select_core) ⬝ (.opt (.nt .order_by_stmt)) ⬝
      (.opt (.nt .limit_stmt))
  -- 594-598
  | .compound_select_stmt =>
    (.opt (.nt .common_table_stmt)) ⬝ (.nt .select_core) ⬝ (.plus ((((.tok .UNION_) ⬝ (.opt (.tok .ALL_))) ∣
      (.tok .INTERSECT_) ∣ (.tok .EXCEPT_)) ⬝ (.nt .select_core))) ⬝ (.opt (.nt .order_by_stmt)) ⬝
      (.opt (.nt .limit_stmt))
  -- 600-605
  | .«from» =>
    (.nt .from_table) ∣ (.nt .from_function) ∣ (.nt .from_select) ∣ (.nt .from_table_or_subquery)
  -- 607-612
  | .from_table =>
    (.opt ((.nt .schema_name) ⬝ (.tok .DOT))) ⬝ (.nt .table_name) ⬝ (.opt ((.opt (.tok .AS_)) ⬝
      (.nt .table_alias))) ⬝ (.opt (((.tok .INDEXED_) ⬝ (.tok .BY_) ⬝ (.nt .index_name)) ∣ ((.tok .NOT_) ⬝
      (.tok .INDEXED_))))
  -- 614-618
  | .from_function =>
    (.opt ((.nt .schema_name) ⬝ (.tok .DOT))) ⬝ (.nt .table_function_name) ⬝ (.tok .OPEN_PAR) ⬝ (.expr 0) ⬝
      (.star ((.tok .COMMA) ⬝ (.expr 0))) ⬝ (.tok .CLOSE_PAR) ⬝ (.opt ((.opt (.tok .AS_)) ⬝
      (.nt .table_alias)))
  -- 620-622
  | .from_table_or_subquery =>
    (.tok .OPEN_PAR) ⬝ (((.nt .table_or_subquery) ⬝ (.star ((.tok .COMMA) ⬝ (.nt .table_or_subquery)))) ∣
      (.nt .join_clause)) ⬝ (.tok .CLOSE_PAR)
  -- 624-626
  | .from_select =>
    (.tok .OPEN_PAR) ⬝ (.nt .select_stmt) ⬝ (.tok .CLOSE_PAR) ⬝ (.opt ((.opt (.tok .AS_)) ⬝
      (.nt .table_alias)))
  -- 628-639
  | .table_or_subquery =>
    ((.opt ((.nt .schema_name) ⬝ (.tok .DOT))) ⬝ (.nt .table_name) ⬝ (.opt ((.opt (.tok .AS_)) ⬝
      (.nt .table_alias))) ⬝ (.opt (((.tok .INDEXED_) ⬝ (.tok .BY_) ⬝ (.nt .index_name)) ∣ ((.tok .NOT_) ⬝
      (.tok .INDEXED_))))) ∣ ((.opt ((.nt .schema_name) ⬝ (.tok .DOT))) ⬝ (.nt .table_function_name) ⬝
      (.tok .OPEN_PAR) ⬝ (.expr 0) ⬝ (.star ((.tok .COMMA) ⬝ (.expr 0))) ⬝ (.tok .CLOSE_PAR) ⬝
      (.opt ((.opt (.tok .AS_)) ⬝ (.nt .table_alias)))) ∣ ((.tok .OPEN_PAR) ⬝ (((.nt .table_or_subquery) ⬝
      (.star ((.tok .COMMA) ⬝ (.nt .table_or_subquery)))) ∣ (.nt .join_clause)) ⬝ (.tok .CLOSE_PAR)) ∣
      ((.tok .OPEN_PAR) ⬝ (.nt .select_stmt) ⬝ (.tok .CLOSE_PAR) ⬝ (.opt ((.opt (.tok .AS_)) ⬝
      (.nt .table_alias))))
  -- 641-645
  | .result_column =>
    (.tok .STAR) ∣ ((.nt .table_name) ⬝ (.tok .DOT) ⬝ (.tok .STAR)) ∣ ((.expr 0) ⬝ (.opt ((.opt (.tok .AS_)) ⬝
      (.nt .column_alias))))
  -- 647-650
  | .join_operator =>
    (.tok .COMMA) ∣ ((.opt (.tok .NATURAL_)) ⬝ (.opt (((.tok .LEFT_) ⬝ (.opt (.tok .OUTER_))) ∣
      (.tok .INNER_) ∣ (.tok .CROSS_))) ⬝ (.tok .JOIN_))
  -- 652-655
  | .join_constraint =>
    ((.tok .ON_) ⬝ (.expr 0)) ∣ ((.tok .USING_) ⬝ (.tok .OPEN_PAR) ⬝ (.nt .column_name) ⬝
      (.star ((.tok .COMMA) ⬝ (.nt .column_name))) ⬝ (.tok .CLOSE_PAR))
  -- 657-661
  | .compound_operator =>
    ((.tok .UNION_) ⬝ (.opt (.tok .ALL_))) ∣ (.tok .INTERSECT_) ∣ (.tok .EXCEPT_)
  -- 663-671
  | .update_stmt =>
    (.opt (.nt .with_clause)) ⬝ (.tok .UPDATE_) ⬝ (.opt ((.tok .OR_) ⬝ ((.tok .ROLLBACK_) ∣ (.tok .ABORT_) ∣
      (.tok .REPLACE_) ∣ (.tok .FAIL_) ∣ (.tok .IGNORE_)))) ⬝ (.lab .table (.nt .qualified_table_name)) ⬝
      (.tok .SET_) ⬝ (.nt .update_column_set) ⬝ (.star ((.tok .COMMA) ⬝ (.nt .update_column_set))) ⬝
      (.opt ((.tok .FROM_) ⬝ (((.nt .table_or_subquery) ⬝ (.star ((.tok .COMMA) ⬝ (.nt .table_or_subquery)))) ∣
      (.nt .join_clause)))) ⬝ (.opt ((.tok .WHERE_) ⬝ (.lab .whereExpr (.expr 0)))) ⬝
      (.opt (.nt .returning_clause))
  -- 673-675
  | .update_column_set =>
    ((.nt .column_name) ∣ (.nt .column_name_list)) ⬝ (.tok .ASSIGN) ⬝ (.expr 0)
  -- 677-679
  | .column_name_list =>
    (.tok .OPEN_PAR) ⬝ (.nt .column_name) ⬝ (.star ((.tok .COMMA) ⬝ (.nt .column_name))) ⬝ (.tok .CLOSE_PAR)
  -- 681-687
  | .update_stmt_limited =>
    (.opt (.nt .with_clause)) ⬝ (.tok .UPDATE_) ⬝ (.opt ((.tok .OR_) ⬝ ((.tok .ROLLBACK_) ∣ (.tok .ABORT_) ∣
      (.tok .REPLACE_) ∣ (.tok .FAIL_) ∣ (.tok .IGNORE_)))) ⬝ (.nt .qualified_table_name) ⬝ (.tok .SET_) ⬝
      ((.nt .column_name) ∣ (.nt .column_name_list)) ⬝ (.tok .ASSIGN) ⬝ (.expr 0) ⬝ (.star ((.tok .COMMA) ⬝
      ((.nt .column_name) ∣ (.nt .column_name_list)) ⬝ (.tok .ASSIGN) ⬝ (.expr 0))) ⬝ (.opt ((.tok .WHERE_) ⬝
      (.expr 0))) ⬝ (.opt (.nt .returning_clause)) ⬝ (.opt ((.opt (.nt .order_by_stmt)) ⬝ (.nt .limit_stmt)))
  -- 689-693
  | .qualified_table_name =>
    (.opt ((.nt .schema_name) ⬝ (.tok .DOT))) ⬝ (.nt .table_name) ⬝ (.opt ((.tok .AS_) ⬝ (.nt .«alias»))) ⬝
      (.opt (((.tok .INDEXED_) ⬝ (.tok .BY_) ⬝ (.nt .index_name)) ∣ ((.tok .NOT_) ⬝ (.tok .INDEXED_))))
  -- 695-697
  | .vacuum_stmt =>
    (.tok .VACUUM_) ⬝ (.opt (.tok .ANALYZE_)) ⬝ (.opt (.nt .schema_name)) ⬝ (.opt ((.tok .INTO_) ⬝
      (.nt .filename)))
  -- 699-701
  | .filter_clause =>
    (.tok .FILTER_) ⬝ (.tok .OPEN_PAR) ⬝ (.tok .WHERE_) ⬝ (.expr 0) ⬝ (.tok .CLOSE_PAR)
  -- 703-707
  | .window_defn =>
    (.tok .OPEN_PAR) ⬝ (.opt (.nt .base_window_name)) ⬝ (.opt ((.tok .PARTITION_) ⬝ (.tok .BY_) ⬝ (.expr 0) ⬝
      (.star ((.tok .COMMA) ⬝ (.expr 0))))) ⬝ ((.tok .ORDER_) ⬝ (.tok .BY_) ⬝ (.nt .ordering_term) ⬝
      (.star ((.tok .COMMA) ⬝ (.nt .ordering_term)))) ⬝ (.opt (.nt .frame_spec)) ⬝ (.tok .CLOSE_PAR)
  -- 709-716
  | .over_clause =>
    (.tok .OVER_) ⬝ ((.nt .window_name) ∣ ((.tok .OPEN_PAR) ⬝ (.opt (.nt .base_window_name)) ⬝
      (.opt ((.tok .PARTITION_) ⬝ (.tok .BY_) ⬝ (.expr 0) ⬝ (.star ((.tok .COMMA) ⬝ (.expr 0))))) ⬝
      (.opt ((.tok .ORDER_) ⬝ (.tok .BY_) ⬝ (.nt .ordering_term) ⬝ (.star ((.tok .COMMA) ⬝
      (.nt .ordering_term))))) ⬝ (.opt (.nt .frame_spec)) ⬝ (.tok .CLOSE_PAR)))
  -- 718-727
  | .frame_spec =>
    (.nt .frame_clause) ⬝ (.opt ((.tok .EXCLUDE_) ⬝ (((.tok .NO_) ⬝ (.tok .OTHERS_)) ∣ ((.tok .CURRENT_) ⬝
      (.tok .ROW_)) ∣ (.tok .GROUP_) ∣ (.tok .TIES_))))
  -- 729-733
  | .frame_clause =>
    ((.tok .RANGE_) ∣ (.tok .ROWS_) ∣ (.tok .GROUPS_)) ⬝ ((.nt .frame_single) ∣ ((.tok .BETWEEN_) ⬝
      (.nt .frame_left) ⬝ (.tok .AND_) ⬝ (.nt .frame_right)))
  -- 735-737
  | .simple_function_invocation =>
    (.nt .simple_func) ⬝ (.tok .OPEN_PAR) ⬝ (((.expr 0) ⬝ (.star ((.tok .COMMA) ⬝ (.expr 0)))) ∣
      (.tok .STAR)) ⬝ (.tok .CLOSE_PAR)
  -- 739-741
  | .aggregate_function_invocation =>
    (.nt .aggregate_func) ⬝ (.tok .OPEN_PAR) ⬝ (.opt (((.opt (.tok .DISTINCT_)) ⬝ (.expr 0) ⬝
      (.star ((.tok .COMMA) ⬝ (.expr 0)))) ∣ (.tok .STAR))) ⬝ (.tok .CLOSE_PAR) ⬝ (.opt (.nt .filter_clause))
  -- 743-748
  | .window_function_invocation =>
    (.nt .window_function) ⬝ (.tok .OPEN_PAR) ⬝ (.opt (((.expr 0) ⬝ (.star ((.tok .COMMA) ⬝ (.expr 0)))) ∣
      (.tok .STAR))) ⬝ (.tok .CLOSE_PAR) ⬝ (.opt (.nt .filter_clause)) ⬝ (.tok .OVER_) ⬝ ((.nt .window_defn) ∣
      (.nt .window_name))
  -- 750-752
  | .common_table_stmt =>
    (.tok .WITH_) ⬝ (.opt (.tok .RECURSIVE_)) ⬝ (.nt .common_table_expression) ⬝ (.star ((.tok .COMMA) ⬝
      (.nt .common_table_expression)))
  -- 754-756
  | .order_by_stmt =>
    (.tok .ORDER_) ⬝ (.tok .BY_) ⬝ (.nt .ordering_term) ⬝ (.star ((.tok .COMMA) ⬝ (.nt .ordering_term)))
  -- 758-760
  | .limit_stmt =>
    (.tok .LIMIT_) ⬝ (.expr 0) ⬝ (.opt (((.tok .OFFSET_) ∣ (.tok .COMMA)) ⬝ (.expr 0)))
  -- 762-764
  | .ordering_term =>
    (.expr 0) ⬝ (.opt ((.tok .COLLATE_) ⬝ (.nt .collation_name))) ⬝ (.opt (.nt .asc_desc)) ⬝
      (.opt ((.tok .NULLS_) ⬝ ((.tok .FIRST_) ∣ (.tok .LAST_))))
  -- 766-769
  | .asc_desc =>
    (.tok .ASC_) ∣ (.tok .DESC_)
  -- 771-776
  | .frame_left =>
    ((.expr 0) ⬝ (.tok .PRECEDING_)) ∣ ((.expr 0) ⬝ (.tok .FOLLOWING_)) ∣ ((.tok .CURRENT_) ⬝ (.tok .ROW_)) ∣
      ((.tok .UNBOUNDED_) ⬝ (.tok .PRECEDING_))
  -- 778-783
  | .frame_right =>
    ((.expr 0) ⬝ (.tok .PRECEDING_)) ∣ ((.expr 0) ⬝ (.tok .FOLLOWING_)) ∣ ((.tok .CURRENT_) ⬝ (.tok .ROW_)) ∣
      ((.tok .UNBOUNDED_) ⬝ (.tok .FOLLOWING_))
  -- 785-789
  | .frame_single =>
    ((.expr 0) ⬝ (.tok .PRECEDING_)) ∣ ((.tok .UNBOUNDED_) ⬝ (.tok .PRECEDING_)) ∣ ((.tok .CURRENT_) ⬝
      (.tok .ROW_))
  -- 793-804
  | .window_function =>
    (((.tok .FIRST_VALUE_) ∣ (.tok .LAST_VALUE_)) ⬝ (.tok .OPEN_PAR) ⬝ (.expr 0) ⬝ (.tok .CLOSE_PAR) ⬝
      (.tok .OVER_) ⬝ (.tok .OPEN_PAR) ⬝ (.opt (.nt .partition_by)) ⬝ (.nt .order_by_expr_asc_desc) ⬝
      (.opt (.nt .frame_clause)) ⬝ (.tok .CLOSE_PAR)) ∣ (((.tok .CUME_DIST_) ∣ (.tok .PERCENT_RANK_)) ⬝
      (.tok .OPEN_PAR) ⬝ (.tok .CLOSE_PAR) ⬝ (.tok .OVER_) ⬝ (.tok .OPEN_PAR) ⬝ (.opt (.nt .partition_by)) ⬝
      (.opt (.nt .order_by_expr)) ⬝ (.tok .CLOSE_PAR)) ∣ (((.tok .DENSE_RANK_) ∣ (.tok .RANK_) ∣
      (.tok .ROW_NUMBER_)) ⬝ (.tok .OPEN_PAR) ⬝ (.tok .CLOSE_PAR) ⬝ (.tok .OVER_) ⬝ (.tok .OPEN_PAR) ⬝
      (.opt (.nt .partition_by)) ⬝ (.nt .order_by_expr_asc_desc) ⬝ (.tok .CLOSE_PAR)) ∣ (((.tok .LAG_) ∣
      (.tok .LEAD_)) ⬝ (.tok .OPEN_PAR) ⬝ (.expr 0) ⬝ (.opt (.nt .offset)) ⬝ (.opt (.nt .default_value)) ⬝
      (.tok .CLOSE_PAR) ⬝ (.tok .OVER_) ⬝ (.tok .OPEN_PAR) ⬝ (.opt (.nt .partition_by)) ⬝
      (.nt .order_by_expr_asc_desc) ⬝ (.tok .CLOSE_PAR)) ∣ ((.tok .NTH_VALUE_) ⬝ (.tok .OPEN_PAR) ⬝ (.expr 0) ⬝
      (.tok .COMMA) ⬝ (.nt .signed_number) ⬝ (.tok .CLOSE_PAR) ⬝ (.tok .OVER_) ⬝ (.tok .OPEN_PAR) ⬝
      (.opt (.nt .partition_by)) ⬝ (.nt .order_by_expr_asc_desc) ⬝ (.opt (.nt .frame_clause)) ⬝
      (.tok .CLOSE_PAR)) ∣ ((.tok .NTILE_) ⬝ (.tok .OPEN_PAR) ⬝ (.expr 0) ⬝ (.tok .CLOSE_PAR) ⬝ (.tok .OVER_) ⬝
      (.tok .OPEN_PAR) ⬝ (.opt (.nt .partition_by)) ⬝ (.nt .order_by_expr_asc_desc) ⬝ (.tok .CLOSE_PAR))
  -- 806-808
  | .offset =>
    (.tok .COMMA) ⬝ (.nt .signed_number)
  -- 810-812
  | .default_value =>
    (.tok .COMMA) ⬝ (.nt .signed_number)
  -- 814-816
  | .partition_by =>
    (.tok .PARTITION_) ⬝ (.tok .BY_) ⬝ (.plus (.expr 0))
  -- 818-820
  | .order_by_expr =>
    (.tok .ORDER_) ⬝ (.tok .BY_) ⬝ (.plus (.expr 0))
  -- 822-824
  | .order_by_expr_asc_desc =>
    (.tok .ORDER_) ⬝ (.tok .BY_) ⬝ (.nt .expr_asc_desc)
  -- 826-828
  | .expr_asc_desc =>
    (.expr 0) ⬝ (.opt (.nt .asc_desc)) ⬝ (.star ((.tok .COMMA) ⬝ (.expr 0) ⬝ (.opt (.nt .asc_desc))))
  -- 831-833
  | .initial_select =>
    .nt .select_stmt
  -- 835-837
  | .recursive_select =>
    .nt .select_stmt
  -- 839-844
  | .unary_operator =>
    (.tok .MINUS) ∣ (.tok .PLUS) ∣ (.tok .TILDE) ∣ (.tok .NOT_)
  -- 846-848
  | .error_message =>
    .tok .STRING_LITERAL
  -- 850-853
  | .module_argument =>
    (.expr 0) ∣ (.nt .column_def)
  -- 855-858
  | .column_alias =>
    (.tok .IDENTIFIER) ∣ (.tok .STRING_LITERAL)
  -- 860-1017
  | .keyword =>
    .set isKeyword
  -- 1021-1023
  | .«name» =>
    .nt .any_name
  -- 1025-1027
  | .database_name =>
    .nt .any_name
  -- 1029-1031
  | .function_name =>
    .nt .any_name
  -- 1033-1035
  | .schema_name =>
    .nt .any_name
  -- 1037-1039
  | .table_name =>
    .nt .any_name
  -- 1041-1043
  | .table_or_index_name =>
    .nt .any_name
  -- 1045-1047
  | .column_name =>
    .nt .any_name
  -- 1049-1051
  | .collation_name =>
    .nt .any_name
  -- 1053-1055
  | .foreign_table =>
    .nt .any_name
  -- 1057-1059
  | .index_name =>
    .nt .any_name
  -- 1061-1063
  | .trigger_name =>
    .nt .any_name
  -- 1065-1067
  | .view_name =>
    .nt .any_name
  -- 1069-1071
  | .module_name =>
    .nt .any_name
  -- 1073-1075
  | .pragma_name =>
    .nt .any_name
  -- 1077-1079
  | .savepoint_name =>
    .nt .any_name
  -- 1081-1083
  | .table_alias =>
    .nt .any_name
  -- 1085-1087
  | .transaction_name =>
    .nt .any_name
  -- 1089-1091
  | .window_name =>
    .nt .any_name
  -- 1093-1095
  | .«alias» =>
    .nt .any_name
  -- 1097-1099
  | .filename =>
    .nt .any_name
  -- 1101-1103
  | .base_window_name =>
    .nt .any_name
  -- 1105-1107
  | .simple_func =>
    .nt .any_name
  -- 1109-1111
  | .aggregate_func =>
    .nt .any_name
  -- 1113-1115
  | .table_function_name =>
    .nt .any_name
  -- 1117-1122
  | .any_name =>
    (.tok .IDENTIFIER) ∣ (.nt .keyword) ∣ (.tok .STRING_LITERAL) ∣ ((.tok .OPEN_PAR) ⬝ (.nt .any_name) ⬝
      (.tok .CLOSE_PAR))

end Verif.Gram
