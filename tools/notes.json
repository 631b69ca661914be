{
 "C01": {
  "note": "Standard-conforming literals. MySQL backslash escapes break it: C01_mysql_backslash_violated.",
  "status": "proved"
 },
 "C02": {
  "note": "Full statement false of the code (witness); partial theorem is an iff giving the exact domain."
 },
 "C04": {
  "note": "Full statement false of the code (witness); partial theorem is an iff giving the exact domain."
 },
 "C06": {
  "note": "MySQL needs no restriction on sql.NamedArg; only user-defined appenders must not emit named arguments."
 },
 "C08": {
  "note": "Full statement false of the code: ordinal capture (witness). Partial: every tree, in every state where none of its names is recorded."
 },
 "C09": {
  "note": "Holds for names that are not decimal numbers; for numeric names the code's own ordinal bookkeeping shares the params map (witness)."
 },
 "C12": {
  "note": "The code panics on a template ending in '{' and on empty-name modifiers, and loops forever on wide spaces (witnesses). Partial theorem: every tree whose templates avoid those."
 },
 "C32": {
  "note": "Round trip of the tag/modifier grammar through cutValue and lexModifiers, and only balanced input is accepted."
 },
 "C17": {
  "note": "Full statement false of the code: a negated clause-level group prints without parentheses, and a group with a sole operand drops its negation (witnesses). Partial: every predicate tree without those shapes."
 },
 "C18": {
  "note": "Not negates for every predicate kind; the printed form is partial in the same way as C17."
 },
 "C19": {
  "note": "Full statement false of the code: hook predicate skipped on an empty WHERE and sub-query env not passed (witnesses). Partial: SELECTs with a nonempty WHERE."
 },
 "C20": {
  "note": "Full statement false of the code: UPDATE ignores hook predicates; DELETE USING tables are unfiltered (witnesses)."
 },
 "C21": {
  "note": "Every failing part except named windows fails the query; window errors are swallowed (witness)."
 },
 "C22": {
  "note": "Guards hold for SELECT/INSERT/UPDATE/DELETE/JOIN/sub-query; conflict clauses are written only by the dialects that know them (C22_conflict_clause_partial), but elsewhere dropped silently instead of refused (witnesses)."
 },
 "C23": {
  "status": "proved",
  "note": "Every structural requirement of every statement kind, join and CASE."
 },
 "C24": {
  "note": "Full statement false of the code: ORDER BY/LIMIT operands are not parenthesised (witness)."
 },
 "C25": {
  "note": "Exact characterisation; an unsorted exclusion list misses entries (C25_unsorted_list_missed), the library itself always sorts (C25_own_lists_sorted).",
  "status": "proved"
 },
 "C26": {
  "note": "Limits shown by C26_reordered_row_undetected and C26_short_row_undetected.",
  "status": "proved"
 },
 "C14": {
  "note": "Full statement false of the code: first character copied verbatim; a quote directly after a placeholder is written first (witnesses). Partial: every query starting with ordinary text."
 },
 "C15": {
  "note": "Full statement false of the code (witnesses). Partial: all dialects but SQLite unconditionally; SQLite when question marks do not outnumber arguments."
 },
 "C16": {
  "note": "Full statement false of the code: NaN, MySQL backslashes, Postgres Valuer bytes, '--' after a minus sign (witnesses)."
 },
 "C31": {
  "note": "Lossless for every string; exact splitting for argument lists whose groups contain no quoted brackets (witness otherwise)."
 },
 "C28": {
  "status": "proved",
  "note": "For every mapper making the registered calls (or a prefix). A mapper whose calls depend on the data is outside the property's premise; C28_data_dependent_violated shows it gets another field's value."
 },
 "C29": {
  "note": "Full statement false of the code for a mapper that reads no field (witness): its rows are never visited. C28_C29_fetch covers every other mapper, table and failure point."
 },
 "C30": {
  "note": "Holds for FetchContext and ExecContext; FetchExistsContext ignores its context (witness)."
 },
 "C43": {
  "note": "Full statement false of the code when the mapper panics with an error (witness); holds otherwise, and always for FetchExists and Exec."
 },
 "C33": {
  "note": "Proved for schemas, tables, views, columns, constraints, indexes and triggers under every operation history. Extension and function lookups are different code and fail (C33_extensions_violated)."
 },
 "C36": {
  "note": "Full statement false of the code: wanted objects declared without schema, wanted extensions and wanted functions are dropped (witnesses; the extension one is a theorem about all metadata built by the options). Proved as an iff for everything built with WithDB and WithTables in named schemas (C36_C45_declared)."
 },
 "C37": {
  "status": "partial",
  "note": "Exact lists of what is created, per kind of object, each once (C37_once); functions when the existing ones can be found (C37_functions_partial). False for extensions, which are created again (C36_C37_extensions_violated)."
 },
 "C38": {
  "status": "partial",
  "note": "C38_up_to_date: up-to-date databases give an empty migration in every mode, for any two metadata values that agree. C38_same_partial: metadata with itself, when nothing in it is ignored, schemas are named and its functions and extensions can be found. False for ignored parts (C38_ignored_violated). C76 composes it with C48."
 },
 "C44": {
  "note": "Mode 0, no update and no drop proved. UpdateExisting alone still creates tables, indexes, constraints, triggers, views and functions (C44_update_creates_violated); schemas, extensions and columns are not."
 },
 "C45": {
  "status": "partial",
  "note": "All objects but extensions (whose lookup may panic or find a longer name), materialized views on SQLite, and functions when the wanted list has ignored ones."
 },
 "C46": {
  "note": "Structs, tags and builder calls (WithTables), views (WithDDLViews: C46_with_views) and introspected rows (WithDB). SQLite reports constraints without names: there they are kept (C46_with_db gives the list) but not searchable, and nothing is assumed or claimed about their names; Migrate does not look at them on SQLite."
 },
 "C47": {
  "note": "For column and table tags; proved as equality of the loaded metadata with the tag stripped of other dialects' modifiers."
 },
 "C48": {
  "status": "partial",
  "note": "C48_converges (tables, columns, views), C48_indexes, C48_triggers: all dialects. C48_constraints: all but SQLite, where the claim is false (C48_sqlite_constraint_violated). Indexes and triggers of wanted views are excluded by name (they are created with the view: C37). Side effects of the database (an index going with its column) are not modelled. C48_declared: all kinds at once for a database read by WithDB and tables declared with WithTables."
 },
 "C49": {
  "note": "MySQL proved exactly (up to what diffColumn compares). Postgres: the right commands, but without the name of the column (violated for all inputs); changed defaults go unnoticed (violated for all inputs)."
 },
 "C39": {
  "status": "proved",
  "note": "For every migration and every database oracle. The order of a migration is specified by kinds and turns and shown unique."
 },
 "C40": {
  "note": "Layout, totality, no trace of ignored commands and reading back by any statement reader are proved for every migration without MySQL functions/triggers; C40_script_partial: with arbitrary names and closed SQL fragments the client reads exactly one statement per command. Missing: MySQL functions/triggers (false of the code: three witnesses), functions/triggers without SQL (panic), SQL ending in a line comment, writer errors (witnesses)."
 },
 "C41": {
  "status": "partial",
  "note": "Flags proved (union, settings, text, colours) for every flag word; the writer passed to NewLogger is ignored (C41_out_violated)."
 },
 "C27": {
  "status": "partial",
  "note": "Modelled: every builder method of the SELECT/INSERT/UPDATE/DELETE builders as its effects on a struct of slices over a heap of arrays with capacities (growth left open), and the pointer-valued conflict builders. Proved: in every careful program (no two appends to the result of one append, DeleteFrom only on a query without FROM tables, conflict values used once, no xs... slices) all queries have at the end exactly the contents their call chain says (C27_careful_partial); any single call leaves every earlier query unchanged if the clause it appends to is at full capacity, in every program (C27_full_capacity_partial). Missing: the full claim is false: with spare capacity a sibling overwrites the other's element (C27_siblings_violated), DeleteFrom changes its receiver (C27_deleteFrom_violated), a conflict value remembers DoNothing (C27_conflict_violated). Not modelled: later writes by the caller to a slice passed with xs...; what INSERT ... SELECT does to the SELECT while rendering on SQLite is C77."
 },
 "C50": {
  "status": "partial",
  "note": "Proved in full: which references render, what they render to, that errors stick (C50_cte_field, C50_subquery_field, C50_broken, C50_broken_subquery, C50_one_name_subquery). Partial: output names agree for aliased items and plain columns; the definition of a CTE names it as its references do when the name is bare; constructors do not panic without nil fields/operands. The full statements are false: COUNT(*) without alias, CTE names that need quoting are written unquoted, nil fields panic (the three _violated theorems)."
 },
 "C51": {
  "status": "partial",
  "note": "Proved for unquoted names (quoted words are recorded as spelled) and texts whose white space is Latin-1. Violated: quoted names keep their quotes, a dot inside quotes splits, other Unicode spaces make the reader loop for ever, brackets in function arguments and a qualified type after the bracket are misread, ')' before '(' panics."
 },
 "C52": {
  "status": "partial",
  "note": "Proved for names without commas, expressions accepted by C31 and keys that are not one expression alone. Violated: an index on one expression panics on PostgreSQL and is read without keys on MySQL and SQLite; on SQLite quoted columns (as this package writes them), sort orders and predicates with brackets make introspection fail; commas in names split them; NOT VALID stays in the CHECK expression."
 },
 "C53": {
  "status": "partial",
  "note": "Proved for all filters whose names have no doubled quote (and no backslash on MySQL), except WithoutTables on PostgreSQL columns and IncludeSystemCatalogs on MySQL constraints, which are violated (NOT IN (), WHERE AND ...). Also violated: ordinary schemas such as pgtap and SQLite tables created with a single-quoted name are hidden as system objects."
 },
 "C54": {
  "status": "partial",
  "note": "C54_written (any buffer, any parameters) needs only that the operands render; C54_forms_partial, the same with each operand resolved alone, needs operands that share no parameter name. Violated: predicates as operands are not bracketed (Eq(a, Eq(b,c)) = Eq(Eq(a,b),c)); In with an empty slice writes IN (); Eq with a slice; a query inside CASE is not parenthesised; AssignExcluded/Alias/Self/Values never quote the column."
 },
 "C55": {
  "status": "partial",
  "note": "C55_written and C55_sent: any buffer, any parameters, every construct whose rendering succeeds. DELETE of several tables without USING has no form; C55_delete_written_partial says what it writes, the first table only (C55_delete_tables_violated); windows ignore the errors of their fields (C21_window_violated), so C55_window_written_partial asks that these render."
 },
 "C56": {
  "status": "partial",
  "note": "Proved for all chains, maps and methods. Violated: the sort order is written wherever the field is used (Eq after Desc), NULLS FIRST/LAST is written for MySQL and SQL Server, and the schema of a field's table is ignored, so fields of equally named tables in two schemas cannot be told apart."
 },
 "C57": {
  "status": "partial",
  "note": "Proved for all commands that produce a text (C57_says_partial, with the items of CREATE TABLE and ALTER TABLE), for one faithful spelling of names. Excluded because the code is wrong there (witnessed): constraint columns, referenced tables and CREATE SCHEMA names are not quoted (C57_unquoted_violated), an ignored or empty part of ALTER TABLE leaves a stray comma (C57_alter_violated), CREATE TABLE with constraints and no columns starts with a comma (C57_no_columns_violated). Fragments of SQL supplied by the user must be readable by the lexer (no comments or dollar quotes)."
 },
 "C58": {
  "status": "partial",
  "note": "C58_accepts and C58_refuses are exact for the feature table. The last clause is false: MATERIALIZED is accepted by CREATE VIEW on every dialect (C58_materialized_violated), and CASCADE of DROP TRIGGER, an index method on SQLite, and the CHECK/REFERENCES of a new column outside SQLite are left out silently (C58_left_out_violated). Unequal list lengths panic (C58_panics_violated)."
 },
 "C59": {
  "status": "partial",
  "note": "C59_table_partial (tags and builder calls), C59_tags_partial, C59_ignored, C59_database_partial, C59_understood. They ask that a name is declared once (Once): declaring a constraint or index name a second time updates its options but keeps the first columns (C59_redeclared_violated)."
 },
 "C60": {
  "status": "partial",
  "note": "C60_written_partial, C60_executed_partial, C60_refused, C60_applies. False with UpdateExisting alone, where a CREATE TABLE without a name is produced (C60_update_only_violated), so the theorems ask for CreateMissing with it; materialized views are not refused on MySQL (C60_materialized_violated)."
 },
 "C61": {
  "status": "partial",
  "note": "SELECT and UPDATE full. DELETE with at most one OrderBy and INSERT with at most one conflict clause; the full statements are false (C61_delete_order_violated, C61_conflict_violated)."
 },
 "C62": {
  "status": "proved",
  "note": "C62_renders (every construct), C62_delete_tables and C62_delete (any number of tables; which of them are written is C55), C62_window (a window is never refused, it ignores the errors of its fields: C21_window_violated), formats, columns, parameters, and all builder chains."
 },
 "C63": {
  "status": "partial",
  "note": "C63_if_exists is exact. CASCADE: tables, views and extensions follow the flag (C63_asked_partial, C63_honoured_partial), but on PostgreSQL columns, constraints, indexes and triggers, and on every dialect functions, are always dropped with CASCADE (C63_parts_violated, C63_parts_example_violated), and on SQLite the flag is dropped without an error (C63_sqlite_violated)."
 },
 "C64": {
  "status": "proved",
  "note": "Also shown, as witnesses of what the declaration does not check: a view without a query is accepted (`CREATE VIEW v AS `), a trigger of another table is accepted, a DELETE … RETURNING is accepted as query, duplicate column names are accepted."
 },
 "C65": {
  "status": "partial",
  "note": "Proved for every tree, dialect and argument list whose rendered text starts with ordinary text and in which no placeholder is directly followed by a quote. False otherwise, shown by C65_first_value_violated (a predicate that starts with a value keeps its placeholder) and C65_first_quote_violated (one that starts with a quoted identifier is an error). C65_literals_partial adds that what is put in for a bound nil, boolean, integer, string or byte string, named or not, is a literal of the dialect that means this value. C65_statements_partial: for SELECT, INSERT, UPDATE and DELETE statements whose program-supplied SQL fragments read by themselves, no assumption about the rendered text is left (by C72)."
 },
 "C66": {
  "status": "proved",
  "note": "Stated for readable tags (the tags C32 reads); that tags which cannot be read give an error only if their braces are unbalanced is C32. Outside the statement, witnessed: C66_again_violated (a second call with another alias leaves the columns with the old one), C66_panics_violated (`name=` in a tag, nil pointer), C66_foreign_violated (a Field type of one's own is silently left unbound). After an error the fields before the failing one stay set; the model returns only the error."
 },
 "C67": {
  "status": "proved",
  "note": "C67_results, C67_no_race, C67_no_deadlock, C67_returns for all the functions that use the pools or the template cache. C67_example is a schedule with reused buffers; C67_wrong_result/race/map show wrong programs that the machine catches. Not included: rendering the same SQLite INSERT ... SELECT value from two goroutines, which writes to the query (C77); the database driver and the logger's writer; the two packages' pools of one kind are one pool, and there is one introspector."
 },
 "C68": {
  "status": "partial",
  "note": "Proved: transparency for all three calls (C68_transparent*), failing loggers (C68_logger_fails*), when there is an entry (C68_logged), query/args/dialect/timing (C68_query, C68_exists, C68_exec), results (C68_results), error (C68_error), caller info. False of the code: a query made by a builder is logged without environment, kind and table, because the type switches only list the four plain structs (C68_kind_violated, C68_kind_exec_violated; for the plain structs C68_kind_partial); the package's logger prints nothing for a call whose context is done (C68_cancelled_violated); a panic of the mapper is logged as error nil (the Returns hypothesis of C68_error)."
 },
 "C69": {
  "status": "partial",
  "note": "Proved as equivalences: C69_tables, C69_columns, C69_constraints, C69_indexes, C69_triggers, C69_functions, C69_views, C69_database_name, C69_current_schema, C69_version, and for the whole database C69_database_partial, C69_contents_partial (with C46_contents). False of the code: GetExtensions ignores rows.Err and takes a list that breaks off for complete (C69_extensions_violated); versions with a suffix (8.0.31-0ubuntu0.20.04.1, 16beta1) make WithDB fail (C69_version_violated); NULL for the current schema is an error (C69_no_schema_violated); on SQLite the query of a view is what follows the first ` AS ` (C69_view_query_partial, C69_view_query_violated). The SELECT lists of the scripts are read off the scripts; what the scripts make the database answer is outside the model. The statement put together for a MySQL trigger names the reported trigger and table (C69_mysql_trigger_text, C69_mysql_trigger_text_partial)."
 },
 "C70": {
  "status": "partial",
  "note": "Proved: C70_needs, C70_to_expr, C70_writable, C70_roundtrip_partial (literals and expressions not in brackets), C70_bracketed (texts in brackets: exact condition), C70_postgres. False of the code (C70_violated): `(1)+(2)` is taken to be in brackets, so DEFAULT (1)+(2) is written; `((1)+(2))` and `(1)` are read back without their brackets; 'a' || 'b' is taken for a literal."
 },
 "C71": {
  "status": "partial",
  "note": "Full for the setters; for Append and When the full claim is false (C71_when_violated, C71_append_violated) and the careful programs are proved."
 },
 "C72": {
  "status": "partial",
  "note": "Proved for every tree whose own SQL fragments read by themselves, including failing renderings; every expression function of the package keeps that condition (C72_expressions). The names that the code writes unquoted (CTE names and columns, the nameonly modifier, ON CONSTRAINT, row aliases, tables of a MySQL multi-table DELETE) are fragments too: with a quote in them the text cannot be read (C72_cte_name_violated, C72_nameonly_violated). C65_statements_partial uses it: for SELECT, INSERT, UPDATE and DELETE no assumption about the text is left."
 },
 "C73": {
  "status": "proved",
  "note": "C73_one_dialect, C73_given, C73_own, C73_parts, C73_set_operation_edges. A user-defined Query's GetDialect is a parameter. Building a CTE or subquery from INSERT/UPDATE/DELETE does look at the dialect of that query (GetFetchableFields): C50."
 },
 "C74": {
  "status": "partial",
  "note": "C74_call, C74_load, C74_refused, C74_table_partial (composed with C59: tags declare things once, no Config, no empty names), C74_database. Gaps of the code: unnamed Exclude refuses expressions (C74_exclude_violated), References drops the schema (C74_references_violated), an expression that begins and ends with a string literal is not bracketed (C74_default_violated)."
 },
 "C75": {
  "status": "proved",
  "note": "C75_fetch_sends, C75_fetch_refused, C75_fetch_values, C75_fetch_chain, C75_exists_sends, C75_exists_answer, C75_exec; C75_applies is a run with a database that refuses any other statement. User-defined query types are excluded (Own); rendering that does not terminate (C12) is excluded by hypothesis."
 },
 "C76": {
  "status": "partial",
  "note": "C76_declared: database read by WithDB before and after, tables declared with WithTables. C76_second_partial: any metadata. C76_example meets all hypotheses. Excluded: functions and extensions, for which the claim is false (C76_extension_violated, C36_wanted_function_dropped_violated), schemas without tables, and on SQLite constraints are not compared. With UpdateExisting the database has to report the compared features of a column as declared (ReportsColumns), which is up to the database."
 },
 "C77": {
  "status": "partial",
  "note": "C77_repeatable_partial: any sequence of calls, each SQLite call gives what it would have given at the start, if the SELECTs that are sources of INSERTs are used in no other way (onlySources_insert, onlySources_cte show such queries). C77_other_dialects and C77_no_insert_select: no change at all. C77_writes: the only change there can be. C77_example meets the hypotheses. False in general: the shared SELECT gets WHERE TRUE (C77_shared_select_violated), and so does the same INSERT rendered for another dialect afterwards (C77_other_dialect_violated). Rendering the same INSERT from two goroutines on SQLite is therefore a data race, which this model does not describe. That rendering writes nowhere else was read off the code (value receivers), not proved."
 },
 "C78": {
  "status": "proved",
  "note": "C78_stored, C78_found, C78_changed, and C78_stored_values, C78_changed_set for Columns(...).Values(...)... and Set(...); the texts are C78_insert, C78_values, C78_select, C78_select_key, C78_update, C78_set, C78_delete. Tables without predicate hooks, one key condition; an aliased table cannot be inserted into on MySQL (InsertQuery refuses it)."
 },
 "C79": {
  "status": "partial",
  "note": "C79_upserted_partial, C79_again_partial (columns to be changed have names that need no quotes), C79_kept and C79_keep (any names). Missing because false of the code: AssignExcluded and AssignValues do not quote the column name, so a column such as \"full name\" gives a statement that is not SQL (C79_quoted_violated)."
 },
 "C80": {
  "status": "partial",
  "note": "C80_select_partial, C80_update_partial, C80_delete_partial, C80_found_partial, C80_changed_partial. Missing because false of the code: a negated And/Or group that stands alone in the clause (or alone in such a group) is written without parentheses, so NOT applies to its first operand only (C80_negated_violated, see C17); names with two adjacent quotes inside (C01) or that are SQL keywords in lower case (not quoted); IN with no values. Tests between two other expressions than a column and a column or value are not in the specification's reader."
 },
 "C81": {
  "status": "partial",
  "note": "C81_reads_partial, C81_fetched_partial, C81_pages_partial, C81_exists_partial. Missing because false of the code: a negated And/Or group alone in ON or WHERE (C81_negated_violated, see C17), NullsFirst/NullsLast on MySQL (C81_nulls_violated, see C56), names with two adjacent quotes inside (C01) or that are SQL keywords in lower case. Not in the specification: DISTINCT, GROUP BY, HAVING, WINDOW, subqueries as tables and expressions as columns (their texts: C55, C61, C62)."
 },
 "C82": {
  "status": "partial",
  "note": "C82_update_reads_partial, C82_delete_reads_partial, C82_updated_partial, C82_removed_partial. Missing because false of the code: columns of the changed table on the right of an assignment on PostgreSQL and SQLite lose their qualifier (C82_own_column_violated), MySQL DELETE ... USING writes the table's name raw (C82_raw_name_violated), a negated And/Or group as only condition (C82_negated_violated, see C17), names as in C81. Not in the specification: MySQL assignments that use a column assigned in the same statement, RIGHT and FULL joins of a changed table on MySQL, several tables in one MySQL DELETE, RETURNING, ORDER BY and LIMIT (texts: C55, C62)."
 },
 "C83": {
  "status": "partial",
  "note": "C83_reads_partial, C83_stored_partial. Missing because false of the code: a negated And/Or group as only condition (C83_negated_violated, see C17), names that are not read as they are, NULLS FIRST/LAST on MySQL (as in C81). Not in the specification: conflict targets and DO UPDATE with a SELECT (texts: C55; with values: C79), RETURNING. That the code changes the question on SQLite while rendering is C77."
 },
 "C84": {
  "status": "partial",
  "note": "C84_reads_partial, C84_fetched_partial, C84_visible_partial, C84_exists_partial, C84_removed_partial. Missing because false of the code: a SELECT or DELETE without conditions of its own is no SQL (C84_no_conditions_violated, C19), LEFT/RIGHT/FULL JOIN of a table with a policy loses rows that should have NULLs (C84_outer_violated; never shows forbidden ones), UPDATE ignores policies (C84_update_violated, C20), tables of USING in DELETE (C20_delete_using_violated), tables in sub-queries are asked with the sub-query's environment (C19_subquery_env_violated), and what is missing in C81 (names, negated groups)."
 },
 "C85": {
  "status": "partial",
  "note": "C85_insert, C85_stored and C85_mysql without restriction; C85_update_partial, C85_delete_partial, C85_changed_partial, C85_removed_partial with the conditions of C80 (negated group alone, names: C80_negated_violated). The last sentence is false of the code: FetchExists puts the statement inside EXISTS (...) (C85_exists_violated). Not in the specification: INSERT ... SELECT and ON CONFLICT with RETURNING, several tables."
 },
 "C86": {
  "status": "partial",
  "note": "Proved for CTE names that need no quotes, different from each other, and with the conditions of C81 (negated group alone, names, NULLS FIRST on MySQL). False of the code for other names: WITH and FROM write them as they are while fields quote them (C86_quoted_violated). Not in the specification: recursive CTEs, explicit column lists, MATERIALIZED (C34, C55 have their text), CTEs of INSERT, UPDATE and DELETE."
 },
 "C87": {
  "status": "partial",
  "note": "Proved with the conditions of C81 (negated group alone, names, NULLS FIRST on MySQL), and ORDER BY as SQL has it for DISTINCT (selected columns only; for DISTINCT ON its fields first). False of the code outside of them: C87_negated_violated. FetchExists of a SelectDistinct with ORDER BY sends DISTINCT 1 sorted by a column that is not selected (C87_exists_violated)."
 },
 "C88": {
  "status": "partial",
  "note": "Proved with the conditions of C81 (negated group alone, readable names, NULLS FIRST on MySQL) on the question and on the bodies; bodies are about tables, not about further subqueries. Unlike CTEs (C86_quoted_violated), names that need quotes work. False of the code outside of the conditions: C88_negated_violated."
 },
 "C89": {
  "status": "partial",
  "note": "Proved with the conditions of C81 (negated group alone, readable names, NULLS FIRST on MySQL). Conditions of HAVING are comparisons of fields and aggregates with values. Missing: other conditions in HAVING (groups, Not, aggregates compared with each other), FetchExists without GROUP BY, aggregates of expressions, FILTER and DISTINCT in aggregates, aliases of fields. False of the code outside of the conditions: C89_negated_violated."
 }
}