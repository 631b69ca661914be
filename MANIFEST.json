{
 "claims": [
  {
   "property": "C01",
   "status": "proved",
   "theorems": [
    "Sq.C01_escape_closes",
    "Sq.C01_mysql_backslash_violated"
   ],
   "note": "Standard-conforming literals. MySQL backslash escapes break it: C01_mysql_backslash_violated."
  },
  {
   "property": "C02",
   "status": "partial",
   "theorems": [
    "Sq.C02_lossless_violated",
    "Sq.C02_lossless_partial",
    "Sq.C02_injective_partial"
   ],
   "note": "Full statement false of the code (witness); partial theorem is an iff giving the exact domain."
  },
  {
   "property": "C03",
   "status": "proved",
   "theorems": [
    "Sq.C03_one_identifier"
   ],
   "note": ""
  },
  {
   "property": "C04",
   "status": "partial",
   "theorems": [
    "Sq.C04_injective_violated",
    "Sq.C04_denotes_partial",
    "Sq.C04_injective_partial"
   ],
   "note": "Full statement false of the code (witness); partial theorem is an iff giving the exact domain."
  },
  {
   "property": "C05",
   "status": "proved",
   "theorems": [
    "Sq.C05_placeholder_in_range",
    "Sq.C05_toSQL",
    "Sq.C05_spelling"
   ],
   "note": ""
  },
  {
   "property": "C06",
   "status": "proved",
   "theorems": [
    "Sq.C06_anonymous_placeholders",
    "Sq.C06_mysql"
   ],
   "note": "MySQL needs no restriction on sql.NamedArg; only user-defined appenders must not emit named arguments."
  },
  {
   "property": "C07",
   "status": "proved",
   "theorems": [
    "Sq.C07_no_unused_argument"
   ],
   "note": ""
  },
  {
   "property": "C08",
   "status": "partial",
   "theorems": [
    "Sq.C08_ordinal_capture_violated",
    "Sq.C08_embedding_partial",
    "Sq.C08_resolved_partial"
   ],
   "note": "Full statement false of the code: ordinal capture (witness). Partial: every tree, in every state where none of its names is recorded."
  },
  {
   "property": "C09",
   "status": "partial",
   "theorems": [
    "Sq.C09_rebind_through_params",
    "Sq.C09_numeric_name_violated"
   ],
   "note": "Holds for names that are not decimal numbers; for numeric names the code's own ordinal bookkeeping shares the params map (witness)."
  },
  {
   "property": "C10",
   "status": "proved",
   "theorems": [
    "Sq.C10_only_appends",
    "Sq.C10_text_prefix"
   ],
   "note": ""
  },
  {
   "property": "C11",
   "status": "proved",
   "theorems": [
    "Sq.C11_sequential",
    "Sq.C11_too_few",
    "Sq.C11_text"
   ],
   "note": ""
  },
  {
   "property": "C12",
   "status": "partial",
   "theorems": [
    "Sq.C12_rendering_never_panics_partial",
    "Sq.C12_trailing_brace_violated",
    "Sq.C12_empty_modifier_violated",
    "Sq.C12_endless_loop_violated"
   ],
   "note": "The code panics on a template ending in '{' and on empty-name modifiers, and loops forever on wide spaces (witnesses). Partial theorem: every tree whose templates avoid those."
  },
  {
   "property": "C13",
   "status": "proved",
   "theorems": [
    "Sq.C13_references",
    "Sq.C13_values"
   ],
   "note": ""
  },
  {
   "property": "C14",
   "status": "partial",
   "theorems": [
    "Sq.C14_sprintf_partial",
    "Sq.C14_first_char_violated",
    "Sq.C14_quote_after_param_violated"
   ],
   "note": "Full statement false of the code: first character copied verbatim; a quote directly after a placeholder is written first (witnesses). Partial: every query starting with ordinary text."
  },
  {
   "property": "C15",
   "status": "partial",
   "theorems": [
    "Sq.C15_no_panic_partial",
    "Sq.C15_sqlite_violated",
    "Sq.C15_nil_pointer_violated"
   ],
   "note": "Full statement false of the code (witnesses). Partial: all dialects but SQLite unconditionally; SQLite when question marks do not outnumber arguments."
  },
  {
   "property": "C16",
   "status": "partial",
   "theorems": [
    "Sq.C16_one_token_partial",
    "Sq.C16_denotes_partial",
    "Sq.C16_scalars_render",
    "Sq.C16_nan_violated",
    "Sq.C16_mysql_backslash_violated",
    "Sq.C16_valuer_bytes_violated",
    "Sq.C16_negative_comment_violated"
   ],
   "note": "Full statement false of the code: NaN, MySQL backslashes, Postgres Valuer bytes, '--' after a minus sign (witnesses)."
  },
  {
   "property": "C17",
   "status": "partial",
   "theorems": [
    "Sq.C17_clause_reads_back_partial",
    "Sq.C17_operand_reads_back_partial",
    "Sq.C17_negated_clause_violated",
    "Sq.C17_negated_where_text_violated",
    "Sq.C17_sole_operand_violated"
   ],
   "note": "Full statement false of the code: a negated clause-level group prints without parentheses, and a group with a sole operand drops its negation (witnesses). Partial: every predicate tree without those shapes."
  },
  {
   "property": "C18",
   "status": "partial",
   "theorems": [
    "Sq.C18_not_not",
    "Sq.C18_not_negates",
    "Sq.C18_not_printed_partial"
   ],
   "note": "Not negates for every predicate kind; the printed form is partial in the same way as C17."
  },
  {
   "property": "C19",
   "status": "partial",
   "theorems": [
    "Sq.C19_select_filtered_partial",
    "Sq.C19_where_is_conjunction_partial",
    "Sq.C19_empty_where_violated",
    "Sq.C19_subquery_env_violated"
   ],
   "note": "Full statement false of the code: hook predicate skipped on an empty WHERE and sub-query env not passed (witnesses). Partial: SELECTs with a nonempty WHERE."
  },
  {
   "property": "C20",
   "status": "partial",
   "theorems": [
    "Sq.C20_update_ignores_predicates_violated",
    "Sq.C20_update_unfiltered_violated",
    "Sq.C20_delete_filtered_partial",
    "Sq.C20_delete_using_violated"
   ],
   "note": "Full statement false of the code: UPDATE ignores hook predicates; DELETE USING tables are unfiltered (witnesses)."
  },
  {
   "property": "C21",
   "status": "partial",
   "theorems": [
    "Sq.C21_failing_part_fails_query_partial",
    "Sq.C21_window_violated",
    "Sq.C21_select_hook_error",
    "Sq.C21_update_hook_error",
    "Sq.C21_delete_hook_error"
   ],
   "note": "Every failing part except named windows fails the query; window errors are swallowed (witness)."
  },
  {
   "property": "C22",
   "status": "partial",
   "theorems": [
    "Sq.C22_C23_select",
    "Sq.C22_C23_insert",
    "Sq.C22_C23_update",
    "Sq.C22_C23_delete",
    "Sq.C22_C23_join",
    "Sq.C22_subquery_alias",
    "Sq.C22_conflict_clause_partial",
    "Sq.C22_conflict_dropped_violated",
    "Sq.C22_resolution_dropped_violated"
   ],
   "note": "Guards hold for SELECT/INSERT/UPDATE/DELETE/JOIN/sub-query; conflict clauses are written only by the dialects that know them (C22_conflict_clause_partial), but elsewhere dropped silently instead of refused (witnesses)."
  },
  {
   "property": "C23",
   "status": "proved",
   "theorems": [
    "Sq.C22_C23_select",
    "Sq.C22_C23_insert",
    "Sq.C22_C23_update",
    "Sq.C22_C23_delete",
    "Sq.C22_C23_join",
    "Sq.C23_case"
   ],
   "note": "Every structural requirement of every statement kind, join and CASE."
  },
  {
   "property": "C24",
   "status": "partial",
   "theorems": [
    "Sq.C24_grouping_partial",
    "Sq.C24_operand_limit_violated",
    "Sq.C24_constructors_partial"
   ],
   "note": "Full statement false of the code: ORDER BY/LIMIT operands are not parenthesised (witness)."
  },
  {
   "property": "C25",
   "status": "proved",
   "theorems": [
    "Sq.C25_qualifier_dropped_iff_excluded",
    "Sq.C25_own_lists_sorted",
    "Sq.C25_unsorted_list_missed"
   ],
   "note": "Exact characterisation; an unsorted exclusion list misses entries (C25_unsorted_list_missed), the library itself always sorts (C25_own_lists_sorted)."
  },
  {
   "property": "C26",
   "status": "proved",
   "theorems": [
    "Sq.C26_rectangular",
    "Sq.C26_update_assignments",
    "Sq.C26_insert_renders_as_values",
    "Sq.C26_reordered_row_undetected",
    "Sq.C26_short_row_undetected"
   ],
   "note": "Limits shown by C26_reordered_row_undetected and C26_short_row_undetected."
  },
  {
   "property": "C27",
   "status": "partial",
   "theorems": [
    "Sq.Building.C27_careful_partial",
    "Sq.Building.C27_full_capacity_partial",
    "Sq.Building.C27_siblings_violated",
    "Sq.Building.C27_deleteFrom_violated",
    "Sq.Building.C27_conflict_violated"
   ],
   "note": "Modelled: every builder method of the SELECT/INSERT/UPDATE/DELETE builders as its effects on a struct of slices over a heap of arrays with capacities (growth left open), and the pointer-valued conflict builders. Proved: in every careful program (no two appends to the result of one append, DeleteFrom only on a query without FROM tables, conflict values used once, no xs... slices) all queries have at the end exactly the contents their call chain says (C27_careful_partial); any single call leaves every earlier query unchanged if the clause it appends to is at full capacity, in every program (C27_full_capacity_partial). Missing: the full claim is false: with spare capacity a sibling overwrites the other's element (C27_siblings_violated), DeleteFrom changes its receiver (C27_deleteFrom_violated), a conflict value remembers DoNothing (C27_conflict_violated). Not modelled: later writes by the caller to a slice passed with xs...; what INSERT ... SELECT does to the SELECT while rendering on SQLite is C77."
  },
  {
   "property": "C28",
   "status": "proved",
   "theorems": [
    "Sq.Deriving.C28_set_fields",
    "Sq.Deriving.C28_select_list",
    "Sq.Fetching.C28_C29_fetch",
    "Sq.Fetching.C28_unregistered_read",
    "Sq.Fetching.C28_data_dependent_violated"
   ],
   "note": "For every mapper making the registered calls (or a prefix). A mapper whose calls depend on the data is outside the property's premise; C28_data_dependent_violated shows it gets another field's value."
  },
  {
   "property": "C29",
   "status": "partial",
   "theorems": [
    "Sq.Fetching.C28_C29_fetch",
    "Sq.Fetching.C29_result_set_closed",
    "Sq.Fetching.C29_opened",
    "Sq.Fetching.C29_count_bound",
    "Sq.Fetching.C29_no_fields_violated",
    "Sq.Fetching.C29_exists",
    "Sq.Fetching.C29_exists_ok"
   ],
   "note": "Full statement false of the code for a mapper that reads no field (witness): its rows are never visited. C28_C29_fetch covers every other mapper, table and failure point."
  },
  {
   "property": "C30",
   "status": "partial",
   "theorems": [
    "Sq.Fetching.C30_fetch",
    "Sq.Fetching.C30_exec",
    "Sq.Fetching.C30_exists_violated",
    "Sq.Fetching.C30_exists_ignores"
   ],
   "note": "Holds for FetchContext and ExecContext; FetchExistsContext ignores its context (witness)."
  },
  {
   "property": "C31",
   "status": "partial",
   "theorems": [
    "Ddl.C31_join",
    "Ddl.C31_split_partial",
    "Ddl.C31_quoted_bracket_violated"
   ],
   "note": "Lossless for every string; exact splitting for argument lists whose groups contain no quoted brackets (witness otherwise)."
  },
  {
   "property": "C32",
   "status": "proved",
   "theorems": [
    "Sq.C32_roundtrip",
    "Sq.C32_tag_roundtrip",
    "Sq.C32_braced_tag_roundtrip",
    "Sq.C32_accepts_only_balanced"
   ],
   "note": "Round trip of the tag/modifier grammar through cutValue and lexModifiers, and only balanced input is accepted."
  },
  {
   "property": "C33",
   "status": "partial",
   "theorems": [
    "Ddl.C33_sound",
    "Ddl.C33_lookup_pure",
    "Ddl.C33_complete_after_refresh",
    "Ddl.C33_complete",
    "Ddl.C33_ignored_duplicate_hides",
    "Ddl.C33_functions",
    "Ddl.C33_functions_refreshed",
    "Ddl.C33_functions_appended",
    "Ddl.C33_ignored_function_violated",
    "Ddl.C33_extensions_violated"
   ],
   "note": "Proved for schemas, tables, views, columns, constraints, indexes and triggers under every operation history. Extension and function lookups are different code and fail (C33_extensions_violated)."
  },
  {
   "property": "C34",
   "status": "proved",
   "theorems": [
    "Ddl.C34_shape",
    "Ddl.C34_length_suffix",
    "Ddl.C34_no_space",
    "Ddl.C34_kinds_differ",
    "Ddl.C34_collision",
    "Ddl.C34_truncation"
   ],
   "note": ""
  },
  {
   "property": "C35",
   "status": "proved",
   "theorems": [
    "Ddl.C35_no_drops",
    "Ddl.C35_C36_C37_C45_example"
   ],
   "note": ""
  },
  {
   "property": "C36",
   "status": "partial",
   "theorems": [
    "Ddl.C36_unwanted_partial",
    "Ddl.C36_droppable",
    "Ddl.C36_functions_partial",
    "Ddl.C36_extensions_partial",
    "Ddl.C36_C45_declared",
    "Ddl.C35_C36_C37_C45_example",
    "Ddl.C36_schemaless_violated",
    "Ddl.C36_C37_extensions_violated",
    "Ddl.C36_wanted_function_dropped_violated"
   ],
   "note": "Full statement false of the code: wanted objects declared without schema, wanted extensions and wanted functions are dropped (witnesses; the extension one is a theorem about all metadata built by the options). Proved as an iff for everything built with WithDB and WithTables in named schemas (C36_C45_declared)."
  },
  {
   "property": "C37",
   "status": "partial",
   "theorems": [
    "Ddl.C37_once",
    "Ddl.C37_tables",
    "Ddl.C37_columns",
    "Ddl.C37_foreign_keys",
    "Ddl.C37_constraints",
    "Ddl.C37_indexes_mysql",
    "Ddl.C37_indexes",
    "Ddl.C37_triggers",
    "Ddl.C37_views",
    "Ddl.C37_schemas",
    "Ddl.C37_functions_partial",
    "Ddl.C35_C36_C37_C45_example",
    "Ddl.C36_C37_extensions_violated"
   ],
   "note": "Exact lists of what is created, per kind of object, each once (C37_once); functions when the existing ones can be found (C37_functions_partial). False for extensions, which are created again (C36_C37_extensions_violated)."
  },
  {
   "property": "C38",
   "status": "partial",
   "theorems": [
    "Ddl.C38_up_to_date",
    "Ddl.C38_same_partial",
    "Ddl.C38_ignored_violated"
   ],
   "note": "C38_up_to_date: up-to-date databases give an empty migration in every mode, for any two metadata values that agree. C38_same_partial: metadata with itself, when nothing in it is ignored, schemas are named and its functions and extensions can be found. False for ignored parts (C38_ignored_violated). C76 composes it with C48."
  },
  {
   "property": "C39",
   "status": "proved",
   "theorems": [
    "Ddl.C39_order",
    "Ddl.C39_exec",
    "Ddl.C39_order_unique",
    "Ddl.C39_success"
   ],
   "note": "For every migration and every database oracle. The order of a migration is specified by kinds and turns and shown unique."
  },
  {
   "property": "C40",
   "status": "partial",
   "theorems": [
    "Ddl.C40_layout_partial",
    "Ddl.C40_total_partial",
    "Ddl.C40_ignored_partial",
    "Ddl.C40_read_partial",
    "Ddl.C40_statements_partial",
    "Ddl.C40_mysql_function_violated",
    "Ddl.C40_mysql_ignored_violated",
    "Ddl.C40_mysql_terminator_violated",
    "Ddl.C40_blank_violated",
    "Ddl.C40_comment_violated",
    "Ddl.C40_writer_violated",
    "Ddl.C40_script_partial",
    "Ddl.C40_written_partial"
   ],
   "note": "Layout, totality, no trace of ignored commands and reading back by any statement reader are proved for every migration without MySQL functions/triggers; C40_script_partial: with arbitrary names and closed SQL fragments the client reads exactly one statement per command. Missing: MySQL functions/triggers (false of the code: three witnesses), functions/triggers without SQL (panic), SQL ending in a line comment, writer errors (witnesses)."
  },
  {
   "property": "C41",
   "status": "partial",
   "theorems": [
    "Sq.C41_union",
    "Sq.C41_settings",
    "Sq.C41_text",
    "Sq.C41_shown",
    "Sq.C41_no_color",
    "Sq.C41_default",
    "Sq.C41_out_violated"
   ],
   "note": "Flags proved (union, settings, text, colours) for every flag word; the writer passed to NewLogger is ignored (C41_out_violated)."
  },
  {
   "property": "C42",
   "status": "proved",
   "theorems": [
    "Sq.C42_text_independent_of_values",
    "Sq.C42_same_shape_same_text"
   ],
   "note": ""
  },
  {
   "property": "C43",
   "status": "partial",
   "theorems": [
    "Sq.Fetching.C43_fetch_partial",
    "Sq.Fetching.C43_panic_violated",
    "Sq.Fetching.C43_exists",
    "Sq.Fetching.C43_exec"
   ],
   "note": "Full statement false of the code when the mapper panics with an error (witness); holds otherwise, and always for FetchExists and Exec."
  },
  {
   "property": "C44",
   "status": "partial",
   "theorems": [
    "Ddl.C44_nothing",
    "Ddl.C44_no_update",
    "Ddl.C44_no_create_partial",
    "Ddl.C44_update_creates_violated"
   ],
   "note": "Mode 0, no update and no drop proved. UpdateExisting alone still creates tables, indexes, constraints, triggers, views and functions (C44_update_creates_violated); schemas, extensions and columns are not."
  },
  {
   "property": "C45",
   "status": "partial",
   "theorems": [
    "Ddl.C45_all_dropped_partial",
    "Ddl.C36_C45_declared",
    "Ddl.C35_C36_C37_C45_example"
   ],
   "note": "All objects but extensions (whose lookup may panic or find a longer name), materialized views on SQLite, and functions when the wanted list has ignored ones."
  },
  {
   "property": "C46",
   "status": "proved",
   "theorems": [
    "Ddl.Contents.C46_contents",
    "Ddl.C46_with_tables",
    "Ddl.C46_with_tables_content",
    "Ddl.C46_fields",
    "Ddl.C46_with_db",
    "Ddl.Views.C46_with_views"
   ],
   "note": "Structs, tags and builder calls (WithTables), views (WithDDLViews: C46_with_views) and introspected rows (WithDB). SQLite reports constraints without names: there they are kept (C46_with_db gives the list) but not searchable, and nothing is assumed or claimed about their names; Migrate does not look at them on SQLite."
  },
  {
   "property": "C47",
   "status": "proved",
   "theorems": [
    "Ddl.C47_column",
    "Ddl.C47_table"
   ],
   "note": "For column and table tags; proved as equality of the loaded metadata with the tag stripped of other dialects' modifiers."
  },
  {
   "property": "C48",
   "status": "partial",
   "theorems": [
    "Ddl.Again.C48_declared",
    "Ddl.C48_converges",
    "Ddl.ConvergeParts.C48_constraints",
    "Ddl.ConvergeParts.C48_triggers",
    "Ddl.ConvergeParts.C48_indexes",
    "Ddl.ConvergeParts.C48_sqlite_constraint_violated"
   ],
   "note": "C48_converges (tables, columns, views), C48_indexes, C48_triggers: all dialects. C48_constraints: all but SQLite, where the claim is false (C48_sqlite_constraint_violated). Indexes and triggers of wanted views are excluded by name (they are created with the view: C37). Side effects of the database (an index going with its column) are not modelled. C48_declared: all kinds at once for a database read by WithDB and tables declared with WithTables."
  },
  {
   "property": "C49",
   "status": "partial",
   "theorems": [
    "Ddl.C49_mysql",
    "Ddl.C49_postgres_partial",
    "Ddl.C49_postgres_unnamed_violated",
    "Ddl.C49_example_violated",
    "Ddl.C49_default_violated"
   ],
   "note": "MySQL proved exactly (up to what diffColumn compares). Postgres: the right commands, but without the name of the column (violated for all inputs); changed defaults go unnoticed (violated for all inputs)."
  },
  {
   "property": "C50",
   "status": "partial",
   "theorems": [
    "Sq.Deriving.C50_cte_field",
    "Sq.Deriving.C50_subquery_field",
    "Sq.Deriving.C50_broken",
    "Sq.Deriving.C50_broken_subquery",
    "Sq.Deriving.C50_output_names_partial",
    "Sq.Deriving.C50_output_names_violated",
    "Sq.Deriving.C50_one_name_partial",
    "Sq.Deriving.C50_one_name_subquery",
    "Sq.Deriving.C50_cte_name_violated",
    "Sq.Deriving.C50_no_panic_violated",
    "Sq.Deriving.C50_no_panic_partial"
   ],
   "note": "Proved in full: which references render, what they render to, that errors stick (C50_cte_field, C50_subquery_field, C50_broken, C50_broken_subquery, C50_one_name_subquery). Partial: output names agree for aliased items and plain columns; the definition of a CTE names it as its references do when the name is bare; constructors do not panic without nil fields/operands. The full statements are false: COUNT(*) without alias, CTE names that need quoting are written unquoted, nil fields panic (the three _violated theorems)."
  },
  {
   "property": "C51",
   "status": "partial",
   "theorems": [
    "Ddl.C51_trigger_partial",
    "Ddl.C51_trigger_qualified_partial",
    "Ddl.C51_trigger_terminates_partial",
    "Ddl.C51_trigger_no_panic",
    "Ddl.C51_trigger_named",
    "Ddl.C51_trigger_named_example",
    "Ddl.C51_function_partial",
    "Ddl.C51_function_terminates_partial",
    "Ddl.C51_trigger_quoted_violated",
    "Ddl.C51_hang_violated",
    "Ddl.C51_function_panic_violated",
    "Ddl.C51_function_violated",
    "Ddl.C51_files",
    "Ddl.C51_files_partial"
   ],
   "note": "Proved for unquoted names (quoted words are recorded as spelled) and texts whose white space is Latin-1. Violated: quoted names keep their quotes, a dot inside quotes splits, other Unicode spaces make the reader loop for ever, brackets in function arguments and a qualified type after the bracket are misread, ')' before '(' panics."
  },
  {
   "property": "C52",
   "status": "partial",
   "theorems": [
    "Ddl.Scan.C52_postgres_partial",
    "Ddl.Scan.C52_mysql_partial",
    "Ddl.Scan.C52_sqlite_partial",
    "Ddl.Scan.C52_constraint_columns_partial",
    "Ddl.Scan.C52_exclude_partial",
    "Ddl.Scan.C52_check_partial",
    "Ddl.Scan.C52_postgres_panic_violated",
    "Ddl.Scan.C52_expression_lost_violated",
    "Ddl.Scan.C52_sqlite_rejects_violated",
    "Ddl.Scan.C52_comma_violated",
    "Ddl.Scan.C52_check_violated"
   ],
   "note": "Proved for names without commas, expressions accepted by C31 and keys that are not one expression alone. Violated: an index on one expression panics on PostgreSQL and is read without keys on MySQL and SQLite; on SQLite quoted columns (as this package writes them), sort orders and predicates with brackets make introspection fail; commas in names split them; NOT VALID stays in the CHECK expression."
  },
  {
   "property": "C53",
   "status": "partial",
   "theorems": [
    "Ddl.Filt.C53_filter_partial",
    "Ddl.Filt.C53_system_hidden",
    "Ddl.Filt.C53_pg_prefix_violated",
    "Ddl.Filt.C53_sqlite_quoted_violated",
    "Ddl.Filt.C53_columns_violated",
    "Ddl.Filt.C53_columns_both_violated",
    "Ddl.Filt.C53_mysql_checks_violated",
    "Ddl.Filt.C53_doubled_quote_violated",
    "Ddl.Filt.C53_mysql_backslash_violated"
   ],
   "note": "Proved for all filters whose names have no doubled quote (and no backslash on MySQL), except WithoutTables on PostgreSQL columns and IncludeSystemCatalogs on MySQL constraints, which are violated (NOT IN (), WHERE AND ...). Also violated: ordinary schemas such as pgtap and SQLite tables created with a single-quoted name are hidden as system objects."
  },
  {
   "property": "C54",
   "status": "partial",
   "theorems": [
    "Sq.Exprs.C54_forms_partial",
    "Sq.Exprs.C54_applies",
    "Sq.Exprs.C54_nesting_violated",
    "Sq.Exprs.C54_empty_in_violated",
    "Sq.Exprs.C54_slice_violated",
    "Sq.Exprs.C54_case_query_violated",
    "Sq.Exprs.C54_assign_partial",
    "Sq.Exprs.C54_assign_quote_violated",
    "Sq.Exprs.Writing.C54_written"
   ],
   "note": "C54_written (any buffer, any parameters) needs only that the operands render; C54_forms_partial, the same with each operand resolved alone, needs operands that share no parameter name. Violated: predicates as operands are not bracketed (Eq(a, Eq(b,c)) = Eq(Eq(a,b),c)); In with an empty slice writes IN (); Eq with a slice; a query inside CASE is not parenthesised; AssignExcluded/Alias/Self/Values never quote the column."
  },
  {
   "property": "C55",
   "status": "partial",
   "theorems": [
    "Sq.Exprs.C55_forms_partial",
    "Sq.Exprs.C55_window_partial",
    "Sq.Exprs.C55_applies",
    "Sq.Exprs.C55_delete_tables_violated",
    "Sq.Exprs.Writing.C55_written",
    "Sq.Exprs.Writing.C55_sent",
    "Sq.Exprs.Writing.C55_delete_written_partial",
    "Sq.Exprs.Writing.C55_window_written_partial"
   ],
   "note": "C55_written and C55_sent: any buffer, any parameters, every construct whose rendering succeeds. DELETE of several tables without USING has no form; C55_delete_written_partial says what it writes, the first table only (C55_delete_tables_violated); windows ignore the errors of their fields (C21_window_violated), so C55_window_written_partial asks that these render."
  },
  {
   "property": "C56",
   "status": "partial",
   "theorems": [
    "Sq.Fields.C56_modifiers",
    "Sq.Fields.C56_applies",
    "Sq.Fields.C56_dialect_format",
    "Sq.Fields.C56_default_needed",
    "Sq.Fields.C56_map_order",
    "Sq.Fields.C56_methods",
    "Sq.Fields.C56_column",
    "Sq.Fields.C56_sort_leaks_violated",
    "Sq.Fields.C56_nulls_violated",
    "Sq.Fields.C56_schema_violated"
   ],
   "note": "Proved for all chains, maps and methods. Violated: the sort order is written wherever the field is used (Eq after Desc), NULLS FIRST/LAST is written for MySQL and SQL Server, and the schema of a field's table is ignored, so fields of equally named tables in two schemas cannot be told apart."
  },
  {
   "property": "C57",
   "status": "partial",
   "theorems": [
    "Ddl.Says.C57_says_partial",
    "Ddl.Says.C57_ignored",
    "Ddl.Says.C57_verbatim",
    "Ddl.Says.C57_create_table_items_partial",
    "Ddl.Says.C57_alter_table_items_partial",
    "Ddl.Says.C57_says_applies",
    "Ddl.Says.C57_alter_applies",
    "Ddl.Says.C57_unquoted_violated",
    "Ddl.Says.C57_alter_violated",
    "Ddl.Says.C57_no_columns_violated"
   ],
   "note": "Proved for all commands that produce a text (C57_says_partial, with the items of CREATE TABLE and ALTER TABLE), for one faithful spelling of names. Excluded because the code is wrong there (witnessed): constraint columns, referenced tables and CREATE SCHEMA names are not quoted (C57_unquoted_violated), an ignored or empty part of ALTER TABLE leaves a stray comma (C57_alter_violated), CREATE TABLE with constraints and no columns starts with a comma (C57_no_columns_violated). Fragments of SQL supplied by the user must be readable by the lexer (no comments or dollar quotes)."
  },
  {
   "property": "C58",
   "status": "partial",
   "theorems": [
    "Ddl.Support.C58_accepts",
    "Ddl.Support.C58_no_panic",
    "Ddl.Support.C58_refuses",
    "Ddl.Support.C58_applies",
    "Ddl.Support.C58_materialized_violated",
    "Ddl.Support.C58_left_out_violated",
    "Ddl.Support.C58_panics_violated"
   ],
   "note": "C58_accepts and C58_refuses are exact for the feature table. The last clause is false: MATERIALIZED is accepted by CREATE VIEW on every dialect (C58_materialized_violated), and CASCADE of DROP TRIGGER, an index method on SQLite, and the CHECK/REFERENCES of a new column outside SQLite are left out silently (C58_left_out_violated). Unequal list lengths panic (C58_panics_violated)."
  },
  {
   "property": "C59",
   "status": "partial",
   "theorems": [
    "Ddl.Declared.C59_table_partial",
    "Ddl.Declared.C59_tags_partial",
    "Ddl.Declared.C59_ignored",
    "Ddl.Declared.C59_database_partial",
    "Ddl.Declared.C59_understood",
    "Ddl.Declared.C59_redeclared_violated"
   ],
   "note": "C59_table_partial (tags and builder calls), C59_tags_partial, C59_ignored, C59_database_partial, C59_understood. They ask that a name is declared once (Once): declaring a constraint or index name a second time updates its options but keeps the first columns (C59_redeclared_violated)."
  },
  {
   "property": "C60",
   "status": "partial",
   "theorems": [
    "Ddl.Expressible.C60_written_partial",
    "Ddl.Expressible.C60_executed_partial",
    "Ddl.Expressible.C60_refused",
    "Ddl.Expressible.C60_applies",
    "Ddl.Expressible.C60_update_only_violated",
    "Ddl.Expressible.C60_materialized_violated"
   ],
   "note": "C60_written_partial, C60_executed_partial, C60_refused, C60_applies. False with UpdateExisting alone, where a CREATE TABLE without a name is produced (C60_update_only_violated), so the theorems ask for CreateMissing with it; materialized views are not refused on MySQL (C60_materialized_violated)."
  },
  {
   "property": "C61",
   "status": "partial",
   "theorems": [
    "Sq.Chains.C61_select",
    "Sq.Chains.C61_update",
    "Sq.Chains.C61_delete_partial",
    "Sq.Chains.C61_insert_partial",
    "Sq.Chains.C61_select_order",
    "Sq.Chains.C61_update_order",
    "Sq.Chains.C61_delete_order_partial",
    "Sq.Chains.C61_insert_order_partial",
    "Sq.Chains.C61_own_dialect",
    "Sq.Chains.C61_applies",
    "Sq.Chains.C61_applies_insert",
    "Sq.Chains.C61_delete_order_violated",
    "Sq.Chains.C61_conflict_violated"
   ],
   "note": "SELECT and UPDATE full. DELETE with at most one OrderBy and INSERT with at most one conflict clause; the full statements are false (C61_delete_order_violated, C61_conflict_violated)."
  },
  {
   "property": "C62",
   "status": "proved",
   "theorems": [
    "Sq.Renders.C62_predicate",
    "Sq.Renders.C62_custom",
    "Sq.Renders.C62_column",
    "Sq.Renders.C62_parameter",
    "Sq.Renders.C62_select",
    "Sq.Renders.C62_insert",
    "Sq.Renders.C62_update",
    "Sq.Renders.C62_delete",
    "Sq.Renders.C62_applies",
    "Sq.Renders.C62_applies_changes",
    "Sq.Renders.C62_insert_alias",
    "Sq.Exprs.C62_window",
    "Sq.Exprs.C62_delete_tables",
    "Sq.Exprs.C62_renders"
   ],
   "note": "C62_renders (every construct), C62_delete_tables and C62_delete (any number of tables; which of them are written is C55), C62_window (a window is never refused, it ignores the errors of its fields: C21_window_violated), formats, columns, parameters, and all builder chains."
  },
  {
   "property": "C63",
   "status": "partial",
   "theorems": [
    "Ddl.Cascades.C63_asked_partial",
    "Ddl.Cascades.C63_honoured_partial",
    "Ddl.Cascades.C63_if_exists",
    "Ddl.Cascades.C63_parts_violated",
    "Ddl.Cascades.C63_parts_example_violated",
    "Ddl.Cascades.C63_honoured_example",
    "Ddl.Cascades.C63_sqlite_violated"
   ],
   "note": "C63_if_exists is exact. CASCADE: tables, views and extensions follow the flag (C63_asked_partial, C63_honoured_partial), but on PostgreSQL columns, constraints, indexes and triggers, and on every dialect functions, are always dropped with CASCADE (C63_parts_violated, C63_parts_example_violated), and on SQLite the flag is dropped without an error (C63_sqlite_violated)."
  },
  {
   "property": "C64",
   "status": "proved",
   "theorems": [
    "Ddl.Views.C64_query",
    "Ddl.Views.C64_accepts",
    "Ddl.Views.C64_declares",
    "Ddl.Views.C64_other_dialects",
    "Ddl.Views.C64_indexes",
    "Ddl.Views.C64_triggers",
    "Ddl.Views.C64_database",
    "Ddl.Views.C64_no_query_violated",
    "Ddl.Views.C64_trigger_elsewhere_violated",
    "Ddl.Views.C64_delete_violated",
    "Ddl.Views.C64_duplicate_violated"
   ],
   "note": "Also shown, as witnesses of what the declaration does not check: a view without a query is accepted (`CREATE VIEW v AS `), a trigger of another table is accepted, a DELETE … RETURNING is accepted as query, duplicate column names are accepted."
  },
  {
   "property": "C65",
   "status": "partial",
   "theorems": [
    "Sq.Inline.C65_inlined_partial",
    "Sq.Inline.C65_literals_partial",
    "Sq.Inline.C65_first_value_violated",
    "Sq.Inline.C65_first_quote_violated",
    "Sq.Lexical.C65_statements_partial"
   ],
   "note": "Proved for every tree, dialect and argument list whose rendered text starts with ordinary text and in which no placeholder is directly followed by a quote. False otherwise, shown by C65_first_value_violated (a predicate that starts with a value keeps its placeholder) and C65_first_quote_violated (one that starts with a quoted identifier is an error). C65_literals_partial adds that what is put in for a bound nil, boolean, integer, string or byte string, named or not, is a literal of the dialect that means this value. C65_statements_partial: for SELECT, INSERT, UPDATE and DELETE statements whose program-supplied SQL fragments read by themselves, no assumption about the rendered text is left (by C72)."
  },
  {
   "property": "C66",
   "status": "proved",
   "theorems": [
    "Sq.Reflecting.C66_bound",
    "Sq.Reflecting.C66_one_column",
    "Sq.Reflecting.C66_table",
    "Sq.Reflecting.C66_columns",
    "Sq.Reflecting.C66_types",
    "Sq.Reflecting.C66_accepts",
    "Sq.Reflecting.C66_again",
    "Sq.Reflecting.C66_example_struct",
    "Sq.Reflecting.C66_example_table_tag",
    "Sq.Reflecting.C66_example_name_tag",
    "Sq.Reflecting.C66_example_no_tag",
    "Sq.Reflecting.C66_example_readable",
    "Sq.Reflecting.C66_example",
    "Sq.Reflecting.C66_example_queries",
    "Sq.Reflecting.C66_example_ddl",
    "Sq.Reflecting.C66_again_violated",
    "Sq.Reflecting.C66_panics_violated",
    "Sq.Reflecting.C66_foreign_violated"
   ],
   "note": "Stated for readable tags (the tags C32 reads); that tags which cannot be read give an error only if their braces are unbalanced is C32. Outside the statement, witnessed: C66_again_violated (a second call with another alias leaves the columns with the old one), C66_panics_violated (`name=` in a tag, nil pointer), C66_foreign_violated (a Field type of one's own is silently left unbound). After an error the fields before the failing one stay set; the model returns only the error."
  },
  {
   "property": "C67",
   "status": "proved",
   "theorems": [
    "Sq.Conc.C67_results",
    "Sq.Conc.C67_no_race",
    "Sq.Conc.C67_no_deadlock",
    "Sq.Conc.C67_returns",
    "Sq.Conc.C67_example",
    "Sq.Conc.C67_wrong_result",
    "Sq.Conc.C67_wrong_race",
    "Sq.Conc.C67_wrong_map"
   ],
   "note": "C67_results, C67_no_race, C67_no_deadlock, C67_returns for all the functions that use the pools or the template cache. C67_example is a schedule with reused buffers; C67_wrong_result/race/map show wrong programs that the machine catches. Not included: rendering the same SQLite INSERT ... SELECT value from two goroutines, which writes to the query (C77); the database driver and the logger's writer; the two packages' pools of one kind are one pool, and there is one introspector."
  },
  {
   "property": "C68",
   "status": "partial",
   "theorems": [
    "Sq.Logging.C68_refines",
    "Sq.Logging.C68_refines_exists",
    "Sq.Logging.C68_refines_exec",
    "Sq.Logging.C68_transparent",
    "Sq.Logging.C68_transparent_exists",
    "Sq.Logging.C68_transparent_exec",
    "Sq.Logging.C68_logger_fails",
    "Sq.Logging.C68_logger_fails_exists",
    "Sq.Logging.C68_logger_fails_exec",
    "Sq.Logging.C68_logged",
    "Sq.Logging.C68_query",
    "Sq.Logging.C68_results",
    "Sq.Logging.C68_error",
    "Sq.Logging.C68_exists",
    "Sq.Logging.C68_exec",
    "Sq.Logging.C68_kind_partial",
    "Sq.Logging.C68_kind_exec_partial",
    "Sq.Logging.C68_kind_violated",
    "Sq.Logging.C68_kind_exec_violated",
    "Sq.Logging.C68_kind_exists_partial",
    "Sq.Logging.C68_caller",
    "Sq.Logging.C68_cancelled_violated",
    "Sq.Logging.C68_printed",
    "Sq.Logging.C68_panic_violated"
   ],
   "note": "Proved: transparency for all three calls (C68_transparent*), failing loggers (C68_logger_fails*), when there is an entry (C68_logged), query/args/dialect/timing (C68_query, C68_exists, C68_exec), results (C68_results), error (C68_error), caller info. False of the code: a query made by a builder is logged without environment, kind and table, because the type switches only list the four plain structs (C68_kind_violated, C68_kind_exec_violated; for the plain structs C68_kind_partial); the package's logger prints nothing for a call whose context is done (C68_cancelled_violated); a panic of the mapper is logged as error nil (the Returns hypothesis of C68_error)."
  },
  {
   "property": "C69",
   "status": "partial",
   "theorems": [
    "Ddl.Catalog.C69_tables",
    "Ddl.Catalog.C69_columns",
    "Ddl.Catalog.C69_constraints",
    "Ddl.Catalog.C69_indexes",
    "Ddl.Catalog.C69_triggers",
    "Ddl.Catalog.C69_functions",
    "Ddl.Catalog.C69_views",
    "Ddl.Catalog.C69_extensions_partial",
    "Ddl.Catalog.C69_extensions_violated",
    "Ddl.Catalog.C69_database_name",
    "Ddl.Catalog.C69_current_schema",
    "Ddl.Catalog.C69_version",
    "Ddl.Catalog.C69_version_violated",
    "Ddl.Catalog.C69_no_schema_violated",
    "Ddl.Catalog.C69_database_partial",
    "Ddl.Catalog.C69_contents_partial",
    "Ddl.Catalog.C69_view_query_partial",
    "Ddl.Catalog.C69_view_query_violated",
    "Ddl.TriggerText.C69_mysql_trigger_text_partial",
    "Ddl.TriggerText.C69_mysql_trigger_text"
   ],
   "note": "Proved as equivalences: C69_tables, C69_columns, C69_constraints, C69_indexes, C69_triggers, C69_functions, C69_views, C69_database_name, C69_current_schema, C69_version, and for the whole database C69_database_partial, C69_contents_partial (with C46_contents). False of the code: GetExtensions ignores rows.Err and takes a list that breaks off for complete (C69_extensions_violated); versions with a suffix (8.0.31-0ubuntu0.20.04.1, 16beta1) make WithDB fail (C69_version_violated); NULL for the current schema is an error (C69_no_schema_violated); on SQLite the query of a view is what follows the first ` AS ` (C69_view_query_partial, C69_view_query_violated). The SELECT lists of the scripts are read off the scripts; what the scripts make the database answer is outside the model. The statement put together for a MySQL trigger names the reported trigger and table (C69_mysql_trigger_text, C69_mysql_trigger_text_partial)."
  },
  {
   "property": "C70",
   "status": "partial",
   "theorems": [
    "Ddl.Default.C70_needs",
    "Ddl.Default.C70_to_expr",
    "Ddl.Default.C70_writable",
    "Ddl.Default.C70_roundtrip_partial",
    "Ddl.Default.C70_bracketed",
    "Ddl.Default.C70_violated",
    "Ddl.Default.C70_mysql",
    "Ddl.Default.C70_postgres"
   ],
   "note": "Proved: C70_needs, C70_to_expr, C70_writable, C70_roundtrip_partial (literals and expressions not in brackets), C70_bracketed (texts in brackets: exact condition), C70_postgres. False of the code (C70_violated): `(1)+(2)` is taken to be in brackets, so DEFAULT (1)+(2) is written; `((1)+(2))` and `(1)` are read back without their brackets; 'a' || 'b' is taken for a literal."
  },
  {
   "property": "C71",
   "status": "partial",
   "theorems": [
    "Sq.Building.Values.C71_setters",
    "Sq.Building.Values.C71_careful_partial",
    "Sq.Building.Values.C71_append_once",
    "Sq.Building.Values.C71_not_twice",
    "Sq.Building.Values.C71_when_violated",
    "Sq.Building.Values.C71_append_violated"
   ],
   "note": "Full for the setters; for Append and When the full claim is false (C71_when_violated, C71_append_violated) and the careful programs are proved."
  },
  {
   "property": "C72",
   "status": "partial",
   "theorems": [
    "Sq.Lexical.C72_readable_partial",
    "Sq.Lexical.C72_cte_name_violated",
    "Sq.Lexical.C72_nameonly_violated",
    "Sq.Lexical.C72_expressions"
   ],
   "note": "Proved for every tree whose own SQL fragments read by themselves, including failing renderings; every expression function of the package keeps that condition (C72_expressions). The names that the code writes unquoted (CTE names and columns, the nameonly modifier, ON CONSTRAINT, row aliases, tables of a MySQL multi-table DELETE) are fragments too: with a quote in them the text cannot be read (C72_cte_name_violated, C72_nameonly_violated). C65_statements_partial uses it: for SELECT, INSERT, UPDATE and DELETE no assumption about the text is left."
  },
  {
   "property": "C73",
   "status": "proved",
   "theorems": [
    "Sq.Dial.C73_one_dialect",
    "Sq.Dial.C73_given",
    "Sq.Dial.C73_own",
    "Sq.Dial.C73_parts",
    "Sq.Dial.C73_set_operation_edges"
   ],
   "note": "C73_one_dialect, C73_given, C73_own, C73_parts, C73_set_operation_edges. A user-defined Query's GetDialect is a parameter. Building a CTE or subquery from INSERT/UPDATE/DELETE does look at the dialect of that query (GetFetchableFields): C50."
  },
  {
   "property": "C74",
   "status": "partial",
   "theorems": [
    "Ddl.CallProofs.C74_call",
    "Ddl.CallProofs.C74_load",
    "Ddl.CallProofs.C74_refused",
    "Ddl.CallProofs.C74_table_partial",
    "Ddl.CallProofs.C74_database",
    "Ddl.CallProofs.C74_exclude_violated",
    "Ddl.CallProofs.C74_references_violated",
    "Ddl.CallProofs.C74_default_violated"
   ],
   "note": "C74_call, C74_load, C74_refused, C74_table_partial (composed with C59: tags declare things once, no Config, no empty names), C74_database. Gaps of the code: unnamed Exclude refuses expressions (C74_exclude_violated), References drops the schema (C74_references_violated), an expression that begins and ends with a string literal is not bracketed (C74_default_violated)."
  },
  {
   "property": "C75",
   "status": "proved",
   "theorems": [
    "Sq.Sending.C75_fetch_sends",
    "Sq.Sending.C75_fetch_refused",
    "Sq.Sending.C75_fetch_values",
    "Sq.Sending.C75_exec",
    "Sq.Sending.C75_exists_sends",
    "Sq.Sending.C75_exists_answer",
    "Sq.Sending.C75_fetch_chain",
    "Sq.Sending.Example.C75_applies"
   ],
   "note": "C75_fetch_sends, C75_fetch_refused, C75_fetch_values, C75_fetch_chain, C75_exists_sends, C75_exists_answer, C75_exec; C75_applies is a run with a database that refuses any other statement. User-defined query types are excluded (Own); rendering that does not terminate (C12) is excluded by hypothesis."
  },
  {
   "property": "C76",
   "status": "partial",
   "theorems": [
    "Ddl.Again.C76_second_partial",
    "Ddl.Again.C76_declared",
    "Ddl.Again.C76_example",
    "Ddl.Again.C76_extension_violated"
   ],
   "note": "C76_declared: database read by WithDB before and after, tables declared with WithTables. C76_second_partial: any metadata. C76_example meets all hypotheses. Excluded: functions and extensions, for which the claim is false (C76_extension_violated, C36_wanted_function_dropped_violated), schemas without tables, and on SQLite constraints are not compared. With UpdateExisting the database has to report the compared features of a column as declared (ReportsColumns), which is up to the database."
  },
  {
   "property": "C77",
   "status": "partial",
   "theorems": [
    "Sq.Repeat.C77_repeatable_partial",
    "Sq.Repeat.C77_other_dialects",
    "Sq.Repeat.C77_no_insert_select",
    "Sq.Repeat.C77_writes",
    "Sq.Repeat.C77_example",
    "Sq.Repeat.C77_shared_select_violated",
    "Sq.Repeat.C77_other_dialect_violated"
   ],
   "note": "C77_repeatable_partial: any sequence of calls, each SQLite call gives what it would have given at the start, if the SELECTs that are sources of INSERTs are used in no other way (onlySources_insert, onlySources_cte show such queries). C77_other_dialects and C77_no_insert_select: no change at all. C77_writes: the only change there can be. C77_example meets the hypotheses. False in general: the shared SELECT gets WHERE TRUE (C77_shared_select_violated), and so does the same INSERT rendered for another dialect afterwards (C77_other_dialect_violated). Rendering the same INSERT from two goroutines on SQLite is therefore a data race, which this model does not describe. That rendering writes nowhere else was read off the code (value receivers), not proved."
  },
  {
   "property": "C78",
   "status": "proved",
   "theorems": [
    "Sq.Storing.C78_values",
    "Sq.Storing.C78_set",
    "Sq.Storing.C78_stored_values",
    "Sq.Storing.C78_changed_set",
    "Sq.Storing.C78_select",
    "Sq.Storing.C78_select_key",
    "Sq.Storing.C78_delete",
    "Sq.Storing.C78_update",
    "Sq.Storing.C78_insert",
    "Sq.Storing.C78_stored",
    "Sq.Storing.C78_found",
    "Sq.Storing.C78_changed"
   ],
   "note": "C78_stored, C78_found, C78_changed, and C78_stored_values, C78_changed_set for Columns(...).Values(...)... and Set(...); the texts are C78_insert, C78_values, C78_select, C78_select_key, C78_update, C78_set, C78_delete. Tables without predicate hooks, one key condition; an aliased table cannot be inserted into on MySQL (InsertQuery refuses it)."
  },
  {
   "property": "C79",
   "status": "partial",
   "theorems": [
    "Sq.Upserting.C79_upsert_partial",
    "Sq.Upserting.C79_keep",
    "Sq.Upserting.C79_quoted_violated",
    "Sq.Upserting.C79_upserted_partial",
    "Sq.Upserting.C79_again_partial",
    "Sq.Upserting.C79_kept"
   ],
   "note": "C79_upserted_partial, C79_again_partial (columns to be changed have names that need no quotes), C79_kept and C79_keep (any names). Missing because false of the code: AssignExcluded and AssignValues do not quote the column name, so a column such as \"full name\" gives a statement that is not SQL (C79_quoted_violated)."
  },
  {
   "property": "C80",
   "status": "partial",
   "theorems": [
    "Sq.Choosing.C80_select_partial",
    "Sq.Choosing.C80_delete_partial",
    "Sq.Choosing.C80_update_partial",
    "Sq.Choosing.C80_found_partial",
    "Sq.Choosing.C80_changed_partial",
    "Sq.Choosing.C80_negated_violated"
   ],
   "note": "C80_select_partial, C80_update_partial, C80_delete_partial, C80_found_partial, C80_changed_partial. Missing because false of the code: a negated And/Or group that stands alone in the clause (or alone in such a group) is written without parentheses, so NOT applies to its first operand only (C80_negated_violated, see C17); names with two adjacent quotes inside (C01) or that are SQL keywords in lower case (not quoted); IN with no values. Tests between two other expressions than a column and a column or value are not in the specification's reader."
  },
  {
   "property": "C81",
   "status": "partial",
   "theorems": [
    "Sq.Asking.C81_reads_partial",
    "Sq.Asking.C81_fetched_partial",
    "Sq.Asking.C81_pages_partial",
    "Sq.Asking.C81_exists_partial",
    "Sq.Asking.C81_negated_violated",
    "Sq.Asking.C81_nulls_violated"
   ],
   "note": "C81_reads_partial, C81_fetched_partial, C81_pages_partial, C81_exists_partial. Missing because false of the code: a negated And/Or group alone in ON or WHERE (C81_negated_violated, see C17), NullsFirst/NullsLast on MySQL (C81_nulls_violated, see C56), names with two adjacent quotes inside (C01) or that are SQL keywords in lower case. Not in the specification: DISTINCT, GROUP BY, HAVING, WINDOW, subqueries as tables and expressions as columns (their texts: C55, C61, C62)."
  },
  {
   "property": "C82",
   "status": "partial",
   "theorems": [
    "Sq.Changing.C82_update_reads_partial",
    "Sq.Changing.C82_delete_reads_partial",
    "Sq.Changing.C82_updated_partial",
    "Sq.Changing.C82_removed_partial",
    "Sq.Changing.C82_own_column_violated",
    "Sq.Changing.C82_raw_name_violated",
    "Sq.Changing.C82_negated_violated"
   ],
   "note": "C82_update_reads_partial, C82_delete_reads_partial, C82_updated_partial, C82_removed_partial. Missing because false of the code: columns of the changed table on the right of an assignment on PostgreSQL and SQLite lose their qualifier (C82_own_column_violated), MySQL DELETE ... USING writes the table's name raw (C82_raw_name_violated), a negated And/Or group as only condition (C82_negated_violated, see C17), names as in C81. Not in the specification: MySQL assignments that use a column assigned in the same statement, RIGHT and FULL joins of a changed table on MySQL, several tables in one MySQL DELETE, RETURNING, ORDER BY and LIMIT (texts: C55, C62)."
  },
  {
   "property": "C83",
   "status": "partial",
   "theorems": [
    "Sq.Copying.C83_reads_partial",
    "Sq.Copying.C83_stored_partial",
    "Sq.Copying.C83_negated_violated"
   ],
   "note": "C83_reads_partial, C83_stored_partial. Missing because false of the code: a negated And/Or group as only condition (C83_negated_violated, see C17), names that are not read as they are, NULLS FIRST/LAST on MySQL (as in C81). Not in the specification: conflict targets and DO UPDATE with a SELECT (texts: C55; with values: C79), RETURNING. That the code changes the question on SQLite while rendering is C77."
  },
  {
   "property": "C84",
   "status": "partial",
   "theorems": [
    "Sq.Guarding.C84_reads_partial",
    "Sq.Guarding.C84_fetched_partial",
    "Sq.Guarding.C84_visible_partial",
    "Sq.Guarding.C84_exists_partial",
    "Sq.Guarding.C84_removed_partial",
    "Sq.Guarding.C84_outer_violated",
    "Sq.Guarding.C84_no_conditions_violated",
    "Sq.Guarding.C84_update_violated",
    "Sq.Paging.C84_pages_partial"
   ],
   "note": "C84_reads_partial, C84_fetched_partial, C84_visible_partial, C84_exists_partial, C84_removed_partial. Missing because false of the code: a SELECT or DELETE without conditions of its own is no SQL (C84_no_conditions_violated, C19), LEFT/RIGHT/FULL JOIN of a table with a policy loses rows that should have NULLs (C84_outer_violated; never shows forbidden ones), UPDATE ignores policies (C84_update_violated, C20), tables of USING in DELETE (C20_delete_using_violated), tables in sub-queries are asked with the sub-query's environment (C19_subquery_env_violated), and what is missing in C81 (names, negated groups)."
  },
  {
   "property": "C85",
   "status": "partial",
   "theorems": [
    "Sq.Returns.C85_insert",
    "Sq.Returns.C85_delete_partial",
    "Sq.Returns.C85_update_partial",
    "Sq.Returns.C85_stored",
    "Sq.Returns.C85_changed_partial",
    "Sq.Returns.C85_removed_partial",
    "Sq.Returns.C85_mysql",
    "Sq.Returns.C85_exists_violated"
   ],
   "note": "C85_insert, C85_stored and C85_mysql without restriction; C85_update_partial, C85_delete_partial, C85_changed_partial, C85_removed_partial with the conditions of C80 (negated group alone, names: C80_negated_violated). The last sentence is false of the code: FetchExists puts the statement inside EXISTS (...) (C85_exists_violated). Not in the specification: INSERT ... SELECT and ON CONFLICT with RETURNING, several tables."
  },
  {
   "property": "C86",
   "status": "partial",
   "theorems": [
    "Sq.Shared.C86_reads_partial",
    "Sq.Shared.C86_fetched_partial",
    "Sq.Shared.C86_rows_partial",
    "Sq.Shared.C86_exists_partial",
    "Sq.Shared.C86_quoted_violated",
    "Sq.Paging.C86_pages_partial"
   ],
   "note": "Proved for CTE names that need no quotes, different from each other, and with the conditions of C81 (negated group alone, names, NULLS FIRST on MySQL). False of the code for other names: WITH and FROM write them as they are while fields quote them (C86_quoted_violated). Not in the specification: recursive CTEs, explicit column lists, MATERIALIZED (C34, C55 have their text), CTEs of INSERT, UPDATE and DELETE."
  },
  {
   "property": "C87",
   "status": "partial",
   "theorems": [
    "Sq.Different.C87_reads_partial",
    "Sq.Different.C87_fetched_partial",
    "Sq.Different.C87_once_partial",
    "Sq.Different.C87_negated_violated",
    "Sq.Different.C87_exists_violated",
    "Sq.Paging.C87_pages_partial"
   ],
   "note": "Proved with the conditions of C81 (negated group alone, names, NULLS FIRST on MySQL), and ORDER BY as SQL has it for DISTINCT (selected columns only; for DISTINCT ON its fields first). False of the code outside of them: C87_negated_violated. FetchExists of a SelectDistinct with ORDER BY sends DISTINCT 1 sorted by a column that is not selected (C87_exists_violated)."
  },
  {
   "property": "C88",
   "status": "partial",
   "theorems": [
    "Sq.Paging.C88_pages_partial",
    "Sq.Nested.C88_reads_partial",
    "Sq.Nested.C88_fetched_partial",
    "Sq.Nested.C88_rows_partial",
    "Sq.Nested.C88_exists_partial",
    "Sq.Nested.C88_negated_violated"
   ],
   "note": "Proved with the conditions of C81 (negated group alone, readable names, NULLS FIRST on MySQL) on the question and on the bodies; bodies are about tables, not about further subqueries. Unlike CTEs (C86_quoted_violated), names that need quotes work. False of the code outside of the conditions: C88_negated_violated."
  },
  {
   "property": "C89",
   "status": "partial",
   "theorems": [
    "Sq.Grouped.C89_reads_partial",
    "Sq.Grouped.C89_fetched_partial",
    "Sq.Grouped.C89_exists_partial",
    "Sq.Grouped.C89_total_partial",
    "Sq.Grouped.C89_once_partial",
    "Sq.Grouped.C89_counted_partial",
    "Sq.Grouped.C89_negated_violated",
    "Sq.Paging.C89_pages_partial"
   ],
   "note": "Proved with the conditions of C81 (negated group alone, readable names, NULLS FIRST on MySQL). Conditions of HAVING are comparisons of fields and aggregates with values. Missing: other conditions in HAVING (groups, Not, aggregates compared with each other), FetchExists without GROUP BY, aggregates of expressions, FILTER and DISTINCT in aggregates, aliases of fields. False of the code outside of the conditions: C89_negated_violated."
  }
 ]
}