{"id": "C01", "title": "Escaped text cannot break out of its quotes", "statement": "For every string s and every quote byte q, if the text q + EscapeQuote(s,q) + q is followed by arbitrary SQL, a standard SQL scanner that treats a doubled quote as an escaped quote closes the literal exactly at the final q: no content of s can terminate the literal early or swallow what follows it.", "quantifier": "every byte string s, every quote byte, every following SQL text not starting with the quote byte", "why_tests_cant": "Injection is about the one string nobody tried; the number of strings is infinite and the function has a special case for already doubled quotes.", "anchors": ["sq.go:EscapeQuote"]}
{"id": "C02", "title": "Escaping is lossless", "statement": "For every string s, scanning the quoted form of EscapeQuote(s,q) gives s back, so two different strings are never sent to the database as the same literal. (The code violates this for strings containing two adjacent quotes that are not at the end; it holds exactly for the other strings.)", "quantifier": "every byte string and every quote byte", "why_tests_cant": "Losslessness is an all-strings injectivity statement; tests sample a few strings.", "anchors": ["sq.go:EscapeQuote", "fmt.go:Sprint"]}
{"id": "C03", "title": "A quoted identifier is exactly one identifier token", "statement": "For every identifier and dialect, QuoteIdentifier returns either the identifier itself, when it is non-empty, made of [_a-z0-9] and not starting with a digit, or one delimited identifier in the dialect's delimiters that a scanner closes exactly at its end.", "quantifier": "every identifier string, every dialect, every following text", "why_tests_cant": "Ranges over all strings; a hostile or odd identifier is what breaks it.", "anchors": ["sq.go:QuoteIdentifier", "sq.go:EscapeQuote"]}
{"id": "C04", "title": "Quoting keeps different identifiers different", "statement": "For every dialect, the identifier denoted by QuoteIdentifier(d, x) is x, so QuoteIdentifier(d,x)=QuoteIdentifier(d,y) only if x=y. (Violated when x contains the doubled closing delimiter before its end; proved for all other identifiers.)", "quantifier": "every pair of identifiers, every dialect", "why_tests_cant": "Injectivity over all pairs of strings.", "anchors": ["sq.go:QuoteIdentifier", "sq.go:EscapeQuote"]}
{"id": "C05", "title": "Every placeholder refers to a bound argument", "statement": "Whenever rendering a query, predicate, field or table to SQL succeeds, every numbered placeholder the builder wrote ($n, @pn) satisfies 1 <= n <= len(args).", "quantifier": "every expression tree, dialect, environment and excluded-qualifier list", "why_tests_cant": "Trees are unbounded and values are deduplicated through a mutable params map; a single out-of-range index makes the driver reject the query.", "anchors": ["sq.go:ToSQL", "fmt.go:BufferPrintf", "fmt.go:BufferPrintValue", "param.go:NamedParam.AppendSQLExclude", "sq.go:explodeSlice"]}
{"id": "C06", "title": "MySQL placeholder count equals argument count", "statement": "For MySQL (and any dialect without numbered placeholders) the number of '?' written by the builder equals len(args), and the k-th '?' stands for args[k].", "quantifier": "every expression tree that renders successfully without sql.NamedArg", "why_tests_cant": "Must hold for every tree shape; positional binding shifts silently if one site appends a different number of arguments.", "anchors": ["sq.go:ToSQL", "fmt.go:BufferPrintValue", "param.go:NamedParam.AppendSQLExclude"]}
{"id": "C07", "title": "No argument is bound without being used", "statement": "For Postgres/SQLite/SQL Server, every element of the returned args is referenced by at least one placeholder in the returned query (Postgres rejects queries with unused parameters).", "quantifier": "every expression tree that renders successfully", "why_tests_cant": "Trees are unbounded; ordinal and named reuse make the correspondence non-local.", "anchors": ["fmt.go:BufferPrintValue", "param.go", "sq.go:explodeSlice"]}
{"id": "C08", "title": "Embedding an expression does not change what it means", "statement": "Rendering an expression inside a larger query yields, after replacing each placeholder by the value bound to it, the same SQL as rendering it alone. (Violated when an outer format uses an ordinal {n} and a nested format uses the same ordinal: the nested value is silently replaced by the outer one. Proved for all trees without ordinal or named parameters.)", "quantifier": "every expression tree and every state in which its rendering starts", "why_tests_cant": "The capture depends on the surrounding query, so every pair of context and expression must be considered.", "anchors": ["fmt.go:BufferPrintf", "fmt.go:BufferPrintValue", "sq.go:ToSQL"]}
{"id": "C09", "title": "A named parameter can be rebound through the returned params map", "statement": "After rendering, for every parameter name used, params[name] lists exactly the argument positions that its occurrences refer to: replacing args at those positions changes every occurrence and nothing else.", "quantifier": "every sequence of named-parameter and plain-value occurrences, every dialect", "why_tests_cant": "Occurrence sequences are unbounded and the behaviour differs per dialect (one shared slot or one per occurrence).", "anchors": ["param.go:NamedParam.AppendSQLExclude", "exec.go", "fetch.go"]}
{"id": "C10", "title": "Rendering only appends", "statement": "Rendering an expression never alters SQL already written, and leaves all previously bound arguments in place except positions owned by a reused named parameter.", "quantifier": "every expression tree, every prior buffer/args/params", "why_tests_cant": "All states and all trees.", "anchors": ["sq.go:SQLAppender", "fmt.go:BufferPrintf", "param.go"]}
{"id": "C11", "title": "Format strings: sequential placeholders and escaped braces", "statement": "For every template made of literal text with '{' doubled and k '{}' holes, and any k or more values, the rendered SQL is the literal text with the renderings of the first k values in order; with fewer than k values the result is an error.", "quantifier": "every template and every value list", "why_tests_cant": "Templates and value lists are unbounded.", "anchors": ["fmt.go:BufferPrintf", "fmt.go:Tablef", "custom_field.go:Fieldf", "predicate.go:Predicatef"]}
{"id": "C12", "title": "Formatting never panics", "statement": "Rendering a format string returns an error or a result but never panics. (Violated: a '{' as the last byte indexes past the end, and a 'name=' modifier indexes an empty string. Panics are characterised exactly.)", "quantifier": "every format string and every value list", "why_tests_cant": "Crash freedom over all strings.", "anchors": ["fmt.go:BufferPrintf", "reflect_table.go:lexModifiers"]}
{"id": "C13", "title": "Ordinal and named references pick the referenced value", "statement": "In a format rendered on its own, {n} stands for the n-th value and {name} for the last value with that name wherever and however often they occur; on numbered-placeholder dialects repeated scalar references share one argument; out-of-range ordinals and unknown names are errors.", "quantifier": "every list of references and every value list", "why_tests_cant": "Unbounded reference lists with mutable sharing state.", "anchors": ["fmt.go:BufferPrintf", "fmt.go:BufferPrintValue"]}
{"id": "C14", "title": "Sprintf leaves quoted text alone and substitutes everything else", "statement": "For a query made of ordinary text, quoted strings/identifiers and placeholders, Sprintf returns the query with every placeholder outside quotes replaced by the literal of its argument and everything inside quotes unchanged. (Violated when the query starts with a placeholder or a quote, because the first byte is always copied verbatim.)", "quantifier": "every query text and argument list, every dialect", "why_tests_cant": "All strings: quote tracking is a state machine over arbitrary input.", "anchors": ["fmt.go:Sprintf", "fmt.go:lookupParam"]}
{"id": "C15", "title": "Sprintf never panics", "statement": "Sprintf returns an error for a query with too few arguments; it never panics. (Violated on SQLite: an anonymous '?' beyond the argument list indexes out of range.)", "quantifier": "every query text, argument list and dialect", "why_tests_cant": "Crash freedom over all inputs.", "anchors": ["fmt.go:Sprintf", "fmt.go:lookupParam"]}
{"id": "C16", "title": "Inlined literals are single SQL tokens", "statement": "Sprint renders every supported scalar as one SQL literal: a string value is a quoted literal whose decoded content is the value, integers decode to themselves, nil is NULL, and no value can inject SQL.", "quantifier": "every scalar value, every dialect", "why_tests_cant": "All strings and integers.", "anchors": ["fmt.go:Sprint"]}
{"id": "C17", "title": "Boolean structure survives printing", "statement": "Parsing a printed predicate with SQL's precedence (NOT over AND over OR, parentheses) gives the boolean expression that was built from And, Or and Not. (Violated for a negated top-level And/Or with two or more operands, printed as NOT a AND b in WHERE/HAVING/ON; proved for all predicates without empty groups in every other position.)", "quantifier": "every predicate tree over And/Or/Not and atomic predicates, nesting unbounded", "why_tests_cant": "Predicate trees are unbounded and parentheses are elided depending on context.", "anchors": ["predicate.go:VariadicPredicate.AppendSQLExclude", "predicate.go:Not", "select_query.go:SelectQuery.AppendSQL"]}
{"id": "C18", "title": "Not is an involution and negates", "statement": "For every predicate p, Not(Not(p)) renders exactly as p, and Not(p) denotes the negation of p.", "quantifier": "every predicate tree", "why_tests_cant": "All trees.", "anchors": ["predicate.go:Not", "predicate.go:VariadicPredicate.Not", "predicate.go:CustomPredicate.Not"]}
{"id": "C19", "title": "Row-level hooks always filter SELECT", "statement": "If a table in FROM or JOIN supplies a predicate for the environment, a successful SELECT rendering has a WHERE clause that is the conjunction of all those predicates and the query's own WHERE. (Violated when the query has a hook and no own WHERE: the clause ends in a dangling AND.)", "quantifier": "every SELECT query, every hook behaviour and environment", "why_tests_cant": "Hooks are arbitrary user functions over arbitrary environments.", "anchors": ["select_query.go:SelectQuery.AppendSQL", "sq.go:PredicateHook"]}
{"id": "C20", "title": "Row-level hooks filter UPDATE and DELETE", "statement": "Predicates supplied by tables of an UPDATE or DELETE restrict the affected rows. (Violated: UPDATE computes the predicates and discards them; DELETE ignores USING and JOIN tables.)", "quantifier": "every UPDATE/DELETE query, every hook behaviour and environment", "why_tests_cant": "Hooks are arbitrary user functions.", "anchors": ["update_query.go:UpdateQuery.AppendSQL", "delete_query.go:DeleteQuery.AppendSQL"]}
{"id": "C21", "title": "A failing hook or nested part fails the query", "statement": "If a hook, a nested expression or a sub-query rendered as part of a query returns an error, rendering the query returns an error; SQL is never returned as success with a part missing. (Violated by window definitions, which discard errors of their PARTITION BY and ORDER BY fields.)", "quantifier": "every query tree and every position of the failing part", "why_tests_cant": "Position of the failure ranges over unbounded trees.", "anchors": ["select_query.go", "insert_query.go", "update_query.go", "delete_query.go", "window.go"]}
{"id": "C22", "title": "Dialect guards", "statement": "A clause a dialect does not support is never emitted: e.g. DISTINCT ON only on Postgres, RETURNING only on Postgres/SQLite, ON CONFLICT only on SQLite/Postgres, ON DUPLICATE KEY and INSERT IGNORE only on MySQL, UPDATE ... FROM never on MySQL, DELETE ... USING/JOIN never on SQLite, RIGHT/FULL JOIN never on SQLite; asking for it is an error.", "quantifier": "every query and every dialect", "why_tests_cant": "Every combination of clauses and dialects.", "anchors": ["select_query.go", "insert_query.go", "update_query.go", "delete_query.go", "join_table.go"]}
{"id": "C23", "title": "Structural completeness of queries", "statement": "A successfully rendered SELECT selects at least one field and has JOINs only with a FROM; an INSERT has VALUES or a SELECT; an UPDATE sets at least one field; inner/right/full joins carry a predicate.", "quantifier": "every query", "why_tests_cant": "Every combination of optional clauses.", "anchors": ["select_query.go", "insert_query.go", "update_query.go", "join_table.go"]}
{"id": "C24", "title": "Set operations keep their grouping", "statement": "For every nesting of UNION/INTERSECT/EXCEPT, the printed query parenthesises every nested combination of two or more queries so that the grouping read from the text is the grouping that was built.", "quantifier": "every nesting of set operations", "why_tests_cant": "Unbounded nesting.", "anchors": ["variadic_query.go:VariadicQuery.AppendSQL"]}
{"id": "C25", "title": "Column qualifiers are dropped exactly when excluded", "statement": "A field is printed without its table qualifier exactly when its qualifier (alias if any, otherwise table name) occurs in the excluded list, provided the list is sorted; otherwise it is printed qualified.", "quantifier": "every field and every sorted exclusion list", "why_tests_cant": "The lookup is a binary search: correctness is for all sorted lists of any length.", "anchors": ["field_info.go:FieldInfo.AppendSQLExclude", "update_query.go", "insert_query.go"]}
{"id": "C26", "title": "Column mapper builds rectangular rows", "statement": "For every list of rows over one list of distinct columns, a column mapper that sets each column once per row in the same order produces an INSERT with exactly those columns and one row value per row, in order; in UPDATE mode it produces one assignment per call. (Rows that set other columns are not detected: witness.)", "quantifier": "any number of rows and columns, any values", "why_tests_cant": "Unbounded row and column counts.", "anchors": ["column.go:Column.Set", "column.go:ColumnInsert", "column.go:ColumnUpdate"]}
{"id": "C27", "title": "Query builders are persistent", "statement": "Deriving queries from a common base does not change the base or the queries derived from it before: after any program of builder calls each query has exactly the clauses that the chain of calls that built it says. (Violated: append on a shared backing array with spare capacity overwrites the sibling's element, DeleteFrom writes in place, and conflict builders are shared pointers. Proved for programs that do not append twice to the result of one append, for single calls on clauses at full capacity, and the failure is proved for all others.)", "quantifier": "every history of builder calls on shared bases", "why_tests_cant": "Depends on slice capacities over all call histories.", "anchors": ["select_query_sqlite.go", "select_query_postgres.go", "select_query_mysql.go", "insert_query_postgres.go:OnConflict", "insert_query_sqlite.go:OnConflict", "update_query_postgres.go", "delete_query_postgres.go:DeleteFrom", "delete_query_sqlite.go:DeleteFrom"]}
{"id": "C28", "title": "Row mapper reads each column it registered", "statement": "If the mapper makes the same sequence of Row calls for every row as in the registration pass, call k of every row receives the value of the k-th selected field of that row, for every row.", "quantifier": "every mapper call sequence, any number of rows", "why_tests_cant": "Unbounded numbers of rows and columns; index bookkeeping is stateful.", "anchors": ["row.go:Row", "fetch.go:fetchContext"]}
{"id": "C29", "title": "Fetch visits every row once and always releases the result set", "statement": "Fetch calls the mapper once per row in order until a row error, processing error or early close; rowCount is the number of rows visited; the result set is closed on every path after the query ran; the first error is returned.", "quantifier": "every row stream, every failure point", "why_tests_cant": "All crash/failure points of the scan loop.", "anchors": ["fetch.go:fetchContext"]}
{"id": "C30", "title": "Cancellation reaches the database", "statement": "The context passed to a *Context function is the one given to the driver. (Violated by FetchExistsContext.)", "quantifier": "every context and every query", "why_tests_cant": "All call paths.", "anchors": ["fetch.go:FetchExistsContext", "exec.go:ExecContext", "fetch.go:FetchContext"]}
{"id": "C31", "title": "Argument splitting loses nothing", "statement": "splitArgs on a function argument list returns at least one argument, joining the arguments with ',' gives back the input, and no argument contains a comma outside brackets, parentheses and quotes.", "quantifier": "every string", "why_tests_cant": "All strings.", "anchors": ["ddl/fmt.go:splitArgs"]}
{"id": "C32", "title": "Struct-tag modifiers are tokenised faithfully", "statement": "For every list of modifier names and brace-balanced values, writing them as 'name={value}' or 'name' separated by spaces and tokenising gives the list back; unbalanced input is an error, never a truncated list.", "quantifier": "every list of modifiers with balanced values", "why_tests_cant": "All strings, nesting depth unbounded.", "anchors": ["reflect_table.go:lexModifiers", "reflect_table.go:cutValue", "ddl/fmt.go:tokenizeModifiers", "ddl/fmt.go:popBraceToken"]}
{"id": "C33", "title": "Position caches never lie", "statement": "Whatever sequence of append, refresh, rename, ignore and lookup operations was performed on a schema/table/column/constraint/index list, a lookup that returns a position returns one whose element has the requested name and is not ignored.", "quantifier": "every operation history", "why_tests_cant": "All histories including direct mutation of the exported slices.", "anchors": ["ddl/database_metadata.go", "ddl/schema.go", "ddl/table.go"]}
{"id": "C34", "title": "Generated constraint and index names are short and typed", "statement": "Every generated name has at most 63 bytes and ends with the suffix of its kind; different kinds on the same table and columns get different names. (Different column lists may collide: witness.)", "quantifier": "every table name, column list and kind", "why_tests_cant": "All lengths, including the truncation boundary.", "anchors": ["ddl/ddl.go:generateName"]}
{"id": "C35", "title": "Migration without DropExtraneous never destroys data", "statement": "For every wanted and existing schema and every mode without DropExtraneous, the computed migration contains no DROP of a table, column, view, index, constraint, trigger, function, schema or extension.", "quantifier": "every pair of metadata and every mode", "why_tests_cant": "All pairs of schemas.", "anchors": ["ddl/migration.go:Migrate"]}
{"id": "C36", "title": "DropExtraneous only drops what is not wanted", "statement": "With DropExtraneous, an existing object is dropped only if no wanted object has the same schema and name. (Violated: wanted tables declared without schema are dropped from the current schema; wanted extensions are dropped. Proved when every wanted object names its schema.)", "quantifier": "every pair of metadata", "why_tests_cant": "All pairs of schemas; data loss is the failure.", "anchors": ["ddl/migration.go:Migrate"]}
{"id": "C37", "title": "Every missing object is created and existing ones are not recreated", "statement": "With CreateMissing, for every wanted table not in the existing metadata exactly one CREATE TABLE is emitted, each missing column, constraint, index and trigger of an existing table is added, and an object present on both sides is not created again.", "quantifier": "every pair of metadata", "why_tests_cant": "All pairs of schemas.", "anchors": ["ddl/migration.go:Migrate"]}
{"id": "C38", "title": "Migration to the same state is empty", "statement": "Comparing metadata with itself gives a migration with no commands.", "quantifier": "every metadata value with consistent names, every mode", "why_tests_cant": "All schemas.", "anchors": ["ddl/migration.go:Migrate", "ddl/column.go:diffColumn"]}
{"id": "C39", "title": "Commands run in dependency order and stop at the first failure", "statement": "Executing a migration runs its non-ignored commands in the documented phase order (tables before views, indexes, triggers; foreign keys after all tables; drops last), each at most once, and a failure at any point leaves exactly a prefix of that order executed.", "quantifier": "every migration, every failure point", "why_tests_cant": "All failure points of unbounded command lists.", "anchors": ["ddl/migration.go:Migration.ExecContext", "ddl/migration.go:Migration.WriteSQL"]}
{"id": "C40", "title": "Generated scripts are statement-terminated", "statement": "Every command written by WriteSQL ends with exactly one statement terminator it needed, commands are separated, and an ignored command leaves no trace in the script.", "quantifier": "every migration", "why_tests_cant": "All migrations.", "anchors": ["ddl/migration.go:Migration.WriteSQL"]}
{"id": "C41", "title": "Logger flags behave as sets", "statement": "Combining logger flags enables exactly the union of the options; every flag combination is decoded without interference.", "quantifier": "every flag combination", "why_tests_cant": "All combinations.", "anchors": ["logger.go:NewLogger"]}
{"id": "C42", "title": "SQL text never depends on bound values", "statement": "Changing the plain values inside a query (comparison values, inserted values, parameter values, LIMIT and OFFSET numbers), keeping their Go types, changes the returned argument list value by value and leaves the returned SQL text, params map and success or failure unchanged; so no value can inject SQL and prepared statements can be reused.", "quantifier": "every query tree, dialect and type-preserving change of values", "why_tests_cant": "ranges over all trees and all values; a test samples a few hostile strings", "anchors": ["fmt.go: BufferPrintValue", "param.go: NamedParam.AppendSQLExclude", "sq.go: explodeSlice"]}
{"id": "C43", "title": "The query log tells the truth", "statement": "Whenever Fetch, FetchExists or Exec reports a query to the logger, the row count, existence flag, rows affected, last insert id and error in the report are the ones returned to the caller.", "quantifier": "every query, mapper, database answer and failure point", "why_tests_cant": "All failure points of the call, including panics inside the mapper, interact with the order of deferred functions.", "anchors": ["fetch.go:fetchContext", "fetch.go:fetchExistsContext", "exec.go:execContext"]}
{"id": "C44", "title": "A migration only does what its mode allows", "statement": "Migrate with a set of mode flags never produces a command of a kind the flags do not ask for: without CreateMissing nothing is created, without UpdateExisting no existing column is altered, without DropExtraneous nothing is dropped; mode 0 produces no command at all.", "quantifier": "all dialects, all pairs of metadata values, all eight mode combinations", "why_tests_cant": "the planner walks two arbitrary catalogues and eight modes; a test shows one pair", "anchors": ["ddl/migration.go: Migrate"]}
{"id": "C45", "title": "DropExtraneous drops everything that is not wanted", "statement": "With DropExtraneous, every schema-level and table-level object of the current database that the wanted metadata does not contain gets a drop command, so that after running the migration the catalogue holds nothing unwanted.", "quantifier": "all dialects and all pairs of metadata values", "why_tests_cant": "completeness of a plan is a statement about every object of every catalogue", "anchors": ["ddl/migration.go: Migrate"]}
{"id": "C46", "title": "Metadata built from tables is well-formed", "statement": "Metadata built with WithTables or WithDB can be searched by name: every table, column, constraint, index and trigger that was declared and not ignored is found under its name, its position is right, and no two of them share a name. Declaring the same thing twice updates it, it does not duplicate it.", "quantifier": "all struct declarations, tags, builder calls and introspection results", "why_tests_cant": "the invariant must survive every sequence of declarations", "anchors": ["ddl/database_metadata.go: WithTables, WithDB, loadTable", "ddl/t.go: LoadTable", "ddl/table.go: loadColumnConfig, loadConstraintConfig, loadIndexConfig"]}
{"id": "C47", "title": "Modifiers for another dialect have no effect", "statement": "A struct tag modifier prefixed with the name of another dialect does not change what is loaded: removing it from the tag gives the same metadata.", "quantifier": "all tags, modifiers, dialects and tables", "why_tests_cant": "tags are free text; tests try a few", "anchors": ["ddl/table.go: loadColumnConfig, loadTableConfig"]}
{"id": "C48", "title": "Running a migration leads to the wanted state", "statement": "With CreateMissing and DropExtraneous, after the commands of the migration have run, the database has exactly the tables, views and columns, the indexes and triggers of tables, and the constraints that the wanted metadata declares: what existed or was created, and was not dropped, is what is wanted. (False for constraints on SQLite, whose existing tables are left with the constraints they have; proved for all dialects otherwise.)", "quantifier": "all dialects, all pairs of well-formed metadata values, all modes with both flags", "why_tests_cant": "The claim relates three independently computed sets (existing, created, dropped) for every possible pair of schemas; tests fix a few pairs.", "anchors": ["ddl/migration.go:Migrate", "ddl/migration.go:Migration"]}
{"id": "C49", "title": "UpdateExisting alters exactly the columns that differ", "statement": "With UpdateExisting, an existing column whose type, nullability, default or identity differs from the wanted one gets an ALTER COLUMN command for that column that carries the wanted values, and a column that does not differ gets none. (Violated: on Postgres the command does not name its column; a changed default is not noticed. Proved for MySQL up to the comparison of defaults.)", "quantifier": "all pairs of metadata values and all modes with UpdateExisting", "why_tests_cant": "The comparison has many independent attributes and must be right for every combination of old and new values.", "anchors": ["ddl/migration.go:diffColumn", "ddl/migration.go:Migrate"]}
{"id": "C50", "title": "Fields of CTEs and subqueries refer to columns that exist", "statement": "A field taken from a CTE or subquery renders if and only if the CTE/subquery offers a column of that name (its declared columns, or the names/aliases of what its query returns), and it then renders as qualifier.column where the qualifier is the name under which the table is in scope and the column is the name the database gives that output. Anything wrong with the CTE/subquery is kept as an error that every later use returns; the constructors do not panic.", "quantifier": "all queries, names, aliases, declared column lists, dialects and buffer states", "why_tests_cant": "the agreement between the inner query's output names and the outer references must hold for every query shape and every identifier", "anchors": ["cte.go: NewCTE, NewRecursiveCTE, CTE.As, CTE.Field, CTEs.AppendSQL, CTEField.AppendSQLExclude", "subquery.go: NewSubquery, Subquery.Field, SubqueryField.AppendSQLExclude", "GetFetchableFields of every query"]}
{"id": "C51", "title": "Trigger and function texts are read for the names they give", "statement": "When a trigger or function is declared by its SQL text, the recorded trigger name, table (and schema), function name, schema, arguments and return type are the ones the text gives, wherever blanks, newlines, keyword case, IF NOT EXISTS or other clauses put them; names in quotes are recorded as the names they denote; reading always ends in a result or an error.", "quantifier": "all statement texts, word sequences, separators, keyword spellings and dialects", "why_tests_cant": "the names come out of arbitrary user text; tests cover a few layouts, and termination is a statement about every text", "anchors": ["ddl/fmt.go: popIdentifierToken, popIdentifierTokens", "ddl/trigger.go: populateTriggerInfo", "ddl/function.go: populateFunctionInfo", "ddl/t.go: T.Trigger"]}
{"id": "C52", "title": "Index and constraint rows are read back faithfully", "statement": "For every index and constraint in a database, introspection returns its key columns in order, the expression of every expression key at the position of that key, its included columns, predicate, operators, referenced columns and CHECK expression; it neither panics nor rejects the database.", "quantifier": "all lists of keys (columns and expressions), predicates, referenced columns and operators, on SQLite, PostgreSQL and MySQL", "why_tests_cant": "names and expressions are joined into one text by the catalog query and split again; whether that is invertible is a statement about all names and expressions", "anchors": ["ddl/introspect.go: GetIndexes, GetConstraints", "ddl/introspection_scripts/*_indexes.sql, *_constraints.sql", "ddl/fmt.go: splitArgs, popIdentifierToken"]}
{"id": "C53", "title": "Introspection filters select what they say", "statement": "GetTables, GetColumns, GetConstraints, GetIndexes, GetTriggers, GetViews and GetFunctions, given any Filter (nil meaning the default filter), send a well-formed query that returns exactly the objects the filter asks for: members of a non-empty With... list, non-members of every Without... list, and system catalogs only when IncludeSystemCatalogs is set; names in the lists are compared as given.", "quantifier": "every dialect, every kind of object, every filter and default filter, every row of the catalog", "why_tests_cant": "The filter is text spliced by templates into some twenty WHERE clauses; which combination of fields breaks which clause, and which names are misread, is a question over all filters and rows.", "anchors": ["ddl/introspect.go Filter, printList, (*DatabaseIntrospector).queryContext, GetTables, GetColumns, GetConstraints, GetIndexes, GetTriggers, GetViews, GetFunctions", "ddl/introspection_scripts/*.sql"]}
{"id": "C54", "title": "Expression functions write the SQL they are named after", "statement": "Eq, Ne, Gt, Ge, Lt, Le, In, IsNull, IsNotNull, Exists, NotExists, Like, ILike, the aggregates, all window functions, Assign, CASE WHEN and CASE x WHEN render as the SQL form of that name: every operand appears once, in its place, with the meaning it has when rendered alone and with its own values bound; queries in comparisons and assignments are parenthesised; and nothing else is written.", "quantifier": "every function, every operand (any field, value, slice, predicate, query or user-defined appender), any number of CASE arms, every dialect", "why_tests_cant": "operands are arbitrary trees whose placeholders are renumbered by what precedes them; only a proof over all trees relates the rendering of the whole to those of its operands", "anchors": ["predicate.go:138-179 cmp, Eq, In, Exists", "window.go:63-141", "case.go:25-151", "assignment.go:16-81", "string_field.go:83-85"]}
{"id": "C55", "title": "Every statement is written as the form it stands for", "statement": "Whenever a SELECT, INSERT, UPDATE, DELETE, set operation, join, common table expression, subquery, group of predicates, CASE expression, window, table, row, list of values or assignment renders without error, the SQL is exactly its form: the clauses that were given, each once, in the order SQL wants them, with their keywords, brackets and separators; every part means what it means when rendered alone, with its own values bound to it; and nothing else is written.", "quantifier": "all four dialects, all environments and excluded qualifiers, all statements built from any expressions, tables, joins, CTEs and subqueries of any nesting, including user-defined ones", "why_tests_cant": "The clauses that are present, the dialect and the number and kind of parts multiply; a missing space, a dropped or swapped clause or a value bound to the wrong part shows only for some combination, and the parts may be arbitrary user code.", "anchors": ["select_query.go: SelectQuery.AppendSQL", "insert_query.go: InsertQuery.AppendSQL", "update_query.go: UpdateQuery.AppendSQL", "delete_query.go: DeleteQuery.AppendSQL", "join_table.go: JoinTable.AppendSQL", "cte.go", "subquery.go", "window.go: Window.AppendSQL", "predicate.go: VariadicPredicate.AppendSQLExclude", "variadic_query.go", "case.go", "assignment.go", "rowvalue.go", "custom_field.go: Fields"]}
{"id": "C56", "title": "Field modifiers, formats and methods mean what they say", "statement": "Whatever chain of As, Asc, Desc, NullsFirst, NullsLast, Collate and Not is called on a field, it renders as before followed by the last collation, last sort order and last null order, each once and in that order, negated iff Not was called an odd number of times, with the same bound values and the last alias. A field with formats per dialect uses the format of the dialect in use, else the default, is an error without a default, and does not depend on the order in which Go visits the map. Every predicate or assignment method of every typed field means the function it is named after.", "quantifier": "all field types, all chains of modifier calls of any length, all format maps in any iteration order, all dialects and render positions, all argument values", "why_tests_cant": "Chains of calls are unbounded, Go map iteration order is random, and about a hundred near-identical methods over ten types are only ever sampled by tests.", "anchors": ["number_field.go", "string_field.go", "boolean_field.go", "time_field.go", "blob_field.go", "json_field.go", "uuid_field.go", "custom_field.go: FieldfDialect", "cte.go: CTEField", "subquery.go: SubqueryField", "field_info.go: FieldInfo.AppendSQLExclude"]}
{"id": "C57", "title": "The text of a DDL command says what the command says", "statement": "For every DDL command (create/alter/drop of tables, columns, constraints, indexes, views, triggers, functions, extensions, schemas) and every dialect: if ToSQL returns a text without error, then that text, read back token by token by the server's lexical rules, is exactly the statement the command describes: the right keywords, IF [NOT] EXISTS and CASCADE where asked, the object under its schema-qualified name, each column with its type, nullability, default, identity/generation and collation in this order, each constraint with its columns, referenced table, rules and deferrability, each index with its method, elements, INCLUDE columns and predicate, and the items of CREATE TABLE and ALTER TABLE are exactly the non-ignored parts of the command in order, separated by single commas. A command marked as ignored has empty text; triggers and functions are copied verbatim.", "quantifier": "every command value (all fields arbitrary), every dialect, every name (with blanks, quotes, upper case), every list length", "why_tests_cant": "The texts are built by dozens of conditional writes over several lists, with separators and spaces written by hand in each branch; a missing space or comma shows only for one combination of fields, and the combinations are exponentially many.", "anchors": ["ddl/column.go", "ddl/constraint.go", "ddl/index.go", "ddl/table.go", "ddl/view.go", "ddl/trigger.go", "ddl/function.go", "ddl/extension.go", "ddl/schema.go", "AppendSQL"]}
{"id": "C58", "title": "DDL commands are refused exactly when the dialect cannot do them", "statement": "Rendering a DDL command never panics as long as its parallel lists (columns/expressions/operators of an index or exclusion constraint, schemas/names of a drop) have equal lengths: it yields a text or an error. It yields an error exactly if the command needs a feature that the dialect does not have (identity and autoincrement columns, virtual generated columns, IF [NOT] EXISTS, CASCADE, CONCURRENTLY, INCLUDE, partial indexes, EXCLUDE, DEFERRABLE, NOT VALID, SQLite's limits of ALTER TABLE, materialized views, extensions, functions, schemas, ...) or makes no sense (a table without a name, virtual table arguments without a module, an exclusion element without operator, a non-key constraint from an index); nothing that was asked for is left out silently.", "quantifier": "every command value, every dialect, lists of any length", "why_tests_cant": "The refusals are some fifty conditions scattered over twenty methods; that exactly the right commands pass is a statement about all field combinations, not about the few that a test renders.", "anchors": ["ddl/column.go", "ddl/constraint.go", "ddl/index.go", "ddl/table.go", "ddl/view.go", "ddl/function.go", "ddl/extension.go", "ddl/schema.go", "AppendSQL"]}
{"id": "C59", "title": "Struct tags and builder calls say what the table is", "statement": "The table built from a Go struct is the one its tags describe: for every struct whose tags are written in the documented tag language (modifiers with optional dialect prefix, bare, braced or with nested modifiers, in any order), each column gets exactly the type, nullability, default (parenthesised where the dialect needs it), identity, generated expression, collation and key markings its tag asks for in the chosen dialect, each constraint and index declared on a column, on the table or inside a reference exists once with its declared or generated name, columns, references, rules and options, and nothing else is in the table. Calls made on the table builder in DDL() then have exactly the effect they name, in order, and refuse other tables' triggers and unknown columns. Declaring the same struct twice, or several structs, gives the database whose tables are these. A modifier that is not in the language is refused, never skipped; an `ignore` for the dialect removes the column or table from migration.", "quantifier": "every struct (any number of fields), every tag text that some list of modifiers is written as, every sequence of builder calls, every dialect, any number of tables", "why_tests_cant": "The tag language is recursive and the meaning of a tag depends on dialect, order, previously declared names and the field's type; a test reads a handful of tags. The theorem reads every tag against an independent grammar and meaning.", "anchors": ["ddl/table.go:LoadTable, loadTableConfig, loadColumnConfig, loadConstraintConfig, loadIndexConfig", "ddl/t.go:T", "ddl/database_metadata.go:WithTables", "ddl/ddl.go:lexModifiers, lexValue"]}
{"id": "C60", "title": "What Migrate returns can be written, unless the dialect lacks what is wanted", "statement": "Every command of a migration returned by Migrate can be rendered in the migration's dialect, so that executing it ends with success or with a statement that the database itself refused - never with a building error or a panic - provided the way from the existing database to the wanted one only uses features that the dialect has (Spec/Expressible: tables to create, columns, constraints and indexes to add). Conversely, if every command can be rendered then everything that was to be created is within the dialect: an unsupported table, column, constraint, index or schema makes the migration fail instead of being created without the unsupported part.", "quantifier": "every existing and wanted database metadata (any number of schemas, tables and parts), every mode, the three dialects, every database behaviour during execution", "why_tests_cant": "Migrate composes commands from two arbitrary databases, with flags (IF NOT EXISTS, OR REPLACE, CASCADE, one column per ALTER on SQLite) that differ by dialect; that no combination leads to a command its own renderer refuses is a statement about all pairs of databases.", "anchors": ["ddl/migration.go:Migrate", "ddl/table.go:decomposeAlterTableCommandSQLite2, decomposeDropTableCommandSQLite2", "ddl/view.go:decomposeDropViewCommandSQLite2", "ddl/migration.go:ExecContext"]}
{"id": "C61", "title": "A chain of builder calls is the query with the clauses asked for", "statement": "For every dialect builder, every starting function (Select, From, InsertInto, Update, DeleteFrom, ...With, ...) and every sequence of method calls, the resulting query has exactly the clauses the calls asked for: WITH, joins, WHERE, GROUP BY, HAVING, ORDER BY, rows, SET and RETURNING are everything added, in call order; tables, columns, LIMIT, OFFSET, mappers and the conflict clause are as last said; SelectDistinct replaces the select list and later Selects add to it. The order of calls for different clauses does not matter: two chains with the same calls for each clause give the same SQL, arguments and errors. Fetch, Exec and ToSQL(\"\", q) render the query in the builder's dialect with the builder's environment. (Violated by the code: OrderBy of a DELETE replaces instead of adding, and DoNothing / OnConflictOnConstraint stick, so a later OnConflict has no effect.)", "quantifier": "every builder dialect and environment, every starting function, every sequence of calls of any length with any arguments", "why_tests_cant": "there are infinitely many chains and a test checks one order of one combination", "anchors": ["select_query_mysql.go: From..Offset", "select_query_postgres.go", "select_query_sqlite.go", "insert_query_mysql.go", "insert_query_postgres.go: OnConflict, DoNothing, DoUpdateSet", "insert_query_sqlite.go", "update_query_mysql.go", "update_query_postgres.go", "update_query_sqlite.go", "delete_query_mysql.go: OrderBy", "delete_query_postgres.go: DeleteFrom", "delete_query_sqlite.go", "join_table.go: Join..CustomJoin", "sq.go: ToSQL"]}
{"id": "C62", "title": "A query renders exactly if it is complete and its parts render", "statement": "ToSQL (and Fetch, Exec) of a SELECT, INSERT, UPDATE or DELETE, of a join, CTE, subquery, set operation, group of predicates, CASE, list, assignment, column, parameter, or of a predicate, table or query written with a format succeeds if and only if (1) what it needs is there and exists in the dialect - fields for SELECT, a table and rows or a query for INSERT, a table and assignments for UPDATE, a table for DELETE, a table before joins, predicates for JOIN, a name for a CTE, an alias for a subquery on PostgreSQL/MySQL, values for the references of a format; no DISTINCT ON outside PostgreSQL, no RETURNING on MySQL, no RIGHT/FULL JOIN on SQLite, and so on; no table's predicate hook fails, the column mapper reports no error - and (2) every part of it, rendered in its place, succeeds. For a query made with the methods of its own dialect's builder, none of the dialect conditions can fail except an alias of the table of a MySQL INSERT.", "quantifier": "all constructs, all dialects, environments, excluded qualifiers and rendering methods; all chains of builder calls of any length; all format templates and values", "why_tests_cant": "that nothing valid is rejected and nothing incomplete slips through is a claim about every combination of clauses, dialects and parts; tests show single combinations", "anchors": ["select_query.go: SelectQuery.AppendSQL", "insert_query.go: InsertQuery.AppendSQL", "update_query.go: UpdateQuery.AppendSQL", "delete_query.go: DeleteQuery.AppendSQL", "join_table.go: JoinTable.AppendSQL", "cte.go: CTE.AppendSQL, CTEs.AppendSQL", "subquery.go: Subquery.AppendSQL", "predicate.go: VariadicPredicate.AppendSQLExclude", "variadic_query.go: VariadicQuery.AppendSQL", "case.go", "fmt.go: BufferPrintf", "field_info.go: FieldInfo.AppendSQLExclude", "param.go: NamedParam.AppendSQLExclude", "select_query_mysql.go", "insert_query_postgres.go", "update_query_sqlite.go", "delete_query_mysql.go"]}
{"id": "C63", "title": "CASCADE only when asked for, IF EXISTS whenever possible", "statement": "A command that Migrate produces to drop an object says CASCADE exactly if the mode has the DropCascade flag, so that without the flag nothing goes that is not named in the migration; and it says IF EXISTS exactly where the dialect allows it.", "quantifier": "every pair of metadata values, every mode, every dialect, every object dropped", "why_tests_cant": "Any table, column, constraint, index, trigger, view, function or extension of an arbitrary database may be the one dropped; a test shows a few.", "anchors": ["ddl/migration.go:Migrate", "ddl/migration.go:DropCascade", "ddl/table.go:decomposeDropTableCommandSQLite2", "ddl/view.go:decomposeDropViewCommandSQLite2"]}
{"id": "C64", "title": "A view declared in Go is what the declaration says", "statement": "Loading a view struct succeeds exactly if the view and all its columns have names and every call of its DDL method is all right where it stands: a query must render and return, by name and number, the columns of the struct; on PostgreSQL a trigger must be readable, and an index must come after the view was declared materialized, have a name and be over columns or expressions that render. The loaded view then has the declared schema and name, is materialized exactly if asked for (PostgreSQL), has the text of the last query set with its arguments put in, and has exactly the declared indexes (unless Config edits them) and triggers in order if their names differ. Outside PostgreSQL materialization, indexes and triggers have no effect. Loading views changes no table and no other view.", "quantifier": "all view declarations (every sequence of calls, every query, field and format), every dialect, every database metadata they are loaded into", "why_tests_cant": "the DDL method is an arbitrary sequence of calls whose order matters, over arbitrary query trees; a test runs a few views", "anchors": ["ddl/v.go: V.SetQuery, V.IsMaterialized, V.Trigger, V.Index, V.NameIndex, VIndex.*, View.LoadDDLView", "ddl/view.go: createOrUpdateIndex", "ddl/t.go: sprintf, getColumnNames, getColumnNamesAndExprs", "ddl/database_metadata.go: loadDDLView, WithDDLViews"]}
{"id": "C65", "title": "A query turned into plain SQL means the query with its arguments put in", "statement": "Wherever the library turns a query or expression into plain SQL text - the defining query of a view declared in Go, check and index predicates, index expressions, logged queries - the text is the query as it would be sent to the database with each placeholder replaced by the SQL literal of exactly the argument the database would have used for it, every other character (in particular everything inside quotes) unchanged; it fails only if an argument has no literal.", "quantifier": "every query or expression tree, every dialect, every list of argument values, every table-qualifier exclusion list", "why_tests_cant": "Rendering numbers and shares arguments while writing, and a separate scanner later looks for placeholders in the finished text; only a proof about the composition shows that the scanner finds the placeholders that were written, all of them and no others, for every tree.", "anchors": ["fmt.go: Sprintf", "fmt.go: BufferPrintf", "ddl/v.go: SetQuery", "ddl/t.go: Check", "logger.go: LogQueryStats"]}
{"id": "C66", "title": "A table struct stands for one table, in queries and in migrations", "statement": "After ReflectTable(&t, alias) on a struct that begins with an embedded TableInfo and whose tags can be read, the struct stands for the table named by its TableInfo, else by the sq tag of the TableInfo, else by the lower-case type name, known as alias; every exported field of one of the package's eight field types that was not yet bound is the column of that table named by its sq tag, else by its lower-case Go name; every other field is unchanged. In every dialect such a field is written in a query as that column qualified by the alias (else the table name), and loading the struct for a migration declares a table of the same schema and name whose columns are exactly those its exported fields are bound to, with default types the dialect has. ReflectTable succeeds only on such structs, and a second call changes nothing but the alias in the TableInfo.", "quantifier": "every struct (any number of fields of any kinds, any tags), alias, dialect, DDL method and lower-casing function", "why_tests_cant": "Struct shapes, tag texts and names are unbounded; a test sees a handful of structs, and the query side and the migration side are tested apart.", "anchors": ["reflect_table.go ReflectTable", "reflect_table.go lexModifiers", "ddl/t.go LoadTable", "ddl/ddl.go defaultColumnType", "table_info.go TableInfo"]}
{"id": "C67", "title": "Concurrent calls do not disturb one another", "statement": "ToSQL, Exec, Fetch, FetchExists, Sprintf, EscapeQuote, QuoteIdentifier, the logger, the declaration methods of ddl and the queries of one DatabaseIntrospector may be called from any number of goroutines at once. However the goroutines interleave, whichever pooled buffer or argument slice each of them is handed, and whatever the pools drop, every call that returns has returned exactly what it returns when it runs alone with new buffers; no two goroutines ever access one buffer, slice or template map at the same time with one of them writing; there is no deadlock; and every call returns.", "quantifier": "all lists of calls with all arguments, all interleavings of their steps, all choices of the pools (which object Get returns, New at any time, objects dropped at any time), all contents of the template files", "why_tests_cant": "a leaked or prematurely returned buffer shows only under particular schedules and pool choices; sync.Pool is deliberately nondeterministic, and the race detector only sees the schedules that were run", "anchors": ["sq.go: bufpool, argspool, ToSQL, ToSQLExclude, EscapeQuote, QuoteIdentifier", "fmt.go: Sprintf", "exec.go: execContext", "fetch.go: fetchContext, fetchExistsContext, decorateScanError, computeFieldNames", "logger.go: LogQueryStats", "ddl/ddl.go: generateName", "ddl/introspect.go: queryContext, printList, GetTriggers", "ddl/t.go: sprintf, getColumnNamesAndExprs", "ddl/v.go: SetQuery"]}
{"id": "C68", "title": "What a logger is told about a query", "statement": "Putting a logger on the database does not change what Fetch, FetchExists and Exec do: same statements and arguments sent, same context, same effects of the row mapper, same result and error, whatever the logger's settings. With a logger, every call that reaches rendering makes exactly one entry, and it says what happened: dialect, the text and arguments that were sent (or, if rendering failed, the text so far and the error), the error returned to the caller, the row count, the first rows up to the logger's limit with field names and values and how many more there were, the existence answer, rows affected and last id, the kind of query, its environment and the table modified. A logger whose settings fail makes the call fail before anything happens.", "quantifier": "all queries, mappers, databases, answers, log settings and dialects", "why_tests_cant": "the entry is assembled on every exit path of three functions with deferred code; tests see one path at a time", "anchors": ["fetch.go: fetchContext, computeFieldNames, accumulateResults, fetchExistsContext", "exec.go: execContext", "logger.go: QueryStats, LogSettings, LogQueryStats"]}
{"id": "C69", "title": "What the database reports is what the metadata says", "statement": "Reading a database with WithDB (or with the Get methods of a DatabaseIntrospector) gives exactly the objects the database reports: each row of each introspection query becomes one object, in order, each value of the row in the field of its name, converted as database/sql does; a value that cannot be converted, a failing query, or a result set that ends with an error makes the whole call fail; nothing of one row leaks into the next. The metadata then has these tables, views, functions, columns, constraints, indexes and triggers, each in its place, and nothing else. The version is read as its numbers. The query of a view is read back as it was written.", "quantifier": "all databases (answers to the queries), dialects, rows, values, failures, view names and queries", "why_tests_cant": "the scans have up to 18 positional destinations per dialect; a swapped pair or a leaked variable shows only on particular rows, and a failure only when the connection breaks at particular points", "anchors": ["ddl/introspect.go: NewDatabaseIntrospector, GetVersionNums, GetDatabaseName, GetCurrentSchema, GetExtensions, GetTables, GetColumns, GetConstraints, GetIndexes, GetTriggers, GetFunctions, GetViews", "ddl/database_metadata.go: WithDB", "ddl/introspection_scripts"]}
{"id": "C70", "title": "A column default survives the way to the database and back", "statement": "The default of a column is written so that the database accepts it: a literal, keyword or number as it is, any other expression in brackets (not on PostgreSQL). Read back from the database it is the same text as declared, so that it can be written again.", "quantifier": "all default texts", "why_tests_cant": "the brackets are decided by the first and last character only; examples do not show which texts are misjudged", "anchors": ["ddl/ddl.go: needsExpressionBrackets, toExpr", "ddl/table.go: loadColumnConfig", "ddl/introspect.go: GetColumns"]}
{"id": "C71", "title": "Conditions, CASE expressions and windows are values", "statement": "Deriving a condition (And, Or, Append, Not), a CASE expression (CaseWhen, Case, When, Else, As) or a window (PartitionBy, OrderBy, Frame) from another one changes neither the other one nor anything derived from it before: after any program of such calls each value has exactly the parts that the chain of calls that built it says; Not twice gives the original back. (Violated for Append and When: they append to a slice that may be shared, so of two CASE expressions derived by When from one with three WHENs the first is changed by the second. Proved without restriction for all the calls that set or replace a part, for any number of single Appends to a condition written with listed arguments, and for programs in which no two calls add to the result of the same call.)", "quantifier": "every history of calls on shared expressions, every growth of capacities", "why_tests_cant": "Depends on slice capacities over all call histories.", "anchors": ["predicate.go:VariadicPredicate.Append", "predicate.go:VariadicPredicate.Not", "predicate.go:And", "predicate.go:Or", "case.go:PredicateCases.When", "case.go:SimpleCases.When", "case.go:CaseWhen", "window.go:Window.PartitionBy", "window.go:Window.OrderBy", "window.go:Window.Frame"]}
{"id": "C72", "title": "Rendered text can be read: quotes closed, placeholders only where written", "statement": "If the SQL fragments a program supplies itself (format strings, literals, join and set operators, window frames) are lexically complete, then the text of every query or expression, in every dialect, consists of ordinary text, properly closed quoted texts and placeholders; each placeholder is one that was written for a bound value and is separated from what follows; no table, column or alias name and no value can break out of its quotes or introduce a placeholder.", "quantifier": "all trees of queries and expressions of any size, all names, aliases and values, all dialects, whether or not rendering fails", "why_tests_cant": "A single unquoted name or glued placeholder in some combination of clauses is an injection or a wrong binding; the combinations of nested clauses, names and dialects are unbounded.", "anchors": ["sq.go:QuoteIdentifier", "sq.go:EscapeQuote", "sq.go:explodeSlice", "fmt.go:BufferPrintf", "fmt.go:BufferPrintValue", "select_query.go:SelectQuery.AppendSQL", "insert_query.go:InsertQuery.AppendSQL", "update_query.go:UpdateQuery.AppendSQL", "delete_query.go:DeleteQuery.AppendSQL", "cte.go:CTEs.AppendSQL", "field_info.go:FieldInfo.AppendSQLExclude"]}
{"id": "C73", "title": "A statement is written in one dialect", "statement": "A query made with the builder of a dialect, by any chain of calls, is written in that dialect by ToSQL without a dialect, Fetch and Exec; a set operation takes the dialect of its first query; a dialect given to ToSQL overrides. Parts of a statement (subqueries, CTEs, operands, values, hook predicates, at any depth) are always written in the dialect of the whole statement, whatever dialect they were built for: two statements that differ only in the dialects their parts were built for have the same text, arguments, parameters and error. A set operation of nothing writes nothing; one whose first query is nil is refused if a dialect is given (without one, asking for it panics).", "quantifier": "every query tree, every chain of builder calls, every nesting of set operations, every dialect", "why_tests_cant": "Trees and chains are unbounded, and every kind of node could consult its own dialect.", "anchors": ["sq.go:ToSQL", "variadic_query.go:VariadicQuery.GetDialect", "variadic_query.go:Union", "select_query.go:SelectQuery.GetDialect", "fmt.go:Queryf", "fetch.go:FetchContext", "exec.go:ExecContext"]}
{"id": "C74", "title": "A table's DDL method declares what its calls say", "statement": "In the DDL method of a table, a call is accepted exactly if its arguments stand for something: the fields that must be columns exist and have a name, formats and expressions render (columns not qualified with the table; qualified in triggers), a referenced table has a name, a trigger's text names the trigger and the table. The table is then exactly the one declared by the same calls with those column names and SQL texts, arguments inlined: defaults bracketed on other dialects than PostgreSQL unless they are constants, index expressions bracketed, exclusion expressions bare. A call whose arguments stand for nothing makes loading fail, unless the tags say that the table is not for the dialect.", "quantifier": "every table struct, every dialect, every sequence of DDL calls with any fields, formats and values", "why_tests_cant": "Calls, formats and value trees are unbounded; their texts depend on the dialect and are inlined into the metadata from which all migrations are made.", "anchors": ["ddl/t.go:T.Column", "ddl/t.go:TColumn.Generated", "ddl/t.go:TColumn.Default", "ddl/t.go:T.Check", "ddl/t.go:T.Exclude", "ddl/t.go:T.NameExclude", "ddl/t.go:T.Unique", "ddl/t.go:T.PrimaryKey", "ddl/t.go:T.ForeignKey", "ddl/t.go:TConstraint.References", "ddl/t.go:TConstraint.Where", "ddl/t.go:T.Index", "ddl/t.go:TIndex.Where", "ddl/t.go:TIndex.Include", "ddl/t.go:T.Trigger", "ddl/t.go:getColumnNames", "ddl/t.go:getColumnNamesAndExprs", "ddl/t.go:sprintf", "ddl/t.go:Table.LoadTable"]}
{"id": "C75", "title": "Fetch, FetchExists and Exec run the query they are given", "statement": "Fetch sends exactly one statement: what ToSQL gives, in the query's own dialect, for the query with the fields its row mapper reads (found by calling it once) as its SELECT or RETURNING list; if the database answers with one value per field, the mapper finds on every row under each field the value of that field. FetchExists sends SELECT EXISTS (query), with 1 for the fields of a query that has none, and returns the truth value answered; Exec sends what ToSQL gives for the query and returns the counts reported. If the query is nil, cannot be given fields (set operations, formatted queries, INSERT/UPDATE/DELETE where there is no RETURNING) or cannot be rendered, nothing is sent and the call does not succeed.", "quantifier": "every query tree of the package's own types, every row mapper, database behaviour, logger setting and dialect; every chain of SELECT builder calls", "why_tests_cant": "Queries, mappers and answers are unbounded; the link between what a mapper reads and what is sent is made at run time by calling user code twice.", "anchors": ["fetch.go:fetchContext", "fetch.go:fetchExistsContext", "exec.go:execContext", "row.go:Row", "select_query.go:SelectQuery.SetFetchableFields", "insert_query.go:InsertQuery.SetFetchableFields", "update_query.go:UpdateQuery.SetFetchableFields", "delete_query.go:DeleteQuery.SetFetchableFields", "variadic_query.go:VariadicQuery.SetFetchableFields", "fmt.go:CustomQuery.SetFetchableFields"]}
{"id": "C76", "title": "Migrating a second time does nothing", "statement": "If a migration with CreateMissing and DropExtraneous has run and nothing else has happened to the database, then comparing the database with the same declaration in the same mode gives a migration without any command: no command drops what another creates, and nothing is created or dropped again on every start of the program.", "quantifier": "every reported database state, every set of declared tables, every mode that contains CreateMissing and DropExtraneous, every dialect", "why_tests_cant": "The claim relates two runs over all pairs of database states and declarations.", "anchors": ["ddl/migration.go:Migrate", "ddl/database_metadata.go:WithDB", "ddl/database_metadata.go:WithTables", "ddl/database_metadata.go:DatabaseMetadata.loadTable"]}
{"id": "C77", "title": "Asking for the SQL of a query does not change it", "statement": "ToSQL (and everything that renders a query: Fetch, Exec, a subquery, a CTE) leaves the query as it was: calling it again with the same dialect gives the same SQL and arguments, and so does every other query that shares parts with it, in whatever order and for whatever dialects the calls are made.", "quantifier": "every sequence of ToSQL calls, every dialect in each, every set of queries that share SELECT queries by pointer, every nesting of the INSERT in CTEs and subqueries", "why_tests_cant": "The claim ranges over all query values and all histories of calls on values they share; a test renders one query once or twice.", "anchors": ["insert_query.go:InsertQuery.AppendSQL", "select_query.go:SelectQuery.AppendSQL", "sq.go:ToSQL"]}
{"id": "C78", "title": "Records that are stored are the records that are fetched", "statement": "Storing records with InsertInto(table).Valuesx(...) (one Set per column and record), and then fetching the columns with From(table) and a row mapper, succeeds and hands the mapper what was in the table before followed by exactly the stored records: each once, in order, every value under its own column. Fetching with Where(key.Eq(v)) hands it exactly the records with that key; Update(table).Setx(...).Where(key.Eq(v)) changes exactly those records, to the given values, and DeleteFrom(table).Where(key.Eq(v)) removes exactly those. On every dialect the statement sent is the one a person would write: the columns and values in the same order, the placeholders numbered through, the columns of the table qualified where the dialect wants it.", "quantifier": "all dialects, tables (schema, name, alias), lists of columns with distinct names, numbers of records and values, previous table contents, mappers' kinds, loggers and contexts", "why_tests_cant": "It is about the whole path from builder calls through the column mapper, rendering, placeholders, sending, scanning and the row mapper, for any number of columns and records; a test fixes one table and a few rows.", "anchors": ["insert_query.go InsertQuery.AppendSQL", "update_query.go UpdateQuery.AppendSQL", "delete_query.go DeleteQuery.AppendSQL", "select_query.go SelectQuery.AppendSQL", "column.go Column.Set", "exec.go execContext", "fetch.go fetchContext", "row.go Row", "field_info.go FieldInfo.AppendSQLExclude"]}
{"id": "C79", "title": "Storing a record that is there already changes it or leaves it alone, as asked, and nothing else", "statement": "InsertInto(table).Valuesx(...).OnConflict(keys...).DoUpdateSet(AssignExcluded(col)...) (on MySQL OnDuplicateKeyUpdate(AssignValues(col)...)) sends one statement that stores every record: a record with a new key is added, and for a key that is there already exactly the named columns of that record get the new values. Afterwards every stored record is found with its values, records with other keys are untouched, and doing it again changes nothing. With DoNothing (on MySQL InsertIgnoreInto) what is there stays as it is and only the records with new keys are added, in order.", "quantifier": "all dialects, tables, columns with distinct names, lists of key columns and of columns to be changed, numbers of records with different keys, previous table contents, loggers and contexts", "why_tests_cant": "It is about the whole path from builder calls to the contents of the table, for any number of columns, keys, changed columns and records, and any previous contents; a test fixes one table and a few rows.", "anchors": ["insert_query.go InsertQuery.AppendSQL", "insert_query_postgres.go PostgresInsertConflict", "insert_query_sqlite.go SQLiteInsertConflict", "insert_query_mysql.go OnDuplicateKeyUpdate, InsertIgnoreInto", "assignment.go AssignExcluded, AssignValues", "column.go Column.Set", "exec.go execContext"]}
{"id": "C80", "title": "Conditions select exactly the records they describe", "statement": "Where(conditions...) on SELECT, UPDATE and DELETE writes a WHERE clause which, read as SQL reads it (NOT before AND before OR, parentheses, each placeholder standing for the argument sent with it), is true for a record exactly when every one of the conditions describes it: comparisons of columns with values or other columns, IsNull, IsNotNull, In, Not, and And/Or nested to any depth, with SQL's three-valued logic. So fetching gives exactly the records of the table that the conditions describe, Update changes exactly these and DeleteFrom removes exactly these.", "quantifier": "all dialects, tables with or without alias, columns, condition trees of any depth and width, values, table contents, ways the database compares values, loggers and contexts", "why_tests_cant": "A tree of conditions has unboundedly many shapes, and whether the printed text means the same depends on parentheses, operator precedence and the numbering of arguments at every node; a test compares a few texts with expected texts and never reads them back.", "anchors": ["predicate.go CustomPredicate.AppendSQLExclude, VariadicPredicate.AppendSQLExclude, Not, And, Or, Eq, Ne, Gt, Ge, Lt, Le, In", "fmt.go expandValues, appendSQLValue, BufferPrintf", "select_query.go SelectQuery.AppendSQL", "update_query.go UpdateQuery.AppendSQL", "delete_query.go DeleteQuery.AppendSQL", "fetch.go fetchContext", "exec.go execContext"]}
{"id": "C81", "title": "A SELECT with joins, conditions, ordering and paging means what was asked", "statement": "Select(columns...).From(table).Join/LeftJoin/RightJoin/FullJoin/CrossJoin(...)....Where(...).OrderBy(...).Limit(n).Offset(k), read back as SQL reads the whole statement with its arguments, is a statement that reads these columns, joins these tables in this order and these ways, with conditions true for exactly the records described, has these sort keys and this LIMIT and OFFSET. So fetching gives, from some arrangement of exactly the records asked for (each as often as the joins make it) in the order asked for, the page from the offset to the limit; fetching page after page gives every record exactly once. FetchExists tells whether there is any record on that page, whether the query has fields or not.", "quantifier": "all dialects, tables with or without schema and alias, numbers and kinds of joins, columns, condition trees of any depth, sort keys, limits and offsets, contents of all tables, orders and comparisons of the database, loggers and contexts", "why_tests_cant": "Clauses interact: each adds arguments that the numbering of later placeholders depends on, and each table name must be the one that the columns refer to. The combinations of joins, conditions, orders and pages are unbounded, and tests compare a few printed texts with expected texts without reading them back or running them on data.", "anchors": ["select_query.go SelectQuery.AppendSQL", "select_query_postgres.go, select_query_mysql.go, select_query_sqlite.go From, Join, LeftJoin, RightJoin, FullJoin, CrossJoin, Where, OrderBy, Limit, Offset", "join_table.go JoinTable.AppendSQL, JoinTables.AppendSQL", "custom_field.go Fields.AppendSQLExclude, AliasFields.AppendSQLExclude", "field_info.go FieldInfo.AppendSQLExclude", "predicate.go CustomPredicate.AppendSQLExclude, VariadicPredicate.AppendSQLExclude", "fetch.go fetchContext, fetchExistsContext"]}
{"id": "C82", "title": "UPDATE and DELETE with other tables change and remove exactly the records asked for", "statement": "Update(table).Set(...).From(other).Join(...)....Where(...) (on MySQL Update(table).Join(...)....Set(...).Where(...)) and DeleteFrom(table).Using(other).Join(...)....Where(...), read back as SQL reads the whole statement with its arguments, are about this table, find for each of its records exactly the combinations with records of the other tables that were asked for, and assign these values or columns to these columns. So executing them leaves all other tables and the records without such a combination as they are, gives every other record the new values computed with one of its combinations, and removes exactly the records that have one.", "quantifier": "all dialects, tables with or without schema and alias, numbers and kinds of joins, condition trees of any depth, assignments of values and of columns, contents of all tables, comparisons of the database, loggers and contexts", "why_tests_cant": "The order of the clauses and the qualification of the columns differ between the dialects, SET comes before the joins on two and after them on the third, and every clause adds arguments that later placeholders are counted from. A wrong combination changes or removes records that were not meant. Tests compare a few printed texts without reading them back or running them on data.", "anchors": ["update_query.go UpdateQuery.AppendSQL", "delete_query.go DeleteQuery.AppendSQL", "update_query_postgres.go, update_query_mysql.go, update_query_sqlite.go Set, From, Join, LeftJoin, RightJoin, FullJoin, CrossJoin, Where", "delete_query_postgres.go, delete_query_mysql.go Using, Join, LeftJoin, RightJoin, FullJoin, CrossJoin, Where", "assignment.go Assignment.AppendSQLExclude, Assignments.AppendSQLExclude", "join_table.go JoinTable.AppendSQL, JoinTables.AppendSQL", "fetch.go execContext"]}
{"id": "C83", "title": "INSERT ... SELECT stores exactly the answers to the question", "statement": "InsertInto(table).Columns(columns...).Select(question), with or without OnConflict().DoNothing(), where the question is a SELECT with joins, conditions, ordering and paging, read back as SQL reads the whole statement with its arguments, is about this table and these columns and selects the records asked for. In particular ON CONFLICT is not read as the condition of a join, as it would be on SQLite after a SELECT without WHERE. So executing it leaves all other tables and the records that are there as they are and adds records with the values of the page asked for, in the order asked for: all of them, or, if conflicts are skipped, none but these.", "quantifier": "all dialects, tables with or without schema and alias, columns, questions (numbers and kinds of joins, condition trees of any depth, sort keys, LIMIT and OFFSET), environments of the INSERT and of the question, contents of all tables, comparisons and orders of the database, loggers and contexts", "why_tests_cant": "The question is rendered inside another statement, with another mode and another environment, after the columns, and followed by a clause that begins like the condition of a join; on SQLite the code changes the question. A mistake stores other records than a fetch of the question shows. Tests compare a few printed texts without reading them back or running them on data.", "anchors": ["insert_query.go InsertQuery.AppendSQL", "insert_query_postgres.go, insert_query_mysql.go, insert_query_sqlite.go Columns, Select, OnConflict, DoNothing", "select_query.go SelectQuery.AppendSQL", "custom_field.go Fields.AppendSQLExclude", "fetch.go execContext"]}
{"id": "C84", "title": "Tables with row-level policies show and give up only what the policy permits", "statement": "If tables implement PredicateHook, each giving a condition on its own columns that depends on the environment of the query, then a SELECT over such tables (from, joins, conditions, ordering, paging), read back as SQL reads the whole statement with its arguments, selects exactly the answers to the question for which the conditions of all its tables hold, whatever the query's own conditions are. So Fetch never gives a record that a policy forbids and leaves out none that it permits, on every page; FetchExists tells whether there is such a record; these are the answers as if nothing but the permitted records were in the tables. DELETE removes, and UPDATE changes, only records that the policy permits.", "quantifier": "all dialects, policies (any condition tree per table and environment, or none), environments, questions (numbers and kinds of joins, condition trees of any depth, sort keys, LIMIT and OFFSET), contents of all tables, comparisons and orders of the database, loggers, contexts and row mappers", "why_tests_cant": "One leaked record in one tenant's answer is a breach; whether it leaks depends on how the policy's text, the query's own OR conditions, the outer joins and the numbering of arguments combine for data that no test has. Tests compare the printed text of one hook with one condition.", "anchors": ["sq.go PredicateHook", "select_query.go SelectQuery.AppendSQL", "delete_query.go DeleteQuery.AppendSQL", "update_query.go UpdateQuery.AppendSQL", "join_table.go JoinTables", "predicate.go VariadicPredicate.AppendSQLExclude", "fetch.go Fetch, FetchExists, Exec"]}
{"id": "C85", "title": "RETURNING gives back exactly what was stored, changed or removed", "statement": "On PostgreSQL and SQLite, Fetch with a row mapper through InsertInto(table).Valuesx(...), Update(table).Setx(...).Where(...) or DeleteFrom(table).Where(...) does to the table exactly what Exec of that query does, and gives the mapper the columns it reads of exactly the records stored (with what the database filled in itself), changed (as they are then) or removed, each once. The same holds for the statements built with Returning. On MySQL, which has no RETURNING, such a Fetch fails and sends nothing. FetchExists tells whether there is such a record.", "quantifier": "all dialects, tables with or without schema and alias, columns stored and columns given back, records and values, condition trees of any depth, contents of the table, comparisons of the database, loggers, contexts, kinds of reading and conversions", "why_tests_cant": "The fields that the mapper reads are put into the statement behind its back, after all values; a slip shows the wrong records, stores twice or nothing, or shifts columns. Tests compare texts of builders with an explicit Returning only, without data.", "anchors": ["insert_query.go InsertQuery.AppendSQL, SetFetchableFields", "update_query.go UpdateQuery.AppendSQL, SetFetchableFields", "delete_query.go DeleteQuery.AppendSQL, SetFetchableFields", "insert_query_postgres.go, insert_query_sqlite.go, update_query_postgres.go, delete_query_postgres.go, delete_query_sqlite.go Returning", "fetch.go Fetch, FetchExists"]}
{"id": "C86", "title": "A query with CTEs asks its question of the records that answer the CTEs' questions", "statement": "Fetch of Select().With(ctes...).From(table or cte).Join(table or cte, ...).Where(...).OrderBy(...).Limit(n).Offset(k), where each CTE is NewCTE(name, nil, query) of such a query, which may itself use the CTEs before it, and fields of a CTE are cte.Field(name), gives exactly the page asked for, in the order asked for, of the records that answer the question about the tables together with, under each CTE's name, an answer to that CTE's question with the columns it selects. Where no CTE is paged, what is fetched is determined but for its order. FetchExists of it tells whether there is any such record on the page.", "quantifier": "all dialects, lists of CTEs of any length, names, aliases, columns, joins of every kind and number, condition trees of any depth, sort keys, LIMIT and OFFSET of the query and of every CTE, values, contents of the tables, comparisons and orders of the database, loggers, contexts, kinds of reading and conversions", "why_tests_cant": "Every part of a CTE is rendered by different code when it is defined, joined, or has a field selected, and its arguments come before those of the query that uses it; a slip in any of these makes values or columns go to the wrong place. Tests compare the text of a few queries and run none.", "anchors": ["cte.go NewCTE, CTE.As, CTE.Field, CTE.AppendSQL, CTEs.AppendSQL, CTEField.AppendSQLExclude", "select_query.go SelectQuery.AppendSQL", "select_query_sqlite.go, select_query_postgres.go, select_query_mysql.go With, From, Join, LeftJoin, RightJoin, FullJoin, CrossJoin", "join_table.go JoinTable.AppendSQL", "fetch.go Fetch"]}
{"id": "C87", "title": "SelectDistinct and DistinctOn fetch one record of each combination", "statement": "Fetch of SelectDistinct (any joins, Where, OrderBy, Limit, Offset) gives, in the order asked for and for every page, each combination of values of the columns read among the records asked for exactly once; with PostgreSQL's DistinctOn(fields...) it gives one record for each combination of those fields, and one before which no other record of that combination comes in the order asked for.", "quantifier": "all dialects (DistinctOn: PostgreSQL), tables, columns, joins of every kind and number, condition trees of any depth, sort keys, LIMIT and OFFSET, values, contents of the tables, comparisons, orders and notions of sameness of the database, loggers, contexts, kinds of reading and conversions", "why_tests_cant": "Whether a combination comes twice or is missing depends on the contents of the tables and on where DISTINCT and the list of DISTINCT ON stand in the statement; tests compare the text of a few queries and run none.", "anchors": ["select_query.go SelectQuery.AppendSQL", "select_query_postgres.go, select_query_mysql.go, select_query_sqlite.go SelectDistinct, DistinctOn", "fetch.go Fetch, FetchExists"]}
{"id": "C88", "title": "A question about subqueries is about the records that answer them", "statement": "Fetch of a SELECT whose FROM table and joined tables are subqueries (NewSubquery of a SELECT with joins, Where, OrderBy, Limit and Offset of its own) or ordinary tables, with fields of the subqueries among its columns, conditions, join conditions and sort keys, gives the records asked for of tables that hold, under the subquery's name, an answer to the subquery's question: for every page, in the order asked for, with every argument at the place where it was written. FetchExists of it tells whether there is any such record on the page.", "quantifier": "all dialects, numbers of subqueries, names and aliases, bodies (columns, joins, condition trees, sort keys, pages), joins of every kind and number, condition trees of any depth, values, contents of the tables, comparisons and orders of the database, loggers, contexts, kinds of reading and conversions", "why_tests_cant": "The text nests statements with their own placeholders and aliases; whether each part lands in the scope it was written in, and whether the rows are the ones asked for, depends on every combination of clauses and on the data, none of which the tests run.", "anchors": ["subquery.go NewSubquery, Subquery.AppendSQL, Subquery.Field, SubqueryField", "select_query.go SelectQuery.AppendSQL", "join_table.go JoinTable.AppendSQL", "fetch.go Fetch"]}
{"id": "C89", "title": "GROUP BY and aggregates give one row of each group", "statement": "Fetch of Select(items...).From(...).GroupBy(fields...), where an item is a field of GROUP BY, or Count, Sum, Avg, Min or Max of a field, or CountAll, with joins, Where, Having, OrderBy, Limit and Offset, gives one row for each combination of values of the GROUP BY fields that occurs among the records asked for (without GROUP BY: one row for all of them) and whose group meets every condition of Having on its fields and aggregates, with the shared value of each GROUP BY field and the aggregates of exactly the records of that group: for every page, in the order of the fields and aggregates of OrderBy. CountAll alone is the number of records that answer the question. FetchExists of it tells whether there is any such row on the page.", "quantifier": "all dialects, tables, fields, aggregates and numbers of them, condition trees of any depth, joins of every kind and number, sort keys, pages, values, contents of the tables, comparisons, orders, notions of sameness and meanings of the aggregates of the database, loggers, contexts, kinds of reading and conversions", "why_tests_cant": "Which records fall into which group, and whether every one is counted exactly once, depends on the data, on how the clauses stand together in the text and on where each argument goes; the tests compare the text of a few queries.", "anchors": ["select_query.go SelectQuery.AppendSQL", "select_query_mysql.go MySQLSelectQuery.GroupBy", "select_query_postgres.go PostgresSelectQuery.GroupBy", "select_query_sqlite.go SQLiteSelectQuery.GroupBy", "window.go Count, CountAll, Sum, Avg, Min, Max", "fetch.go Fetch"]}
