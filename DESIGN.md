# DESIGN — formal model of bokwoon95/sq2 in Lean 4

Status: written before the proofs, kept current as the model grows.

## Trusted base

* Lean 4.33.0's kernel. No `native_decide`, no `bv_decide`, no axioms of our own; every property theorem depends on at
  most `propext`, `Classical.choice`, `Quot.sound` (checked with `#print axioms` / the gate's audit).
* The reading of the Go code into Lean. There is no mechanical link: every definition carries a comment citing file and
  lines in `/repo`, and the simplifications made there.
* Go semantics assumed: `bytes.Buffer` writes append; `append` on a slice writes in place iff capacity suffices; a map is a
  finite map; `strings.IndexByte`, `strconv.Itoa`, `strconv.Atoi`, `sort.SearchStrings`, `reflect` kind tests behave as
  documented; a read past the end of a string or slice panics; `defer` runs LIFO.

## Conventions

* A Go `string`/`[]byte` is `Str = List Char`, one `Char` per **byte** (all bytes the code compares are ASCII, so reading
  non-ASCII bytes as opaque characters is exact; theorems quantify over all `List Char`, a superset of byte strings).
* `error` returns and panics are explicit results (`Res`): `ok`, `err e`, `panic`. `nil` interface values are explicit.
* A function that mutates through pointers (`buf`, `args`, `params`) becomes a state transformer over `St`.
* Go interfaces with dynamic dispatch (`Field`, `Predicate`, `Table`, `Query`, `interface{}`) become one inductive `Node`;
  the type switches of the code become case analysis on it.
* Where the code violates the property as stated, the module has a `..._violated`/`..._counterexample` theorem with a concrete
  witness evaluated by the kernel and a `_partial` theorem for the largest domain on which it holds.

## Layout

* `Verif/Spec/*` — small independent specifications (SQL literal scanner, boolean grammar, finite maps ...).
* `Verif/Model/*` — the model, function by function.
* `Verif/Proof/*` — helper lemmas.
* `Verif/Props/*` — the property theorems and their non-vacuity examples.
* `Verif/Conform/*` — tests of the model, not proofs, and no property rests on them: the expectations of the tests of /repo, which its
  authors checked against the real code, translated by `tools/gotest.py`, `tools/ddltest.py` and `tools/sakila.py` and evaluated on the model
  in the kernel (some 300 expectations of package sq, 116 of package ddl, and the complete migration scripts of the Sakila database for
  SQLite, PostgreSQL and MySQL, 50 KB of SQL, from the Go declarations to the text). They are the evidence that the reading of the code is right.
* `tools/coverage.py` — lists the functions of packages `sq` and `sq/ddl` that no definition of the model cites (3 of 841).
* `tools/manifest.py`, `tools/seedlog.py`, `tools/addprop.py`, `tools/imp.sh` — bookkeeping.

## Plan per property

| id | modelled | how proved |
|----|----------|------------|
| C01, C02 | `EscapeQuote`, independent literal scanner | induction on the string (well-founded on length); C02 false in general (witness), iff-characterised domain |
| C03, C04 | `QuoteIdentifier` | from C01/C02 per dialect |
| C05–C08, C10 | the renderer: every `AppendSQL`/`AppendSQLExclude` of the package as state transformers over (pieces, args, params) | one generic induction principle over `Node`, instantiated with each invariant; C08 refinement to the resolved text, witness for ordinal capture |
| C09 | `NamedParam.AppendSQLExclude` | invariant over occurrence sequences |
| C11–C13 | `BufferPrintf`, `BufferPrintValue`, `lexModifiers` | induction over templates against an independent template semantics; panic characterisation |
| C14, C15 | `Sprintf`, `lookupParam` | state machine over segments; witnesses for first-byte and missing-argument bugs |
| C16 | `Sprint` | literal scanner, decimal decoding |
| C17, C18 | `VariadicPredicate`, `Not` | independent boolean grammar with precedence; parser applied to printer |
| C19–C23 | `SelectQuery`, `InsertQuery`, `UpdateQuery`, `DeleteQuery`, `JoinTable` | case analysis over the clause sequence; refinement "query with hooks = query with conjoined WHERE" |
| C24 | `VariadicQuery` | grammar as for C17 |
| C25 | `FieldInfo`, `sort.SearchStrings` | binary search correctness by invariant |
| C26 | `Column.Set` | induction over rows |
| C27 | `Model/Builder.lean`: all builder methods as effects on structs of slices over a heap of arrays with capacities; conflict builders as pointers. `Spec/Builder.lean`: the same programs on immutable values | simulation invariant over the references into the heap for careful programs (any growth function); frame theorem for full clauses; universal violation theorems for spare capacity, DeleteFrom, conflict values |
| C28–C30 | `Row`, `fetchContext`, exists, exec | state machine over a row stream with failure points |
| C31, C32 | `splitArgs`, `cutValue`, `popBraceToken`, `lexModifiers`, `tokenizeModifiers` | induction on input |
| C33 | metadata caches | invariant over operation histories |
| C34 | `generateName` | arithmetic on lengths |
| C35–C38 | `Migrate` | lists of commands as functions of both metadata; membership lemmas |
| C39 | `Migration.ExecContext` and all 16 command kinds (`Model/Command`, `Model/Run`) | the database is an oracle; the run is a prefix of the unique order by turns |
| C40 | `Migration.WriteSQL`; statement readers in `Spec/Script` | layout by induction over the loops; every statement reader reads the layout back; fragments closed in themselves (`Spec/Fragments`) make every command one statement, by structural closure of "tidy" texts |
| C41 | logger flags and the text of `LogQueryStats` | bit reasoning; what a terminal shows |
| C42 | the renderer | equality of pieces for queries that differ only in bound values |
| C43 | `fetchContext`, `fetchExistsContext`, `execContext` with their deferred logging | case analysis over all exits; witness for panicking mappers |
| C44, C45 | `Migrate` | membership of the produced commands, per mode bit |
| C46, C47 | `LoadTable`, `loadColumnConfig`, ... (`Model/Load`) | invariants over the modifiers of a tag |
| C48 | `Migrate` and the effect of its commands on what exists, for tables, columns, views, constraints, indexes and triggers | existing ∪ created ∖ dropped is what is wanted, from C36, C37 and C45 |
| C49 | `diffColumn`, ALTER COLUMN | iff-characterisation of the difference; witnesses |
| C50 | `newCTE`, `NewSubquery`, `As`, `Field`, `Get/SetFetchableFields` (Model/Derived) and their rendering | exact iff for fields; output names read off the rendered text by an independent reader; witnesses for quoting and panics |
| C51 | `popIdentifierToken(s)`, `populateTriggerInfo`, `populateFunctionInfo` (Model/Ident); non-termination is the result `hang` | words and layouts specified separately (Spec/Ident) with the SQL scanner for quotes; induction over layouts; length measure for termination; witnesses |
| C52 | the row readers of `GetIndexes` and `GetConstraints` after `rows.Scan` (Model/Scan); what the catalogs report is specified in Spec/Scan | split-after-join inverses by induction, on top of C31; alignment by induction over the keys; witnesses |
| C53 | Filter, printList, the choice of filter in queryContext and the WHERE clauses of the twenty scripts as token sequences (Model/Filter); meaning of IN lists, LIKE and AND in Spec/Filter | each clause is shown to be cond AND cond ..., each list text to denote its names (via C02), the LIKE patterns to their exact meaning; violations by concrete filters or for all filters with the bad field |
| C54 | Model/Expr: each constructor's format string and operands; Spec/Expr: the SQL form of each call as text and operands; Node/Render as before | the code of each call is shown to be texts and operand renderings in the order of the form (induction over the format and the CASE arms); C54_written compares with writing the operands one after another into the same buffer (Spec/Written); C54_forms_partial lifts each operand's own meaning into its place by C08 |
| C55 | the AppendSQL methods of all statements and their clauses (Model/Render, Model/Node) against forms in Spec/Clauses | composition of code that follows a form (Proof/Parts), one lemma per clause; C55_written compares with writing the parts one after another into the same buffer (Spec/Written), so operands may share parameters; C55_forms_partial resolves placeholders as in C08 |
| C56 | constructors, modifiers, FieldfDialect and all 98 predicate and assignment methods of the field types (Model/Field) | induction over the chain of calls; formats characterised by membership, which permutations preserve |
| C57 | the AppendSQL of every command (Model/Command) against a lexer for SQL tokens (Spec/Lexer) and the token form of each statement (Spec/DdlForm) | compositional rules for token sequences of concatenated texts (a part that ends at a token boundary, or a next part that starts with a break), then one lemma for each command; items by a parenthesis-depth argument |
| C58 | all AppendSQL methods of commands (Model/Command) against a table of features by dialect (Spec/DdlSupport) | an equivalence 'produces a text iff ...' composed over sequencing, conditions and loops; absence of panics by the same structure |
| C59 | LoadTable with all load*Config functions, the T builder (Model/Load) against a grammar of tags, its written form and its meaning (Spec/Declared, Spec/Built) | written tags are lexed back to the modifiers they were written from; a fold over modifiers is shown to build the meaning; induction over fields, calls and tables |
| C60 | Migrate, all commands' AppendSQL and ExecContext (Model/Migrate, Command, Run) against the feature table of C58 lifted to databases (Spec/Expressible) | each command list Migrate builds is shown to satisfy the accept condition of C58; the converse reads the accept condition of each command back into the wanted database |
| C61 | Model/Chain.lean: the four query structs, all methods of the twelve dialect query types as functions on them, which methods exist in which dialect, GetDialect | Spec/Chain.lean: the query asked for, each clause read off the list of calls (concatenation, last one, last replacement plus later additions); induction on the chain; the order theorem from the fact that each clause only looks at its own calls |
| C62 | Model/Render.lean, Model/Node.lean (all rendering methods), Model/Chain.lean (builders) | the requirements are written down in Spec/Renders.lean independently of the code; combinators Cond (code succeeds iff condition and parts render) mirror those of C55, one lemma per clause; for builders an invariant over the chain shows that the dialect conditions hold |
| C63 | Spec/Cascade: every dropped object with the options of its command; the model is Model/Migrate | all drops come from the dropping half; its commands are followed one kind at a time (Props/Cascade) |
| C64 | Model/View: the methods of *V and *VIndex as operations folded over the view; rendering by Model/Render, arguments put in by Model/Sprintf | induction over the calls; the names an index gets are those of C19, the triggers are read as in C51 |
| C65 | The rendering machine (Model/Machine, Node) composed with the model of Sprintf (Model/Sprintf, View.inlined) | Spec.resolve says which argument the database uses for each placeholder; Reads says that the written pieces, read as SQL, have the written placeholders as their placeholders; C65_inlined_partial composes C14's theorem with the resolution of placeholders, for every tree whose rendering succeeds; C65_statements_partial discharges Reads for statements by C72 |
| C66 | Model/Reflect: ReflectTable over a value model of structs (type name, fields with exported/embedded flags, tags, values), the node of a bound field, what LoadTable sees of the struct, defaultColumnType; `strings.ToLower` is a parameter. | Spec/Reflect states the binding as a relation (Called, FieldBound); induction over the fields; LoadTable side by invariants of Table.load (column names); second call by idempotence per field. |
| C67 | A small-step machine with any number of goroutines, two pools, heap cells, an RWMutex and a shared map (Model/Pool); each function that uses a pool or the cache as a program in a language where objects may be used after being given back, given back twice or not emptied. | An ownership invariant over all reachable states, preserved by each step of the machine for programs that meet a weakest-precondition rule (Proof/Pool); each function shown to meet it and to compute its sequential result; absence of races and deadlock from the invariant; termination by a well-founded order on the remaining programs. |
| C68 | Model/Stats: fetchContext, fetchExistsContext and execContext again, now with the query's text and arguments, the log settings and the whole QueryStats; refinement of Model/Fetch (C68_refines) | specification of an entry in Spec/Stats; case analysis over the exit paths, induction over the rows for the results shown; witnesses for builder queries and cancelled calls |
| C69 | Model/Catalog: the Get functions over a database that answers queries with cells, with rows.Scan and the conversions of database/sql; WithDB on top, ending in the withDB of Model/Load | columns referred to by name through the SELECT lists (Spec/Catalog.header); each reader characterised by an iff against a relation Says..., loops by induction with the leaked variables arbitrary; contents of the metadata from the loop lemmas of Proof/Introspect and Proof/Contents; witnesses for extensions, versions, NULL schemas and view texts |
| C70 | needsExpressionBrackets and columnEdit (Model/Load), toExpr (Model/Catalog); SQLite's report of a default as a relation in the specification | equivalences for both functions, the round trip by cases; the exact condition for texts in brackets; witnesses |
| C71 | the expression structs as further kinds of the builder model: slices into a heap of arrays, and slots (Model/Builder) | the invariant of C27 on references into the heap; setters never append; siblings by computation for all values |
| C72 | The whole renderer (Model/Render, Model/Node) and a lexer for the six dialects (Spec/Lexical: positions plain / inside a quote / just after a closing quote / just after a placeholder). | Triples 'from a position in A the effects lead to a position in B' for every rendering function, composed by induction over all nodes (Proof/Lexical); from the walk to the items of Spec/Literal (Proof/LexItems). The fragments a program supplies are required to read by themselves (Tame). |
| C73 | GetDialect of every query, the set-operation and Queryf constructors, ToSQL's choice (Model/Dialect) | forgetting the recorded dialects at all depths (Spec/Dialect) does not change rendering: structural induction over the tree with its hooks; dialects of chains by induction over the calls |
| C74 | the methods of T, TColumn, TConstraint, TIndex with their real arguments (Model/Calls), resolved to the effects of Model/Load | a relation between a call as written and the call with names and texts (Spec/Calls); acceptance iff the relation holds, by cases; whole tables by induction over the calls, composed with C59 |
| C75 | Model/Send: fetchContext, fetchExistsContext and execContext of Model/Stats called with an actual query node, which is asked for its dialect (Model/Dialect), given the mapper's fields (Model/Derived) and rendered (Model/Node) | WithFields, Selects and Asked as relations on query trees (Spec/Send); what is sent characterised by an iff; values by composing C28/C29 with the rendering; builder chains by C61 |
| C76 | Model/Migrate twice, with the metadata of Model/Load in between; what a database has after a migration as in C48 | composition of C48 (the state reached is the declared one) with C38_up_to_date; WithTables shown to name schemas and tables consistently (Proof/PlacedDecl), WithDB to report nothing as ignored |
| C77 | Model/Effect: SELECT queries held by pointer as a heap, a call of ToSQL writes WHERE TRUE to the sources of INSERTs on SQLite; results as in Model/Node | Proof/Pin: every rendering function depends on its parts only through what they render in the dialect at hand; by induction on the tree, filling the WHERE of sources at every depth leaves the SQLite text unchanged; invariant over the sequence of calls |
| C78 | Spec/Store writes the five statements as texts for any table, columns and number of records, and states what a database that understands them does to a list of rows (functions from columns to values); Spec/Store also has the builder calls of the user and a mapper that reads the columns. | Props/Store: parts that only add fixed text and values compose (`Adds`, from C55_written and C62_renders), so the text and arguments of each builder chain are computed by induction over columns and records (C78_insert, C78_select, C78_select_key, C78_update, C78_delete); with C26_rectangular for the column mapper, C75_exec and C75_fetch_values for sending and reading this gives C78_stored, C78_found and C78_changed. `memory_understands` shows a database that meets the hypothesis for every table. |
| C79 | Spec/Upsert writes the two statements as texts, gives the builder calls, and says record by record what storing does to the rows of a table (`Upserts`); `Understands` is a database for which the texts mean that. | Props/Upsert: text and arguments of the builder chains by the method of C78 (C79_upsert_partial, C79_keep); what `Upserts` does to rows with and without a stored key, and that a second time it is the identity, by induction over the records; together with C75_exec and C75_fetch_values this gives C79_upserted_partial, C79_again_partial and C79_kept. `store_understands` shows a database that meets the hypothesis for every table. C79_quoted_violated: AssignExcluded and AssignValues write a column name without the quotes it may need. |
| C80 | Spec/Where has three separate parts: conditions as Go programs build them with their meaning in three-valued logic (`Cond.truth`); a reader of SQL text (tokens of Spec/Lexer, placeholders resolved with the arguments, tests of columns, then the precedence parser of Spec/Boolean) that turns the text behind WHERE into an expression; and `Understands`, a database for which SELECT, UPDATE and DELETE with a readable WHERE concern the records for which the expression is true. | Proof/Where and Props/Where: each test is rendered as texts and values (from the forms of C55), the tree as printed tokens (C17's `Fits`), the text is read back token by token by induction over the printed tokens with the number of values used so far, and the expression read has the condition's truth value. Then C80_select_partial, C80_update_partial and C80_delete_partial give text, arguments and reading of the statements, and with C75's path to the database C80_found_partial and C80_changed_partial give the effects. `memory_understands` shows a database that meets the hypothesis for every table. C80_negated_violated: fetching with Where(Not(Or(a, b))) finds a record the condition does not describe. |
| C81 | Spec/Select: what a program asks for (`Ask`) and the records that answer it (`Ask.answer`: inner, outer and cross joins over lists of records with NULLs for missing partners, then the filter); a reader of whole SELECT statements (tokens, placeholders replaced by arguments, cut at clause words, table references with AS, ON and WHERE by the precedence parser, sort keys, LIMIT/OFFSET values) that mentions nothing of the code; `readExists`: the same inside `SELECT EXISTS (...)`; `Understands`: a database that answers each readable statement with the page of an arrangement of its rows that is sorted by its keys. | Proof/Select: each clause is a section of tokens and values (combinators that add up texts, arguments and the number of values used so far); joins by induction with the names in scope growing; `ask_reads` puts them together. Props/Select: C81_reads_partial (statement), C81_fetched_partial (records fetched through C75's path), C81_pages_partial (the pages concatenated are everything, each record once). C81_exists_partial: FetchExists, by the same parts with `1` selected. `memory_understands` and `memory_answers`: tables in memory with insertion sort meet the hypothesis, for every strict weak order. C81_negated_violated, C81_nulls_violated: witnesses for what is missing. |
| C82 | Spec/Change: which records of a table are meant (`Reach`, with the combinations `Reach.matches`), what UPDATE and DELETE make of them (`Updated`, `Removed`); readers of whole UPDATE and DELETE statements (`readUpdate`, `readDelete`) built on the reader of C81: SET in the place the dialect has it, unqualified assignment targets on PostgreSQL and SQLite, FROM/USING, joins whose conditions may mention only what is in FROM, the table of a MySQL DELETE by its label; `Understands`: a database that does what the text it reads says. | Proof/Change: assignments as lists of pieces, SET and USING as sections, the rest from Proof/Select; `update_reads`, `delete_reads`. Props/Change: C82_update_reads_partial, C82_delete_reads_partial (statements), C82_updated_partial, C82_removed_partial (what the tables are after Exec, through C75's path); `memory_understands`: tables in memory meet the hypothesis; C82_own_column_violated, C82_raw_name_violated, C82_negated_violated. |
| C83 | Spec/Fill: what is to be stored (`Filling`, `Stored`), a reader of whole INSERT ... SELECT statements (`readFill`) built on the reader of C81: the table, the column names in parentheses, a SELECT, nothing or ON CONFLICT DO NOTHING, the latter on SQLite only behind a WHERE; `Understands`: a database that does what the text it reads says. | Proof/Select `ask_written`: a question in any mode, so also in that of an INSERT (`WHERE TRUE` on SQLite), and followed by a clause that begins with ON; Proof/Fill `fill_reads`. Props/Fill: C83_reads_partial (the statement), C83_stored_partial (what the tables are after Exec, through C75's path); `memory_understands`: tables in memory meet the hypothesis; C83_negated_violated. |
| C84 | Spec/Guard: `Policy`, what may be seen (`permits`, `visible`, `answer`: the answer when nothing else is in the tables; `permittedAnswer`: the answers for which all policies hold), the Go calls with such tables (`query`, `fromQuery`, `deleteQuery`, `updateQuery`), `Placed`: no table with a policy is filled up with NULLs by an outer join. | Proof/Guard: such a query is sent as the same text and arguments as one without hooks whose conditions are the policies and the group of its own (`ask_plain`, `delete_plain`), and the answers to that are the permitted ones (`plain_answer`); filtering behind the joins is hiding before them (`permitted_answer`, by induction over the joins). Props/Guard through C81 and C80: C84_reads_partial, C84_fetched_partial, C84_visible_partial, C84_exists_partial, C84_removed_partial; C84_outer_violated, C84_no_conditions_violated, C84_update_violated. Props/Pages: C84_pages_partial (page after page is everything). |
| C85 | Spec/Returning: the texts (those of C78 and C80 with ` RETURNING columns`), the Go calls with `Returning`, and `Understands`: a database that does what such a statement says and answers with the records concerned, in some order. | Props/Returning: the texts (C85_insert, C85_update_partial, C85_delete_partial; RETURNING is what comes last: `construct_insert` ...), the round trip through C75's path for what is sent and what the mapper gets (C85_stored, C85_changed_partial, C85_removed_partial), C85_mysql; `memory_understands`: a table in memory meets the hypothesis; C85_exists_violated. |
| C86 | Spec/Cte: `Given` (a question and the name of its answer), `Answered` and `withAnswers` (the tables with such answers), the Go calls (through `newCTE`, `CTE.as`, `CTE.field` of Model/Derived and the builders of Model/Builder), a reader for `WITH name AS (SELECT ...), ... SELECT ...` that finds the closing parentheses itself, and `Understands`: a database that answers what is read. | Proof/Cte: every statement that is read is balanced (`bal_stmt`), so the reader finds the right parenthesis; fields and tables of CTEs are written as those of tables (`alike_field`, `alike_cond`, `alike_tab`, `alike_select`), so C81's reading applies to every body; `made_defined` by induction on the CTEs; `perm_answer`: the order of records does not matter. Props/Cte: C86_reads_partial, C86_fetched_partial, C86_rows_partial, C86_exists_partial (FetchExists tells whether there is a record on the page); `memory_understands` and `example_sound`: the hypotheses are met; C86_quoted_violated. Props/Pages: C86_pages_partial (page after page is everything). |
| C87 | Spec/Distinct: `OneOfEach` (one of each class of alike records, none of its class before it), the Go calls, a reader for `SELECT DISTINCT ...` and `SELECT DISTINCT ON (...) ...` with the rules of SQL for its ORDER BY, and `Understands`: a database that answers what is read. | Proof/Select: `ask_behind` (what stands behind the columns is read whatever stands before); Proof/Distinct: `distinct_reads`. Props/Distinct: C87_reads_partial, C87_fetched_partial, C87_once_partial; `memoryD_understands`, `someTotals_sound`, `largest_sound`: the hypotheses are met; C87_negated_violated, C87_exists_violated. Props/Pages: C87_pages_partial (page after page is everything). |
| C88 | Spec/Sub: what answers a question about questions (`Answered`), the Go calls (NewSubquery, Field, Asc, Desc, NullsFirst, NullsLast), a reader for `FROM (SELECT ...) AS name JOIN (SELECT ...) AS name ON ...` and `Understands`: a database that answers what is read, whatever order its rows come in. | Proof/Sub: `query_reads` (each statement in parentheses is read as its question, the statement around them as the question about their names). Props/Sub: C88_reads_partial, C88_fetched_partial, C88_rows_partial, C88_exists_partial (FetchExists tells whether there is a record on the page); `memory_understands`, `memory_answers`, `example_sound` (two subqueries, one whose name needs quotes): the hypotheses are met; C88_negated_violated. Props/Pages: C88_pages_partial (page after page is everything). |
| C89 | Spec/Group: what groups are (`Groups`, `Answers`), what is read of one (`Item.value`), which are wanted (`Bound`, `kept`), how they are sorted (`Ranked`, `before`: by fields or aggregates), the Go calls, a reader for `SELECT items FROM ... WHERE ... GROUP BY ... HAVING ... ORDER BY ... LIMIT ... OFFSET ...` that refuses selected columns, compared columns and sort keys that are not grouped by, and `Understands`: a database that answers what is read. | Proof/Group: `group_reads`. Props/Group: C89_reads_partial, C89_fetched_partial (rows of groups), C89_total_partial (CountAll is the number of records), C89_once_partial (each combination once); C89_counted_partial (every record is counted in one group); C89_exists_partial (FetchExists tells whether there is a group); `memoryG_understands`, `memoryG_answers`, `totals_sound`: the hypotheses are met; C89_negated_violated. Props/Pages: C89_pages_partial (page after page is everything). |

## Not modelled

* `database/sql`, its drivers and the databases: a database is what answers (any answers) or, in C48, a specification of what DDL does.
* The SQL text of the introspection scripts outside the conditions their templates generate (C53), and what a database would answer to it: the
  answers are quantified over.
* Formatting of times and floats (`time.Format`, `strconv.FormatFloat`): arbitrary functions, with the hypotheses stated where one is needed.
* `strconv.ParseFloat` on the text of a default (`num`), `strings.ToLower` on struct names (`lower`): arbitrary functions.
* `caller` (sq.go:253-264), which asks the Go runtime for the position of the call; its result is a parameter of the logger models (C43, C68).
* `cmd/`, `docs/`, `internal/testutil`, `ddl/enum.go` (an empty declaration).
* `sync.Pool` reuse outside Model/Pool: everywhere else a pooled buffer is a fresh empty buffer, which C67 justifies for any number of
  concurrent goroutines; the memory model below Go's happens-before (steps interleave, which race freedom justifies).
