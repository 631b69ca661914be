import Verif.Model.Quote
/-
Model of the introspection filters: ddl/introspect.go:22-32 (`Filter`), 77-90 (`printList`),
92-130 (`queryContext`) and the WHERE clauses of the templates in ddl/introspection_scripts that
`GetTables`, `GetColumns`, `GetConstraints`, `GetIndexes`, `GetTriggers`, `GetViews` and
`GetFunctions` execute.

Simplification: a WHERE clause is kept as a sequence of tokens.  A fixed condition of a script (such
as `"type" = 'table'`, `pg_constraint.contype = 'f'`) does not depend on the filter and is one opaque
token `fixed`; the column expressions are the texts of the scripts; the text that `printList` puts
between the parentheses of an `IN` is kept byte for byte.  SELECT lists, joins, GROUP BY and the
`{{ if .SortOutput }}` ORDER BY parts are left out.
-/
namespace Ddl

/-- ddl/introspect.go:22-32 `Filter` (`IncludeComments` and `SortOutput` play no part in WHERE). -/
structure Filter where
  includeSystem : Bool := false
  withSchemas : List Str := []
  withoutSchemas : List Str := []
  withTables : List Str := []
  withoutTables : List Str := []
  withFunctions : List Str := []
  withoutFunctions : List Str := []

/-- ddl/introspect.go:77-90 `printList`: every name between single quotes, with `EscapeQuote`, joined by
`, `. -/
def printList : List Str → Str
  | [] => []
  | [s] => '\'' :: (Sq.escapeQuote '\'' s ++ ['\''])
  | s :: t :: rest => '\'' :: (Sq.escapeQuote '\'' s ++ ['\'']) ++ ',' :: ' ' :: printList (t :: rest)

/-- One condition of a WHERE clause. -/
inductive Cond where
  /-- a condition of the script that mentions no filter -/
  | fixed
  /-- `col <> 'text'` -/
  | ne (col : String) (text : String)
  /-- `col NOT LIKE 'pattern'` (the pattern is the denoted text) -/
  | notLike (col : String) (pattern : String)
  /-- `col IN (list)` -/
  | isIn (col : String) (list : Str)
  /-- `col NOT IN (list)` -/
  | notIn (col : String) (list : Str)
  deriving DecidableEq

/-- Tokens of a WHERE clause. -/
inductive Tok where
  | and
  | cond (c : Cond)
  deriving DecidableEq

/-- One line of a WHERE clause in a template. -/
inductive Line where
  /-- text outside any `{{ if }}` (its inner `AND`s are part of the opaque condition) -/
  | fixed
  /-- `{{ if not .IncludeSystemCatalogs }}AND c1 AND c2 ...{{ end }}`; the flag says whether the leading
  `AND` is there -/
  | system (leadingAnd : Bool) (conds : List Cond)
  /-- `{{ if .guard }}AND col IN ({{ printList .list }}){{ end }}` -/
  | isIn (guard : Filter → List Str) (col : String) (list : Filter → List Str)
  /-- `{{ if .guard }}AND col NOT IN ({{ printList .list }}){{ end }}` -/
  | notIn (guard : Filter → List Str) (col : String) (list : Filter → List Str)

/-- text/template execution of one line: `{{ if x }}` on a slice tests that it is not empty. -/
def Line.render (f : Filter) : Line → List Tok
  | .fixed => [.cond .fixed]
  | .system lead conds =>
    if f.includeSystem then []
    else (if lead then [.and] else []) ++ (conds.map Tok.cond).intersperse .and
  | .isIn guard col list =>
    if (guard f).isEmpty then [] else [.and, .cond (.isIn col (printList (list f)))]
  | .notIn guard col list =>
    if (guard f).isEmpty then [] else [.and, .cond (.notIn col (printList (list f)))]

/-- A whole WHERE clause. -/
def renderWhere (f : Filter) (ls : List Line) : List Tok := ls.flatMap (Line.render f)

/-- The objects a script lists. -/
inductive Kind where
  | tables | columns | constraints | indexes | triggers | views | functions
  deriving DecidableEq

/-- The line `{{ if not .IncludeSystemCatalogs }}AND tbl_name NOT LIKE 'sqlite_%' AND sql NOT LIKE
'CREATE TABLE ''%'{{ end }}` of every sqlite script (sqlite_tables.sql:8 etc.). -/
def sqliteSystem : Line :=
  .system true [.notLike "tbl_name" "sqlite_%", .notLike "sql" "CREATE TABLE '%"]

/-- The WHERE clause shared by all sqlite scripts: sqlite_tables.sql:6-10, sqlite_columns.sql:12-16,
sqlite_constraints.sql:21-25, 55-59, 95-99, sqlite_indexes.sql:20-24, sqlite_triggers.sql:7-11,
sqlite_views.sql:6-10. -/
def sqliteBlock : List Line :=
  [ .fixed, sqliteSystem,
    .isIn Filter.withTables "tbl_name" Filter.withTables,
    .notIn Filter.withoutTables "tbl_name" Filter.withoutTables ]

/-- `{{ if not .IncludeSystemCatalogs }}AND col <> 'information_schema' AND col NOT LIKE 'pg_%'{{ end }}`
(postgres_tables.sql:9 etc.). -/
def postgresSystem (col : String) : Line :=
  .system true [.ne col "information_schema", .notLike col "pg_%"]

/-- The usual WHERE clause of a postgres script with schema column `s` and name column `t`:
postgres_tables.sql:7-13, postgres_constraints.sql:43-49, 119-125, 162-168, 214-220,
postgres_indexes.sql:32-42, postgres_triggers.sql:10-16, postgres_views.sql:11-17, 26-32. -/
def postgresBlock (s t : String) : List Line :=
  [ .fixed, postgresSystem s,
    .isIn Filter.withSchemas s Filter.withSchemas,
    .notIn Filter.withoutSchemas s Filter.withoutSchemas,
    .isIn Filter.withTables t Filter.withTables,
    .notIn Filter.withoutTables t Filter.withoutTables ]

/-- postgres_columns.sql:56-63: the last line prints `.WithTables` where it tests `.WithoutTables`. -/
def postgresColumnsBlock : List Line :=
  [ .fixed, postgresSystem "schemas.nspname",
    .isIn Filter.withSchemas "schemas.nspname" Filter.withSchemas,
    .notIn Filter.withoutSchemas "schemas.nspname" Filter.withoutSchemas,
    .isIn Filter.withTables "tables.relname" Filter.withTables,
    .notIn Filter.withoutTables "tables.relname" Filter.withTables ]

/-- postgres_functions.sql:10-27. -/
def postgresFunctionsBlock : List Line :=
  [ .fixed, postgresSystem "schemas.nspname",
    .isIn Filter.withSchemas "schemas.nspname" Filter.withSchemas,
    .notIn Filter.withoutSchemas "schemas.nspname" Filter.withoutSchemas,
    .isIn Filter.withFunctions "proc1.proname" Filter.withFunctions,
    .notIn Filter.withoutFunctions "proc1.proname" Filter.withoutFunctions ]

/-- `{{ if not .IncludeSystemCatalogs }}AND col NOT IN ('mysql', 'information_schema',
'performance_schema', 'sys'){{ end }}` (mysql_tables.sql:8 etc.). -/
def mysqlSystem (lead : Bool) (col : String) : Line :=
  .system lead [.notIn col "'mysql', 'information_schema', 'performance_schema', 'sys'".toList]

/-- The usual WHERE clause of a mysql script: mysql_tables.sql:6-12, mysql_columns.sql:19-25,
mysql_constraints.sql:21-27, mysql_indexes.sql:21-31, mysql_triggers.sql:10-16, mysql_views.sql:7-13. -/
def mysqlBlock (s t : String) : List Line :=
  [ .fixed, mysqlSystem true s,
    .isIn Filter.withSchemas s Filter.withSchemas,
    .notIn Filter.withoutSchemas s Filter.withoutSchemas,
    .isIn Filter.withTables t Filter.withTables,
    .notIn Filter.withoutTables t Filter.withoutTables ]

/-- mysql_constraints.sql:55-60, the WHERE clause of the check constraints: there is no fixed condition
and the condition on system catalogs has no leading `AND`.  The script writes plain `table_schema` there;
only `tc` has such a column (`check_constraints` does not), so it is `tc.table_schema`. -/
def mysqlChecksBlock : List Line :=
  [ mysqlSystem false "tc.table_schema",
    .isIn Filter.withSchemas "tc.table_schema" Filter.withSchemas,
    .notIn Filter.withoutSchemas "tc.table_schema" Filter.withoutSchemas,
    .isIn Filter.withTables "tc.table_name" Filter.withTables,
    .notIn Filter.withoutTables "tc.table_name" Filter.withoutTables ]

/-- The WHERE clauses, in order, of the script each method runs (ddl/introspect.go:285-306, 336-357,
434-455, 557-578, 686-707, 773-789, 822-843).  `none`: the method returns an error without a query. -/
def script : Dialect → Kind → Option (List (List Line))
  | .sqlite, .functions => none
  | .sqlite, .constraints => some [sqliteBlock, sqliteBlock, sqliteBlock]
  | .sqlite, _ => some [sqliteBlock]
  | .postgres, .columns => some [postgresColumnsBlock]
  | .postgres, .constraints =>
    some [postgresBlock "schemas.nspname" "tables.relname",
          postgresBlock "schemas1.nspname" "tables1.relname",
          postgresBlock "schemas.nspname" "tables.relname",
          postgresBlock "schemas.nspname" "tables.relname"]
  | .postgres, .views =>
    some [postgresBlock "schemaname" "viewname", postgresBlock "schemaname" "matviewname"]
  | .postgres, .functions => some [postgresFunctionsBlock]
  | .postgres, _ => some [postgresBlock "schemas.nspname" "tables.relname"]
  | .mysql, .columns => some [mysqlBlock "c.table_schema" "c.table_name"]
  | .mysql, .constraints =>
    some [mysqlBlock "tc.table_schema" "tc.table_name", mysqlChecksBlock]
  | .mysql, .triggers => some [mysqlBlock "event_object_schema" "event_object_table"]
  | .mysql, .functions => none
  | .mysql, _ => some [mysqlBlock "table_schema" "table_name"]
  | _, _ => none

/-- ddl/introspect.go:117-123: a nil filter stands for the introspector's default filter, and a nil
default for the zero filter. -/
def effectiveFilter (defaultFilter filter : Option Filter) : Filter :=
  match filter with
  | some f => f
  | none =>
    match defaultFilter with
    | some f => f
    | none => {}

/-- ddl/introspect.go:92-130 `queryContext`: the WHERE clauses of the query that is sent.  The cache of
parsed templates changes nothing about the text. -/
def queryWheres (d : Dialect) (k : Kind) (defaultFilter filter : Option Filter) :
    Option (List (List Tok)) :=
  (script d k).map fun bs => bs.map (renderWhere (effectiveFilter defaultFilter filter))

end Ddl
