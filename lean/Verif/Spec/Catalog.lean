import Verif.Model.Catalog
/-
Specification: what the rows of the introspection queries say.

The order of the columns of an answer is that of the SELECT list of the script; here every column is referred to by its name there.
-/
namespace Ddl.Catalog

/-- A row of an answer, by column name. -/
abbrev Row := String → Cell

/-- The kinds of objects. -/
inductive What where
  | tables | columns | constraints | indexes | triggers | views | functions | extensions
  deriving DecidableEq

/-- The script for the objects of a kind; functions and extensions exist on PostgreSQL only. -/
def scriptName : Dialect → What → Option String
  | .sqlite, .tables => some "sqlite_tables.sql"
  | .sqlite, .columns => some "sqlite_columns.sql"
  | .sqlite, .constraints => some "sqlite_constraints.sql"
  | .sqlite, .indexes => some "sqlite_indexes.sql"
  | .sqlite, .triggers => some "sqlite_triggers.sql"
  | .sqlite, .views => some "sqlite_views.sql"
  | .postgres, .tables => some "postgres_tables.sql"
  | .postgres, .columns => some "postgres_columns.sql"
  | .postgres, .constraints => some "postgres_constraints.sql"
  | .postgres, .indexes => some "postgres_indexes.sql"
  | .postgres, .triggers => some "postgres_triggers.sql"
  | .postgres, .views => some "postgres_views.sql"
  | .postgres, .functions => some "postgres_functions.sql"
  | .postgres, .extensions => some "postgres_extensions.sql"
  | .mysql, .tables => some "mysql_tables.sql"
  | .mysql, .columns => some "mysql_columns.sql"
  | .mysql, .constraints => some "mysql_constraints.sql"
  | .mysql, .indexes => some "mysql_indexes.sql"
  | .mysql, .triggers => some "mysql_triggers.sql"
  | .mysql, .views => some "mysql_views.sql"
  | _, _ => none

/-- The column names of the answers: the SELECT lists of ddl/introspection_scripts. -/
def header : Dialect → What → List String
  | .sqlite, .tables => ["table_name", "sql"]
  | .sqlite, .columns => ["table_name", "column_name", "column_type", "is_notnull", "column_default"]
  | .sqlite, .constraints => ["table_name", "constraint_type", "columns", "references_table", "references_columns", "update_rule", "delete_rule"]
  | .sqlite, .indexes => ["table_name", "index_name", "is_unique", "columns", "sql"]
  | .sqlite, .triggers => ["table_name", "trigger_name", "sql"]
  | .sqlite, .views => ["view_name", "sql"]
  | .postgres, .tables => ["table_schema", "table_name"]
  | .postgres, .columns =>
    ["table_schema", "table_name", "column_name", "column_type", "numeric_precision", "numeric_scale", "identity", "is_notnull",
      "generated_expr", "generated_expr_stored", "collation_name", "column_default", "column_comment"]
  | .postgres, .constraints =>
    ["table_schema", "table_name", "constraint_name", "constraint_type", "columns", "exprs", "references_schema", "references_table",
      "references_columns", "update_rule", "delete_rule", "match_option", "check_expr", "operators", "index_type", "predicate",
      "is_deferrable", "is_initially_deferred"]
  | .postgres, .indexes => ["table_schema", "table_name", "index_name", "index_type", "is_unique", "num_key_columns", "columns", "exprs", "predicate"]
  | .postgres, .triggers => ["table_schema", "table_name", "trigger_name", "sql"]
  | .postgres, .views => ["view_schema", "view_name", "is_materialized", "sql"]
  | .postgres, .functions => ["function_schema", "function_name", "sql", "raw_args", "return_type"]
  | .postgres, .extensions => ["extension_name", "extension_version"]
  | .mysql, .tables => ["table_schema", "table_name"]
  | .mysql, .columns =>
    ["table_schema", "table_name", "column_name", "column_type", "numeric_precision", "numeric_scale", "is_autoincrement", "is_notnull",
      "on_update_current_timestamp", "generated_expr", "generated_expr_stored", "collation_name", "column_default", "column_comment"]
  | .mysql, .constraints =>
    ["table_schema", "table_name", "constraint_name", "constraint_type", "columns", "references_schema", "references_table",
      "references_columns", "update_rule", "delete_rule", "match_option", "check_expr"]
  | .mysql, .indexes => ["table_schema", "table_name", "index_name", "index_type", "is_unique", "columns", "exprs"]
  | .mysql, .triggers => ["table_schema", "table_name", "trigger_name", "sql", "action_timing", "event_manipulation"]
  | .mysql, .views => ["view_schema", "view_name", "sql"]
  | _, _ => []

/-- The database answers the script for the kind with these rows, all of them, and without an error at the end. -/
def Reports (sv : Server) (d : Dialect) (w : What) (rows : List Row) : Prop :=
  ∃ s a, scriptName d w = some s ∧ sv.answer (.script s) = some a ∧ a.rows = rows.map (fun r => (header d w).map r) ∧
    a.endErr = none ∧ a.closeErr = none

/-- As many on both sides, in the same order, and each pair in the relation. -/
inductive Each {α β : Type} (R : α → β → Prop) : List α → List β → Prop
  | nil : Each R [] []
  | cons {a b as bs} : R a b → Each R as bs → Each R (a :: as) (b :: bs)

/-! ### Values: what a Go variable of the type gets from database/sql -/

/-- A string: the text itself, a number or truth value written out; never NULL. -/
def IsText (c : Cell) (v : Str) : Prop :=
  c = .text v ∨ (∃ i : Int, c = .int i ∧ v = (toString i).toList) ∨ ∃ b : Bool, c = .bool b ∧ v = (toString b).toList

/-- A truth value: itself, 0 or 1, or one of the usual spellings. -/
def IsBool (c : Cell) (v : Bool) : Prop :=
  c = .bool v ∨ c = .int (if v then 1 else 0) ∨
    ∃ s, s ∈ (if v then ["1", "t", "T", "TRUE", "true", "True"] else ["0", "f", "F", "FALSE", "false", "False"]) ∧ c = .text s.toList

/-- A number: itself, or a text that `strconv` reads as it. -/
def IsInt (c : Cell) (v : Int) : Prop := c = .int v ∨ ∃ s, c = .text s ∧ Sq.atoi s = some v

/-! ### Objects -/

/-- What a row says about a table. -/
def SaysTable : Dialect → Row → Table → Prop
  | .sqlite, r, t => ∃ name sql, IsText (r "table_name") name ∧ IsText (r "sql") sql ∧ t = { tableName := name, sql := sql }
  | _, r, t => ∃ schema name, IsText (r "table_schema") schema ∧ IsText (r "table_name") name ∧ t = { tableSchema := schema, tableName := name }

/-- SQLite reports the type of a generated column with GENERATED ALWAYS behind it. -/
def Ungenerated (raw t : Str) : Prop :=
  raw = t ++ " GENERATED ALWAYS".toList ∨ (raw = t ∧ ∀ u, raw ≠ u ++ " GENERATED ALWAYS".toList)

/-- What a row says about a column.  (`toExpr` on SQLite is the subject of C70, `dropBackslash` undoes MySQL's escaping, see C52.) -/
def SaysColumn (num : Str → Bool) : Dialect → Row → Column → Prop
  | .sqlite, r, c => ∃ table name type notNull dflt type', IsText (r "table_name") table ∧ IsText (r "column_name") name ∧
      IsText (r "column_type") type ∧ IsBool (r "is_notnull") notNull ∧ IsText (r "column_default") dflt ∧ Ungenerated type type' ∧
      c = { tableName := table, columnName := name, columnType := type', isNotNull := notNull,
            columnDefault := if dflt = [] then [] else toExpr num .sqlite dflt }
  | .postgres, r, c => ∃ schema table name type precision scale identity notNull gen stored collation dflt comment,
      IsText (r "table_schema") schema ∧ IsText (r "table_name") table ∧ IsText (r "column_name") name ∧ IsText (r "column_type") type ∧
      IsInt (r "numeric_precision") precision ∧ IsInt (r "numeric_scale") scale ∧ IsText (r "identity") identity ∧
      IsBool (r "is_notnull") notNull ∧ IsText (r "generated_expr") gen ∧ IsBool (r "generated_expr_stored") stored ∧
      IsText (r "collation_name") collation ∧ IsText (r "column_default") dflt ∧ IsText (r "column_comment") comment ∧
      c = { tableSchema := schema, tableName := table, columnName := name, columnType := type, numericPrecision := precision,
            numericScale := scale, identity := identity, isNotNull := notNull, generatedExpr := gen, generatedExprStored := stored,
            collationName := collation, columnDefault := dflt, columnComment := comment }
  | _, r, c => ∃ schema table name type precision scale autoincrement notNull onUpdate gen stored collation dflt comment,
      IsText (r "table_schema") schema ∧ IsText (r "table_name") table ∧ IsText (r "column_name") name ∧ IsText (r "column_type") type ∧
      IsInt (r "numeric_precision") precision ∧ IsInt (r "numeric_scale") scale ∧ IsBool (r "is_autoincrement") autoincrement ∧
      IsBool (r "is_notnull") notNull ∧ IsBool (r "on_update_current_timestamp") onUpdate ∧ IsText (r "generated_expr") gen ∧
      IsBool (r "generated_expr_stored") stored ∧ IsText (r "collation_name") collation ∧ IsText (r "column_default") dflt ∧
      IsText (r "column_comment") comment ∧
      c = { tableSchema := schema, tableName := table, columnName := name, columnType := type, numericPrecision := precision,
            numericScale := scale, isAutoincrement := autoincrement, isNotNull := notNull, onUpdateCurrentTimestamp := onUpdate,
            generatedExpr := dropBackslash gen, generatedExprStored := stored, collationName := collation, columnDefault := dflt,
            columnComment := comment }

/-- The kind of a constraint by its name. -/
def IsType (t : ConstraintType) (s : Str) : Prop := s = t.name ∧ ∀ u, t = .other u → ∀ k : ConstraintType, (∀ v, k ≠ .other v) → s ≠ k.name

/-- What a row says about a constraint.  How the lists in it are read is the subject of C52 (`readConstraint`). -/
def SaysConstraint : Dialect → Row → Constraint → Prop
  | .sqlite, r, c => ∃ table ttext type columns refTable refColumns update delete, IsText (r "table_name") table ∧
      IsText (r "constraint_type") ttext ∧ IsType type ttext ∧
      IsText (r "columns") columns ∧ IsText (r "references_table") refTable ∧ IsText (r "references_columns") refColumns ∧
      IsText (r "update_rule") update ∧ IsText (r "delete_rule") delete ∧
      c = readConstraint .sqlite
          { tableName := table, constraintType := type, referencesTable := refTable, updateRule := update,
            deleteRule := delete } columns [] refColumns []
  | .postgres, r, c => ∃ schema table name ttext type columns exprs refSchema refTable refColumns update delete matching check operators
        indexType predicate deferrable deferred,
      IsText (r "table_schema") schema ∧ IsText (r "table_name") table ∧ IsText (r "constraint_name") name ∧
      IsText (r "constraint_type") ttext ∧ IsType type ttext ∧
      IsText (r "columns") columns ∧ IsText (r "exprs") exprs ∧ IsText (r "references_schema") refSchema ∧
      IsText (r "references_table") refTable ∧ IsText (r "references_columns") refColumns ∧ IsText (r "update_rule") update ∧
      IsText (r "delete_rule") delete ∧ IsText (r "match_option") matching ∧ IsText (r "check_expr") check ∧
      IsText (r "operators") operators ∧ IsText (r "index_type") indexType ∧ IsText (r "predicate") predicate ∧
      IsBool (r "is_deferrable") deferrable ∧ IsBool (r "is_initially_deferred") deferred ∧
      c = readConstraint .postgres
          { tableSchema := schema, tableName := table, constraintName := name, constraintType := type,
            referencesSchema := refSchema, referencesTable := refTable, updateRule := update, deleteRule := delete, matchOption := matching,
            checkExpr := check, exclusionIndexType := indexType, predicate := predicate, isDeferrable := deferrable,
            isInitiallyDeferred := deferred } columns exprs refColumns operators
  | d, r, c => ∃ schema table name ttext type columns refSchema refTable refColumns update delete matching check,
      IsText (r "table_schema") schema ∧ IsText (r "table_name") table ∧ IsText (r "constraint_name") name ∧
      IsText (r "constraint_type") ttext ∧ IsType type ttext ∧ IsText (r "columns") columns ∧
      IsText (r "references_schema") refSchema ∧ IsText (r "references_table") refTable ∧ IsText (r "references_columns") refColumns ∧
      IsText (r "update_rule") update ∧ IsText (r "delete_rule") delete ∧ IsText (r "match_option") matching ∧
      IsText (r "check_expr") check ∧
      c = readConstraint d
          { tableSchema := schema, tableName := table, constraintName := name, constraintType := type,
            referencesSchema := refSchema, referencesTable := refTable, updateRule := update, deleteRule := delete, matchOption := matching,
            checkExpr := check } columns [] refColumns []

/-- What a row says about an index.  How the lists in it are read is the subject of C52 (`readIndexSQLite`, `readIndexPg`, `readIndexMySQL`). -/
def SaysIndex : Dialect → Row → Index → Prop
  | .sqlite, r, x => ∃ table name unique columns sql, IsText (r "table_name") table ∧ IsText (r "index_name") name ∧
      IsBool (r "is_unique") unique ∧ IsText (r "columns") columns ∧ IsText (r "sql") sql ∧
      readIndexSQLite { tableName := table, indexName := name, isUnique := unique, sql := sql } columns = .ok x
  | .postgres, r, x => ∃ schema table name type unique, ∃ keys : Nat, ∃ columns exprs predicate,
      IsText (r "table_schema") schema ∧ IsText (r "table_name") table ∧
      IsText (r "index_name") name ∧ IsText (r "index_type") type ∧ IsBool (r "is_unique") unique ∧ IsInt (r "num_key_columns") keys ∧
      IsText (r "columns") columns ∧ IsText (r "exprs") exprs ∧ IsText (r "predicate") predicate ∧
      readIndexPg
        { tableSchema := schema, tableName := table, indexName := name, indexType := type, isUnique := unique, predicate := predicate } keys columns exprs = .ok x
  | _, r, x => ∃ schema table name type unique columns exprs, IsText (r "table_schema") schema ∧ IsText (r "table_name") table ∧
      IsText (r "index_name") name ∧ IsText (r "index_type") type ∧ IsBool (r "is_unique") unique ∧ IsText (r "columns") columns ∧
      IsText (r "exprs") exprs ∧
      readIndexMySQL { tableSchema := schema, tableName := table, indexName := name, indexType := type, isUnique := unique } columns exprs = .ok x

/-- An identifier as it is written on MySQL, with its schema if there is one. -/
def qualifiedName (schema name : Str) : Str :=
  if schema = [] then Sq.quoteIdentifier .mysql name else Sq.quoteIdentifier .mysql schema ++ '.' :: Sq.quoteIdentifier .mysql name

/-- What a row says about a trigger: on MySQL the statement is put together from its parts. -/
def SaysTrigger : Dialect → Row → Trigger → Prop
  | .sqlite, r, t => ∃ table name sql, IsText (r "table_name") table ∧ IsText (r "trigger_name") name ∧ IsText (r "sql") sql ∧
      t = { tableName := table, triggerName := name, sql := sql }
  | .postgres, r, t => ∃ schema table name sql, IsText (r "table_schema") schema ∧ IsText (r "table_name") table ∧
      IsText (r "trigger_name") name ∧ IsText (r "sql") sql ∧ t = { tableSchema := schema, tableName := table, triggerName := name, sql := sql }
  | _, r, t => ∃ schema table name sql timing event, IsText (r "table_schema") schema ∧ IsText (r "table_name") table ∧
      IsText (r "trigger_name") name ∧ IsText (r "sql") sql ∧ IsText (r "action_timing") timing ∧ IsText (r "event_manipulation") event ∧
      t = { tableSchema := schema, tableName := table, triggerName := name,
            sql := "CREATE TRIGGER ".toList ++ Sq.quoteIdentifier .mysql name ++ " ".toList ++ timing ++ " ".toList ++ event ++
              " ON ".toList ++ qualifiedName schema table ++ " FOR EACH ROW ".toList ++ sql }

/-- What a row says about a function. -/
def SaysFunction (r : Row) (f : Function) : Prop :=
  ∃ schema name sql args ret, IsText (r "function_schema") schema ∧ IsText (r "function_name") name ∧ IsText (r "sql") sql ∧
    IsText (r "raw_args") args ∧ IsText (r "return_type") ret ∧
    f = { functionSchema := schema, functionName := name, sql := sql, rawArgs := args, returnType := ret }

/-- The text after the first ` AS `, or all of it. -/
def AfterAs (raw q : Str) : Prop :=
  (∃ p, raw = p ++ " AS ".toList ++ q ∧ ∀ p' q', raw = p' ++ " AS ".toList ++ q' → p.length ≤ p'.length) ∨
  (raw = q ∧ ∀ p' q', raw ≠ p' ++ " AS ".toList ++ q')

/-- What a row says about a view: on SQLite the query is what comes after the first ` AS ` of its statement. -/
def SaysView : Dialect → Row → View → Prop
  | .sqlite, r, v => ∃ name sql q, IsText (r "view_name") name ∧ IsText (r "sql") sql ∧ AfterAs sql q ∧ v = { viewName := name, sql := q }
  | .postgres, r, v => ∃ schema name mat sql, IsText (r "view_schema") schema ∧ IsText (r "view_name") name ∧
      IsBool (r "is_materialized") mat ∧ IsText (r "sql") sql ∧ v = { viewSchema := schema, viewName := name, isMaterialized := mat, sql := sql }
  | _, r, v => ∃ schema name sql, IsText (r "view_schema") schema ∧ IsText (r "view_name") name ∧ IsText (r "sql") sql ∧
      v = { viewSchema := schema, viewName := name, sql := sql }

/-- What a row says about an extension. -/
def SaysExtension (r : Row) (e : Str) : Prop :=
  ∃ name version, IsText (r "extension_name") name ∧ IsText (r "extension_version") version ∧ e = name ++ "@".toList ++ version

/-! ### Single values -/

/-- The query for the version, the name and the current schema of the database. -/
def versionQuery : Dialect → Option String
  | .sqlite => some "SELECT sqlite_version()"
  | .postgres => some "SELECT current_setting('server_version')"
  | .mysql => some "SELECT version()"
  | _ => none

def nameQuery : Dialect → Option String
  | .sqlite => some "SELECT file FROM pragma_database_list WHERE name = 'main'"
  | .postgres => some "SELECT current_database()"
  | .mysql => some "SELECT database()"
  | _ => none

/-- (SQLite has no schemas.) -/
def schemaQuery : Dialect → Option String
  | .postgres => some "SELECT current_schema()"
  | .mysql => some "SELECT database()"
  | _ => none

/-- The database answers the query without an error, with the value in the first row; no row at all stands for the empty text. -/
def Replies (sv : Server) (q : String) (v : Str) : Prop :=
  ∃ a, sv.answer (.sql q) = some a ∧ a.endErr = none ∧ a.closeErr = none ∧
    ((a.rows = [] ∧ v = []) ∨ ∃ c rest, a.rows = [c] :: rest ∧ IsText c v)

/-- A version text: numbers with dots between them; PostgreSQL may add a remark after a blank. -/
def VersionText (d : Dialect) (ns : List Int) (s : Str) : Prop :=
  ∃ parts rest, parts ≠ [] ∧ s = ".".toList.intercalate parts ++ rest ∧ Each (fun p n => Sq.atoi p = some n) parts ns ∧
    (rest = [] ∨ (d = .postgres ∧ rest.head? = some ' '))

/-! ### The whole database -/

/-- What the database reports about everything that is in it. -/
structure Reported (num : Str → Bool) (d : Dialect) (sv : Server) (r : Introspected) : Prop where
  currentSchema : (d = .sqlite ∧ r.currentSchema = []) ∨ ∃ q, schemaQuery d = some q ∧ Replies sv q r.currentSchema
  tables : ∃ rows, Reports sv d .tables rows ∧ Each (SaysTable d) rows r.tables
  views : ∃ rows, Reports sv d .views rows ∧ Each (SaysView d) rows r.views
  columns : ∃ rows, Reports sv d .columns rows ∧ Each (SaysColumn num d) rows r.columns
  constraints : ∃ rows, Reports sv d .constraints rows ∧ Each (SaysConstraint d) rows r.constraints
  indexes : ∃ rows, Reports sv d .indexes rows ∧ Each (SaysIndex d) rows r.indexes
  triggers : ∃ rows, Reports sv d .triggers rows ∧ Each (SaysTrigger d) rows r.triggers
  functions : if d = .postgres then ∃ rows, Reports sv d .functions rows ∧ Each SaysFunction rows r.functions else r.functions = []
  extensions : if d = .postgres then ∃ rows, Reports sv d .extensions rows ∧ Each SaysExtension rows r.extensions else r.extensions = []

end Ddl.Catalog
