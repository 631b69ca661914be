import Verif.Conform.Dsl
import Verif.Model.Command
import Verif.Model.Ident
/-
Generated by tools/ddltest.py from the tests of package ddl (column_test.go, constraint_test.go, index_test.go, trigger_test.go, function_test.go, view_test.go of /repo/ddl):
the expectations of the Go tests, checked against the model.  Tests of the model, not proofs; no property rests on them.
-/
namespace Conform.DdlTests
open Sq Conform

def okText (r : Res Str) (q : Str) : Bool := decide (r = .ok q)
def isErr {α : Type} (r : Res α) : Bool := match r with | .err _ => true | _ => false
def triggerIs (d : Dialect) (sql schema table name : Str) : Bool :=
  match Ddl.populateTrigger d { sql := sql } with
  | .ok t => okText (Ddl.CreateTriggerCommand.sql d { trigger := t }) sql && t.tableSchema == schema && t.tableName == table && t.triggerName == name
  | _ => false
def functionIs (d : Dialect) (sql schema name rawArgs returnType : Str) : Bool :=
  match Ddl.populateFunction d { sql := sql } with
  | .ok f => okText (Ddl.CreateFunctionCommand.sql d { function := f }) sql && f.functionSchema == schema && f.functionName == name && f.rawArgs == rawArgs && f.returnType == returnType
  | _ => false

/-! ### column_test.go -/

/-- column_test.go:31 (dialect == postgres) IDENTITY column -/
example : okText (Ddl.AddColumnCommand.sql .postgres ({ addIfNotExists := true, column := ({ columnName := c!"actor_id", columnType := c!"INT", isNotNull := true, identity := c!"BY DEFAULT AS IDENTITY", collationName := c!"C" } : Ddl.Column) } : Ddl.AddColumnCommand)) c!"ADD COLUMN IF NOT EXISTS actor_id INT NOT NULL GENERATED BY DEFAULT AS IDENTITY COLLATE \"C\"" = true := by decide +kernel

/-- column_test.go:49 (dialect == postgres) GENERATED column -/
example : okText (Ddl.AddColumnCommand.sql .postgres ({ column := ({ columnName := c!"full_name", columnType := c!"TEXT", generatedExpr := c!"first_name || ' ' || last_name", generatedExprStored := true } : Ddl.Column) } : Ddl.AddColumnCommand)) c!"ADD COLUMN full_name TEXT GENERATED ALWAYS AS (first_name || ' ' || last_name) STORED" = true := by decide +kernel

/-- column_test.go:65 (dialect == postgres) AUTOINCREMENT column -/
example : isErr (Ddl.AddColumnCommand.sql .postgres ({ column := ({ columnName := c!"actor_id", columnType := c!"INT", isAutoincrement := true } : Ddl.Column) } : Ddl.AddColumnCommand)) = true := by decide +kernel

/-- column_test.go:82 (dialect == postgres) GENERATED VIRTUAL column -/
example : isErr (Ddl.AddColumnCommand.sql .postgres ({ column := ({ columnName := c!"full_name", columnType := c!"TEXT", generatedExpr := c!"first_name || ' ' || last_name" } : Ddl.Column) } : Ddl.AddColumnCommand)) = true := by decide +kernel

/-- column_test.go:99 (dialect != postgres) add column if not exists -/
example : isErr (Ddl.AddColumnCommand.sql .sqlite ({ addIfNotExists := true, column := ({ columnName := c!"first_name", columnType := c!"TEXT" } : Ddl.Column) } : Ddl.AddColumnCommand)) = true := by decide +kernel

/-- column_test.go:116 (dialect != mysql) column with ON UPDATE CURRENT_TIMESTAMP -/
example : isErr (Ddl.AddColumnCommand.sql .postgres ({ column := ({ columnName := c!"last_update", columnType := c!"TIMESTAMPTZ", onUpdateCurrentTimestamp := true } : Ddl.Column) } : Ddl.AddColumnCommand)) = true := by decide +kernel

/-- column_test.go:133 (dialect == sqlite) PRIMARY KEY column -/
example : isErr (Ddl.AddColumnCommand.sql .sqlite ({ column := ({ columnName := c!"actor_id", columnType := c!"INTEGER", isPrimaryKey := true } : Ddl.Column) } : Ddl.AddColumnCommand)) = true := by decide +kernel

/-- column_test.go:150 (dialect == sqlite) UNIQUE column -/
example : isErr (Ddl.AddColumnCommand.sql .sqlite ({ column := ({ columnName := c!"actor_id", columnType := c!"INTEGER", isUnique := true } : Ddl.Column) } : Ddl.AddColumnCommand)) = true := by decide +kernel

/-- column_test.go:167 (dialect == sqlite) NOT NULL column without a DEFAULT value -/
example : isErr (Ddl.AddColumnCommand.sql .sqlite ({ column := ({ columnName := c!"actor_id", columnType := c!"INTEGER", isNotNull := true } : Ddl.Column) } : Ddl.AddColumnCommand)) = true := by decide +kernel

/-- column_test.go:184 (dialect == sqlite) NOT NULL column with an expression as DEFAULT value -/
example : isErr (Ddl.AddColumnCommand.sql .sqlite ({ column := ({ columnName := c!"actor_id", columnType := c!"INTEGER", isNotNull := true, columnDefault := c!"(1 + 2 + 3)" } : Ddl.Column) } : Ddl.AddColumnCommand)) = true := by decide +kernel

/-- column_test.go:202 (dialect == sqlite) FOREIGN KEY column with non-null DEFAULT value -/
example : isErr (Ddl.AddColumnCommand.sql .sqlite ({ column := ({ columnName := c!"country_id", columnType := c!"INT", columnDefault := c!"22" } : Ddl.Column), referencesTable := c!"country", referencesColumn := c!"country_id" } : Ddl.AddColumnCommand)) = true := by decide +kernel

/-- column_test.go:221 (dialect == sqlite) GENERATED STORED column -/
example : isErr (Ddl.AddColumnCommand.sql .sqlite ({ column := ({ columnName := c!"full_name", columnType := c!"TEXT", generatedExpr := c!"first_name || ' ' || last_name", generatedExprStored := true } : Ddl.Column) } : Ddl.AddColumnCommand)) = true := by decide +kernel

/-- column_test.go:239 (dialect == sqlite) IDENTITY column -/
example : isErr (Ddl.AddColumnCommand.sql .sqlite ({ column := ({ columnName := c!"actor_id", columnType := c!"INT", identity := c!"BY DEFAULT AS IDENTITY" } : Ddl.Column) } : Ddl.AddColumnCommand)) = true := by decide +kernel

/-- column_test.go:256 (dialect == sqlite) AUTOINCREMENT column -/
example : okText (Ddl.AddColumnCommand.sql .sqlite ({ column := ({ columnName := c!"actor_id", columnType := c!"INT", isAutoincrement := true } : Ddl.Column) } : Ddl.AddColumnCommand)) c!"ADD COLUMN actor_id INT AUTOINCREMENT" = true := by decide +kernel

/-- column_test.go:271 (dialect == sqlite) column with COLLATE -/
example : okText (Ddl.AddColumnCommand.sql .sqlite ({ column := ({ columnName := c!"first_name", columnType := c!"TEXT", collationName := c!"nocase" } : Ddl.Column) } : Ddl.AddColumnCommand)) c!"ADD COLUMN first_name TEXT COLLATE nocase" = true := by decide +kernel

/-- column_test.go:286 (dialect == sqlite) GENERATED VIRTUAL column -/
example : okText (Ddl.AddColumnCommand.sql .sqlite ({ column := ({ columnName := c!"full_name", columnType := c!"TEXT", generatedExpr := c!"first_name || ' ' || last_name" } : Ddl.Column) } : Ddl.AddColumnCommand)) c!"ADD COLUMN full_name TEXT GENERATED ALWAYS AS (first_name || ' ' || last_name) VIRTUAL" = true := by decide +kernel

/-- column_test.go:301 (dialect == sqlite) column with constraints -/
example : okText (Ddl.AddColumnCommand.sql .sqlite ({ column := ({ columnName := c!"country_id", columnType := c!"INT" } : Ddl.Column), checkExprs := [c!"country_id > 0", c!"country_id IS NOT NULL"], referencesTable := c!"country", referencesColumn := c!"country_id" } : Ddl.AddColumnCommand)) c!"ADD COLUMN country_id INT CHECK (country_id > 0) CHECK (country_id IS NOT NULL) REFERENCES country (country_id)" = true := by decide +kernel

/-- column_test.go:321 (dialect == sqlite) column quoted identifiers -/
example : okText (Ddl.AddColumnCommand.sql .sqlite ({ column := ({ columnName := c!"bad column name", columnType := c!"TEXT" } : Ddl.Column), referencesTable := c!"bad table name", referencesColumn := c!"bad column name" } : Ddl.AddColumnCommand)) c!"ADD COLUMN \"bad column name\" TEXT REFERENCES \"bad table name\" (\"bad column name\")" = true := by decide +kernel

/-- column_test.go:337 (dialect == mysql) AUTOINCREMENT column -/
example : okText (Ddl.AddColumnCommand.sql .mysql ({ column := ({ columnName := c!"actor_id", columnType := c!"INT", isAutoincrement := true } : Ddl.Column) } : Ddl.AddColumnCommand)) c!"ADD COLUMN actor_id INT AUTO_INCREMENT" = true := by decide +kernel

/-- column_test.go:352 (dialect == mysql) column with ON UPDATE CURRENT_TIMESTAMP -/
example : okText (Ddl.AddColumnCommand.sql .mysql ({ column := ({ columnName := c!"last_update", columnType := c!"DATETIME", columnDefault := c!"CURRENT_TIMESTAMP", onUpdateCurrentTimestamp := true } : Ddl.Column) } : Ddl.AddColumnCommand)) c!"ADD COLUMN last_update DATETIME DEFAULT CURRENT_TIMESTAMP ON UPDATE CURRENT_TIMESTAMP" = true := by decide +kernel

/-- column_test.go:390 dialect == sqlite -/
example : isErr (Ddl.AlterColumnCommand.sql .sqlite ({  } : Ddl.AlterColumnCommand)) = true := by decide +kernel

/-- column_test.go:401 quoted identifiers -/
example : okText (Ddl.AlterColumnCommand.sql .postgres ({ column := ({ columnName := c!"bad column name", columnType := c!"TEXT" } : Ddl.Column) } : Ddl.AlterColumnCommand)) c!"ALTER COLUMN \"bad column name\" SET DATA TYPE TEXT" = true := by decide +kernel

/-- column_test.go:415 dialect == mysql -/
example : okText (Ddl.AlterColumnCommand.sql .mysql ({ column := ({ columnName := c!"replacement_cost", columnType := c!"DECIMAL(5,2)", isNotNull := true, columnDefault := c!"19.99" } : Ddl.Column) } : Ddl.AlterColumnCommand)) c!"MODIFY COLUMN replacement_cost DECIMAL(5,2) NOT NULL DEFAULT 19.99" = true := by decide +kernel

/-- column_test.go:431 (dialect == mysql) IDENTITY column -/
example : isErr (Ddl.AlterColumnCommand.sql .mysql ({ column := ({ columnName := c!"actor_id", columnType := c!"INT", identity := c!"BY DEFAULT AS IDENTITY" } : Ddl.Column) } : Ddl.AlterColumnCommand)) = true := by decide +kernel

/-- column_test.go:448 (dialect == postgres) set column attributes -/
example : okText (Ddl.AlterColumnCommand.sql .postgres ({ column := ({ columnName := c!"replacement_cost", columnType := c!"TEXT", isNotNull := true, columnDefault := c!"'19.99'", collationName := c!"C", identity := c!"BY DEFAULT AS IDENTITY" } : Ddl.Column), usingExpr := c!"replacement_cost::TEXT" } : Ddl.AlterColumnCommand)) c!"ALTER COLUMN replacement_cost SET DATA TYPE TEXT COLLATE \"C\" USING replacement_cost::TEXT\n    ,ALTER COLUMN replacement_cost SET NOT NULL\n    ,ALTER COLUMN replacement_cost SET DEFAULT '19.99'\n    ,ALTER COLUMN replacement_cost ADD GENERATED BY DEFAULT AS IDENTITY" = true := by decide +kernel

/-- column_test.go:470 (dialect == postgres) drop column attributes -/
example : okText (Ddl.AlterColumnCommand.sql .postgres ({ column := ({ columnName := c!"replacement_cost" } : Ddl.Column), dropDefault := true, dropNotNull := true, dropExpr := true, dropExprIfExists := true, dropIdentity := true, dropIdentityIfExists := true } : Ddl.AlterColumnCommand)) c!"ALTER COLUMN replacement_cost DROP NOT NULL\n    ,ALTER COLUMN replacement_cost DROP DEFAULT\n    ,ALTER COLUMN replacement_cost DROP IDENTITY IF EXISTS\n    ,ALTER COLUMN replacement_cost DROP EXPRESSION IF EXISTS" = true := by decide +kernel

/-- column_test.go:492 unrecognized dialect -/
example : isErr (Ddl.AlterColumnCommand.sql .other ({ column := ({ columnName := c!"replacement_cost", columnType := c!"TEXT" } : Ddl.Column) } : Ddl.AlterColumnCommand)) = true := by decide +kernel

/-- column_test.go:530 quoted identifiers -/
example : okText (Ddl.DropColumnCommand.sql .postgres ({ columnName := c!"bad column name" } : Ddl.DropColumnCommand)) c!"DROP COLUMN \"bad column name\"" = true := by decide +kernel

/-- column_test.go:541 (dialect != postgres) DROP -/
example : okText (Ddl.DropColumnCommand.sql .sqlite ({ columnName := c!"actor_id" } : Ddl.DropColumnCommand)) c!"DROP COLUMN actor_id" = true := by decide +kernel

/-- column_test.go:552 (dialect != postgres) DROP IF EXISTS -/
example : isErr (Ddl.DropColumnCommand.sql .sqlite ({ dropIfExists := true, columnName := c!"actor_id" } : Ddl.DropColumnCommand)) = true := by decide +kernel

/-- column_test.go:566 (dialect != postgres) DROP ... CASCADE -/
example : isErr (Ddl.DropColumnCommand.sql .sqlite ({ columnName := c!"actor_id", dropCascade := true } : Ddl.DropColumnCommand)) = true := by decide +kernel

/-- column_test.go:580 (dialect == postgres) DROP IF EXISTS CASCADE -/
example : okText (Ddl.DropColumnCommand.sql .postgres ({ dropIfExists := true, columnName := c!"actor_id", dropCascade := true } : Ddl.DropColumnCommand)) c!"DROP COLUMN IF EXISTS actor_id CASCADE" = true := by decide +kernel

/-! ### constraint_test.go -/

/-- constraint_test.go:31 (dialect == postgres) UNIQUE -/
example : okText (Ddl.AddConstraintCommand.sql .postgres ({ constraint := ({ constraintName := c!"film_actor_actor_id_film_id_key", constraintType := .unique, columns := [c!"actor_id", c!"film_id"] } : Ddl.Constraint) } : Ddl.AddConstraintCommand)) c!"ADD CONSTRAINT film_actor_actor_id_film_id_key UNIQUE (actor_id, film_id)" = true := by decide +kernel

/-- constraint_test.go:46 (dialect == postgres) quoted identifier -/
example : okText (Ddl.AddConstraintCommand.sql .postgres ({ constraint := ({ constraintName := c!"bad constraint name", constraintType := .unique } : Ddl.Constraint), indexName := c!"bad index name" } : Ddl.AddConstraintCommand)) c!"ADD CONSTRAINT \"bad constraint name\" UNIQUE USING INDEX \"bad index name\"" = true := by decide +kernel

/-- constraint_test.go:61 (dialect == postgres) UNIQUE USING INDEX DEFERRABLE INITIALLY DEFERRED -/
example : okText (Ddl.AddConstraintCommand.sql .postgres ({ constraint := ({ constraintName := c!"film_actor_actor_id_film_id_key", constraintType := .unique, isDeferrable := true, isInitiallyDeferred := true } : Ddl.Constraint), indexName := c!"film_actor_actor_id_film_id_idx" } : Ddl.AddConstraintCommand)) c!"ADD CONSTRAINT film_actor_actor_id_film_id_key UNIQUE USING INDEX film_actor_actor_id_film_id_idx DEFERRABLE INITIALLY DEFERRED" = true := by decide +kernel

/-- constraint_test.go:78 (dialect == postgres) PRIMARY KEY USING INDEX DEFERRABLE INITIALLY IMMEDIATE -/
example : okText (Ddl.AddConstraintCommand.sql .postgres ({ constraint := ({ constraintName := c!"customer_customer_id_pkey", constraintType := .primaryKey, isDeferrable := true } : Ddl.Constraint), indexName := c!"customer_customer_id_idx" } : Ddl.AddConstraintCommand)) c!"ADD CONSTRAINT customer_customer_id_pkey PRIMARY KEY USING INDEX customer_customer_id_idx DEFERRABLE INITIALLY IMMEDIATE" = true := by decide +kernel

/-- constraint_test.go:94 (dialect == postgres) CHECK ... NOT VALID -/
example : okText (Ddl.AddConstraintCommand.sql .postgres ({ constraint := ({ constraintName := c!"film_release_year_check", constraintType := .check, checkExpr := c!"release_year >= 1901 AND release_year <= 2155" } : Ddl.Constraint), isNotValid := true } : Ddl.AddConstraintCommand)) c!"ADD CONSTRAINT film_release_year_check CHECK (release_year >= 1901 AND release_year <= 2155) NOT VALID" = true := by decide +kernel

/-- constraint_test.go:110 (dialect == postgres) FOREIGN KEY ... DEFERRABLE INITIALLY DEFERRED -/
example : okText (Ddl.AddConstraintCommand.sql .postgres ({ constraint := ({ constraintName := c!"city_country_id_fkey", constraintType := .foreignKey, columns := [c!"country_id"], referencesSchema := c!"db", referencesTable := c!"country", referencesColumns := [c!"country_id"], matchOption := c!"MATCH FULL", updateRule := c!"CASCADE", deleteRule := c!"RESTRICT", isDeferrable := true, isInitiallyDeferred := true } : Ddl.Constraint) } : Ddl.AddConstraintCommand)) c!"ADD CONSTRAINT city_country_id_fkey FOREIGN KEY (country_id) REFERENCES db.country (country_id) MATCH FULL ON UPDATE CASCADE ON DELETE RESTRICT DEFERRABLE INITIALLY DEFERRED" = true := by decide +kernel

/-- constraint_test.go:133 (dialect == postgres) EXCLUDE -/
example : okText (Ddl.AddConstraintCommand.sql .postgres ({ constraint := ({ constraintName := c!"customer_email_excl", constraintType := .exclude, exclusionIndexType := c!"GIST", columns := [c!"email", c!""], exprs := [c!"", c!"LOWER(email)"], exclusionOperators := [c!"ILIKE", c!"="], predicate := c!"LENGTH(email) > 3", isDeferrable := true } : Ddl.Constraint) } : Ddl.AddConstraintCommand)) c!"ADD CONSTRAINT customer_email_excl EXCLUDE USING GIST (email WITH ILIKE, LOWER(email) WITH =) WHERE (LENGTH(email) > 3) DEFERRABLE INITIALLY IMMEDIATE" = true := by decide +kernel

/-- constraint_test.go:153 (dialect == mysql) PRIMARY KEY -/
example : okText (Ddl.AddConstraintCommand.sql .mysql ({ constraint := ({ constraintName := c!"customer_customer_id_pkey", constraintType := .primaryKey, columns := [c!"customer_id"] } : Ddl.Constraint) } : Ddl.AddConstraintCommand)) c!"ADD PRIMARY KEY (customer_id)" = true := by decide +kernel

/-- constraint_test.go:168 (dialect == mysql) CHECK ... NOT ENFORCED -/
example : okText (Ddl.AddConstraintCommand.sql .mysql ({ constraint := ({ constraintName := c!"film_release_year_check", constraintType := .check, checkExpr := c!"release_year >= 1901 AND release_year <= 2155" } : Ddl.Constraint), isNotValid := true } : Ddl.AddConstraintCommand)) c!"ADD CONSTRAINT film_release_year_check CHECK (release_year >= 1901 AND release_year <= 2155) NOT ENFORCED" = true := by decide +kernel

/-- constraint_test.go:184 (dialect == sqlite) -/
example : isErr (Ddl.AddConstraintCommand.sql .sqlite ({ constraint := {} } : Ddl.AddConstraintCommand)) = true := by decide +kernel

/-- constraint_test.go:195 (dialect != postgres) ADD CONSTRAINT ... USING INDEX -/
example : isErr (Ddl.AddConstraintCommand.sql .mysql ({ constraint := ({ constraintName := c!"film_actor_actor_id_film_id_key", constraintType := .unique, isDeferrable := true, isInitiallyDeferred := true } : Ddl.Constraint), indexName := c!"film_actor_actor_id_film_id_idx" } : Ddl.AddConstraintCommand)) = true := by decide +kernel

/-- constraint_test.go:214 (dialect == postgres) ADD CHECK CONSTRAINT ... USING INDEX -/
example : isErr (Ddl.AddConstraintCommand.sql .postgres ({ constraint := ({ constraintName := c!"film_release_year_check", constraintType := .check, checkExpr := c!"release_year >= 1901 AND release_year <= 2155" } : Ddl.Constraint), indexName := c!"film_actor_actor_id_film_id_idx" } : Ddl.AddConstraintCommand)) = true := by decide +kernel

/-- constraint_test.go:232 (dialect != postgres) EXCLUDE -/
example : isErr (Ddl.AddConstraintCommand.sql .mysql ({ constraint := ({ constraintName := c!"customer_email_excl", constraintType := .exclude, exclusionIndexType := c!"GIST", columns := [c!"email", c!""], exprs := [c!"", c!"LOWER(email)"], exclusionOperators := [c!"ILIKE", c!"="], predicate := c!"LENGTH(email) > 3", isDeferrable := true } : Ddl.Constraint) } : Ddl.AddConstraintCommand)) = true := by decide +kernel

/-- constraint_test.go:254 (dialect == postgres) EXCLUDE without specifying index -/
example : isErr (Ddl.AddConstraintCommand.sql .postgres ({ constraint := ({ constraintName := c!"customer_email_excl", constraintType := .exclude, columns := [c!"email", c!""], exprs := [c!"", c!"LOWER(email)"], exclusionOperators := [c!"ILIKE", c!"="], predicate := c!"LENGTH(email) > 3", isDeferrable := true } : Ddl.Constraint) } : Ddl.AddConstraintCommand)) = true := by decide +kernel

/-- constraint_test.go:275 (dialect == postgres) EXCLUDE with empty column and empty expression -/
example : isErr (Ddl.AddConstraintCommand.sql .postgres ({ constraint := ({ constraintName := c!"customer_email_excl", constraintType := .exclude, exclusionIndexType := c!"GIST", columns := [c!""], exprs := [c!""], exclusionOperators := [c!"="] } : Ddl.Constraint) } : Ddl.AddConstraintCommand)) = true := by decide +kernel

/-- constraint_test.go:295 (dialect == postgres) EXCLUDE with empty operator -/
example : isErr (Ddl.AddConstraintCommand.sql .postgres ({ constraint := ({ constraintName := c!"customer_email_excl", constraintType := .exclude, exclusionIndexType := c!"GIST", columns := [c!"email"], exclusionOperators := [c!""] } : Ddl.Constraint) } : Ddl.AddConstraintCommand)) = true := by decide +kernel

/-- constraint_test.go:314 (dialect == postgres) PRIMARY KEY ... NOT VALID -/
example : isErr (Ddl.AddConstraintCommand.sql .postgres ({ constraint := ({ constraintName := c!"customer_customer_id", constraintType := .primaryKey, columns := [c!"customer_id"] } : Ddl.Constraint), isNotValid := true } : Ddl.AddConstraintCommand)) = true := by decide +kernel

/-- constraint_test.go:332 (dialect == mysql) PRIMARY KEY ... NOT ENFORCED -/
example : isErr (Ddl.AddConstraintCommand.sql .mysql ({ constraint := ({ constraintName := c!"customer_customer_id", constraintType := .primaryKey, columns := [c!"customer_id"] } : Ddl.Constraint), isNotValid := true } : Ddl.AddConstraintCommand)) = true := by decide +kernel

/-- constraint_test.go:350 (dialect == postgres) CHECK CONSTRAINT DEFERRABLE -/
example : isErr (Ddl.AddConstraintCommand.sql .postgres ({ constraint := ({ constraintName := c!"film_release_year_check", constraintType := .check, checkExpr := c!"release_year >= 1901 AND release_year <= 2155", isDeferrable := true } : Ddl.Constraint) } : Ddl.AddConstraintCommand)) = true := by decide +kernel

/-- constraint_test.go:368 (dialect == mysql) CHECK CONSTRAINT DEFERRABLE -/
example : isErr (Ddl.AddConstraintCommand.sql .mysql ({ constraint := ({ constraintName := c!"film_release_year_check", constraintType := .check, checkExpr := c!"release_year >= 1901 AND release_year <= 2155", isDeferrable := true } : Ddl.Constraint) } : Ddl.AddConstraintCommand)) = true := by decide +kernel

/-- constraint_test.go:408 (dialect == postgres) no-op -/
example : okText (Ddl.AlterConstraintCommand.sql .postgres ({ constraintName := c!"city_country_id_fkey" } : Ddl.AlterConstraintCommand)) c!"" = true := by decide +kernel

/-- constraint_test.go:419 (dialect == postgres) quoted identifier -/
example : okText (Ddl.AlterConstraintCommand.sql .postgres ({ constraintName := c!"bad constraint name", alterDeferrable := true } : Ddl.AlterConstraintCommand)) c!"ALTER CONSTRAINT \"bad constraint name\" NOT DEFERRABLE" = true := by decide +kernel

/-- constraint_test.go:431 (dialect == postgres) ALTER CONSTRAINT DEFERRABLE INITIALLY DEFERRED -/
example : okText (Ddl.AlterConstraintCommand.sql .postgres ({ constraintName := c!"city_country_id_fkey", alterDeferrable := true, isDeferrable := true, isInitiallyDeferred := true } : Ddl.AlterConstraintCommand)) c!"ALTER CONSTRAINT city_country_id_fkey DEFERRABLE INITIALLY DEFERRED" = true := by decide +kernel

/-- constraint_test.go:445 (dialect == postgres) ALTER CONSTRAINT DEFERRABLE INITIALLY IMMEDIATE -/
example : okText (Ddl.AlterConstraintCommand.sql .postgres ({ constraintName := c!"city_country_id_fkey", alterDeferrable := true, isDeferrable := true } : Ddl.AlterConstraintCommand)) c!"ALTER CONSTRAINT city_country_id_fkey DEFERRABLE INITIALLY IMMEDIATE" = true := by decide +kernel

/-- constraint_test.go:458 (dialect == postgres) ALTER CONSTRAINT NOT DEFERRABLE -/
example : okText (Ddl.AlterConstraintCommand.sql .postgres ({ constraintName := c!"city_country_id_fkey", alterDeferrable := true } : Ddl.AlterConstraintCommand)) c!"ALTER CONSTRAINT city_country_id_fkey NOT DEFERRABLE" = true := by decide +kernel

/-- constraint_test.go:470 (dialect == mysql) -/
example : isErr (Ddl.AlterConstraintCommand.sql .mysql ({ constraintName := c!"city_country_id_fkey", alterDeferrable := true } : Ddl.AlterConstraintCommand)) = true := by decide +kernel

/-- constraint_test.go:484 (dialect == sqlite) -/
example : isErr (Ddl.AlterConstraintCommand.sql .sqlite ({ constraintName := c!"city_country_id_fkey", alterDeferrable := true } : Ddl.AlterConstraintCommand)) = true := by decide +kernel

/-- constraint_test.go:520 (dialect == postgres) quoted identifier -/
example : okText (Ddl.DropConstraintCommand.sql .postgres ({ constraintName := c!"bad constraint name" } : Ddl.DropConstraintCommand)) c!"DROP CONSTRAINT \"bad constraint name\"" = true := by decide +kernel

/-- constraint_test.go:531 (dialect == postgres) DROP IF EXISTS CASCADE -/
example : okText (Ddl.DropConstraintCommand.sql .postgres ({ dropIfExists := true, constraintName := c!"city_country_id_fkey", dropCascade := true } : Ddl.DropConstraintCommand)) c!"DROP CONSTRAINT IF EXISTS city_country_id_fkey CASCADE" = true := by decide +kernel

/-- constraint_test.go:544 (dialect == mysql) DROP -/
example : okText (Ddl.DropConstraintCommand.sql .mysql ({ constraintName := c!"city_country_id_fkey" } : Ddl.DropConstraintCommand)) c!"DROP CONSTRAINT city_country_id_fkey" = true := by decide +kernel

/-- constraint_test.go:555 (dialect == sqlite) -/
example : isErr (Ddl.DropConstraintCommand.sql .sqlite ({ constraintName := c!"city_country_id_fkey" } : Ddl.DropConstraintCommand)) = true := by decide +kernel

/-- constraint_test.go:568 (dialect == mysql) DROP IF EXISTS -/
example : isErr (Ddl.DropConstraintCommand.sql .mysql ({ dropIfExists := true, constraintName := c!"city_country_id_fkey" } : Ddl.DropConstraintCommand)) = true := by decide +kernel

/-- constraint_test.go:582 (dialect == mysql) DROP CASCADE -/
example : isErr (Ddl.DropConstraintCommand.sql .mysql ({ constraintName := c!"city_country_id_fkey", dropCascade := true } : Ddl.DropConstraintCommand)) = true := by decide +kernel

/-! ### index_test.go -/

/-- index_test.go:31 (dialect == postgres) -/
example : okText (Ddl.CreateIndexCommand.sql .postgres ({ createConcurrently := true, createIfNotExists := true, index := ({ tableSchema := c!"some table schema", tableName := c!"some table name", indexName := c!"some index name", indexType := c!"HASH", isUnique := true, columns := [c!"column a", c!""], exprs := [c!"", c!"UPPER(column_b)"], includeColumns := [c!"column_c", c!"column d"], predicate := c!"column_e IS NOT NULL" } : Ddl.Index) } : Ddl.CreateIndexCommand)) c!"CREATE UNIQUE INDEX CONCURRENTLY IF NOT EXISTS \"some index name\" ON \"some table schema\".\"some table name\" USING HASH (\"column a\", UPPER(column_b)) INCLUDE (column_c, \"column d\") WHERE column_e IS NOT NULL" = true := by decide +kernel

/-- index_test.go:56 (dialect == sqlite) -/
example : okText (Ddl.CreateIndexCommand.sql .sqlite ({ index := ({ tableSchema := c!"my_schema", tableName := c!"my_table", indexName := c!"my_index", columns := [c!"column a", c!""], exprs := [c!"", c!"UPPER(column_b)"], predicate := c!"column_e IS NOT NULL" } : Ddl.Index) } : Ddl.CreateIndexCommand)) c!"CREATE INDEX my_index ON my_schema.my_table (\"column a\", UPPER(column_b)) WHERE column_e IS NOT NULL" = true := by decide +kernel

/-- index_test.go:74 (dialect == mysql) FULLTEXT -/
example : okText (Ddl.CreateIndexCommand.sql .mysql ({ index := ({ tableSchema := c!"my_table", tableName := c!"my_table", indexName := c!"my_index", indexType := c!"FULLTEXT", columns := [c!"my_column"] } : Ddl.Index) } : Ddl.CreateIndexCommand)) c!"FULLTEXT INDEX my_index (my_column)" = true := by decide +kernel

/-- index_test.go:91 (dialect != postgres) CREATE INDEX CONCURRENTLY -/
example : isErr (Ddl.CreateIndexCommand.sql .mysql ({ createConcurrently := true, index := ({ tableName := c!"my_table", indexName := c!"my_index", columns := [c!"my_column"] } : Ddl.Index) } : Ddl.CreateIndexCommand)) = true := by decide +kernel

/-- index_test.go:109 (dialect != postgres && dialect != mysql) index type -/
example : okText (Ddl.CreateIndexCommand.sql .sqlite ({ index := ({ tableName := c!"my_table", indexName := c!"my_index", indexType := c!"HASH", columns := [c!"my_column"] } : Ddl.Index) } : Ddl.CreateIndexCommand)) c!"CREATE INDEX my_index ON my_table (my_column)" = true := by decide +kernel

/-- index_test.go:125 (dialect != postgres) INCLUDE -/
example : isErr (Ddl.CreateIndexCommand.sql .mysql ({ index := ({ tableName := c!"my_table", indexName := c!"my_index", columns := [c!"my_column"], includeColumns := [c!"other_column"] } : Ddl.Index) } : Ddl.CreateIndexCommand)) = true := by decide +kernel

/-- index_test.go:143 (dialect != postgres && dialect != sqlite) WHERE -/
example : isErr (Ddl.CreateIndexCommand.sql .mysql ({ index := ({ tableName := c!"my_table", indexName := c!"my_index", columns := [c!"my_column"], predicate := c!"other_column IS NULL" } : Ddl.Index) } : Ddl.CreateIndexCommand)) = true := by decide +kernel

/-- index_test.go:183 (dialect == postgres) -/
example : okText (Ddl.DropIndexCommand.sql .postgres ({ dropConcurrently := true, dropIfExists := true, tableSchema := c!"some table schema", tableName := c!"some table name", indexName := c!"some index name", dropCascade := true } : Ddl.DropIndexCommand)) c!"DROP INDEX CONCURRENTLY IF EXISTS \"some table schema\".\"some index name\" CASCADE" = true := by decide +kernel

/-- index_test.go:199 (dialect == mysql) -/
example : okText (Ddl.DropIndexCommand.sql .mysql ({ tableSchema := c!"some table schema", tableName := c!"some table name", indexName := c!"some index name" } : Ddl.DropIndexCommand)) c!"DROP INDEX `some index name`" = true := by decide +kernel

/-- index_test.go:212 (dialect != postgres) DROP CONCURRENTLY -/
example : isErr (Ddl.DropIndexCommand.sql .mysql ({ dropConcurrently := true, tableSchema := c!"some table schema", tableName := c!"some table name", indexName := c!"some index name" } : Ddl.DropIndexCommand)) = true := by decide +kernel

/-- index_test.go:228 (dialect != postgres && dialect != sqlite) DROP CONCURRENTLY -/
example : isErr (Ddl.DropIndexCommand.sql .mysql ({ dropIfExists := true, tableSchema := c!"some table schema", tableName := c!"some table name", indexName := c!"some index name" } : Ddl.DropIndexCommand)) = true := by decide +kernel

/-- index_test.go:244 (dialect != postgres) DROP CASCADE -/
example : isErr (Ddl.DropIndexCommand.sql .mysql ({ tableSchema := c!"some table schema", tableName := c!"some table name", indexName := c!"some index name", dropCascade := true } : Ddl.DropIndexCommand)) = true := by decide +kernel

/-! ### trigger_test.go -/

/-- trigger_test.go:42 (dialect == postgres) -/
example : triggerIs .postgres c!"CREATE TRIGGER actor_last_update_before_update_trg BEFORE UPDATE ON public.actor FOR EACH ROW EXECUTE PROCEDURE last_update_trg()" c!"public" c!"actor" c!"actor_last_update_before_update_trg" = true := by decide +kernel

/-- trigger_test.go:53 (dialect == sqlite) -/
example : triggerIs .sqlite c!"\nCREATE TRIGGER actor_last_update_after_update_trg AFTER UPDATE ON actor BEGIN\n    UPDATE actor SET last_update = DATETIME('now') WHERE actor_id = NEW.actor_id;\nEND" c!"" c!"actor" c!"actor_last_update_after_update_trg" = true := by decide +kernel

/-- trigger_test.go:67 (dialect == sqlite) IF NOT EXISTS -/
example : triggerIs .sqlite c!"\nCREATE TRIGGER IF NOT EXISTS actor_last_update_after_update_trg AFTER UPDATE ON actor BEGIN\n    UPDATE actor SET last_update = DATETIME('now') WHERE actor_id = NEW.actor_id;\nEND" c!"" c!"actor" c!"actor_last_update_after_update_trg" = true := by decide +kernel

/-- trigger_test.go:81 junk trigger -/
example : isErr (Ddl.populateTrigger .postgres { sql := c!"the quick brown fox jumped over the lazy dog" }) = true := by decide +kernel

/-- trigger_test.go:114 (dialect == postgres) -/
example : okText (Ddl.DropTriggerCommand.sql .postgres ({ dropIfExists := true, tableSchema := c!"bad table schema", tableName := c!"bad table name", triggerName := c!"bad trigger name", dropCascade := true } : Ddl.DropTriggerCommand)) c!"DROP TRIGGER IF EXISTS \"bad trigger name\" ON \"bad table schema\".\"bad table name\" CASCADE" = true := by decide +kernel

/-- trigger_test.go:129 (dialect == mysql) -/
example : okText (Ddl.DropTriggerCommand.sql .mysql ({ dropIfExists := true, tableSchema := c!"bad table schema", tableName := c!"bad table name", triggerName := c!"bad trigger name" } : Ddl.DropTriggerCommand)) c!"DROP TRIGGER IF EXISTS `bad table schema`.`bad trigger name`" = true := by decide +kernel

/-! ### function_test.go -/

/-- function_test.go:46 (dialect == postgres) -/
example : functionIs .postgres c!"CREATE FUNCTION one() RETURNS integer AS $$ lorem ipsum $$ LANGUAGE plpgsql" [] c!"one" [] c!"integer" = true := by decide +kernel

/-- function_test.go:56 (dialect == postgres) -/
example : functionIs .postgres c!"CREATE FUNCTION one(     ) RETURNS integer" [] c!"one" [] c!"integer" = true := by decide +kernel

/-- function_test.go:66 (dialect == postgres) -/
example : functionIs .postgres c!"CREATE FUNCTION app.tf1 (integer, in numeric = 3.14) RETURNS integer LANGUAGE sql AS $$ lorem ipsum $$" c!"app" c!"tf1" c!"integer, in numeric = 3.14" c!"integer" = true := by decide +kernel

/-- function_test.go:78 (dialect == postgres) -/
example : functionIs .postgres c!"CREATE OR REPLACE FUNCTION double_salary(emp) RETURNS numeric AS $$ lorem ipsum $$ LANGUAGE sql" [] c!"double_salary" c!"emp" c!"numeric" = true := by decide +kernel

/-- function_test.go:89 (dialect == postgres) -/
example : functionIs .postgres c!"CREATE FUNCTION sum_n_product (int, y int =25, OUT sum int DEFAULT 3, OUT product int=22)" [] c!"sum_n_product" c!"int, y int =25, OUT sum int DEFAULT 3, OUT product int=22" c!"" = true := by decide +kernel

/-- function_test.go:100 (dialect == postgres) -/
example : functionIs .postgres c!"CREATE FUNCTION make_array(anyelement, anyelement) RETURNS anyarray AS LANGUAGE plpgsql $$ lorem ipsum $$" [] c!"make_array" c!"anyelement, anyelement" c!"anyarray" = true := by decide +kernel

/-- function_test.go:111 (dialect == postgres) -/
example : functionIs .postgres c!"\nCREATE OR REPLACE FUNCTION years_compare( IN year1 integer DEFAULT NULL,\n                                          year2 IN integer DEFAULT NULL ) RETURNS BOOLEAN AS $$ lorem ipsum $$ language SQL" [] c!"years_compare" c!"IN year1 integer DEFAULT NULL,\n                                          year2 IN integer DEFAULT NULL" c!"BOOLEAN" = true := by decide +kernel

/-- function_test.go:125 (dialect == postgres) -/
example : functionIs .postgres c!"create function foo(bar varchar , baz varchar='qux') returns varchar AS $$ lorem ipsum $$ language sql" [] c!"foo" c!"bar varchar , baz varchar='qux'" c!"varchar" = true := by decide +kernel

/-- function_test.go:136 (dialect == postgres) -/
example : functionIs .postgres c!"CREATE FUNCTION get_count_of_earners(salary_val IN decimal, alphabets []TEXT='{\"a\", \"b\", \"c\"}', names VARIADIC [][]text = ARRAY[ARRAY['a', 'b'], ARRAY['c', 'd']]) RETURNS integer AS $$ lorem ipsum $$ language plpgsql" [] c!"get_count_of_earners" c!"salary_val IN decimal, alphabets []TEXT='{\"a\", \"b\", \"c\"}', names VARIADIC [][]text = ARRAY[ARRAY['a', 'b'], ARRAY['c', 'd']]" c!"integer" = true := by decide +kernel

/-- function_test.go:147 (dialect != postgres) -/
example : functionIs .mysql c!"CREATE FUNCTION hello (s CHAR(20)) RETURNS CHAR(50) DETERMINISTIC RETURN CONCAT('Hello, ',s,'!')" [] [] [] [] = true := by decide +kernel

/-- function_test.go:155 (dialect == postgres) no opening bracket -/
example : isErr (Ddl.populateFunction .postgres { sql := c!"CREATE FUNCTION temp" }) = true := by decide +kernel

/-- function_test.go:166 (dialect == postgres) no closing bracket -/
example : isErr (Ddl.populateFunction .postgres { sql := c!"CREATE FUNCTION temp(" }) = true := by decide +kernel

/-- function_test.go:199 (dialect == postgres) -/
example : okText (Ddl.DropFunctionCommand.sql .postgres ({ dropIfExists := true, function := ({ functionSchema := c!"public", functionName := c!"my_function", rawArgs := c!"TEXT, INT" } : Ddl.Function), dropCascade := true } : Ddl.DropFunctionCommand)) c!"DROP FUNCTION IF EXISTS public.my_function(TEXT, INT) CASCADE" = true := by decide +kernel

/-- function_test.go:216 (dialect == sqlite) -/
example : isErr (Ddl.DropFunctionCommand.sql .sqlite ({ function := ({ functionName := c!"my_function" } : Ddl.Function) } : Ddl.DropFunctionCommand)) = true := by decide +kernel

/-! ### view_test.go -/

/-- view_test.go:111 (dialect == postgres) create or replace -/
example : okText (Ddl.CreateViewCommand.sql .postgres ({ createOrReplace := true, view := ({ viewSchema := c!"some table", viewName := c!"some view", sql := c!"SELECT 1" } : Ddl.View) } : Ddl.CreateViewCommand)) c!"CREATE OR REPLACE VIEW \"some table\".\"some view\" AS SELECT 1" = true := by decide +kernel

/-- view_test.go:127 (dialect == postgres) create materialized view if not exists -/
example : okText (Ddl.CreateViewCommand.sql .postgres ({ createIfNotExists := true, view := ({ isMaterialized := true, viewSchema := c!"some table", viewName := c!"some view", sql := c!"SELECT 1" } : Ddl.View) } : Ddl.CreateViewCommand)) c!"CREATE MATERIALIZED VIEW IF NOT EXISTS \"some table\".\"some view\" AS SELECT 1" = true := by decide +kernel

end Conform.DdlTests
