import Verif.Spec.Lexer
import Verif.Spec.Fragments
/-
What the text of a DDL command says, as the tokens a SQL server reads.  The commands are the structures of the API; nothing here
refers to how the package writes them.

`w.name x` is the token of the name `x` and `w.text q x` that of the text `x` between quotes `q` (`Faithful` says that these denote
`x`); `rd d x` are the tokens of the SQL fragment `x`, copied as it is.  Note where a *name* is copied as it is: the columns and the
referenced table of a constraint, the columns of an EXCLUDE constraint, the schema of CREATE SCHEMA.
-/
namespace Ddl.Spec
open Ddl
open _root_.Spec (Tok tokens kw opt commas Denotes identClose InnerPair)

structure Spelling where
  name : Str → Tok
  text : Char → Str → Tok

/-- Up to a pair of adjacent quotes inside a name (which the package mistakes for an escaped one), names and quoted texts are read
back as they are. -/
structure Spelling.Faithful (d : Dialect) (w : Spelling) : Prop where
  name : ∀ x, ¬ InnerPair (identClose d) x → Denotes d (w.name x) x
  text : ∀ q x, ¬ InnerPair q x → w.text q x = .quoted q x
  /-- Whatever the name, it is one token, and no punctuation. -/
  plain : ∀ x c, w.name x ≠ .sym c ∧ ∀ q, w.text q x ≠ .sym c

def lp : List Tok := [.sym '(']
def rp : List Tok := [.sym ')']

/-- The tokens of a fragment. -/
def rd (d : Dialect) (x : Str) : List Tok := (tokens d x).getD []

/-- Equal up to the case of letters. -/
def same (x : Str) (y : String) : Bool := x.map Char.toLower == y.toList

variable (w : Spelling) (d : Dialect)

/-- `schema.name`, or `name`. -/
def target (schema name : Str) : List Tok := [opt (schema ≠ []) [w.name schema, .sym '.'], [w.name name]].flatten

/-! ### Columns -/

def generation (c : Column) : List Tok :=
  if c.isAutoincrement then
    match d with
    | .mysql => kw "AUTO_INCREMENT"
    | .sqlite => kw "AUTOINCREMENT"
    | _ => []
  else if c.identity ≠ [] then [kw "GENERATED", rd d c.identity].flatten
  else if c.generatedExpr ≠ [] then
    [kw "GENERATED ALWAYS AS" ++ lp, rd d c.generatedExpr, rp, if c.generatedExprStored then kw "STORED" else kw "VIRTUAL"].flatten
  else []

def collate (c : Column) : List Tok :=
  match d with
  | .postgres => [kw "COLLATE", [w.text '"' c.collationName]].flatten
  | _ => [kw "COLLATE", rd d c.collationName].flatten

def columnForm (c : Column) : List Tok :=
  [[w.name c.columnName],
   opt (c.columnType ≠ []) (rd d c.columnType),
   opt c.isNotNull (kw "NOT NULL"),
   opt (c.columnDefault ≠ [] ∧ c.isAutoincrement = false ∧ c.identity = [] ∧ c.generatedExpr = []) [kw "DEFAULT", rd d c.columnDefault].flatten,
   opt (c.isPrimaryKey ∧ d = .sqlite) (kw "PRIMARY KEY"),
   generation d c,
   opt c.onUpdateCurrentTimestamp (kw "ON UPDATE CURRENT_TIMESTAMP"),
   opt (c.collationName ≠ []) (collate w d c)].flatten

def addColumnForm (c : AddColumnCommand) : List Tok :=
  [kw "ADD COLUMN", opt c.addIfNotExists (kw "IF NOT EXISTS"), columnForm w d c.column,
   opt (d = .sqlite)
    [(c.checkExprs.map fun e => kw "CHECK" ++ lp ++ rd d e ++ rp).flatten,
     opt (c.referencesTable ≠ [] ∧ c.referencesColumn ≠ [])
      [kw "REFERENCES", [w.name c.referencesTable], lp, [w.name c.referencesColumn], rp].flatten].flatten].flatten

/-- The changes of a column that PostgreSQL knows, each an item of ALTER TABLE. -/
def alterColumnClauses (c : AlterColumnCommand) : List (List Tok) :=
  [if c.column.columnType ≠ [] then
     [[kw "SET DATA TYPE", rd d c.column.columnType,
       opt (c.column.collationName ≠ []) [kw "COLLATE", [w.text '"' c.column.collationName]].flatten,
       opt (c.usingExpr ≠ []) [kw "USING", rd d c.usingExpr].flatten].flatten] else [],
   if c.dropNotNull then [kw "DROP NOT NULL"] else if c.column.isNotNull then [kw "SET NOT NULL"] else [],
   if c.dropDefault then [kw "DROP DEFAULT"]
   else if c.column.columnDefault ≠ [] then [[kw "SET DEFAULT", rd d c.column.columnDefault].flatten] else [],
   if c.dropIdentity then [[kw "DROP IDENTITY", opt c.dropIdentityIfExists (kw "IF EXISTS")].flatten]
   else if c.column.identity ≠ [] then [[kw "ADD GENERATED", rd d c.column.identity].flatten] else [],
   if c.dropExpr then [[kw "DROP EXPRESSION", opt c.dropExprIfExists (kw "IF EXISTS")].flatten] else []].flatten

def alterColumnItems (c : AlterColumnCommand) : List (List Tok) :=
  match d with
  | .mysql => [[kw "MODIFY COLUMN", columnForm w d c.column].flatten]
  | _ => (alterColumnClauses w d c).map fun x => [kw "ALTER COLUMN", [w.name c.column.columnName], x].flatten

def dropColumnForm (c : DropColumnCommand) : List Tok :=
  [kw "DROP COLUMN", opt c.dropIfExists (kw "IF EXISTS"), [w.name c.columnName], opt c.dropCascade (kw "CASCADE")].flatten

/-! ### Constraints -/

def deferForm (initially : Bool) : List Tok :=
  [kw "DEFERRABLE", if initially then kw "INITIALLY DEFERRED" else kw "INITIALLY IMMEDIATE"].flatten

/-- The elements of an EXCLUDE constraint from the `i`-th on: a column or an expression, and an operator. -/
def exclusionItems (c : Constraint) : List Str → Nat → List (List Tok)
  | [], _ => []
  | x :: xs, i =>
    [if x ≠ [] then rd d x else rd d (c.exprs.getD i []), kw "WITH", rd d (c.exclusionOperators.getD i [])].flatten ::
      exclusionItems c xs (i + 1)

def constraintBody (c : Constraint) : List Tok :=
  match c.constraintType with
  | .check => [kw "CHECK" ++ lp, rd d c.checkExpr, rp].flatten
  | .foreignKey =>
    [kw "FOREIGN KEY" ++ lp, commas (c.columns.map (rd d)), rp ++ kw "REFERENCES",
     opt (c.referencesSchema ≠ []) [rd d c.referencesSchema, [.sym '.']].flatten,
     rd d c.referencesTable,
     opt (c.referencesColumns ≠ []) [lp, commas (c.referencesColumns.map (rd d)), rp].flatten,
     opt (c.matchOption ≠ []) (rd d c.matchOption),
     opt (c.updateRule ≠ []) [kw "ON UPDATE", rd d c.updateRule].flatten,
     opt (c.deleteRule ≠ []) [kw "ON DELETE", rd d c.deleteRule].flatten].flatten
  | .exclude =>
    [kw "EXCLUDE USING", rd d c.exclusionIndexType, lp, commas (exclusionItems d c c.columns 0), rp,
     opt (c.predicate ≠ []) [kw "WHERE" ++ lp, rd d c.predicate, rp].flatten].flatten
  | .primaryKey => [kw "PRIMARY KEY" ++ lp, commas (c.columns.map (rd d)), rp].flatten
  | .unique => [kw "UNIQUE" ++ lp, commas (c.columns.map (rd d)), rp].flatten
  | .other s => [rd d s, lp, commas (c.columns.map (rd d)), rp].flatten

def constraintForm (c : Constraint) : List Tok :=
  [constraintBody d c, opt c.isDeferrable (deferForm c.isInitiallyDeferred)].flatten

def addConstraintForm (c : AddConstraintCommand) : List Tok :=
  [kw "ADD",
   opt (d ≠ .mysql ∨ c.constraint.constraintType ≠ .primaryKey) [kw "CONSTRAINT", [w.name c.constraint.constraintName]].flatten,
   if c.indexName ≠ [] then
     [rd d c.constraint.constraintType.name, kw "USING INDEX", [w.name c.indexName],
      opt c.constraint.isDeferrable (deferForm c.constraint.isInitiallyDeferred)].flatten
   else constraintForm d c.constraint,
   opt c.isNotValid (match d with | .postgres => kw "NOT VALID" | .mysql => kw "NOT ENFORCED" | _ => [])].flatten

def alterConstraintForm (c : AlterConstraintCommand) : List Tok :=
  [kw "ALTER CONSTRAINT", [w.name c.constraintName],
   if c.isDeferrable then deferForm c.isInitiallyDeferred else kw "NOT DEFERRABLE"].flatten

def dropConstraintForm (c : DropConstraintCommand) : List Tok :=
  [kw "DROP CONSTRAINT", opt c.dropIfExists (kw "IF EXISTS"), [w.name c.constraintName], opt c.dropCascade (kw "CASCADE")].flatten

/-! ### Indexes -/

/-- The elements of an index from the `i`-th on: a column or an expression. -/
def indexItems (x : Index) : List Str → Nat → List (List Tok)
  | [], _ => []
  | c :: cs, i => (if c ≠ [] then [w.name c] else rd d (x.exprs.getD i [])) :: indexItems x cs (i + 1)

def special (x : Index) : Bool := same x.indexType "fulltext" || same x.indexType "spatial"
/-- The index has a method other than the default one. -/
def hasMethod (x : Index) : Prop := x.indexType ≠ [] ∧ special x = false ∧ same x.indexType "btree" = false
instance (x : Index) : Decidable (hasMethod x) := by unfold hasMethod; exact inferInstance

def createIndexForm (c : CreateIndexCommand) : List Tok :=
  [opt (d ≠ .mysql) (kw "CREATE"),
   if d = .mysql ∧ special c.index then rd d c.index.indexType else opt c.index.isUnique (kw "UNIQUE"),
   kw "INDEX",
   opt c.createConcurrently (kw "CONCURRENTLY"),
   opt c.createIfNotExists (kw "IF NOT EXISTS"),
   [w.name c.index.indexName],
   opt (d = .mysql ∧ hasMethod c.index) [kw "USING", rd d c.index.indexType].flatten,
   opt (d ≠ .mysql) [kw "ON", target w c.index.tableSchema c.index.tableName].flatten,
   opt (d = .postgres ∧ hasMethod c.index) [kw "USING", rd d c.index.indexType].flatten,
   lp, commas (indexItems w d c.index c.index.columns 0), rp,
   opt (c.index.includeColumns ≠ []) [kw "INCLUDE" ++ lp, commas (c.index.includeColumns.map fun x => [w.name x]), rp].flatten,
   opt (c.index.predicate ≠ []) [kw "WHERE", rd d c.index.predicate].flatten].flatten

def dropIndexForm (c : DropIndexCommand) : List Tok :=
  [kw "DROP INDEX", opt c.dropConcurrently (kw "CONCURRENTLY"), opt c.dropIfExists (kw "IF EXISTS"),
   opt (c.tableSchema ≠ [] ∧ d ≠ .mysql) [w.name c.tableSchema, .sym '.'], [w.name c.indexName], opt c.dropCascade (kw "CASCADE")].flatten

/-! ### Triggers, functions, extensions, schemas, views -/

def dropTriggerForm (c : DropTriggerCommand) : List Tok :=
  [kw "DROP TRIGGER", opt c.dropIfExists (kw "IF EXISTS"),
   match d with
   | .postgres => [[w.name c.triggerName], kw "ON", target w c.tableSchema c.tableName, opt c.dropCascade (kw "CASCADE")].flatten
   | _ => target w c.tableSchema c.triggerName].flatten

def dropFunctionForm (c : DropFunctionCommand) : List Tok :=
  [kw "DROP FUNCTION", opt c.dropIfExists (kw "IF EXISTS"), target w c.function.functionSchema c.function.functionName,
   opt (d = .postgres) [lp, rd d c.function.rawArgs, rp].flatten, opt c.dropCascade (kw "CASCADE")].flatten

/-- An extension is given as `name` or `name@version`. -/
def extName (x : Str) : Str := x.takeWhile (· ≠ '@')
def extVersion (x : Str) : Str := (x.dropWhile (· ≠ '@')).drop 1

def createExtensionForm (c : CreateExtensionCommand) : List Tok :=
  [kw "CREATE EXTENSION", opt c.createIfNotExists (kw "IF NOT EXISTS"), [w.name (extName c.extension)],
   opt (extVersion c.extension ≠ [] ∨ c.createCascade)
    [kw "WITH", opt (extVersion c.extension ≠ []) [kw "VERSION", [w.text '\'' (extVersion c.extension)]].flatten,
     opt c.createCascade (kw "CASCADE")].flatten].flatten

def dropExtensionForm (c : DropExtensionCommand) : List Tok :=
  [kw "DROP EXTENSION", opt c.dropIfExists (kw "IF EXISTS"), commas (c.extensions.map fun e => [w.name (extName e)]),
   opt c.dropCascade (kw "CASCADE")].flatten

def createSchemaForm (c : CreateSchemaCommand) : List Tok :=
  [kw "CREATE SCHEMA", opt c.createIfNotExists (kw "IF NOT EXISTS"), rd d c.schemaName].flatten

def createViewForm (c : CreateViewCommand) : List Tok :=
  [kw "CREATE", opt c.createOrReplace (kw "OR REPLACE"), opt c.view.isMaterialized (kw "MATERIALIZED"), kw "VIEW",
   opt c.createIfNotExists (kw "IF NOT EXISTS"), target w c.view.viewSchema c.view.viewName, kw "AS", rd d c.view.sql].flatten

def dropViewForm (c : DropViewCommand) : List Tok :=
  [kw "DROP", opt c.isMaterialized (kw "MATERIALIZED"), kw "VIEW", opt c.dropIfExists (kw "IF EXISTS"),
   commas ((c.viewSchemas.zip c.viewNames).map fun p => target w p.1 p.2), opt c.dropCascade (kw "CASCADE")].flatten

/-! ### Tables -/

/-- The columns of the table, or the arguments of a virtual one. -/
def columnItems (t : Table) : List (List Tok) :=
  if t.virtualTable ≠ [] then t.virtualTableArgs.map (rd d) else (t.columns.filter fun c => !c.ignore).map (columnForm w d)

/-- The constraints that the statement contains: none that is marked as ignored; on SQLite, a primary key of one column belongs to
the column; elsewhere foreign keys are added by a later statement. -/
def inTable (c : Constraint) : Bool :=
  !c.ignore && !(decide (d = .sqlite) && decide (c.constraintType = .primaryKey) && decide (c.columns.length = 1)) &&
    !(decide (d ≠ .sqlite) && decide (c.constraintType = .foreignKey))

def constraintItem (c : Constraint) : List Tok :=
  [opt (c.constraintName ≠ [] ∧ ¬(d = .mysql ∧ c.constraintType = .primaryKey)) [kw "CONSTRAINT", [w.name c.constraintName]].flatten,
   constraintForm d c].flatten

/-- What stands between the parentheses of CREATE TABLE. -/
def tableItems (c : CreateTableCommand) : List (List Tok) :=
  columnItems w d c.table ++
  (if c.includeConstraints then (c.table.constraints.filter (inTable d)).map (constraintItem w d) else []) ++
  (c.createIndexCmds.filter fun x => !x.ignore).map (createIndexForm w d)

def createTableForm (c : CreateTableCommand) : List Tok :=
  [if c.table.virtualTable ≠ [] then kw "CREATE VIRTUAL TABLE" else kw "CREATE TABLE",
   opt c.createIfNotExists (kw "IF NOT EXISTS"),
   target w c.table.tableSchema c.table.tableName,
   opt (c.table.virtualTable ≠ []) [kw "USING", rd d c.table.virtualTable].flatten,
   lp, commas (tableItems w d c), rp].flatten

/-- The changes of a table. -/
def alterItems (c : AlterTableCommand) : List (List Tok) :=
  c.addColumnCmds.map (addColumnForm w d) ++ c.alterColumnCmds.flatMap (alterColumnItems w d) ++
  c.dropColumnCmds.map (dropColumnForm w) ++ c.dropConstraintCmds.map (dropConstraintForm w) ++
  c.addConstraintCmds.map (addConstraintForm w d) ++ c.alterConstraintCmds.map (alterConstraintForm w) ++
  c.createIndexCmds.map (fun x => [opt (d = .mysql) (kw "ADD"), createIndexForm w d x].flatten) ++
  c.dropIndexCmds.map (dropIndexForm w d)

def alterTableForm (c : AlterTableCommand) : List Tok :=
  [kw "ALTER TABLE", opt c.alterIfExists (kw "IF EXISTS"), target w c.tableSchema c.tableName, commas (alterItems w d c)].flatten

def dropTableForm (c : DropTableCommand) : List Tok :=
  [kw "DROP TABLE", opt c.dropIfExists (kw "IF EXISTS"), commas ((c.tableSchemas.zip c.tableNames).map fun p => target w p.1 p.2),
   opt c.dropCascade (kw "CASCADE")].flatten

/-! ### All commands -/

/-- What the text of a command says. -/
def form : Command → List Tok
  | .createSchema c => createSchemaForm d c
  | .createExtension c => createExtensionForm w c
  | .createFunction c => rd d c.function.sql
  | .createTable c => createTableForm w d c
  | .alterTable c | .addForeignKeys c | .alterTableDrop c => alterTableForm w d c
  | .createView c => createViewForm w d c
  | .createIndex c => createIndexForm w d c
  | .createTrigger c => rd d c.trigger.sql
  | .dropView c => dropViewForm w c
  | .dropTable c => dropTableForm w c
  | .dropTrigger c => dropTriggerForm w d c
  | .dropIndex c => dropIndexForm w d c
  | .dropFunction c => dropFunctionForm w d c
  | .dropExtension c => dropExtensionForm w c

/-- None of the changes of a table is empty or marked as ignored. -/
def WholeAlter (c : AlterTableCommand) : Prop :=
  (∀ x ∈ c.addColumnCmds, x.ignore = false) ∧ (∀ x ∈ c.alterColumnCmds, x.ignore = false ∧ alterColumnItems w d x ≠ []) ∧
  (∀ x ∈ c.dropColumnCmds, x.ignore = false) ∧ (∀ x ∈ c.dropConstraintCmds, x.ignore = false) ∧
  (∀ x ∈ c.addConstraintCmds, x.ignore = false) ∧ (∀ x ∈ c.alterConstraintCmds, x.ignore = false ∧ x.alterDeferrable = true) ∧
  (∀ x ∈ c.createIndexCmds, x.ignore = false) ∧ (∀ x ∈ c.dropIndexCmds, x.ignore = false)

/-- The command has no part that makes a list start with a comma or have two in a row. -/
def WholeCommand : Command → Prop
  | .createTable c => columnItems w d c.table ≠ []
  | .alterTable c | .addForeignKeys c | .alterTableDrop c => WholeAlter w d c
  | _ => True

end Ddl.Spec
