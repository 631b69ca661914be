import Verif.Model.Meta
import Verif.Model.Quote
/-
Model of the DDL commands and their `AppendSQL` methods: ddl/table.go:586-992, ddl/column.go:32-264,
ddl/constraint.go:34-237, ddl/index.go:26-149, ddl/trigger.go:76-118, ddl/function.go:90-132, ddl/extension.go,
ddl/schema.go:157-176, ddl/view.go:134-255.

None of these methods touches `args` or `params`.  The buffer is modelled as the text returned; on an error the text already
written is dropped (callers use it only inside the error message).  Error texts are abbreviated.  `strings.EqualFold` is
modelled for ASCII letters.
-/
namespace Ddl
open Sq (quoteIdentifier escapeQuote)

/-- `strings.EqualFold` on ASCII. -/
def eqFold (a b : Str) : Bool := a.map Char.toLower == b.map Char.toLower

/-- `if schema != "" { buf.WriteString(QuoteIdentifier(schema) + ".") }; buf.WriteString(QuoteIdentifier(name))` -/
def qualified (d : Dialect) (schema name : Str) : Str :=
  (if schema = [] then [] else quoteIdentifier d schema ++ ".".toList) ++ quoteIdentifier d name

/-- `strings.Join(xs, ", ")` -/
def joinComma : List Str → Str
  | [] => []
  | [x] => x
  | x :: y :: xs => x ++ ", ".toList ++ joinComma (y :: xs)

/-- Sequencing of writes, an error aborting. -/
def Res.append (a b : Res Str) : Res Str := a.bind fun x => b.map fun y => x ++ y

infixr:67 " +++ " => Res.append

def lit (s : String) : Res Str := .ok s.toList
def txt (s : Str) : Res Str := .ok s
def when (b : Bool) (r : Res Str) : Res Str := if b then r else .ok []
/-- `if cond { return fmt.Errorf(...) }` -/
def failIf (b : Bool) (msg : String) : Res Str := if b then .err msg.toList else .ok []

/-! ### Columns -/

/-- column.go:32-39. -/
structure AddColumnCommand where
  addIfNotExists : Bool := false
  column : Column
  checkExprs : List Str := []
  referencesTable : Str := []
  referencesColumn : Str := []
  ignore : Bool := false
  deriving DecidableEq

/-- column.go:114-133: what generates the values of a column. -/
def columnGeneration (d : Dialect) (c : Column) : Res Str :=
  if c.isAutoincrement then
    match d with
    | .mysql => lit " AUTO_INCREMENT"
    | .sqlite => lit " AUTOINCREMENT"
    | _ => txt []
  else if c.identity ≠ [] then txt (" GENERATED ".toList ++ c.identity)
  else if c.generatedExpr ≠ [] then
    txt (" GENERATED ALWAYS AS (".toList ++ c.generatedExpr ++ ")".toList) +++
    (if c.generatedExprStored then lit " STORED"
     else failIf (d = .postgres) "no VIRTUAL generated columns" +++ lit " VIRTUAL")
  else txt []

/-- column.go:140-147. -/
def columnCollate (d : Dialect) (c : Column) : Res Str :=
  match d with
  | .postgres => txt (" COLLATE \"".toList ++ escapeQuote '"' c.collationName ++ "\"".toList)
  | _ => txt (" COLLATE ".toList ++ c.collationName)

/-- column.go:91-149 `writeColumnDefinition`. -/
def writeColumnDefinition (d : Dialect) (c : Column) : Res Str :=
  txt (quoteIdentifier d c.columnName) +++
  when (c.columnType ≠ []) (txt (" ".toList ++ c.columnType)) +++
  when c.isNotNull (lit " NOT NULL") +++
  when (c.columnDefault ≠ [] && !c.isAutoincrement && c.identity = [] && c.generatedExpr = [])
    (txt (" DEFAULT ".toList ++ c.columnDefault)) +++
  when (c.isPrimaryKey && d = .sqlite) (lit " PRIMARY KEY") +++
  failIf (c.isAutoincrement && d ≠ .mysql && d ≠ .sqlite) "no autoincrement columns" +++
  failIf (c.identity ≠ [] && (d = .mysql || d = .sqlite)) "no identity columns" +++
  columnGeneration d c +++
  when c.onUpdateCurrentTimestamp
    (failIf (d ≠ .mysql) "no ON UPDATE CURRENT_TIMESTAMP" +++ lit " ON UPDATE CURRENT_TIMESTAMP") +++
  when (c.collationName ≠ [])
    (columnCollate d c)

/-- column.go:41-89. -/
def AddColumnCommand.sql (d : Dialect) (cmd : AddColumnCommand) : Res Str :=
  if cmd.ignore then txt [] else
  lit "ADD COLUMN " +++
  when cmd.addIfNotExists (failIf (d ≠ .postgres) "no ADD COLUMN IF NOT EXISTS" +++ lit "IF NOT EXISTS ") +++
  when (d = .sqlite)
    (failIf cmd.column.isPrimaryKey "no adding a PRIMARY KEY column" +++
     failIf cmd.column.isUnique "no adding a UNIQUE column" +++
     when cmd.column.isNotNull
      (failIf (cmd.column.columnDefault = [] || eqFold cmd.column.columnDefault "NULL".toList) "NOT NULL without DEFAULT" +++
       failIf (cmd.column.columnDefault.head? = some '(' && cmd.column.columnDefault.getLast? = some ')') "expression DEFAULT") +++
     failIf ((cmd.referencesTable ≠ [] || cmd.referencesColumn ≠ []) && cmd.column.columnDefault ≠ [] &&
        !eqFold cmd.column.columnDefault "NULL".toList) "FOREIGN KEY without NULL DEFAULT" +++
     failIf (cmd.column.generatedExpr ≠ [] && cmd.column.generatedExprStored) "no GENERATED STORED") +++
  writeColumnDefinition d cmd.column +++
  when (d = .sqlite)
    (txt (cmd.checkExprs.flatMap fun e => " CHECK (".toList ++ e ++ ")".toList) +++
     when (cmd.referencesTable ≠ [] && cmd.referencesColumn ≠ [])
      (txt (" REFERENCES ".toList ++ quoteIdentifier d cmd.referencesTable ++ " (".toList ++
        quoteIdentifier d cmd.referencesColumn ++ ")".toList)))

/-- column.go:151-162. -/
structure AlterColumnCommand where
  column : Column := {}
  dropDefault : Bool := false
  dropNotNull : Bool := false
  dropExpr : Bool := false
  dropExprIfExists : Bool := false
  dropIdentity : Bool := false
  dropIdentityIfExists : Bool := false
  dropAutoincrement : Bool := false
  usingExpr : Str := []
  ignore : Bool := false
  deriving DecidableEq

/-- The clauses of column.go:191-230, in order, each to be preceded by `ALTER COLUMN name`. -/
def AlterColumnCommand.clauses (cmd : AlterColumnCommand) : List Str :=
  (if cmd.column.columnType ≠ [] then
    [" SET DATA TYPE ".toList ++ cmd.column.columnType ++
      (if cmd.column.collationName ≠ [] then " COLLATE \"".toList ++ escapeQuote '"' cmd.column.collationName ++ "\"".toList else []) ++
      (if cmd.usingExpr ≠ [] then " USING ".toList ++ cmd.usingExpr else [])] else []) ++
  (if cmd.dropNotNull then [" DROP NOT NULL".toList] else if cmd.column.isNotNull then [" SET NOT NULL".toList] else []) ++
  (if cmd.dropDefault then [" DROP DEFAULT".toList]
   else if cmd.column.columnDefault ≠ [] then [" SET DEFAULT ".toList ++ cmd.column.columnDefault] else []) ++
  (if cmd.dropIdentity then [" DROP IDENTITY".toList ++ (if cmd.dropIdentityIfExists then " IF EXISTS".toList else [])]
   else if cmd.column.identity ≠ [] then [" ADD GENERATED ".toList ++ cmd.column.identity] else []) ++
  (if cmd.dropExpr then [" DROP EXPRESSION".toList ++ (if cmd.dropExprIfExists then " IF EXISTS".toList else [])] else [])

/-- `"\n    ,"` between the lines. -/
def joinLines : List Str → Str
  | [] => []
  | [x] => x
  | x :: y :: xs => x ++ "\n    ,".toList ++ joinLines (y :: xs)

/-- column.go:164-238. -/
def AlterColumnCommand.sql (d : Dialect) (cmd : AlterColumnCommand) : Res Str :=
  if cmd.ignore then txt [] else
  match d with
  | .sqlite => .err "sqlite does not support altering columns".toList
  | .mysql => lit "MODIFY COLUMN " +++ writeColumnDefinition d cmd.column
  | .postgres => txt (joinLines (cmd.clauses.map fun c => "ALTER COLUMN ".toList ++ quoteIdentifier d cmd.column.columnName ++ c))
  | _ => .err "unrecognized dialect".toList

/-- column.go:238-243. -/
structure DropColumnCommand where
  dropIfExists : Bool := false
  columnName : Str
  dropCascade : Bool := false
  ignore : Bool := false
  deriving DecidableEq

/-- column.go:247-264. -/
def DropColumnCommand.sql (d : Dialect) (cmd : DropColumnCommand) : Res Str :=
  if cmd.ignore then txt [] else
  lit "DROP COLUMN " +++
  when cmd.dropIfExists (failIf (d ≠ .postgres) "no DROP COLUMN IF EXISTS" +++ lit "IF EXISTS ") +++
  txt (quoteIdentifier d cmd.columnName) +++
  when cmd.dropCascade (failIf (d ≠ .postgres) "no DROP COLUMN CASCADE" +++ lit " CASCADE")

/-! ### Constraints -/

/-- constraint.go:34-39. -/
structure AddConstraintCommand where
  constraint : Constraint
  indexName : Str := []
  isNotValid : Bool := false
  ignore : Bool := false
  deriving DecidableEq

/-- The string constants of ddl/ddl.go:21-28. -/
def ConstraintType.name : ConstraintType → Str
  | .primaryKey => "PRIMARY KEY".toList
  | .foreignKey => "FOREIGN KEY".toList
  | .unique => "UNIQUE".toList
  | .check => "CHECK".toList
  | .exclude => "EXCLUDE".toList
  | .other s => s

/-- constraint.go:125-142: the elements of an EXCLUDE constraint from index `i` on. -/
def exclusionElements (c : Constraint) : List Str → Nat → Res Str
  | [], _ => txt []
  | col :: cols, i =>
    when (i > 0) (lit ", ") +++
    (if col ≠ [] then txt col
     else match c.exprs[i]? with
      | none => .panic
      | some e => if e ≠ [] then txt e else .err "no column name or expression provided".toList) +++
    lit " WITH " +++
    (match c.exclusionOperators[i]? with
      | none => .panic
      | some o => if o ≠ [] then txt o else .err "no exclusion operator provided".toList) +++
    exclusionElements c cols (i + 1)

/-- constraint.go:93-149: the constraint without its deferrability. -/
def constraintText (d : Dialect) (c : Constraint) : Res Str :=
  match c.constraintType with
  | .check => txt ("CHECK (".toList ++ c.checkExpr ++ ")".toList)
  | .foreignKey =>
    txt ("FOREIGN KEY (".toList ++ joinComma c.columns ++ ") REFERENCES ".toList) +++
    when (c.referencesSchema ≠ []) (txt (c.referencesSchema ++ ".".toList)) +++
    txt c.referencesTable +++
    when (c.referencesColumns ≠ []) (txt (" (".toList ++ joinComma c.referencesColumns ++ ")".toList)) +++
    when (c.matchOption ≠ []) (txt (" ".toList ++ c.matchOption)) +++
    when (c.updateRule ≠ []) (txt (" ON UPDATE ".toList ++ c.updateRule)) +++
    when (c.deleteRule ≠ []) (txt (" ON DELETE ".toList ++ c.deleteRule))
  | .exclude =>
    failIf (d ≠ .postgres) "no EXCLUDE constraints" +++
    failIf (c.exclusionIndexType = []) "EXCLUDE requires an index" +++
    txt ("EXCLUDE USING ".toList ++ c.exclusionIndexType ++ " (".toList) +++
    exclusionElements c c.columns 0 +++
    lit ")" +++
    when (c.predicate ≠ []) (txt (" WHERE (".toList ++ c.predicate ++ ")".toList))
  | t => txt (t.name ++ " (".toList ++ joinComma c.columns ++ ")".toList)

/-- constraint.go:150-169. -/
def deferrableText (d : Dialect) (c : Constraint) : Res Str :=
  when c.isDeferrable
    ((match d with
      | .postgres => failIf (c.constraintType = .check) "CHECK not deferrable"
      | .sqlite => failIf (c.constraintType ≠ .foreignKey) "not deferrable"
      | _ => .err "no deferrable constraints".toList) +++
     lit " DEFERRABLE" +++
     (if c.isInitiallyDeferred then lit " INITIALLY DEFERRED" else lit " INITIALLY IMMEDIATE"))

/-- constraint.go:92-171 `writeConstraintDefinition`. -/
def writeConstraintDefinition (d : Dialect) (c : Constraint) : Res Str := constraintText d c +++ deferrableText d c

/-- constraint.go:41-90. -/
def AddConstraintCommand.sql (d : Dialect) (cmd : AddConstraintCommand) : Res Str :=
  if cmd.ignore then txt [] else
  failIf (d = .sqlite) "no adding constraints" +++
  lit "ADD" +++
  when (d ≠ .mysql || cmd.constraint.constraintType ≠ .primaryKey)
    (txt (" CONSTRAINT ".toList ++ quoteIdentifier d cmd.constraint.constraintName)) +++
  (if cmd.indexName ≠ [] then
    failIf (d ≠ .postgres) "no constraints using an index" +++
    failIf (cmd.constraint.constraintType ≠ .primaryKey && cmd.constraint.constraintType ≠ .unique) "only PRIMARY KEY and UNIQUE" +++
    txt (" ".toList ++ cmd.constraint.constraintType.name ++ " USING INDEX ".toList ++ quoteIdentifier d cmd.indexName) +++
    when cmd.constraint.isDeferrable
      (lit " DEFERRABLE" +++
       (if cmd.constraint.isInitiallyDeferred then lit " INITIALLY DEFERRED" else lit " INITIALLY IMMEDIATE"))
  else lit " " +++ writeConstraintDefinition d cmd.constraint) +++
  when cmd.isNotValid
    (match d with
    | .postgres =>
      failIf (cmd.constraint.constraintType ≠ .check && cmd.constraint.constraintType ≠ .foreignKey) "cannot be NOT VALID" +++
      lit " NOT VALID"
    | .mysql => failIf (cmd.constraint.constraintType ≠ .check) "cannot be NOT ENFORCED" +++ lit " NOT ENFORCED"
    | _ => txt [])

/-- constraint.go:173-179. -/
structure AlterConstraintCommand where
  constraintName : Str
  alterDeferrable : Bool := false
  isDeferrable : Bool := false
  isInitiallyDeferred : Bool := false
  ignore : Bool := false
  deriving DecidableEq

/-- constraint.go:181-206. -/
def AlterConstraintCommand.sql (d : Dialect) (cmd : AlterConstraintCommand) : Res Str :=
  if cmd.ignore then txt [] else
  failIf (d = .mysql) "mysql ALTER CONSTRAINT not supported" +++
  failIf (d = .sqlite) "sqlite does not support ALTER CONSTRAINT" +++
  when cmd.alterDeferrable
    (txt ("ALTER CONSTRAINT ".toList ++ quoteIdentifier d cmd.constraintName) +++
     (if cmd.isDeferrable then
        lit " DEFERRABLE" +++ (if cmd.isInitiallyDeferred then lit " INITIALLY DEFERRED" else lit " INITIALLY IMMEDIATE")
      else lit " NOT DEFERRABLE"))

/-- constraint.go:208-213. -/
structure DropConstraintCommand where
  dropIfExists : Bool := false
  constraintName : Str
  dropCascade : Bool := false
  ignore : Bool := false
  deriving DecidableEq

/-- constraint.go:212-237. -/
def DropConstraintCommand.sql (d : Dialect) (cmd : DropConstraintCommand) : Res Str :=
  if cmd.ignore then txt [] else
  failIf (d = .sqlite) "sqlite does not support DROP CONSTRAINT" +++
  lit "DROP CONSTRAINT " +++
  when cmd.dropIfExists (failIf (d ≠ .postgres) "no DROP CONSTRAINT IF EXISTS" +++ lit "IF EXISTS ") +++
  txt (quoteIdentifier d cmd.constraintName) +++
  when cmd.dropCascade (failIf (d ≠ .postgres) "no DROP CONSTRAINT CASCADE" +++ lit " CASCADE")

/-! ### Indexes -/

/-- index.go:26-31. -/
structure CreateIndexCommand where
  createConcurrently : Bool := false
  createIfNotExists : Bool := false
  index : Index
  ignore : Bool := false
  deriving DecidableEq

/-- index.go:77-87: the column list from index `i` on. -/
def indexElements (d : Dialect) (x : Index) : List Str → Nat → Res Str
  | [], _ => txt []
  | col :: cols, i =>
    when (i > 0) (lit ", ") +++
    (if col ≠ [] then txt (quoteIdentifier d col)
     else match x.exprs[i]? with
      | none => .panic
      | some e => txt e) +++
    indexElements d x cols (i + 1)

/-- index.go:33-109. -/
def CreateIndexCommand.sql (d : Dialect) (cmd : CreateIndexCommand) : Res Str :=
  if cmd.ignore then txt [] else
  let ft := eqFold cmd.index.indexType "FULLTEXT".toList || eqFold cmd.index.indexType "SPATIAL".toList
  let indexType := if cmd.index.indexType ≠ [] && !ft && !eqFold cmd.index.indexType "BTREE".toList then cmd.index.indexType else []
  when (d ≠ .mysql) (lit "CREATE ") +++
  (if d = .mysql && ft then txt (cmd.index.indexType ++ " ".toList) else when cmd.index.isUnique (lit "UNIQUE ")) +++
  lit "INDEX " +++
  when cmd.createConcurrently (failIf (d ≠ .postgres) "no CREATE INDEX CONCURRENTLY" +++ lit "CONCURRENTLY ") +++
  when cmd.createIfNotExists (failIf (d = .mysql) "no IF NOT EXISTS" +++ lit "IF NOT EXISTS ") +++
  txt (quoteIdentifier d cmd.index.indexName) +++
  when (d = .mysql && indexType ≠ []) (txt (" USING ".toList ++ indexType)) +++
  when (d ≠ .mysql) (txt (" ON ".toList ++ qualified d cmd.index.tableSchema cmd.index.tableName)) +++
  when (d = .postgres && indexType ≠ []) (txt (" USING ".toList ++ indexType)) +++
  lit " (" +++
  indexElements d cmd.index cmd.index.columns 0 +++
  lit ")" +++
  when (cmd.index.includeColumns ≠ [])
    (failIf (d ≠ .postgres) "no INDEX INCLUDE" +++
     txt (" INCLUDE (".toList ++ joinComma (cmd.index.includeColumns.map (quoteIdentifier d)) ++ ")".toList)) +++
  when (cmd.index.predicate ≠ [])
    (failIf (d ≠ .postgres && d ≠ .sqlite) "no INDEX WHERE" +++ txt (" WHERE ".toList ++ cmd.index.predicate))

/-- index.go:111-119. -/
structure DropIndexCommand where
  dropConcurrently : Bool := false
  dropIfExists : Bool := false
  tableSchema : Str := []
  tableName : Str := []
  indexName : Str
  dropCascade : Bool := false
  ignore : Bool := false
  deriving DecidableEq

/-- index.go:121-149. -/
def DropIndexCommand.sql (d : Dialect) (cmd : DropIndexCommand) : Res Str :=
  if cmd.ignore then txt [] else
  lit "DROP INDEX " +++
  when cmd.dropConcurrently (failIf (d ≠ .postgres) "no DROP INDEX CONCURRENTLY" +++ lit "CONCURRENTLY ") +++
  when cmd.dropIfExists (failIf (d ≠ .postgres && d ≠ .sqlite) "no DROP INDEX IF EXISTS" +++ lit "IF EXISTS ") +++
  when (cmd.tableSchema ≠ [] && d ≠ .mysql) (txt (quoteIdentifier d cmd.tableSchema ++ ".".toList)) +++
  txt (quoteIdentifier d cmd.indexName) +++
  when cmd.dropCascade (failIf (d ≠ .postgres) "no DROP INDEX CASCADE" +++ lit " CASCADE")

/-! ### Triggers, functions, extensions, schemas -/

/-- trigger.go:71-82. -/
structure CreateTriggerCommand where
  trigger : Trigger
  ignore : Bool := false
  deriving DecidableEq

def CreateTriggerCommand.sql (_ : Dialect) (cmd : CreateTriggerCommand) : Res Str :=
  if cmd.ignore then txt [] else txt cmd.trigger.sql

/-- trigger.go:84-91. -/
structure DropTriggerCommand where
  dropIfExists : Bool := false
  tableSchema : Str := []
  tableName : Str := []
  triggerName : Str
  dropCascade : Bool := false
  ignore : Bool := false
  deriving DecidableEq

/-- trigger.go:93-118. -/
def DropTriggerCommand.sql (d : Dialect) (cmd : DropTriggerCommand) : Res Str :=
  if cmd.ignore then txt [] else
  lit "DROP TRIGGER " +++ when cmd.dropIfExists (lit "IF EXISTS ") +++
  (match d with
  | .postgres =>
    txt (quoteIdentifier d cmd.triggerName ++ " ON ".toList ++ qualified d cmd.tableSchema cmd.tableName) +++
    when cmd.dropCascade (lit " CASCADE")
  | _ => txt (qualified d cmd.tableSchema cmd.triggerName))

/-- function.go:87-101. -/
structure CreateFunctionCommand where
  function : Function
  ignore : Bool := false
  deriving DecidableEq

def CreateFunctionCommand.sql (d : Dialect) (cmd : CreateFunctionCommand) : Res Str :=
  if cmd.ignore then txt [] else
  failIf (d = .sqlite) "sqlite does not support functions" +++ txt cmd.function.sql

/-- function.go:103-108. -/
structure DropFunctionCommand where
  dropIfExists : Bool := false
  function : Function
  dropCascade : Bool := false
  ignore : Bool := false
  deriving DecidableEq

/-- function.go:110-132. -/
def DropFunctionCommand.sql (d : Dialect) (cmd : DropFunctionCommand) : Res Str :=
  if cmd.ignore then txt [] else
  failIf (d = .sqlite) "sqlite does not support functions" +++
  lit "DROP FUNCTION " +++ when cmd.dropIfExists (lit "IF EXISTS ") +++
  txt (qualified d cmd.function.functionSchema cmd.function.functionName) +++
  when (d = .postgres) (txt ("(".toList ++ cmd.function.rawArgs ++ ")".toList)) +++
  when cmd.dropCascade (lit " CASCADE")

/-- extension.go:11-16. -/
structure CreateExtensionCommand where
  createIfNotExists : Bool := false
  extension : Str
  createCascade : Bool := false
  ignore : Bool := false
  deriving DecidableEq

/-- extension.go:18-44. -/
def CreateExtensionCommand.sql (d : Dialect) (cmd : CreateExtensionCommand) : Res Str :=
  if cmd.ignore then txt [] else
  let version := (cmd.extension.dropWhile (· ≠ '@')).drop 1
  failIf (d ≠ .postgres) "no extensions" +++
  lit "CREATE EXTENSION " +++ when cmd.createIfNotExists (lit "IF NOT EXISTS ") +++
  txt (quoteIdentifier d (extensionName cmd.extension)) +++
  when (version ≠ [] || cmd.createCascade)
    (lit " WITH" +++
     when (version ≠ []) (txt (" VERSION '".toList ++ escapeQuote '\'' version ++ "'".toList)) +++
     when cmd.createCascade (lit " CASCADE"))

/-- extension.go:46-51. -/
structure DropExtensionCommand where
  dropIfExists : Bool := false
  extensions : List Str
  dropCascade : Bool := false
  ignore : Bool := false
  deriving DecidableEq

/-- extension.go:53-77. -/
def DropExtensionCommand.sql (d : Dialect) (cmd : DropExtensionCommand) : Res Str :=
  if cmd.ignore then txt [] else
  failIf (d ≠ .postgres) "no extensions" +++
  lit "DROP EXTENSION " +++ when cmd.dropIfExists (lit "IF EXISTS ") +++
  txt (joinComma (cmd.extensions.map fun e => quoteIdentifier d (extensionName e))) +++
  when cmd.dropCascade (lit " CASCADE")

/-- schema.go:157-176.  The name is written unquoted. -/
structure CreateSchemaCommand where
  createIfNotExists : Bool := false
  schemaName : Str
  ignore : Bool := false
  deriving DecidableEq

def CreateSchemaCommand.sql (d : Dialect) (cmd : CreateSchemaCommand) : Res Str :=
  if cmd.ignore then txt [] else
  failIf (d = .sqlite) "sqlite does not support CREATE SCHEMA" +++
  lit "CREATE SCHEMA " +++ when cmd.createIfNotExists (lit "IF NOT EXISTS ") +++ txt cmd.schemaName

/-! ### Views -/

/-- view.go:133-138. -/
structure CreateViewCommand where
  createOrReplace : Bool := false
  createIfNotExists : Bool := false
  view : View
  ignore : Bool := false
  deriving DecidableEq

/-- view.go:140-172. -/
def CreateViewCommand.sql (d : Dialect) (cmd : CreateViewCommand) : Res Str :=
  if cmd.ignore then txt [] else
  lit "CREATE " +++
  when cmd.createOrReplace
    (failIf (d = .postgres && cmd.view.isMaterialized) "no CREATE OR REPLACE for Materialized Views" +++
     failIf (d ≠ .postgres && d ≠ .mysql) "no CREATE OR REPLACE VIEW" +++ lit "OR REPLACE ") +++
  when cmd.view.isMaterialized (lit "MATERIALIZED ") +++
  lit "VIEW " +++
  when cmd.createIfNotExists
    (failIf (d = .postgres && !cmd.view.isMaterialized) "no CREATE VIEW IF NOT EXISTS" +++
     failIf (d ≠ .sqlite && d ≠ .postgres) "no CREATE VIEW IF NOT EXISTS" +++ lit "IF NOT EXISTS ") +++
  txt (qualified d cmd.view.viewSchema cmd.view.viewName ++ " AS ".toList ++ cmd.view.sql)

/-- view.go:174-181.  Schemas and names are two parallel slices. -/
structure DropViewCommand where
  dropIfExists : Bool := false
  isMaterialized : Bool := false
  viewSchemas : List Str := []
  viewNames : List Str := []
  dropCascade : Bool := false
  ignore : Bool := false
  deriving DecidableEq

/-- The parallel iteration of view.go:204-214 and table.go:940-951: the lines from index `i` on.  `many`: more than one name. -/
def dropLines (d : Dialect) (many : Bool) : List Str → List Str → Nat → Res Str
  | [], _, _ => txt []
  | _ :: _, [], _ => .panic
  | a :: as, b :: bs, i =>
    (if i > 0 then lit "\n    ," else if many then lit "\n    " else txt []) +++ txt (qualified d a b) +++ dropLines d many as bs (i + 1)

/-- view.go:183-227. -/
def DropViewCommand.sql (d : Dialect) (cmd : DropViewCommand) : Res Str :=
  if cmd.ignore then txt [] else
  let many := decide (cmd.viewNames.length > 1)
  lit "DROP " +++
  when cmd.isMaterialized (failIf (d ≠ .postgres) "no materialized views" +++ lit "MATERIALIZED ") +++
  lit "VIEW " +++
  when cmd.dropIfExists (lit "IF EXISTS" +++ when (cmd.viewNames.length = 1) (lit " ")) +++
  failIf (many && d = .sqlite) "one view at a time" +++
  dropLines d many cmd.viewSchemas cmd.viewNames 0 +++
  when cmd.dropCascade
    (failIf (d = .sqlite) "no DROP VIEW CASCADE" +++ (if many then lit "\n" else lit " ") +++ lit "CASCADE")

/-- view.go:245-255 `decomposeDropViewCommandSQLite2`.  (Parallel slices: as long as each other when `Migrate` calls it.) -/
def decomposeDropView (cmd : DropViewCommand) : List DropViewCommand :=
  (cmd.viewSchemas.zip cmd.viewNames).map fun p => { dropIfExists := cmd.dropIfExists, viewSchemas := [p.1], viewNames := [p.2] }

/-! ### Tables -/

/-- table.go:586-592. -/
structure CreateTableCommand where
  createIfNotExists : Bool := false
  includeConstraints : Bool := false
  table : Table := {}
  createIndexCmds : List CreateIndexCommand := []
  ignore : Bool := false
  deriving DecidableEq

/-- table.go:621-652: the lines before the constraints (columns, or the arguments of a virtual table). -/
def tableLines (d : Dialect) (t : Table) : List (Res Str) :=
  if t.virtualTable ≠ [] then (if d = .sqlite then t.virtualTableArgs.map txt else [])
  else (t.columns.filter fun c => !c.ignore).map (writeColumnDefinition d)

/-- Lines separated by `"\n    ,"`, the first one after `"\n    "`. -/
def writeLines : List (Res Str) → Nat → Res Str
  | [], _ => txt []
  | l :: ls, i => (if i > 0 then lit "\n    ," else lit "\n    ") +++ l +++ writeLines ls (i + 1)

/-- table.go:655-673: the constraints that CREATE TABLE includes. -/
def includedConstraint (d : Dialect) (c : Constraint) : Bool :=
  !c.ignore && !(d = .sqlite && c.constraintType = .primaryKey && c.columns.length = 1) &&
    !(d ≠ .sqlite && c.constraintType = .foreignKey)

/-- table.go:678-686. -/
def constraintLine (d : Dialect) (c : Constraint) : Res Str :=
  (if c.constraintName = [] || (d = .mysql && c.constraintType = .primaryKey) then lit "\n    ,"
   else txt ("\n    ,CONSTRAINT ".toList ++ quoteIdentifier d c.constraintName ++ " ".toList)) +++
  writeConstraintDefinition d c

def concatRes : List (Res Str) → Res Str
  | [] => txt []
  | x :: xs => x +++ concatRes xs

/-- table.go:594-710. -/
def CreateTableCommand.sql (d : Dialect) (cmd : CreateTableCommand) : Res Str :=
  if cmd.ignore then txt [] else
  let t := cmd.table
  let virt : Bool := decide (t.virtualTable ≠ [])
  let cons := if cmd.includeConstraints then t.constraints.filter (includedConstraint d) else []
  let idxs := cmd.createIndexCmds.filter fun c => !c.ignore
  failIf (t.tableName = []) "table has no name" +++
  (if virt then failIf (d ≠ .sqlite) "no VIRTUAL TABLE" +++ lit "CREATE VIRTUAL TABLE " else lit "CREATE TABLE ") +++
  when cmd.createIfNotExists (lit "IF NOT EXISTS ") +++
  txt (qualified d t.tableSchema t.tableName) +++
  when virt (txt (" USING ".toList ++ t.virtualTable)) +++
  lit " (" +++
  writeLines (tableLines d t) 0 +++
  failIf (t.virtualTableArgs ≠ [] && !virt) "virtual table arguments without a module" +++
  when (cons ≠ []) (lit "\n") +++ concatRes (cons.map (constraintLine d)) +++
  failIf (cmd.createIndexCmds ≠ [] && d ≠ .mysql) "no indexes inside CREATE TABLE" +++
  when (cons = [] && idxs ≠ []) (lit "\n") +++ concatRes (idxs.map fun c => lit "\n    ," +++ c.sql d) +++
  lit "\n)"

/-- table.go:712-725. -/
structure AlterTableCommand where
  alterIfExists : Bool := false
  tableSchema : Str := []
  tableName : Str
  addColumnCmds : List AddColumnCommand := []
  alterColumnCmds : List AlterColumnCommand := []
  dropColumnCmds : List DropColumnCommand := []
  addConstraintCmds : List AddConstraintCommand := []
  alterConstraintCmds : List AlterConstraintCommand := []
  dropConstraintCmds : List DropConstraintCommand := []
  createIndexCmds : List CreateIndexCommand := []
  dropIndexCmds : List DropIndexCommand := []
  ignore : Bool := false
  deriving DecidableEq

/-- table.go:727-830. -/
def AlterTableCommand.sql (d : Dialect) (cmd : AlterTableCommand) : Res Str :=
  if cmd.ignore then txt [] else
  lit "ALTER TABLE " +++
  when cmd.alterIfExists (failIf (d ≠ .postgres) "no ALTER TABLE IF EXISTS" +++ lit "IF EXISTS ") +++
  txt (qualified d cmd.tableSchema cmd.tableName) +++
  when (d = .sqlite)
    (failIf (cmd.addColumnCmds.length + cmd.alterColumnCmds.length + cmd.dropColumnCmds.length > 1) "one column modification" +++
     failIf (cmd.createIndexCmds.length + cmd.dropIndexCmds.length > 0) "no indexes") +++
  when (d = .postgres) (failIf (cmd.dropIndexCmds.length + cmd.createIndexCmds.length > 0) "no indexes") +++
  writeLines
    (cmd.addColumnCmds.map (·.sql d) ++ cmd.alterColumnCmds.map (·.sql d) ++ cmd.dropColumnCmds.map (·.sql d) ++
     cmd.dropConstraintCmds.map (·.sql d) ++ cmd.addConstraintCmds.map (·.sql d) ++ cmd.alterConstraintCmds.map (·.sql d) ++
     cmd.createIndexCmds.map (fun c => when (d = .mysql) (lit "ADD ") +++ c.sql d) ++ cmd.dropIndexCmds.map (·.sql d)) 0 +++
  lit "\n"

/-- table.go:832-849 `decomposeAlterTableCommandSQLite2`. -/
def decomposeAlterTable (cmd : AlterTableCommand) : List AlterTableCommand :=
  cmd.addColumnCmds.map (fun c => { tableSchema := cmd.tableSchema, tableName := cmd.tableName, addColumnCmds := [c] }) ++
  cmd.dropColumnCmds.map (fun c => { tableSchema := cmd.tableSchema, tableName := cmd.tableName, dropColumnCmds := [c] })

/-- table.go:921-927. -/
structure DropTableCommand where
  dropIfExists : Bool := false
  tableSchemas : List Str := []
  tableNames : List Str := []
  dropCascade : Bool := false
  ignore : Bool := false
  deriving DecidableEq

/-- The iteration of table.go:940-951, over the names, indexing the schemas. -/
def dropTableLines (d : Dialect) (many : Bool) : List Str → List Str → Nat → Res Str
  | _, [], _ => txt []
  | [], _ :: _, _ => .panic
  | a :: as, b :: bs, i =>
    (if i > 0 then lit "\n    ," else if many then lit "\n    " else txt []) +++ txt (qualified d a b) +++
      dropTableLines d many as bs (i + 1)

/-- table.go:929-964. -/
def DropTableCommand.sql (d : Dialect) (cmd : DropTableCommand) : Res Str :=
  if cmd.ignore then txt [] else
  let many := decide (cmd.tableNames.length > 1)
  lit "DROP TABLE " +++
  when cmd.dropIfExists (lit "IF EXISTS" +++ when (cmd.tableNames.length = 1) (lit " ")) +++
  dropTableLines d many cmd.tableSchemas cmd.tableNames 0 +++
  when cmd.dropCascade
    (failIf (d ≠ .postgres && d ≠ .mysql) "no DROP TABLE CASCADE" +++ (if many then lit "\n" else lit " ") +++ lit "CASCADE")

/-- table.go:982-992 `decomposeDropTableCommandSQLite2`. -/
def decomposeDropTable (cmd : DropTableCommand) : List DropTableCommand :=
  (cmd.tableSchemas.zip cmd.tableNames).map fun p => { dropIfExists := cmd.dropIfExists, tableSchemas := [p.1], tableNames := [p.2] }

end Ddl
