import Verif.Spec.DdlForm
/-
What the dialects support of DDL: the features that a command uses, and which dialect has which feature.
-/
namespace Ddl.Spec
open Ddl

inductive Feature where
  -- columns
  | autoincrement | identity | virtualColumn | onUpdate
  | addColumnIfNotExists | addPrimaryKey | addUnique | addNotNullWithoutDefault | addNotNullExpressionDefault
  | addReferenceWithDefault | addStored
  | alterColumn
  | dropColumnIfExists | dropColumnCascade
  -- constraints
  | exclude | deferrable (t : ConstraintType) | addConstraint | usingIndex | notValid (t : ConstraintType)
  | alterConstraint | dropConstraint | dropConstraintIfExists | dropConstraintCascade
  -- indexes
  | createIndexConcurrently | createIndexIfNotExists | includeColumns | partialIndex
  | dropIndexConcurrently | dropIndexIfExists | dropIndexCascade
  -- the rest
  | functions | extensions | schemas
  | createOrReplaceView (materialized : Bool) | createViewIfNotExists (materialized : Bool)
  | dropMaterializedView | dropSeveralViews | dropViewCascade
  | virtualTable | indexInCreateTable
  | alterTableIfExists | alterSeveralColumns | indexInAlterTable | dropTableCascade

/-- Which dialect has which feature.  (Dialects that the package does not know are the last case of each line.) -/
def supports : Dialect → Feature → Bool
  | d, .autoincrement => d = .mysql || d = .sqlite
  | d, .identity => d ≠ .mysql && d ≠ .sqlite
  | d, .virtualColumn => d ≠ .postgres
  | d, .onUpdate => d = .mysql
  | d, .addColumnIfNotExists => d = .postgres
  | d, .addPrimaryKey | d, .addUnique | d, .addNotNullWithoutDefault | d, .addNotNullExpressionDefault | d, .addReferenceWithDefault
  | d, .addStored => d ≠ .sqlite
  | d, .alterColumn => d = .postgres || d = .mysql
  | d, .dropColumnIfExists | d, .dropColumnCascade => d = .postgres
  | d, .exclude => d = .postgres
  | .postgres, .deferrable t => t ≠ .check
  | .sqlite, .deferrable t => t = .foreignKey
  | _, .deferrable _ => false
  | d, .addConstraint => d ≠ .sqlite
  | d, .usingIndex => d = .postgres
  | .postgres, .notValid t => t = .check || t = .foreignKey
  | .mysql, .notValid t => t = .check
  | _, .notValid _ => true
  | d, .alterConstraint => d ≠ .mysql && d ≠ .sqlite
  | d, .dropConstraint => d ≠ .sqlite
  | d, .dropConstraintIfExists | d, .dropConstraintCascade => d = .postgres
  | d, .createIndexConcurrently => d = .postgres
  | d, .createIndexIfNotExists => d ≠ .mysql
  | d, .includeColumns => d = .postgres
  | d, .partialIndex => d = .postgres || d = .sqlite
  | d, .dropIndexConcurrently | d, .dropIndexCascade => d = .postgres
  | d, .dropIndexIfExists => d = .postgres || d = .sqlite
  | d, .functions => d ≠ .sqlite
  | d, .extensions => d = .postgres
  | d, .schemas => d ≠ .sqlite
  | d, .createOrReplaceView m => d = .mysql || d = .postgres && !m
  | d, .createViewIfNotExists m => d = .sqlite || d = .postgres && m
  | d, .dropMaterializedView => d = .postgres
  | d, .dropSeveralViews | d, .dropViewCascade => d ≠ .sqlite
  | d, .virtualTable => d = .sqlite
  | d, .indexInCreateTable => d = .mysql
  | d, .alterTableIfExists => d = .postgres
  | d, .alterSeveralColumns => d ≠ .sqlite
  | d, .indexInAlterTable => d ≠ .sqlite && d ≠ .postgres
  | d, .dropTableCascade => d = .postgres || d = .mysql

/-! ### The features of a command -/

/-- `f`, if `p`. -/
def use (p : Prop) [Decidable p] (f : Feature) : List Feature := if p then [f] else []
/-- All of `fs`, if `p`. -/
def uses (p : Prop) [Decidable p] (fs : List Feature) : List Feature := if p then fs else []

def columnFeatures (c : Column) : List Feature :=
  use c.isAutoincrement .autoincrement ++ use (c.identity ≠ []) .identity ++
  use (c.isAutoincrement = false ∧ c.identity = [] ∧ c.generatedExpr ≠ [] ∧ c.generatedExprStored = false) .virtualColumn ++
  use c.onUpdateCurrentTimestamp .onUpdate

/-- The default is absent or NULL. -/
def nullDefault (x : Str) : Bool := decide (x = []) || same x "null"
/-- The default is an expression in parentheses. -/
def parenDefault (x : Str) : Bool := decide (x.head? = some '(') && decide (x.getLast? = some ')')

def addColumnFeatures (c : AddColumnCommand) : List Feature :=
  uses (c.ignore = false)
   (use c.addIfNotExists .addColumnIfNotExists ++ use c.column.isPrimaryKey .addPrimaryKey ++ use c.column.isUnique .addUnique ++
    use (c.column.isNotNull ∧ nullDefault c.column.columnDefault) .addNotNullWithoutDefault ++
    use (c.column.isNotNull ∧ parenDefault c.column.columnDefault) .addNotNullExpressionDefault ++
    use ((c.referencesTable ≠ [] ∨ c.referencesColumn ≠ []) ∧ nullDefault c.column.columnDefault = false) .addReferenceWithDefault ++
    use (c.column.generatedExpr ≠ [] ∧ c.column.generatedExprStored) .addStored ++ columnFeatures c.column)

/-- On MySQL the whole column is given again. -/
def alterColumnFeatures (d : Dialect) (c : AlterColumnCommand) : List Feature :=
  uses (c.ignore = false) ([.alterColumn] ++ uses (d = .mysql) (columnFeatures c.column))

def dropColumnFeatures (c : DropColumnCommand) : List Feature :=
  uses (c.ignore = false) (use c.dropIfExists .dropColumnIfExists ++ use c.dropCascade .dropColumnCascade)

def constraintFeatures (c : Constraint) : List Feature :=
  use (c.constraintType = .exclude) .exclude ++ use c.isDeferrable (.deferrable c.constraintType)

def addConstraintFeatures (c : AddConstraintCommand) : List Feature :=
  uses (c.ignore = false)
   ([.addConstraint] ++ use (c.indexName ≠ []) .usingIndex ++ uses (c.indexName = []) (constraintFeatures c.constraint) ++
    use c.isNotValid (.notValid c.constraint.constraintType))

def alterConstraintFeatures (c : AlterConstraintCommand) : List Feature := use (c.ignore = false) .alterConstraint

def dropConstraintFeatures (c : DropConstraintCommand) : List Feature :=
  uses (c.ignore = false)
   ([.dropConstraint] ++ use c.dropIfExists .dropConstraintIfExists ++ use c.dropCascade .dropConstraintCascade)

def createIndexFeatures (c : CreateIndexCommand) : List Feature :=
  uses (c.ignore = false)
   (use c.createConcurrently .createIndexConcurrently ++ use c.createIfNotExists .createIndexIfNotExists ++
    use (c.index.includeColumns ≠ []) .includeColumns ++ use (c.index.predicate ≠ []) .partialIndex)

def dropIndexFeatures (c : DropIndexCommand) : List Feature :=
  uses (c.ignore = false)
   (use c.dropConcurrently .dropIndexConcurrently ++ use c.dropIfExists .dropIndexIfExists ++ use c.dropCascade .dropIndexCascade)

def createTableFeatures (d : Dialect) (c : CreateTableCommand) : List Feature :=
  use (c.table.virtualTable ≠ []) .virtualTable ++
  uses (c.table.virtualTable = []) ((c.table.columns.filter fun x => !x.ignore).flatMap columnFeatures) ++
  uses c.includeConstraints ((c.table.constraints.filter (inTable d)).flatMap constraintFeatures) ++
  use (c.createIndexCmds ≠ []) .indexInCreateTable ++ c.createIndexCmds.flatMap createIndexFeatures

def alterTableFeatures (d : Dialect) (c : AlterTableCommand) : List Feature :=
  use c.alterIfExists .alterTableIfExists ++
  use (c.addColumnCmds.length + c.alterColumnCmds.length + c.dropColumnCmds.length > 1) .alterSeveralColumns ++
  use (c.createIndexCmds ≠ [] ∨ c.dropIndexCmds ≠ []) .indexInAlterTable ++
  c.addColumnCmds.flatMap addColumnFeatures ++ c.alterColumnCmds.flatMap (alterColumnFeatures d) ++
  c.dropColumnCmds.flatMap dropColumnFeatures ++ c.addConstraintCmds.flatMap addConstraintFeatures ++
  c.alterConstraintCmds.flatMap alterConstraintFeatures ++ c.dropConstraintCmds.flatMap dropConstraintFeatures ++
  c.createIndexCmds.flatMap createIndexFeatures ++ c.dropIndexCmds.flatMap dropIndexFeatures

/-- The features that a command uses. -/
def features (d : Dialect) : Command → List Feature
  | .createSchema _ => [.schemas]
  | .createExtension _ | .dropExtension _ => [.extensions]
  | .createFunction _ | .dropFunction _ => [.functions]
  | .createTable c => createTableFeatures d c
  | .alterTable c | .addForeignKeys c | .alterTableDrop c => alterTableFeatures d c
  | .createView c =>
    use c.createOrReplace (.createOrReplaceView c.view.isMaterialized) ++ use c.createIfNotExists (.createViewIfNotExists c.view.isMaterialized)
  | .createIndex c => createIndexFeatures c
  | .createTrigger _ | .dropTrigger _ => []
  | .dropView c =>
    use c.isMaterialized .dropMaterializedView ++ use (c.viewNames.length > 1) .dropSeveralViews ++ use c.dropCascade .dropViewCascade
  | .dropTable c => use c.dropCascade .dropTableCascade
  | .dropIndex c => dropIndexFeatures c

/-! ### Commands that make sense -/

/-- Each element of an EXCLUDE constraint is a column or an expression, and has an operator. -/
def exclusionMakesSense (c : Constraint) : Prop :=
  c.exclusionIndexType ≠ [] ∧ ∀ (i : Nat) (h : i < c.columns.length),
    (c.columns[i] ≠ [] ∨ ∃ e, c.exprs[i]? = some e ∧ e ≠ []) ∧ ∃ o, c.exclusionOperators[i]? = some o ∧ o ≠ []

def constraintMakesSense (c : Constraint) : Prop := c.constraintType = .exclude → exclusionMakesSense c

/-- Only keys are made from an index. -/
def addConstraintMakesSense (c : AddConstraintCommand) : Prop := c.ignore = false →
  (c.indexName ≠ [] → c.constraint.constraintType = .primaryKey ∨ c.constraint.constraintType = .unique) ∧
  (c.indexName = [] → constraintMakesSense c.constraint)

/-- Each element of an index is a column or an expression. -/
def indexMakesSense (x : Index) : Prop := ∀ (i : Nat) (h : i < x.columns.length), x.columns[i] = [] → i < x.exprs.length

/-- The table has a name; only a virtual table has arguments. -/
def createTableMakesSense (d : Dialect) (c : CreateTableCommand) : Prop :=
  c.table.tableName ≠ [] ∧ (c.table.virtualTableArgs ≠ [] → c.table.virtualTable ≠ []) ∧
  (c.includeConstraints = true → ∀ x ∈ c.table.constraints, inTable d x = true → constraintMakesSense x) ∧
  (∀ x ∈ c.createIndexCmds, x.ignore = false → indexMakesSense x.index)

def alterTableMakesSense (c : AlterTableCommand) : Prop :=
  (∀ x ∈ c.addConstraintCmds, addConstraintMakesSense x) ∧ (∀ x ∈ c.createIndexCmds, x.ignore = false → indexMakesSense x.index)

def makesSense (d : Dialect) : Command → Prop
  | .createTable c => createTableMakesSense d c
  | .alterTable c | .addForeignKeys c | .alterTableDrop c => alterTableMakesSense c
  | .createIndex c => indexMakesSense c.index
  | .dropView c => c.viewSchemas.length ≤ c.viewNames.length
  | .dropTable c => c.tableNames.length ≤ c.tableSchemas.length
  | _ => True

/-- The parallel lists of a command are as long as each other. -/
def constraintParallel (c : Constraint) : Prop := c.exprs.length = c.columns.length ∧ c.exclusionOperators.length = c.columns.length
def indexParallel (x : Index) : Prop := x.exprs.length = x.columns.length

def parallel : Command → Prop
  | .createTable c => (∀ x ∈ c.table.constraints, constraintParallel x) ∧ (∀ x ∈ c.createIndexCmds, indexParallel x.index)
  | .alterTable c | .addForeignKeys c | .alterTableDrop c =>
    (∀ x ∈ c.addConstraintCmds, constraintParallel x.constraint) ∧ (∀ x ∈ c.createIndexCmds, indexParallel x.index)
  | .createIndex c => indexParallel c.index
  | .dropView c => c.viewSchemas.length = c.viewNames.length
  | .dropTable c => c.tableNames.length = c.tableSchemas.length
  | _ => True

end Ddl.Spec
