import Verif.Spec.DdlSupport
import Verif.Spec.Migrate
/-
What a dialect can express: the columns, constraints, indexes, tables and databases that use only features the dialect has
(`supports`, Spec/DdlSupport) and make sense.
-/
namespace Ddl.Spec
open Ddl

/-- The dialect has every feature of the column. -/
def ColumnFits (d : Dialect) (c : Column) : Prop := ∀ f ∈ columnFeatures c, supports d f = true

def ConstraintFits (d : Dialect) (c : Constraint) : Prop := (∀ f ∈ constraintFeatures c, supports d f = true) ∧ constraintMakesSense c

def IndexFits (d : Dialect) (x : Index) : Prop :=
  (x.includeColumns ≠ [] → supports d .includeColumns = true) ∧ (x.predicate ≠ [] → supports d .partialIndex = true) ∧ indexMakesSense x

/-- A table that the dialect can create.  (On SQLite the primary key of one column is part of the column.) -/
structure TableFits (d : Dialect) (t : Table) : Prop where
  name : t.tableName ≠ []
  virtual : t.virtualTable ≠ [] → d = .sqlite
  args : t.virtualTableArgs ≠ [] → t.virtualTable ≠ []
  columns : t.virtualTable = [] → ∀ c ∈ active t.columns, ColumnFits d c
  constraints : ∀ c ∈ active t.constraints, (d = .sqlite → c.constraintType = .primaryKey → c.columns.length ≠ 1) → ConstraintFits d c
  indexes : ∀ x ∈ active t.indexes, IndexFits d x

/-- A column that the dialect can add to a table that exists.  SQLite adds no keys, no NOT NULL column without a constant default, and no
stored column. -/
def ColumnAddable (d : Dialect) (c : Column) : Prop :=
  ColumnFits d c ∧ (d = .sqlite → c.isPrimaryKey = false ∧ c.isUnique = false ∧
    (c.isNotNull = true → nullDefault c.columnDefault = false ∧ parenDefault c.columnDefault = false) ∧
    (c.generatedExpr ≠ [] → c.generatedExprStored = false))

/-- The way from `got` to `want` can be written in the dialect: every table to create, every column, constraint and index to add is one
that the dialect has, and SQLite is not asked for schemas. -/
structure Reachable (d : Dialect) (got want : DatabaseMetadata) : Prop where
  schemas : d = .sqlite → ∀ s ∈ active want.schemas, (if s.schemaName = [] then got.currentSchema else s.schemaName) = [] ∨
    (find got.schemas (if s.schemaName = [] then got.currentSchema else s.schemaName)).isSome = true
  created : ∀ p ∈ allTables got.currentSchema want, table? got p.1 p.2.tableName = none → TableFits d p.2
  columns : ∀ p ∈ allTables got.currentSchema want, ∀ g, table? got p.1 p.2.tableName = some g → ∀ c ∈ active p.2.columns,
    find g.columns c.columnName = none → ColumnAddable d c
  constraints : d ≠ .sqlite → ∀ p ∈ allTables got.currentSchema want, ∀ g, table? got p.1 p.2.tableName = some g →
    ∀ c ∈ active p.2.constraints, find g.constraints c.constraintName = none → ConstraintFits d c
  indexes : ∀ p ∈ allTables got.currentSchema want, ∀ g, table? got p.1 p.2.tableName = some g →
    ∀ x ∈ active p.2.indexes, find g.indexes x.indexName = none → IndexFits d x
  viewIndexes : d = .postgres → ∀ p ∈ allViews got.currentSchema want, view? got p.1 p.2.viewName = none → p.2.isMaterialized = true →
    ∀ x ∈ active p.2.indexes, IndexFits d x

/-- On MySQL, where a changed column is written out in full: the columns that exist are wanted in a form that the dialect has. -/
def UpdatesFit (d : Dialect) (got want : DatabaseMetadata) : Prop :=
  d = .mysql → ∀ p ∈ allTables got.currentSchema want, ∀ g, table? got p.1 p.2.tableName = some g → ∀ c ∈ active p.2.columns, ColumnFits d c

/-- The existing database has only what its dialect has: materialized views and extensions on PostgreSQL, no functions on SQLite. -/
structure OfDialect (d : Dialect) (got : DatabaseMetadata) : Prop where
  materialized : d ≠ .postgres → ∀ s ∈ active got.schemas, ∀ v ∈ s.views, v.isMaterialized = false
  functions : d = .sqlite → ∀ s ∈ active got.schemas, s.functions = []
  extensions : d ≠ .postgres → got.extensions = []

end Ddl.Spec
