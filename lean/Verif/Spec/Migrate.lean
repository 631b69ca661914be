import Verif.Model.Migrate
import Verif.Props.Meta
/-
What a user means by "exists", "wanted" and "well-formed", without positions and caches.
-/
namespace Ddl.Spec
open Ddl

variable {α κ : Type} [DecidableEq κ] [Entry α κ]

/-- The (first) element of that name that is not ignored. -/
def find (items : List α) (k : κ) : Option α := items.find? fun x => decide (Entry.key x = k) && !Entry.ignore x

/-- The elements that are not ignored. -/
def active (items : List α) : List α := items.filter fun x => !Entry.ignore x

/-- No two non-ignored elements have the same name. -/
def Unique (items : List α) : Prop := ((active items).map Entry.key).Nodup

/-- All names are nonblank. -/
def Named (items : List α) : Prop := ∀ x ∈ active items, Entry.blank α (Entry.key x) = false

/-- An element list is sound: its cache is complete (`C33_complete`: true of every list built through the package), its names are
unique and not blank. -/
structure ListOk (items : List α) (cache : Cache κ) : Prop where
  complete : Complete items cache
  unique : Unique items
  named : Named items

structure TableOk (t : Table) : Prop where
  columns : ListOk t.columns t.columnCache
  indexes : ListOk t.indexes t.indexCache
  triggers : ListOk t.triggers t.triggerCache

structure SchemaOk (s : Schema) : Prop where
  tables : ListOk s.tables s.tableCache
  views : ListOk s.views s.viewCache
  table : ∀ t ∈ active s.tables, TableOk t

structure MetaOk (d : DatabaseMetadata) : Prop where
  schemas : ListOk d.schemas d.schemaCache
  schema : ∀ s ∈ active d.schemas, SchemaOk s
  /-- Constraints have names, except on SQLite, which does not report any. -/
  constraints : d.dialect ≠ some .sqlite → ∀ s ∈ active d.schemas, ∀ t ∈ active s.tables, ListOk t.constraints t.constraintCache

/-- The table `schema.name` of a database. -/
def table? (d : DatabaseMetadata) (schema name : Str) : Option Table :=
  (find d.schemas schema).bind fun s => find s.tables name

def view? (d : DatabaseMetadata) (schema name : Str) : Option View :=
  (find d.schemas schema).bind fun s => find s.views name

/-- All tables asked for, with the name of their schema; a schema without a name is the current one. -/
def allTables (cur : Str) (d : DatabaseMetadata) : List (Str × Table) :=
  (active d.schemas).flatMap fun s => (active s.tables).map fun t => (if s.schemaName = [] then cur else s.schemaName, t)

def allViews (cur : Str) (d : DatabaseMetadata) : List (Str × View) :=
  (active d.schemas).flatMap fun s => (active s.views).map fun t => (if s.schemaName = [] then cur else s.schemaName, t)

end Ddl.Spec

namespace Ddl.Spec
open Ddl

/-- A named thing in a database. -/
inductive Obj where
  | table (schema name : Str)
  | column (schema table name : Str)
  | constraint (schema table name : Str)
  | index (schema table name : Str)
  | trigger (schema table name : Str)
  | view (schema name : Str)
  | function (schema name : Str)
  | extension (name : Str)
  deriving DecidableEq

/-- What an ALTER TABLE drops. -/
def alterDrops (c : AlterTableCommand) : List Obj :=
  c.dropColumnCmds.map (fun x => .column c.tableSchema c.tableName x.columnName) ++
  c.dropConstraintCmds.map (fun x => .constraint c.tableSchema c.tableName x.constraintName) ++
  c.dropIndexCmds.map (fun x => .index x.tableSchema x.tableName x.indexName)

/-- Everything a migration drops. -/
def drops (m : Migration) : List Obj :=
  m.dropTableCmds.flatMap (fun c => (c.tableSchemas.zip c.tableNames).map fun p => Obj.table p.1 p.2) ++
  m.dropViewCmds.flatMap (fun c => (c.viewSchemas.zip c.viewNames).map fun p => Obj.view p.1 p.2) ++
  m.dropTriggerCmds.map (fun c => Obj.trigger c.tableSchema c.tableName c.triggerName) ++
  m.dropIndexCmds.map (fun c => Obj.index c.tableSchema c.tableName c.indexName) ++
  (m.alterTableCmds ++ m.addForeignKeyCmds ++ m.alterTableDropCmds).flatMap alterDrops ++
  m.dropFunctionCmds.map (fun c => Obj.function c.function.functionSchema c.function.functionName) ++
  m.dropExtensionCmds.flatMap (fun c => c.extensions.map fun e => Obj.extension (extensionName e))

/-- The object is part of the database `d`, where a schema without a name is called `cur`. -/
def Has (cur : Str) (d : DatabaseMetadata) : Obj → Prop
  | .table s n => ∃ t, (s, t) ∈ allTables cur d ∧ t.tableName = n
  | .column s tn n => ∃ t, (s, t) ∈ allTables cur d ∧ t.tableName = tn ∧ ∃ c ∈ active t.columns, c.columnName = n
  | .constraint s tn n => ∃ t, (s, t) ∈ allTables cur d ∧ t.tableName = tn ∧ ∃ c ∈ active t.constraints, c.constraintName = n
  | .index s tn n => ∃ t, (s, t) ∈ allTables cur d ∧ t.tableName = tn ∧ ∃ c ∈ active t.indexes, c.indexName = n
  | .trigger s tn n => ∃ t, (s, t) ∈ allTables cur d ∧ t.tableName = tn ∧ ∃ c ∈ active t.triggers, c.triggerName = n
  | .view s n => ∃ v, (s, v) ∈ allViews cur d ∧ v.viewName = n
  | .function s n => ∃ sc ∈ active d.schemas, (if sc.schemaName = [] then cur else sc.schemaName) = s ∧
      ∃ f ∈ sc.functions, f.ignore = false ∧ f.functionName = n
  | .extension n => ∃ e ∈ d.extensions, extensionName e = n

/-- The parts of a table carry the table's name, and a table the name of its schema, as reported by an introspected database. -/
structure PlacedTable (t : Table) : Prop where
  indexes : ∀ x ∈ t.indexes, x.tableSchema = t.tableSchema ∧ x.tableName = t.tableName
  triggers : ∀ x ∈ t.triggers, x.tableSchema = t.tableSchema ∧ x.tableName = t.tableName

structure PlacedSchema (s : Schema) : Prop where
  tables : ∀ t ∈ s.tables, t.tableSchema = s.schemaName ∧ PlacedTable t
  views : ∀ v ∈ s.views, v.viewSchema = s.schemaName
  functions : ∀ f ∈ s.functions, f.functionSchema = s.schemaName

def Placed (d : DatabaseMetadata) : Prop := ∀ s ∈ d.schemas, PlacedSchema s

/-- The lookups of functions and extensions find what is there (not so for metadata built by the package's own options:
`C33_extensions_violated`, `C36_wanted_function_dropped`). -/
def FunctionsFindable (d : DatabaseMetadata) : Prop :=
  ∀ s ∈ active d.schemas, ∀ f ∈ s.functions, f.ignore = false → s.cachedFunctionPositions f.functionName ≠ []

def ExtensionsFindable (d : DatabaseMetadata) : Prop :=
  ∀ e ∈ d.extensions, ∀ e', extensionName e' = extensionName e → ∃ n, d.cachedExtensionPosition e' = .ok (some n)

/-- Schema names mean the same on both sides: wanted schemas are named, or the current schema has the empty name (SQLite). -/
def SchemasNamed (cur : Str) (d : DatabaseMetadata) : Prop := cur = [] ∨ ∀ s ∈ active d.schemas, s.schemaName ≠ []

/-- The object exists in an introspected database, in a schema and table that are not ignored. -/
def Present (d : DatabaseMetadata) : Obj → Prop
  | .table s n => ∃ sc ∈ active d.schemas, sc.schemaName = s ∧ ∃ t ∈ active sc.tables, t.tableName = n
  | .column s tn n => ∃ sc ∈ active d.schemas, sc.schemaName = s ∧ ∃ t ∈ active sc.tables, t.tableName = tn ∧
      ∃ c ∈ t.columns, c.columnName = n
  | .constraint s tn n => ∃ sc ∈ active d.schemas, sc.schemaName = s ∧ ∃ t ∈ active sc.tables, t.tableName = tn ∧
      ∃ c ∈ t.constraints, c.constraintName = n
  | .index s tn n => ∃ sc ∈ active d.schemas, sc.schemaName = s ∧ ∃ t ∈ active sc.tables, t.tableName = tn ∧
      ∃ c ∈ t.indexes, c.indexName = n
  | .trigger s tn n => ∃ sc ∈ active d.schemas, sc.schemaName = s ∧ ∃ t ∈ active sc.tables, t.tableName = tn ∧
      ∃ c ∈ t.triggers, c.triggerName = n
  | .view s n => ∃ sc ∈ active d.schemas, sc.schemaName = s ∧ ∃ v ∈ sc.views, v.viewName = n
  | .function s n => ∃ sc ∈ active d.schemas, sc.schemaName = s ∧ ∃ f ∈ sc.functions, f.functionName = n
  | .extension n => ∃ e ∈ d.extensions, extensionName e = n

/-- What is left to drop: parts only of tables that stay, and no constraints on SQLite (it cannot). -/
def Droppable (dialect : Dialect) (cur : Str) (want : DatabaseMetadata) : Obj → Prop
  | .table .. | .view .. | .function .. => True
  | .column s t _ | .index s t _ | .trigger s t _ => Has cur want (.table s t)
  | .constraint s t _ => dialect ≠ .sqlite ∧ Has cur want (.table s t)
  | .extension n => ¬ "plpgsql".toList <+: n

end Ddl.Spec
