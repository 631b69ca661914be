import Verif.Spec.Migrate
/-
Specification: how a migration drops what it drops.
-/
namespace Ddl.Spec
open Ddl

/-- One object dropped by a migration, with the options of the command that drops it. -/
structure Dropped where
  obj : Obj
  ifExists : Bool
  cascade : Bool
  deriving DecidableEq

/-- What an ALTER TABLE drops, and how. -/
def alterDropped (c : AlterTableCommand) : List Dropped :=
  c.dropColumnCmds.map (fun x => ⟨.column c.tableSchema c.tableName x.columnName, x.dropIfExists, x.dropCascade⟩) ++
  c.dropConstraintCmds.map (fun x => ⟨.constraint c.tableSchema c.tableName x.constraintName, x.dropIfExists, x.dropCascade⟩) ++
  c.dropIndexCmds.map (fun x => ⟨.index x.tableSchema x.tableName x.indexName, x.dropIfExists, x.dropCascade⟩)

/-- Everything a migration drops, and how. -/
def dropped (m : Migration) : List Dropped :=
  m.dropTableCmds.flatMap (fun c => (c.tableSchemas.zip c.tableNames).map fun p => ⟨.table p.1 p.2, c.dropIfExists, c.dropCascade⟩) ++
  m.dropViewCmds.flatMap (fun c => (c.viewSchemas.zip c.viewNames).map fun p => ⟨.view p.1 p.2, c.dropIfExists, c.dropCascade⟩) ++
  m.dropTriggerCmds.map (fun c => ⟨.trigger c.tableSchema c.tableName c.triggerName, c.dropIfExists, c.dropCascade⟩) ++
  m.dropIndexCmds.map (fun c => ⟨.index c.tableSchema c.tableName c.indexName, c.dropIfExists, c.dropCascade⟩) ++
  (m.alterTableCmds ++ m.addForeignKeyCmds ++ m.alterTableDropCmds).flatMap alterDropped ++
  m.dropFunctionCmds.map (fun c => ⟨.function c.function.functionSchema c.function.functionName, c.dropIfExists, c.dropCascade⟩) ++
  m.dropExtensionCmds.flatMap (fun c => c.extensions.map fun e => ⟨.extension (extensionName e), c.dropIfExists, c.dropCascade⟩)

/-- Tables, views and extensions: what is dropped as a whole. -/
def Obj.Whole : Obj → Prop
  | .table .. | .view .. | .extension _ => True
  | _ => False

/-- `IF EXISTS` can be said when dropping such a thing: PostgreSQL always, otherwise not for parts that are dropped by ALTER TABLE. -/
def CanGuard (d : Dialect) : Obj → Prop
  | .column .. | .constraint .. => d = .postgres
  | .index .. => d = .postgres ∨ d = .sqlite
  | _ => True

end Ddl.Spec
