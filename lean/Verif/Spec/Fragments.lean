import Verif.Spec.Script
import Verif.Model.Run
/-
The parts of a command that the package copies into the statement as they are: SQL supplied by the user, and names that it does not
quote.  Everything else a command holds (names of tables, columns, indexes, views, constraints, schemas, ...) is not listed.
-/
namespace Ddl.Spec
open Ddl

def rawColumn (c : Column) : List Str := [c.columnType, c.columnDefault, c.identity, c.generatedExpr, c.collationName]

/-- Note the names: columns and referenced tables of a constraint are not quoted. -/
def rawConstraint (c : Constraint) : List Str :=
  [c.constraintType.name, c.checkExpr, c.referencesSchema, c.referencesTable, c.matchOption, c.updateRule, c.deleteRule,
   c.exclusionIndexType, c.predicate] ++ c.columns ++ c.referencesColumns ++ c.exprs ++ c.exclusionOperators

def rawIndex (x : Index) : List Str := [x.indexType, x.predicate] ++ x.exprs

def rawAlterTable (c : AlterTableCommand) : List Str :=
  c.addColumnCmds.flatMap (fun a => rawColumn a.column ++ a.checkExprs) ++
  c.alterColumnCmds.flatMap (fun a => a.usingExpr :: rawColumn a.column) ++
  c.addConstraintCmds.flatMap (fun a => rawConstraint a.constraint) ++
  c.createIndexCmds.flatMap (fun a => rawIndex a.index)

def raw : Command → List Str
  | .createSchema c => [c.schemaName]
  | .createExtension _ => []
  | .createFunction c => [c.function.sql]
  | .createTable c =>
    [c.table.virtualTable] ++ c.table.virtualTableArgs ++ c.table.columns.flatMap rawColumn ++ c.table.constraints.flatMap rawConstraint ++
      c.createIndexCmds.flatMap fun a => rawIndex a.index
  | .alterTable c => rawAlterTable c
  | .createView c => [c.view.sql]
  | .createIndex c => rawIndex c.index
  | .createTrigger c => [c.trigger.sql]
  | .addForeignKeys c => rawAlterTable c
  | .dropView _ => []
  | .dropTable _ => []
  | .dropTrigger _ => []
  | .dropIndex _ => []
  | .alterTableDrop c => rawAlterTable c
  | .dropFunction c => [c.function.rawArgs]
  | .dropExtension _ => []

/-- A text without blanks at its end. -/
def chop (s : Str) : Str := (s.reverse.dropWhile Sq.isSpace).reverse

/-- The fragment can stand anywhere in a statement: it does not end it, and no quote or comment is open after it (nor after the text
without its trailing blanks: a final newline may not be what closes a comment). -/
def Tidy (d : Dialect) (t : Str) : Prop := (_root_.Spec.reader d).Neutral t ∧ (_root_.Spec.reader d).Neutral (chop t)

end Ddl.Spec
