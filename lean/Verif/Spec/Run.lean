import Verif.Model.Run
/-
The order in which the commands of a migration are to be run, and what it means to run them one after the other until one fails.
-/
namespace Ddl.Spec
open Ddl

/-- The kinds of commands. -/
inductive Kind where
  | schema | extension | function | table | alter | view | index | trigger | foreignKey
  | noView | noTable | noTrigger | noIndex | noPart | noFunction | noExtension
  deriving DecidableEq

def kind : Command → Kind
  | .createSchema _ => .schema | .createExtension _ => .extension | .createFunction _ => .function | .createTable _ => .table
  | .alterTable _ => .alter | .createView _ => .view | .createIndex _ => .index | .createTrigger _ => .trigger
  | .addForeignKeys _ => .foreignKey | .dropView _ => .noView | .dropTable _ => .noTable | .dropTrigger _ => .noTrigger
  | .dropIndex _ => .noIndex | .alterTableDrop _ => .noPart | .dropFunction _ => .noFunction | .dropExtension _ => .noExtension

/-- When a kind has its turn: what something else may depend on is created first and dropped last. -/
def turn : Kind → Nat
  | .schema => 0 | .extension => 1 | .function => 2 | .table => 3 | .alter => 4 | .view => 5 | .index => 6 | .trigger => 7
  | .foreignKey => 8 | .noView => 9 | .noTable => 10 | .noTrigger => 11 | .noIndex => 12 | .noPart => 13 | .noFunction => 14
  | .noExtension => 15

/-- The commands of one kind in a migration. -/
def ofKind (m : Migration) : Kind → List Command
  | .schema => m.createSchemaCmds.map .createSchema
  | .extension => m.createExtensionCmds.map .createExtension
  | .function => m.createFunctionCmds.map .createFunction
  | .table => m.createTableCmds.map .createTable
  | .alter => m.alterTableCmds.map .alterTable
  | .view => m.createViewCmds.map .createView
  | .index => m.createIndexCmds.map .createIndex
  | .trigger => m.createTriggerCmds.map .createTrigger
  | .foreignKey => m.addForeignKeyCmds.map .addForeignKeys
  | .noView => m.dropViewCmds.map .dropView
  | .noTable => m.dropTableCmds.map .dropTable
  | .noTrigger => m.dropTriggerCmds.map .dropTrigger
  | .noIndex => m.dropIndexCmds.map .dropIndex
  | .noPart => m.alterTableDropCmds.map .alterTableDrop
  | .noFunction => m.dropFunctionCmds.map .dropFunction
  | .noExtension => m.dropExtensionCmds.map .dropExtension

/-- `cs` is the order of a migration: of every kind exactly the commands that are not ignored, in their order, and no kind before
its turn. -/
structure Order (m : Migration) (cs : List Command) : Prop where
  each : ∀ k, cs.filter (fun c => kind c = k) = (ofKind m k).filter fun c => !c.ignore
  sorted : cs.Pairwise fun a b => turn (kind a) ≤ turn (kind b)

/-- The database accepted each of the statements when it came. -/
def Accepted (db : List Str → Str → Bool) (qs : List Str) : Prop := ∀ pre q post, qs = pre ++ q :: post → db pre q = true

/-- `cs` was run command by command until the first one that could not be built or was refused: `e` is what happened. -/
inductive Ran (db : List Str → Str → Bool) (d : Dialect) (cs : List Command) : Execution → Prop where
  /-- All of them. -/
  | all (qs : List Str) (texts : cs.map (·.sql d) = qs.map .ok) (acc : Accepted db qs) : Ran db d cs ⟨qs, .done⟩
  /-- Up to a command that has no text. -/
  | notBuilt (pre : List Command) (c : Command) (post : List Command) (qs : List Str) (e : Str) (order : cs = pre ++ c :: post)
      (texts : pre.map (·.sql d) = qs.map .ok) (acc : Accepted db qs) (fails : c.sql d = .err e) : Ran db d cs ⟨qs, .notBuilt⟩
  | panicked (pre : List Command) (c : Command) (post : List Command) (qs : List Str) (order : cs = pre ++ c :: post)
      (texts : pre.map (·.sql d) = qs.map .ok) (acc : Accepted db qs) (fails : c.sql d = .panic ∨ c.sql d = .hang) :
      Ran db d cs ⟨qs, .panicked⟩
  /-- Up to a command that the database refuses. -/
  | refused (pre : List Command) (c : Command) (post : List Command) (qs : List Str) (q : Str) (order : cs = pre ++ c :: post)
      (texts : pre.map (·.sql d) = qs.map .ok) (acc : Accepted db qs) (text : c.sql d = .ok q) (no : db qs q = false) :
      Ran db d cs ⟨qs ++ [q], .refused⟩

end Ddl.Spec
