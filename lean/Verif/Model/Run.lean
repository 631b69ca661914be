import Verif.Model.Migrate
import Verif.Model.Tokenize
/-
Model of ddl/migration.go:512-867: `Migration.WriteSQL` and `Migration.ExecContext`.

The database is an oracle that accepts or refuses a statement given everything sent before.  A writer receives a sequence of
`io.WriteString` calls; their results are ignored by the code (migration.go:530-543), so the model records the chunks.
`sq.ToSQL` (sq.go:113-127) of a command is its `AppendSQL` text; no command adds arguments, so the `Sprintf` branch of
migration.go:520-525 is never taken.
-/
namespace Ddl

/-- The commands a migration holds (`interface Command`, ddl/ddl.go). -/
inductive Command where
  | createSchema (c : CreateSchemaCommand)
  | createExtension (c : CreateExtensionCommand)
  | createFunction (c : CreateFunctionCommand)
  | createTable (c : CreateTableCommand)
  | alterTable (c : AlterTableCommand)
  | createView (c : CreateViewCommand)
  | createIndex (c : CreateIndexCommand)
  | createTrigger (c : CreateTriggerCommand)
  | addForeignKeys (c : AlterTableCommand)
  | dropView (c : DropViewCommand)
  | dropTable (c : DropTableCommand)
  | dropTrigger (c : DropTriggerCommand)
  | dropIndex (c : DropIndexCommand)
  | alterTableDrop (c : AlterTableCommand)
  | dropFunction (c : DropFunctionCommand)
  | dropExtension (c : DropExtensionCommand)
  deriving DecidableEq

/-- The `Ignore` field of a command. -/
def Command.ignore : Command → Bool
  | .createSchema c => c.ignore | .createExtension c => c.ignore | .createFunction c => c.ignore | .createTable c => c.ignore
  | .alterTable c => c.ignore | .createView c => c.ignore | .createIndex c => c.ignore | .createTrigger c => c.ignore
  | .addForeignKeys c => c.ignore | .dropView c => c.ignore | .dropTable c => c.ignore | .dropTrigger c => c.ignore
  | .dropIndex c => c.ignore | .alterTableDrop c => c.ignore | .dropFunction c => c.ignore | .dropExtension c => c.ignore

/-- `sq.ToSQL(m.Dialect, cmd)`. -/
def Command.sql (d : Dialect) : Command → Res Str
  | .createSchema c => c.sql d | .createExtension c => c.sql d | .createFunction c => c.sql d | .createTable c => c.sql d
  | .alterTable c => c.sql d | .createView c => c.sql d | .createIndex c => c.sql d | .createTrigger c => c.sql d
  | .addForeignKeys c => c.sql d | .dropView c => c.sql d | .dropTable c => c.sql d | .dropTrigger c => c.sql d
  | .dropIndex c => c.sql d | .alterTableDrop c => c.sql d | .dropFunction c => c.sql d | .dropExtension c => c.sql d

/-- `m.Dialect`; the empty string is treated like an unknown dialect by every command. -/
def Migration.d (m : Migration) : Dialect := m.dialect.getD .other

/-! ### ExecContext -/

/-- What an execution did: the statements sent, in order, and how it ended. -/
inductive Ended where
  | done                 -- `return nil`
  | notBuilt             -- "building command ..."
  | refused              -- "executing command ..."
  | panicked
  deriving DecidableEq

structure Execution where
  sent : List Str
  ended : Ended
  deriving DecidableEq

/-- One loop of `ExecContext` (e.g. migration.go:722-730) with `execCmd` (709-721) inlined; `db h q`: the database accepts `q` after
the statements `h`. -/
def execLoop (db : List Str → Str → Bool) (d : Dialect) : List Command → List Str → Execution
  | [], h => ⟨h, .done⟩
  | c :: cs, h =>
    if c.ignore then execLoop db d cs h
    else match c.sql d with
      | .ok q => if db h q then execLoop db d cs (h ++ [q]) else ⟨h ++ [q], .refused⟩
      | .err _ => ⟨h, .notBuilt⟩
      | _ => ⟨h, .panicked⟩

/-- The loops of `ExecContext`, each followed by the next unless it returned an error. -/
def execLoops (db : List Str → Str → Bool) (d : Dialect) : List (List Command) → List Str → Execution
  | [], h => ⟨h, .done⟩
  | p :: ps, h =>
    let e := execLoop db d p h
    if e.ended = .done then execLoops db d ps e.sent else e

/-- The order of the loops: migration.go:722-865. -/
def Migration.execPhases (m : Migration) : List (List Command) :=
  [m.createSchemaCmds.map .createSchema, m.createExtensionCmds.map .createExtension, m.createFunctionCmds.map .createFunction,
   m.createTableCmds.map .createTable, m.alterTableCmds.map .alterTable, m.createViewCmds.map .createView,
   m.createIndexCmds.map .createIndex, m.createTriggerCmds.map .createTrigger, m.addForeignKeyCmds.map .addForeignKeys,
   m.dropViewCmds.map .dropView, m.dropTableCmds.map .dropTable, m.dropTriggerCmds.map .dropTrigger,
   m.dropIndexCmds.map .dropIndex, m.alterTableDropCmds.map .alterTableDrop, m.dropFunctionCmds.map .dropFunction,
   m.dropExtensionCmds.map .dropExtension]

/-- migration.go:709-867 `ExecContext`. -/
def Migration.exec (m : Migration) (db : List Str → Str → Bool) : Execution := execLoops db m.d m.execPhases []

/-! ### WriteSQL -/

/-- `strings.TrimSpace`. -/
def trim (s : Str) : Str := ((s.dropWhile Sq.isSpace).reverse.dropWhile Sq.isSpace).reverse

/-- State of `WriteSQL`: the chunks written so far and the variable `written`. -/
structure Writing where
  chunks : List Str := []
  written : Bool := false
  deriving DecidableEq

def Writing.write (w : Writing) (s : Str) : Writing := { w with chunks := w.chunks ++ [s] }

/-- migration.go:515-547 `writeCmd`. -/
def writeCmd (d : Dialect) (mysqlFunction : Bool) (c : Command) (w : Writing) : Res Writing :=
  (c.sql d).bind fun query =>
    let w1 := if w.written then w.write "\n\n".toList else { w with written := true }
    let q := trim query
    let w2 := w1.write q
    if mysqlFunction then .ok (w2.write "; -- ;;".toList)
    else match q.getLast? with
      | none => .panic
      | some c => .ok (if c = ';' then w2 else w2.write ";".toList)

/-- One loop of `WriteSQL` (e.g. migration.go:548-556). -/
def writeLoop (d : Dialect) (mysqlFunction : Bool) : List Command → Writing → Res Writing
  | [], w => .ok w
  | c :: cs, w => if c.ignore then writeLoop d mysqlFunction cs w else (writeCmd d mysqlFunction c w).bind (writeLoop d mysqlFunction cs)

/-- migration.go:566-582 and 619-635: the loops over functions and triggers. -/
def writeDelimited (d : Dialect) (cs : List Command) (w : Writing) : Res Writing :=
  if cs = [] then .ok w
  else
    (writeLoop d (d = .mysql) cs (if d = .mysql then w.write "\n\n-- DELIMITER ;;".toList else w)).map fun w =>
      if d = .mysql then w.write "\n\n-- DELIMITER ;".toList else w

/-- migration.go:512-703 `WriteSQL`. -/
def Migration.write (m : Migration) : Res Writing :=
  (writeLoop m.d false (m.createSchemaCmds.map .createSchema) {}).bind fun w =>
  (writeLoop m.d false (m.createExtensionCmds.map .createExtension) w).bind fun w =>
  (writeDelimited m.d (m.createFunctionCmds.map .createFunction) w).bind fun w =>
  (writeLoop m.d false (m.createTableCmds.map .createTable) w).bind fun w =>
  (writeLoop m.d false (m.alterTableCmds.map .alterTable) w).bind fun w =>
  (writeLoop m.d false (m.createViewCmds.map .createView) w).bind fun w =>
  (writeLoop m.d false (m.createIndexCmds.map .createIndex) w).bind fun w =>
  (writeDelimited m.d (m.createTriggerCmds.map .createTrigger) w).bind fun w =>
  (writeLoop m.d false (m.addForeignKeyCmds.map .addForeignKeys) w).bind fun w =>
  (writeLoop m.d false (m.dropViewCmds.map .dropView) w).bind fun w =>
  (writeLoop m.d false (m.dropTableCmds.map .dropTable) w).bind fun w =>
  (writeLoop m.d false (m.dropTriggerCmds.map .dropTrigger) w).bind fun w =>
  (writeLoop m.d false (m.dropIndexCmds.map .dropIndex) w).bind fun w =>
  (writeLoop m.d false (m.alterTableDropCmds.map .alterTableDrop) w).bind fun w =>
  (writeLoop m.d false (m.dropFunctionCmds.map .dropFunction) w).bind fun w =>
  writeLoop m.d false (m.dropExtensionCmds.map .dropExtension) w

/-- What a writer that accepts everything ends up with. -/
def Migration.script (m : Migration) : Res Str := m.write.map fun w => w.chunks.flatten

/-- What a writer ends up with that accepts or refuses each chunk, given the chunks offered before. -/
def delivered (accepts : List Str → Str → Bool) : List Str → List Str → Str
  | _, [] => []
  | h, c :: cs => (if accepts h c then c else []) ++ delivered accepts (h ++ [c]) cs

end Ddl
