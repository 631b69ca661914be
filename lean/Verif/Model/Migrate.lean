import Verif.Model.Command
/-
Model of ddl/migration.go:11-510 (`Migrate`, `diffColumn`).

Simplifications: the lookups `CachedXPosition` are used as pure functions; the cache entries they delete change no later answer
(`C33_lookup_pure`).  The accumulators of the Go code (`m.XCmds = append(m.XCmds, ...)`) become concatenations of per-schema
and per-table contributions, in the same order.  `for range` over value slices copies elements, so assignments to loop
variables do not escape.
-/
namespace Ddl

/-- migration.go:11-24: a mode is an int64 bit set. -/
abbrev Mode := BitVec 64
def CreateMissing : Mode := 1
def UpdateExisting : Mode := 2
def DropExtraneous : Mode := 4
def DropCascade : Mode := 8
/-- `mode&flag != 0` -/
def has (mode flag : Mode) : Bool := mode &&& flag != 0

/-- migration.go:26-45. -/
structure Migration where
  dialect : Option Dialect := none
  currentSchema : Str := []
  createSchemaCmds : List CreateSchemaCommand := []
  createExtensionCmds : List CreateExtensionCommand := []
  createFunctionCmds : List CreateFunctionCommand := []
  createTableCmds : List CreateTableCommand := []
  alterTableCmds : List AlterTableCommand := []
  createViewCmds : List CreateViewCommand := []
  createIndexCmds : List CreateIndexCommand := []
  createTriggerCmds : List CreateTriggerCommand := []
  addForeignKeyCmds : List AlterTableCommand := []
  dropViewCmds : List DropViewCommand := []
  dropTableCmds : List DropTableCommand := []
  dropTriggerCmds : List DropTriggerCommand := []
  dropIndexCmds : List DropIndexCommand := []
  alterTableDropCmds : List AlterTableCommand := []
  dropFunctionCmds : List DropFunctionCommand := []
  dropExtensionCmds : List DropExtensionCommand := []
  deriving DecidableEq

/-! ### Creating and updating -/

/-- migration.go:470-510 `diffColumn`: the command, if the columns differ. -/
def diffColumn (d : Dialect) (got want : Column) : Option AlterColumnCommand :=
  let typeDiff := !eqFold got.columnType want.columnType
  let dropNN := got.isNotNull && !want.isNotNull
  let setNN := !got.isNotNull && want.isNotNull
  let dropDef : Bool := decide (got.columnDefault ≠ []) && decide (want.columnDefault = [])
  let setDef : Bool := decide (got.columnDefault = []) && decide (want.columnDefault ≠ [])
  let dropId : Bool := decide (d = .postgres) && decide (got.identity ≠ []) && decide (want.identity = [])
  let addId : Bool := decide (d = .postgres) && decide (got.identity = []) && decide (want.identity ≠ [])
  if typeDiff || dropNN || setNN || dropDef || setDef || dropId || addId then
    some
      { column :=
          { columnType := if typeDiff then want.columnType else []
            isNotNull := setNN
            columnDefault := if setDef then want.columnDefault else []
            identity := if addId then want.identity else [] }
        dropNotNull := dropNN
        dropDefault := dropDef
        dropIdentity := dropId
        dropIdentityIfExists := dropId }
  else none

/-- migration.go:101-109: the existing schema a wanted one is compared with (an empty one if there is none). -/
def gotSchemaFor (got : DatabaseMetadata) (name : Str) : Schema :=
  match got.cachedSchemaPosition name with
  | some n => (got.schemas[n]?).getD { schemaName := name }
  | none => { schemaName := name }

/-- migration.go:133-139: the existing table a wanted one is compared with. -/
def gotTableFor (gs : Schema) (t : Table) : Option Table :=
  match gs.cachedTablePosition t.tableName with
  | some n => gs.tables[n]?
  | none => none

/-- migration.go:143-172: the column commands of one wanted column of an existing table. -/
def columnCmds (mode : Mode) (d : Dialect) (got : Table) (c : Column) : List AddColumnCommand × List AlterColumnCommand :=
  if c.ignore then ([], [])
  else match got.cachedColumnPosition c.columnName with
    | some n =>
      if has mode UpdateExisting then
        match diffColumn d ((got.columns[n]?).getD {}) c with
        | some cmd => ([], [if d = .mysql then { cmd with column := c } else cmd])
        | none => ([], [])
      else ([], [])
    | none =>
      if has mode CreateMissing then ([{ addIfNotExists := d = .postgres, column := c }], []) else ([], [])

/-- migration.go:173-190: the constraints to add. -/
def missingConstraints (got : Table) (cs : List Constraint) : List Constraint :=
  cs.filter fun c => !c.ignore && (got.cachedConstraintPosition c.constraintName).isNone

/-- migration.go:191-211. -/
def missingIndexes (got : Table) (is : List Index) : List Index :=
  is.filter fun c => !c.ignore && (got.cachedIndexPosition c.indexName).isNone

/-- migration.go:212-223. -/
def missingTriggers (got : Table) (ts : List Trigger) : List Trigger :=
  ts.filter fun c => !c.ignore && (got.cachedTriggerPosition c.triggerName).isNone

/-- migration.go:124-139: the existing table a wanted one is compared with, an empty one if there is none. -/
def gotOrEmpty (gs : Schema) (t : Table) : Table :=
  (gotTableFor gs t).getD { tableSchema := t.tableSchema, tableName := t.tableName }

/-- migration.go:173-190: the missing constraints (SQLite has none outside CREATE TABLE). -/
def newConstraints (d : Dialect) (gs : Schema) (t : Table) : List Constraint :=
  if d = .sqlite then [] else missingConstraints (gotOrEmpty gs t) t.constraints

/-- migration.go:191-211: the commands for the missing indexes. -/
def newIndexes (d : Dialect) (gs : Schema) (t : Table) : List CreateIndexCommand :=
  (missingIndexes (gotOrEmpty gs t) t.indexes).map fun i => { createIfNotExists := d ≠ .mysql, index := i }

/-- migration.go:124-211: the ALTER TABLE command (`alterTableCmd`) of one wanted table. -/
def wantAlter (mode : Mode) (d : Dialect) (gs : Schema) (t : Table) : AlterTableCommand :=
  let existing := (gotTableFor gs t).isSome
  let cols := if existing then t.columns.map (columnCmds mode d (gotOrEmpty gs t)) else []
  { tableSchema := t.tableSchema, tableName := t.tableName, alterIfExists := d = .postgres
    addColumnCmds := cols.flatMap Prod.fst
    alterColumnCmds := cols.flatMap Prod.snd
    addConstraintCmds :=
      if existing then ((newConstraints d gs t).filter fun c => c.constraintType ≠ .foreignKey).map fun c => { constraint := c } else []
    createIndexCmds := if d = .mysql && existing then newIndexes d gs t else [] }

/-- migration.go:129, 173-184: the ALTER TABLE command that adds the foreign keys (`addForeignKeyCmd`). -/
def wantForeignKeys (d : Dialect) (gs : Schema) (t : Table) : AlterTableCommand :=
  { tableSchema := t.tableSchema, tableName := t.tableName, alterIfExists := d = .postgres
    addConstraintCmds := ((newConstraints d gs t).filter fun c => c.constraintType = .foreignKey).map fun c => { constraint := c } }

/-- migration.go:118-239: what one wanted (not ignored) table contributes. -/
def wantTable (mode : Mode) (d : Dialect) (gs : Schema) (t : Table) : Migration :=
  { createTableCmds :=
      if (gotTableFor gs t).isSome then []
      else [{ createIfNotExists := true, includeConstraints := true
              table := if has mode CreateMissing then t else {}
              createIndexCmds := if d = .mysql then newIndexes d gs t else [] }]
    createIndexCmds := if d = .mysql then [] else newIndexes d gs t
    createTriggerCmds := (missingTriggers (gotOrEmpty gs t) t.triggers).map fun x => { trigger := x }
    alterTableCmds :=
      if d = .sqlite then decomposeAlterTable (wantAlter mode d gs t)
      else if (wantAlter mode d gs t).addColumnCmds ≠ [] ∨ (wantAlter mode d gs t).alterColumnCmds ≠ [] ∨
          (wantAlter mode d gs t).addConstraintCmds ≠ [] ∨ (wantAlter mode d gs t).alterConstraintCmds ≠ [] ∨
          (wantAlter mode d gs t).createIndexCmds ≠ [] then [wantAlter mode d gs t] else []
    addForeignKeyCmds := if (wantForeignKeys d gs t).addConstraintCmds ≠ [] then [wantForeignKeys d gs t] else [] }

/-- migration.go:240-274: what one wanted (not ignored) view contributes. -/
def wantView (d : Dialect) (gs : Schema) (v : View) : Migration :=
  if (gs.cachedViewPosition v.viewName).isSome then {}
  else
    { createViewCmds :=
        [{ createOrReplace := decide (d = .mysql) || (decide (d = .postgres) && !v.isMaterialized)
           createIfNotExists := decide (d = .sqlite) || (decide (d = .postgres) && v.isMaterialized)
           view := v }]
      createIndexCmds :=
        if v.isMaterialized && d = .postgres then
          (v.indexes.filter fun i => !i.ignore).map fun i => { createIfNotExists := true, index := i } else []
      createTriggerCmds :=
        if v.isMaterialized && d = .postgres then
          (v.triggers.filter fun i => !i.ignore).map fun i => { trigger := i } else [] }

/-- migration.go:275-288: the functions to create. -/
def wantFunctions (d : Dialect) (gs : Schema) (fs : List Function) : List CreateFunctionCommand :=
  if d = .sqlite then []
  else (fs.filter fun f => !f.ignore && (gs.cachedFunctionPositions f.functionName).isEmpty).map fun f => { function := f }

/-- Componentwise concatenation (the dialect and the current schema of the first). -/
def Migration.append (a b : Migration) : Migration :=
  { dialect := a.dialect, currentSchema := a.currentSchema
    createSchemaCmds := a.createSchemaCmds ++ b.createSchemaCmds
    createExtensionCmds := a.createExtensionCmds ++ b.createExtensionCmds
    createFunctionCmds := a.createFunctionCmds ++ b.createFunctionCmds
    createTableCmds := a.createTableCmds ++ b.createTableCmds
    alterTableCmds := a.alterTableCmds ++ b.alterTableCmds
    createViewCmds := a.createViewCmds ++ b.createViewCmds
    createIndexCmds := a.createIndexCmds ++ b.createIndexCmds
    createTriggerCmds := a.createTriggerCmds ++ b.createTriggerCmds
    addForeignKeyCmds := a.addForeignKeyCmds ++ b.addForeignKeyCmds
    dropViewCmds := a.dropViewCmds ++ b.dropViewCmds
    dropTableCmds := a.dropTableCmds ++ b.dropTableCmds
    dropTriggerCmds := a.dropTriggerCmds ++ b.dropTriggerCmds
    dropIndexCmds := a.dropIndexCmds ++ b.dropIndexCmds
    alterTableDropCmds := a.alterTableDropCmds ++ b.alterTableDropCmds
    dropFunctionCmds := a.dropFunctionCmds ++ b.dropFunctionCmds
    dropExtensionCmds := a.dropExtensionCmds ++ b.dropExtensionCmds }

def Migration.concat : List Migration → Migration
  | [] => {}
  | m :: ms => m.append (Migration.concat ms)

/-- migration.go:97-289: what one wanted (not ignored) schema contributes.  An empty name stands for the current schema. -/
def wantSchema (mode : Mode) (d : Dialect) (got : DatabaseMetadata) (s : Schema) : Migration :=
  let name := if s.schemaName = [] then got.currentSchema else s.schemaName
  let gs := gotSchemaFor got name
  let create : Migration :=
    { createSchemaCmds :=
        if (got.cachedSchemaPosition name).isNone && has mode CreateMissing && name ≠ [] then
          [{ createIfNotExists := true, schemaName := name }] else []
      createFunctionCmds := wantFunctions d gs s.functions }
  create.append
    ((Migration.concat ((s.tables.filter fun t => !t.ignore).map (wantTable mode d gs))).append
      (Migration.concat ((s.views.filter fun v => !v.ignore).map (wantView d gs))))

/-- migration.go:85-96: the extensions to create.  The lookup may panic. -/
def wantExtensions (got : DatabaseMetadata) : List Str → Res (List CreateExtensionCommand)
  | [] => .ok []
  | e :: es =>
    (got.cachedExtensionPosition e).bind fun n =>
      (wantExtensions got es).map fun cmds =>
        if n.isSome then cmds else { createIfNotExists := true, extension := e } :: cmds

/-! ### Dropping -/

/-- migration.go:310-321: the extensions to drop. -/
def dropExtensions (want : DatabaseMetadata) : List Str → Res (List Str)
  | [] => .ok []
  | e :: es =>
    if "plpgsql".toList <+: e then dropExtensions want es
    else (want.cachedExtensionPosition e).bind fun n =>
      (dropExtensions want es).map fun rest => if n.isSome then rest else e :: rest

/-- migration.go:325-334: the wanted schema an existing one is compared with. -/
def wantSchemaFor (want : DatabaseMetadata) (name : Str) : Schema :=
  match want.cachedSchemaPosition name with
  | some n => (want.schemas[n]?).getD { schemaName := name }
  | none => { schemaName := name }

/-- migration.go:340-350: the wanted table for an existing one. -/
def wantTableFor (ws : Schema) (t : Table) : Option Table :=
  match ws.cachedTablePosition t.tableName with
  | some n => ws.tables[n]?
  | none => none

/-- What dropping contributes for one existing table (migration.go:336-418): the table itself, or commands on its parts. -/
structure TableDrop where
  tables : List (Str × Str) := []
  alters : List AlterTableCommand := []
  indexes : List DropIndexCommand := []
  triggers : List DropTriggerCommand := []

/-- migration.go:382-401: the indexes to drop. -/
def extraIndexes (d : Dialect) (t w : Table) : List DropIndexCommand :=
  (t.indexes.filter fun i => (w.cachedIndexPosition i.indexName).isNone).map fun i =>
    { dropIfExists := d = .postgres || d = .sqlite, tableSchema := i.tableSchema, tableName := i.tableName
      indexName := i.indexName, dropCascade := d = .postgres }

/-- migration.go:351-401: the ALTER TABLE command that drops the parts of an existing table not in the wanted one. -/
def dropAlter (d : Dialect) (t w : Table) : AlterTableCommand :=
  { tableSchema := t.tableSchema, tableName := t.tableName
    dropColumnCmds := (t.columns.filter fun c => (w.cachedColumnPosition c.columnName).isNone).map fun c =>
      { dropIfExists := d = .postgres, columnName := c.columnName, dropCascade := d = .postgres }
    dropConstraintCmds :=
      if d = .sqlite then []
      else (t.constraints.filter fun c => (w.cachedConstraintPosition c.constraintName).isNone).map fun c =>
        { dropIfExists := d = .postgres, constraintName := c.constraintName, dropCascade := d = .postgres }
    dropIndexCmds := if d = .mysql then extraIndexes d t w else [] }

/-- migration.go:336-418. -/
def dropTable (d : Dialect) (ws : Schema) (t : Table) : TableDrop :=
  match wantTableFor ws t with
  | none => { tables := [(t.tableSchema, t.tableName)] }
  | some w =>
    { alters :=
        if (dropAlter d t w).dropColumnCmds ≠ [] ∨ (dropAlter d t w).dropConstraintCmds ≠ [] ∨ (dropAlter d t w).dropIndexCmds ≠ []
        then [dropAlter d t w] else []
      indexes := if d = .mysql then [] else extraIndexes d t w
      triggers := (t.triggers.filter fun x => (w.cachedTriggerPosition x.triggerName).isNone).map fun x =>
        { dropIfExists := true, tableSchema := x.tableSchema, tableName := x.tableName, triggerName := x.triggerName
          dropCascade := d = .postgres } }

/-- migration.go:419-431: the views of a schema to drop (both kinds). -/
def dropViews (ws : Schema) (vs : List View) : List View :=
  vs.filter fun v => (ws.cachedViewPosition v.viewName).isNone

/-- migration.go:432-443. -/
def dropFunctions (ws : Schema) (fs : List Function) : List DropFunctionCommand :=
  (fs.filter fun f => (ws.cachedFunctionPositions f.functionName).isEmpty).map fun f =>
    { dropIfExists := true, function := f, dropCascade := true }

/-- migration.go:322-418: what the existing tables contribute, in order. -/
def tableDrops (d : Dialect) (got want : DatabaseMetadata) : List TableDrop :=
  (got.schemas.filter fun s => !s.ignore).flatMap fun s =>
    (s.tables.filter fun t => !t.ignore).map (dropTable d (wantSchemaFor want s.schemaName))

/-- migration.go:293-296, 340-350: the one DROP TABLE command. -/
def dropTableCmd (mode : Mode) (tabs : List TableDrop) : DropTableCommand :=
  { dropIfExists := true, dropCascade := has mode DropCascade
    tableSchemas := (tabs.flatMap TableDrop.tables).map Prod.fst, tableNames := (tabs.flatMap TableDrop.tables).map Prod.snd }

/-- migration.go:419-431: the views to drop. -/
def extraViews (got want : DatabaseMetadata) (mat : Bool) : List View :=
  ((got.schemas.filter fun s => !s.ignore).flatMap fun s => dropViews (wantSchemaFor want s.schemaName) s.views).filter
    fun v => v.isMaterialized = mat

/-- migration.go:297-305: the DROP VIEW command and the DROP MATERIALIZED VIEW command. -/
def dropViewCmd (mode : Mode) (got want : DatabaseMetadata) (mat : Bool) : DropViewCommand :=
  { dropIfExists := true, isMaterialized := mat, dropCascade := has mode DropCascade
    viewSchemas := (extraViews got want mat).map View.viewSchema, viewNames := (extraViews got want mat).map View.viewName }

/-- migration.go:291-465: the dropping half, given the extensions to drop. -/
def dropPhase (mode : Mode) (d : Dialect) (got want : DatabaseMetadata) (exts : List Str) : Migration :=
  let tabs := tableDrops d got want
  let alters := tabs.flatMap TableDrop.alters
  { dropExtensionCmds :=
      if exts ≠ [] then [{ dropIfExists := true, dropCascade := has mode DropCascade, extensions := exts }] else []
    dropIndexCmds := tabs.flatMap TableDrop.indexes
    dropTriggerCmds := tabs.flatMap TableDrop.triggers
    dropFunctionCmds := (got.schemas.filter fun s => !s.ignore).flatMap fun s => dropFunctions (wantSchemaFor want s.schemaName) s.functions
    dropViewCmds :=
      if d = .sqlite then decomposeDropView (dropViewCmd mode got want false)
      else (if (dropViewCmd mode got want false).viewNames ≠ [] then [dropViewCmd mode got want false] else []) ++
        (if (dropViewCmd mode got want true).viewNames ≠ [] then [dropViewCmd mode got want true] else [])
    dropTableCmds :=
      if d = .sqlite then decomposeDropTable (dropTableCmd mode tabs)
      else if (dropTableCmd mode tabs).tableNames ≠ [] then [dropTableCmd mode tabs] else []
    alterTableDropCmds := if d = .sqlite then alters.flatMap decomposeAlterTable else alters }

/-! ### Migrate -/

/-- migration.go:71-83: the dialect of the migration. -/
def migrateDialect (got want : DatabaseMetadata) : Res Dialect :=
  match got.dialect, want.dialect with
  | none, none => .err "dialect missing".toList
  | some d, none => .ok d
  | none, some d => .ok d
  | some d, some d' => if d = d' then .ok d else .err "dialect mismatch".toList

/-- migration.go:70-467 `Migrate`. -/
def migrate (mode : Mode) (got want : DatabaseMetadata) : Res Migration :=
  (migrateDialect got want).bind fun d =>
    let updating := has mode CreateMissing || has mode UpdateExisting
    (if updating && decide (d = .postgres) && has mode CreateMissing then wantExtensions got want.extensions else .ok []).bind fun exts =>
      (if has mode DropExtraneous then (dropExtensions want got.extensions).map fun e => dropPhase mode d got want e
       else .ok {}).bind fun drops =>
        let create :=
          if updating then Migration.concat ((want.schemas.filter fun s => !s.ignore).map (wantSchema mode d got)) else {}
        .ok (({ dialect := some d, currentSchema := got.currentSchema, createExtensionCmds := exts } : Migration).append
          (create.append drops))

end Ddl
