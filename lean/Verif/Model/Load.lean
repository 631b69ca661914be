import Verif.Model.Command
import Verif.Model.GenName
import Verif.Model.Tokenize
/-
Model of how metadata is built:
  ddl/database_metadata.go:102-182  loadTable, loadDDLView, loadFunction
  ddl/database_metadata.go:184-389  NewDatabaseMetadata, WithDB, WithExtensions, WithTables, WithDDLViews, WithFunctions
  ddl/table.go:196-584              loadIndexConfig, loadConstraintConfig, loadColumnConfig, loadTableConfig
  ddl/t.go                          the builder `T` used in `DDL` methods, LoadTable
  ddl/ddl.go:125-143                needsExpressionBrackets

Simplifications.  A failure returns no metadata (the Go functions also hand back what was built so far, which `AutoMigrate`
and the tests ignore).  Error texts are abbreviated.  A struct is the list of its fields: name and default type of a column
field, or neither, and the `ddl` tag.  A panic inside `LoadTable` is recovered into an error, as in the code.  The chains
`t.Column(F).A().B()` are run as one step, and the texts given to `Generated`, `Default`, `Check` and `Where` are those after
`sprintf` (modelled in Model/Sprintf).  `strconv` number parsing is a parameter `num`.  The caches of a copied struct are
shared with the original in Go (maps); the copy is always written back, so nothing is observable.  Texts of tags are runes.
-/
namespace Ddl
open Sq (lexModifiers lexValue)

/-- sq.go:22-28.  (`other` has no name: a modifier never selects it.) -/
def dialectName : Dialect → Option Str
  | .sqlite => some "sqlite".toList
  | .postgres => some "postgres".toList
  | .mysql => some "mysql".toList
  | .sqlserver => some "sqlserver".toList
  | .oracle => some "oracle".toList
  | .other => none

/-- `strings.Split(s, sep)` for one character. -/
def splitOn (sep : Char) : Str → List Str
  | [] => [[]]
  | c :: cs =>
    if c = sep then [] :: splitOn sep cs
    else match splitOn sep cs with
      | [] => [[c]]
      | w :: ws => (c :: w) :: ws

/-- `strings.SplitN(s, ".", 3)` -/
def splitN3 (s : Str) : List Str :=
  match splitOn '.' s with
  | a :: b :: c :: ds => [a, b, (c :: ds).tail.foldl (fun acc x => acc ++ '.' :: x) c]
  | xs => xs

/-- The value of the last modifier of that name (`modifiers[modifierPositions[name]][1]`), empty if there is none. -/
def modifierValue (ms : List (Str × Str)) (name : String) : Str :=
  ((ms.reverse.find? fun m => m.1 = name.toList).map Prod.snd).getD []

/-- The `ignore` modifier: table.go:234-246 and copies. -/
def ignoreFor (d : Dialect) (v : Str) : Bool :=
  v = [] || (splitOn ',' v).any fun x => some x = dialectName d

/-- table.go:413-421, 520-528: the modifier's own name, unless it is for another dialect. -/
def forDialect (d : Dialect) (k : Str) : Option Str :=
  if ':' ∈ k then
    if some (k.takeWhile (· ≠ ':')) = dialectName d then some (k.dropWhile (· ≠ ':')).tail else none
  else some k

/-- ddl/ddl.go:125-143. -/
def needsExpressionBrackets (num : Str → Bool) (s : Str) : Bool :=
  if s.length ≥ 2 ∧ s.head? = some '\'' ∧ s.getLast? = some '\'' then false
  else if ["TRUE", "FALSE", "CURRENT_DATE", "CURRENT_TIME", "CURRENT_TIMESTAMP", "NULL"].any fun w => eqFold s w.toList then false
  else if num s then false
  else if s.length ≥ 2 ∧ s.head? = some '(' ∧ s.getLast? = some ')' then false
  else true

/-! ### Struct tags -/

/-- table.go:225-253: one modifier of an index. -/
def indexModifier (d : Dialect) (x : Index) (m : Str × Str) : Res Index :=
  if m.1 = "cols".toList then .ok x
  else if m.1 = "unique".toList then .ok { x with isUnique := true }
  else if m.1 = "using".toList then .ok { x with indexType := m.2.map Char.toUpper }
  else if m.1 = "where".toList then .ok { x with predicate := m.2 }
  else if m.1 = "include".toList then .ok { x with includeColumns := splitOn ',' m.2 }
  else if m.1 = "ignore".toList then .ok { x with ignore := x.ignore || ignoreFor d m.2 }
  else .err "invalid modifier".toList

/-- A fold that stops at the first failure. -/
def foldRes {α β : Type} (f : α → β → Res α) : α → List β → Res α
  | a, [] => .ok a
  | a, b :: bs => (f a b).bind fun a' => foldRes f a' bs

/-- table.go:211-224: replace the element of that name, or append a new one. -/
def Table.putIndex (t : Table) (name : Str) (new : Index) (edit : Index → Res Index) : Res Table :=
  match t.cachedIndexPosition name with
  | some n => (edit ((t.indexes[n]?).getD new)).map fun x => { t with indexes := t.indexes.set n x }
  | none => (edit new).map t.appendIndex

/-- table.go:197-257 `loadIndexConfig`. -/
def loadIndexConfig (d : Dialect) (t : Table) (columns : List Str) (config : Str) : Res Table :=
  (lexValue false config).bind fun (columnNames, ms) =>
    let columns := if columnNames ≠ ".".toList ∧ columnNames ≠ [] then splitOn ',' columnNames else columns
    if columns = [] then .err "no index columns provided".toList
    else
      let given := modifierValue ms "name"
      let name := if given = [] then generateName .index t.tableName columns else given
      t.putIndex name { tableSchema := t.tableSchema, tableName := t.tableName, indexName := name, columns := columns }
        fun x => foldRes (indexModifier d) x ms

/-- ddl/ddl.go:21-28 and generateName: the kind of name of a constraint type. -/
def ConstraintType.nameKind : ConstraintType → NameKind
  | .primaryKey => .primaryKey
  | .foreignKey => .foreignKey
  | .unique => .unique
  | .check => .check
  | .exclude => .exclude
  | .other _ => .other

/-- table.go:302-316, 322-335: a reference `table`, `table.cols` or `schema.table.cols`. -/
def setReferences (c : Constraint) (columns : List Str) (v : Str) : Constraint :=
  match splitN3 v with
  | [t] => { c with referencesTable := t, referencesColumns := columns }
  | [t, cs] => { c with referencesTable := t, referencesColumns := splitOn ',' cs }
  | [s, t, cs] => { c with referencesSchema := s, referencesTable := t, referencesColumns := splitOn ',' cs }
  | _ => c

/-- table.go:336-362: the actions of ON UPDATE and ON DELETE. -/
def ruleOf (v : Str) : Option Str :=
  if v = "cascade".toList then some "CASCADE".toList
  else if v = "restrict".toList then some "RESTRICT".toList
  else if v = "noaction".toList then some "NO ACTION".toList
  else if v = "setnull".toList then some "SET NULL".toList
  else if v = "setdefault".toList then some "SET DEFAULT".toList
  else none

/-- table.go:317-391: one modifier of a constraint; `index` declares an index on the side. -/
def constraintModifier (d : Dialect) (columns : List Str) (s : Constraint × Table) (m : Str × Str) : Res (Constraint × Table) :=
  if m.1 = "name".toList ∨ m.1 = "cols".toList then .ok s
  else if m.1 = "references".toList then .ok (setReferences s.1 columns m.2, s.2)
  else if m.1 = "onupdate".toList then
    match ruleOf m.2 with
    | some r => .ok ({ s.1 with updateRule := r }, s.2)
    | none => .err "unknown value".toList
  else if m.1 = "ondelete".toList then
    match ruleOf m.2 with
    | some r => .ok ({ s.1 with deleteRule := r }, s.2)
    | none => .err "unknown value".toList
  else if m.1 = "deferrable".toList then
    .ok (if d = .mysql then s.1 else { s.1 with isDeferrable := true }, s.2)
  else if m.1 = "deferred".toList then
    .ok (if d = .mysql then s.1 else { s.1 with isDeferrable := true, isInitiallyDeferred := true }, s.2)
  else if m.1 = "ignore".toList then .ok ({ s.1 with ignore := s.1.ignore || ignoreFor d m.2 }, s.2)
  else if m.1 = "index".toList then (loadIndexConfig d s.2 columns m.2).map fun t => (s.1, t)
  else .err "invalid modifier".toList

/-- table.go:285-300: replace the constraint of that name, or append a new one; the edit may touch the rest of the table. -/
def Table.putConstraint (t : Table) (name : Str) (new : Constraint) (edit : Constraint × Table → Res (Constraint × Table)) : Res Table :=
  match t.cachedConstraintPosition name with
  | some n => (edit ((t.constraints[n]?).getD new, t)).map fun r => { r.2 with constraints := r.2.constraints.set n r.1 }
  | none => (edit (new, t)).map fun r => r.2.appendConstraint r.1

/-- table.go:258-393 `loadConstraintConfig`. -/
def loadConstraintConfig (d : Dialect) (t : Table) (kind : ConstraintType) (isReferences : Bool) (columns : List Str) (config : Str) :
    Res Table :=
  (lexValue false config).bind fun (value, ms) =>
    let columns := if !isReferences ∧ value ≠ ".".toList ∧ value ≠ [] then splitOn ',' value else columns
    if columns = [] then .err "no constraint columns provided".toList
    else
      let given := modifierValue ms "name"
      let name := if given = [] then generateName kind.nameKind t.tableName columns else given
      t.putConstraint name
        { tableSchema := t.tableSchema, tableName := t.tableName, constraintName := name, constraintType := kind, columns := columns }
        fun s =>
          let c := { s.1 with constraintType := kind }
          foldRes (constraintModifier d columns) (if isReferences then setReferences c columns value else c, s.2) ms

/-- table.go:422-456, 484-496: the modifiers that only change the column. -/
def columnEdit (num : Str → Bool) (d : Dialect) (k v : Str) : Option (Column → Column) :=
  if k = "type".toList then some fun c => { c with columnType := v }
  else if k = "auto_increment".toList then some fun c => { c with isAutoincrement := c.isAutoincrement || decide (d = .mysql) }
  else if k = "autoincrement".toList then some fun c => { c with isAutoincrement := c.isAutoincrement || decide (d = .sqlite) }
  else if k = "identity".toList then
    some fun c => if d = .postgres then { c with identity := "BY DEFAULT AS IDENTITY".toList } else c
  else if k = "alwaysidentity".toList then
    some fun c => if d = .postgres then { c with identity := "ALWAYS AS IDENTITY".toList } else c
  else if k = "notnull".toList then some fun c => { c with isNotNull := true }
  else if k = "onupdatecurrenttimestamp".toList then
    some fun c => { c with onUpdateCurrentTimestamp := c.onUpdateCurrentTimestamp || decide (d = .mysql) }
  else if k = "expr".toList then some fun c => { c with generatedExpr := v, generatedExprStored := d = .postgres }
  else if k = "storedexpr".toList then some fun c => { c with generatedExpr := v, generatedExprStored := true }
  else if k = "collate".toList then some fun c => { c with collationName := v }
  else if k = "default".toList then
    some fun c => { c with columnDefault := if needsExpressionBrackets num v && d ≠ .postgres then "(".toList ++ v ++ ")".toList else v }
  else if k = "ignore".toList then some fun c => { c with ignore := c.ignore || ignoreFor d v }
  else none

/-- table.go:457-483, 547-571: the modifiers that declare a constraint or an index. -/
def declare (d : Dialect) (t : Table) (columns : List Str) (k v : Str) : Res Table :=
  if k = "primarykey".toList then loadConstraintConfig d t .primaryKey false columns v
  else if k = "references".toList then loadConstraintConfig d t .foreignKey true columns v
  else if k = "foreignkey".toList then loadConstraintConfig d t .foreignKey false columns v
  else if k = "unique".toList then loadConstraintConfig d t .unique false columns v
  else if k = "index".toList then loadIndexConfig d t columns v
  else .err "unknown modifier".toList

/-- table.go:412-500: one modifier of a column. -/
def columnModifier (num : Str → Bool) (d : Dialect) (s : Column × Table) (m : Str × Str) : Res (Column × Table) :=
  match forDialect d m.1 with
  | none => .ok s
  | some k =>
    match columnEdit num d k m.2 with
    | some f => .ok (f s.1, s.2)
    | none => (declare d s.2 [s.1.columnName] k m.2).map fun t => (s.1, t)

/-- table.go:395-510 `loadColumnConfig`. -/
def loadColumnConfig (num : Str → Bool) (d : Dialect) (t : Table) (name type config : Str) : Res Table :=
  (lexModifiers false config).bind fun ms =>
    let new : Column := { tableSchema := t.tableSchema, tableName := t.tableName, columnName := name, columnType := type }
    match t.cachedColumnPosition name with
    | some n => (foldRes (columnModifier num d) ((t.columns[n]?).getD new, t) ms).map fun r =>
        { r.2 with columns := r.2.columns.set n r.1 }
    | none => (foldRes (columnModifier num d) (new, t) ms).map fun r => r.2.appendColumn r.1

/-- table.go:512-584: one modifier of a table. -/
def tableModifier (d : Dialect) (t : Table) (m : Str × Str) : Res Table :=
  match forDialect d m.1 with
  | none => .ok t
  | some k =>
    if k = "virtual".toList then
      if d = .sqlite then
        (lexValue false m.2).map fun (v, ms) =>
          { t with virtualTable := v
                   virtualTableArgs := t.virtualTableArgs ++ ms.map fun x => if x.2 = [] then x.1 else x.1 ++ "=".toList ++ x.2 }
      else .ok t
    else if k = "ignore".toList then .ok { t with ignore := t.ignore || ignoreFor d m.2 }
    else declare d t [] k m.2

/-- table.go:505-584 `loadTableConfig`. -/
def loadTableConfig (d : Dialect) (t : Table) (config : Str) : Res Table :=
  (lexModifiers false config).bind fun ms => foldRes (tableModifier d) t ms

/-! ### The builder -/

/-- t.go:63-210: the methods of a column. -/
inductive ColOp where
  | ignore
  | type (s : Str)
  | config (f : Column → Column)
  | generated (expr : Str)
  | stored
  | default (expr : Str)
  | autoIncrement
  | autoincrement
  | identity
  | alwaysIdentity
  | onUpdateCurrentTimestamp
  | notNull
  | primaryKey
  | unique
  | collate (s : Str)

/-- t.go:239-262 `createOrUpdateConstraint`. -/
def Table.declareConstraint (d : Dialect) (t : Table) (kind : ConstraintType) (name : Str) (columns : List Str) (expr : Str)
    (edit : Constraint → Constraint) : Res Table :=
  if d ≠ .sqlite ∧ name = [] then .err "constraintName cannot be empty".toList
  else t.putConstraint name { constraintName := name } fun s =>
    .ok (edit { s.1 with tableSchema := t.tableSchema, tableName := t.tableName, constraintType := kind, columns := columns,
                         checkExpr := expr }, s.2)

/-- t.go:63-215.  `Config` restores the names afterwards. -/
def ColOp.run (d : Dialect) (n : Nat) (t : Table) : ColOp → Res Table
  | .primaryKey => match t.columns[n]? with
    | some c => t.declareConstraint d .primaryKey (generateName .primaryKey t.tableName [c.columnName]) [c.columnName] [] id
    | none => .panic
  | .unique => match t.columns[n]? with
    | some c => t.declareConstraint d .unique (generateName .unique t.tableName [c.columnName]) [c.columnName] [] id
    | none => .panic
  | .ignore => edit fun c => { c with ignore := true }
  | .type s => edit fun c => { c with columnType := s }
  | .config f => edit fun c => { f c with tableSchema := t.tableSchema, tableName := t.tableName, columnName := c.columnName }
  | .generated e => edit fun c => { c with generatedExpr := e }
  | .stored => edit fun c => { c with generatedExprStored := true }
  | .default e => edit fun c => { c with columnDefault := e }
  | .autoIncrement => edit fun c => { c with isAutoincrement := c.isAutoincrement || decide (d = .mysql) }
  | .autoincrement => edit fun c => { c with isAutoincrement := c.isAutoincrement || decide (d = .sqlite) }
  | .identity => edit fun c => if d = .postgres then { c with identity := "BY DEFAULT AS IDENTITY".toList } else c
  | .alwaysIdentity => edit fun c => if d = .postgres then { c with identity := "ALWAYS AS IDENTITY".toList } else c
  | .onUpdateCurrentTimestamp => edit fun c => { c with onUpdateCurrentTimestamp := c.onUpdateCurrentTimestamp || decide (d = .mysql) }
  | .notNull => edit fun c => { c with isNotNull := true }
  | .collate s => edit fun c => { c with collationName := s }
where
  edit (f : Column → Column) : Res Table := .ok { t with columns := t.columns.modify n f }

/-- t.go:469-544: the methods of a constraint.  `Config` restores the names. -/
inductive ConsOp where
  | config (f : Constraint → Constraint)
  | references (table : Str) (columns : List Str)
  | onUpdate (rule : Str)
  | onDelete (rule : Str)
  | deferrable
  | initiallyDeferred
  | where (expr : Str)

def ConsOp.run (d : Dialect) (name schema table : Str) (c : Constraint) : ConsOp → Constraint
  | .config f => { f c with tableSchema := schema, tableName := table, constraintName := name }
  | .references t cs => { c with referencesTable := t, referencesColumns := cs }
  | .onUpdate r => { c with updateRule := r }
  | .onDelete r => { c with deleteRule := r }
  | .deferrable => if d = .mysql then c else { c with isDeferrable := true }
  | .initiallyDeferred => if d = .mysql then c else { c with isDeferrable := true, isInitiallyDeferred := true }
  | .where e => { c with predicate := e }

/-- t.go:652-691: the methods of an index. -/
inductive IdxOp where
  | unique
  | using (type : Str)
  | where (expr : Str)
  | include (columns : List Str)
  | config (f : Index → Index)

def IdxOp.run (name schema table : Str) (x : Index) : IdxOp → Index
  | .unique => { x with isUnique := true }
  | .using t => { x with indexType := t.map Char.toUpper }
  | .where e => { x with predicate := e }
  | .include cs => { x with includeColumns := cs }
  | .config f => { f x with tableSchema := schema, tableName := table, indexName := name }

/-- The methods of the builder `T`: t.go:29-37, 46-64, 296-467, 610-650, 693-715.  Names of columns are those of the fields. -/
inductive TOp where
  | ignore
  | virtualTable (module : Str) (args : List Str)
  | column (name : Str) (ops : List ColOp)
  | constraint (kind : ConstraintType) (name : Option Str) (columns : List Str) (checkExpr : Str) (ops : List ConsOp)
  | exclude (name : Option Str) (indexType : Str) (columns exprs operators : List Str) (ops : List ConsOp)
  | index (name : Option Str) (columns exprs : List Str) (ops : List IdxOp)
  | trigger (trg : Trigger)

/-- t.go:45-63 `Column` and the methods called on the result. -/
def runColumn (d : Dialect) (t : Table) (name : Str) (ops : List ColOp) : Res Table :=
  match t.cachedColumnPosition name with
  | none => .err "table has no such column".toList
  | some n => foldRes (fun t op => op.run d n t) t ops

/-- One builder call. -/
def TOp.run (d : Dialect) (t : Table) : TOp → Res Table
  | .ignore => .ok { t with ignore := true }
  | .virtualTable m args => .ok { t with virtualTable := m, virtualTableArgs := args }
  | .column name ops => runColumn d t name ops
  | .constraint kind name columns expr ops =>
    let name := name.getD (generateName kind.nameKind t.tableName columns)
    t.declareConstraint d kind name columns expr fun c => ops.foldl (ConsOp.run d name t.tableSchema t.tableName) c
  | .exclude name indexType columns exprs operators ops =>
    let name := name.getD (generateName .exclude t.tableName columns)
    if d ≠ .postgres then .err "no exclusion constraints".toList
    else if name = [] then .err "constraintName cannot be empty".toList
    else t.putConstraint name { constraintName := name } fun s =>
      .ok (ops.foldl (ConsOp.run d name t.tableSchema t.tableName)
        { s.1 with tableSchema := t.tableSchema, tableName := t.tableName, constraintType := .exclude, columns := columns, exprs := exprs,
                   exclusionOperators := operators, exclusionIndexType := indexType }, s.2)
  | .index name columns exprs ops =>
    let name := name.getD (generateName .index t.tableName columns)
    if name = [] then .err "indexName cannot be empty".toList
    else t.putIndex name { indexName := name } fun x =>
      .ok (ops.foldl (IdxOp.run name t.tableSchema t.tableName)
        { x with tableSchema := t.tableSchema, tableName := t.tableName, columns := columns, exprs := exprs })
  | .trigger trg =>
    if trg.tableSchema ≠ [] ∧ trg.tableSchema ≠ t.tableSchema then .err "table schema does not match".toList
    else if trg.tableName ≠ t.tableName then .err "table name does not match".toList
    else match t.cachedTriggerPosition trg.triggerName with
      | some n => .ok { t with triggers := t.triggers.modify n fun x => { x with sql := trg.sql } }
      | none => .ok (t.appendTrigger trg)

/-! ### LoadTable -/

/-- A struct field with its `ddl` tag: a column field with a name and the default type of its Go type, or another field. -/
inductive FieldDecl where
  | column (name type tag : Str)
  | other (tag : Str)

/-- A table struct: its fields and its `DDL` method (for a dialect), if it has one. -/
structure TableDecl where
  schema : Str := []
  name : Str
  fields : List FieldDecl
  ddl : Dialect → List TOp := fun _ => []

/-- t.go:744-776: one field.  The flag says that loading stops here (the table is ignored). -/
def loadField (num : Str → Bool) (d : Dialect) (t : Table) : FieldDecl → Res (Table × Bool)
  | .other tag => (loadTableConfig d t tag).map fun t => (t, t.ignore)
  | .column name type tag =>
    if name = [] then .err "field has no name".toList else (loadColumnConfig num d t name type tag).map fun t => (t, false)

/-- t.go:744-776. -/
def loadFields (num : Str → Bool) (d : Dialect) : Table → List FieldDecl → Res (Table × Bool)
  | t, [] => .ok (t, false)
  | t, f :: fs => (loadField num d t f).bind fun r => if r.2 then .ok r else loadFields num d r.1 fs

/-- t.go:788-806: a constraint on one column marks the column. -/
def markColumn (t : Table) (c : Constraint) : Table :=
  match c.columns with
  | [col] =>
    match t.cachedColumnPosition col with
    | none => t
    | some n =>
      match c.constraintType with
      | .primaryKey => { t with columns := t.columns.modify n fun x => { x with isPrimaryKey := true } }
      | .unique => { t with columns := t.columns.modify n fun x => { x with isUnique := true } }
      | _ => t
  | _ => t

/-- t.go:777-787: the text columns are arguments of an FTS5 table. -/
def fts5Columns (t : Table) : Table :=
  if eqFold t.virtualTable "FTS5".toList then
    { t with virtualTableArgs :=
        ((t.columns.filter fun c => !c.ignore && eqFold c.columnType "TEXT".toList).map Column.columnName) ++ t.virtualTableArgs }
  else t

/-- t.go:717-815 `LoadTable`.  (The recovered panics become errors.) -/
def Table.load (num : Str → Bool) (d : Dialect) (t : Table) (decl : TableDecl) : Res Table :=
  if decl.name = [] then .err "table name is empty".toList
  else
    let r := (loadFields num d { t with tableSchema := decl.schema, tableName := decl.name } decl.fields).bind fun r =>
      if r.2 then .ok r.1
      else (foldRes (TOp.run d) r.1 (decl.ddl d)).map fun t => t.constraints.foldl markColumn (fts5Columns t)
    match r with
    | .panic => .err "panic".toList
    | r => r

/-! ### Whole databases -/

/-- database_metadata.go:108-123, 131-135: the schema, changed by `f`, or a new one. -/
def DatabaseMetadata.putSchema (d : DatabaseMetadata) (name : Str) (f : Schema → Res Schema) : Res DatabaseMetadata :=
  match d.cachedSchemaPosition name with
  | some n => (f ((d.schemas[n]?).getD { schemaName := name })).map fun s => { d with schemas := d.schemas.set n s }
  | none => (f { schemaName := name }).map d.appendSchema

def Schema.putTable (s : Schema) (name : Str) (new : Table) (f : Table → Res Table) : Res Schema :=
  match s.cachedTablePosition name with
  | some n => (f ((s.tables[n]?).getD new)).map fun t => { s with tables := s.tables.set n t }
  | none => (f new).map s.appendTable

/-- database_metadata.go:102-137 `loadTable`. -/
def DatabaseMetadata.loadTable (num : Str → Bool) (dia : Dialect) (d : DatabaseMetadata) (decl : TableDecl) : Res DatabaseMetadata :=
  if decl.name = [] then .err "table name is empty".toList
  else d.putSchema decl.schema fun s =>
    s.putTable decl.name { tableSchema := decl.schema, tableName := decl.name } fun t => t.load num dia decl

/-- database_metadata.go:168-182 `loadFunction`: the function is appended without an entry in the cache. -/
def DatabaseMetadata.loadFunction (d : DatabaseMetadata) (f : Function) : Res DatabaseMetadata :=
  if f.functionName = [] then .err "function name cannot be empty".toList
  else d.putSchema f.functionSchema fun s => .ok { s with functions := s.functions ++ [f] }

/-- database_metadata.go:328-334 `WithExtensions`: no entries in the cache. -/
def withExtensions (exts : List Str) (d : DatabaseMetadata) : Res DatabaseMetadata := .ok { d with extensions := exts }

/-- database_metadata.go:336-346 `WithTables`. -/
def withTables (num : Str → Bool) (dia : Dialect) (decls : List TableDecl) (d : DatabaseMetadata) : Res DatabaseMetadata :=
  foldRes (DatabaseMetadata.loadTable num dia) d decls

/-- database_metadata.go:359-369 `WithFunctions`, on functions whose names have been read from their text. -/
def withFunctions (fs : List Function) (d : DatabaseMetadata) : Res DatabaseMetadata := foldRes DatabaseMetadata.loadFunction d fs

/-! ### Introspection -/

/-- The answers of the introspection queries (database_metadata.go:199-325). -/
structure Introspected where
  currentSchema : Str := []
  extensions : List Str := []
  tables : List Table := []
  views : List View := []
  columns : List Column := []
  constraints : List Constraint := []
  indexes : List Index := []
  functions : List Function := []
  triggers : List Trigger := []

/-- database_metadata.go:227-234, 240-246, 306-312: the schema, created if necessary, changed by `f`. -/
def DatabaseMetadata.inSchema (d : DatabaseMetadata) (name : Str) (f : Schema → Schema) : DatabaseMetadata :=
  match d.cachedSchemaPosition name with
  | some n => { d with schemas := d.schemas.modify n f }
  | none => d.appendSchema (f { schemaName := name })

/-- database_metadata.go:251-260 and copies: the table changed by `f`, if it is there. -/
def DatabaseMetadata.inTable (d : DatabaseMetadata) (schema table : Str) (f : Table → Table) : DatabaseMetadata :=
  match d.cachedSchemaPosition schema with
  | none => d
  | some n1 =>
    { d with schemas := d.schemas.modify n1 fun s =>
        match s.cachedTablePosition table with
        | none => s
        | some n2 => { s with tables := s.tables.modify n2 f } }

/-- A view of the schema changed by `f`, if it is there. -/
def Schema.inView (s : Schema) (view : Str) (f : View → View) : Schema :=
  match s.cachedViewPosition view with
  | none => s
  | some n => { s with views := s.views.modify n f }

/-- database_metadata.go:294-302, 318-325: the same for views. -/
def DatabaseMetadata.inView (d : DatabaseMetadata) (schema view : Str) (f : View → View) : DatabaseMetadata :=
  match d.cachedSchemaPosition schema with
  | none => d
  | some n1 =>
    { d with schemas := d.schemas.modify n1 fun s => s.inView view f }

def View.appendIndex (v : View) (x : Index) : View :=
  let r := appendItem v.indexes v.indexCache x; { v with indexes := r.1, indexCache := r.2 }
def View.appendTrigger (v : View) (x : Trigger) : View :=
  { v with triggers := v.triggers ++ [x]
           triggerCache := v.triggerCache.put (x.tableSchema, x.tableName, x.triggerName) v.triggers.length }

/-- The table or view an index or trigger belongs to. -/
def DatabaseMetadata.tableExists (d : DatabaseMetadata) (schema table : Str) : Bool :=
  match d.cachedSchemaPosition schema with
  | none => false
  | some n => match d.schemas[n]? with
    | none => false
    | some s => (s.cachedTablePosition table).isSome

def addTable (d : DatabaseMetadata) (t : Table) : DatabaseMetadata := d.inSchema t.tableSchema fun s => s.appendTable t
def addView (d : DatabaseMetadata) (v : View) : DatabaseMetadata := d.inSchema v.viewSchema fun s => s.appendView v
def addColumn (d : DatabaseMetadata) (c : Column) : DatabaseMetadata := d.inTable c.tableSchema c.tableName fun t => t.appendColumn c
/-- database_metadata.go:265-289: the constraint is appended, then its column is marked. -/
def addConstraint (d : DatabaseMetadata) (c : Constraint) : DatabaseMetadata :=
  d.inTable c.tableSchema c.tableName fun t => markColumn (t.appendConstraint c) c
/-- database_metadata.go:294-302. -/
def addIndex (d : DatabaseMetadata) (x : Index) : DatabaseMetadata :=
  if d.tableExists x.tableSchema x.tableName then d.inTable x.tableSchema x.tableName fun t => t.appendIndex x
  else d.inView x.tableSchema x.tableName fun v => v.appendIndex x
def addFunction (d : DatabaseMetadata) (f : Function) : DatabaseMetadata := d.inSchema f.functionSchema fun s => s.appendFunction f
/-- database_metadata.go:318-325. -/
def addTrigger (d : DatabaseMetadata) (x : Trigger) : DatabaseMetadata :=
  (d.inTable x.tableSchema x.tableName fun t => t.appendTrigger x).inView x.tableSchema x.tableName fun v => v.appendTrigger x

/-- database_metadata.go:195-327 `WithDB` on an empty metadata value, given the answers of the queries (all of which succeed). -/
def withDB (dia : Dialect) (r : Introspected) : DatabaseMetadata :=
  let d : DatabaseMetadata := { dialect := some dia, currentSchema := r.currentSchema, extensions := if dia = .postgres then r.extensions else [] }
  let d := r.tables.foldl addTable d
  let d := r.views.foldl addView d
  let d := r.columns.foldl addColumn d
  let d := r.constraints.foldl addConstraint d
  let d := r.indexes.foldl addIndex d
  let d := if dia = .postgres then r.functions.foldl addFunction d else d
  r.triggers.foldl addTrigger d

end Ddl
