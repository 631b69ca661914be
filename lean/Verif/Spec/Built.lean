import Verif.Spec.Declared
import Verif.Model.Load
/-
Specification of the builder used in `DDL` methods: what a sequence of calls makes of the parts of a table.  The parts are lists;
there are no caches or positions here.
-/
namespace Ddl.Declared

/-- The parts of a table. -/
structure Parts where
  columns : List Column := []
  constraints : List Constraint := []
  indexes : List Index := []
  triggers : List Trigger := []
  module : Str := []
  arguments : List Str := []
  ignore : Bool := false

/-- The part named `n` that is not ignored is changed by `edit`; if there is none, a new part is added. -/
def declared {α : Type} (name : α → Str) (ignored : α → Bool) (n : Str) (new : α) (edit : α → α) (l : List α) : List α :=
  if l.any (fun x => !ignored x && name x = n) then l.map fun x => if !ignored x && name x = n then edit x else x
  else l ++ [edit new]

/-- The methods called on a column: an attribute is what the last call about it said. -/
def builtColumn (d : Dialect) (ops : List ColOp) (c : Column) : Column :=
  { c with
    columnType := (lastOf (fun | .type s => some s | _ => none) ops).getD c.columnType
    generatedExpr := (lastOf (fun | .generated s => some s | _ => none) ops).getD c.generatedExpr
    generatedExprStored := c.generatedExprStored || ops.any fun | .stored => true | _ => false
    columnDefault := (lastOf (fun | .default s => some s | _ => none) ops).getD c.columnDefault
    isAutoincrement := c.isAutoincrement || ops.any fun
      | .autoIncrement => d = .mysql | .autoincrement => d = .sqlite | _ => false
    identity := if d = .postgres then
        (lastOf (fun | .identity => some "BY DEFAULT AS IDENTITY".toList | .alwaysIdentity => some "ALWAYS AS IDENTITY".toList | _ => none) ops).getD c.identity
      else c.identity
    onUpdateCurrentTimestamp := c.onUpdateCurrentTimestamp || ops.any fun | .onUpdateCurrentTimestamp => d = .mysql | _ => false
    isNotNull := c.isNotNull || ops.any fun | .notNull => true | _ => false
    collationName := (lastOf (fun | .collate s => some s | _ => none) ops).getD c.collationName
    ignore := c.ignore || ops.any fun | .ignore => true | _ => false }

/-- A constraint declared by the builder. -/
def putConstraint (at_ : Place) (kind : ConstraintType) (name : Str) (cols : List Str) (expr : Str) (edit : Constraint → Constraint)
    (l : List Constraint) : List Constraint :=
  declared Constraint.constraintName Constraint.ignore name { constraintName := name }
    (fun c => edit { c with tableSchema := at_.schema, tableName := at_.table, constraintType := kind, columns := cols, checkExpr := expr }) l

/-- The constraints that the methods called on a column declare. -/
def columnConstraints (at_ : Place) (column : Str) (ops : List ColOp) (l : List Constraint) : List Constraint :=
  ops.foldl (fun l op => match op with
    | .primaryKey => putConstraint at_ .primaryKey (generateName .primaryKey at_.table [column]) [column] [] id l
    | .unique => putConstraint at_ .unique (generateName .unique at_.table [column]) [column] [] id l
    | _ => l) l

/-- The methods called on a constraint. -/
def builtConstraint (d : Dialect) (ops : List ConsOp) (c : Constraint) : Constraint :=
  { c with
    referencesTable := (lastOf (fun | .references t _ => some t | _ => none) ops).getD c.referencesTable
    referencesColumns := (lastOf (fun | .references _ cs => some cs | _ => none) ops).getD c.referencesColumns
    updateRule := (lastOf (fun | .onUpdate r => some r | _ => none) ops).getD c.updateRule
    deleteRule := (lastOf (fun | .onDelete r => some r | _ => none) ops).getD c.deleteRule
    isDeferrable := c.isDeferrable || (d ≠ .mysql && ops.any fun | .deferrable => true | .initiallyDeferred => true | _ => false)
    isInitiallyDeferred := c.isInitiallyDeferred || (d ≠ .mysql && ops.any fun | .initiallyDeferred => true | _ => false)
    predicate := (lastOf (fun | .where e => some e | _ => none) ops).getD c.predicate }

/-- The methods called on an index. -/
def builtIndex (ops : List IdxOp) (x : Index) : Index :=
  { x with
    isUnique := x.isUnique || ops.any fun | .unique => true | _ => false
    indexType := ((lastOf (fun | .using m => some m | _ => none) ops).map fun m => m.map Char.toUpper).getD x.indexType
    predicate := (lastOf (fun | .where e => some e | _ => none) ops).getD x.predicate
    includeColumns := (lastOf (fun | .include cs => some cs | _ => none) ops).getD x.includeColumns }

/-- One call of the builder; `none` if it is refused. -/
def call (at_ : Place) (p : Parts) : TOp → Option Parts
  | .ignore => some { p with ignore := true }
  | .virtualTable m args => some { p with module := m, arguments := args }
  | .column name ops =>
    if p.columns.any fun c => !c.ignore && c.columnName = name then
      some { p with columns := p.columns.map fun c => if !c.ignore && c.columnName = name then builtColumn at_.dialect ops c else c
                    constraints := columnConstraints at_ name ops p.constraints }
    else none
  | .constraint kind name cols expr ops =>
    let name := name.getD (generateName kind.nameKind at_.table cols)
    some { p with constraints := putConstraint at_ kind name cols expr (builtConstraint at_.dialect ops) p.constraints }
  | .exclude name indexType cols exprs operators ops =>
    let name := name.getD (generateName .exclude at_.table cols)
    if at_.dialect ≠ .postgres ∨ name = [] then none
    else
      let edit := fun c : Constraint => builtConstraint at_.dialect ops
        { c with tableSchema := at_.schema, tableName := at_.table, constraintType := .exclude, columns := cols, exprs := exprs,
                 exclusionOperators := operators, exclusionIndexType := indexType }
      some { p with constraints := declared Constraint.constraintName Constraint.ignore name { constraintName := name } edit p.constraints }
  | .index name cols exprs ops =>
    let name := name.getD (generateName .index at_.table cols)
    if name = [] then none
    else
      let edit := fun x : Index => builtIndex ops { x with tableSchema := at_.schema, tableName := at_.table, columns := cols, exprs := exprs }
      some { p with indexes := declared Index.indexName Index.ignore name { indexName := name } edit p.indexes }
  | .trigger trg =>
    if (trg.tableSchema ≠ [] ∧ trg.tableSchema ≠ at_.schema) ∨ trg.tableName ≠ at_.table then none
    else some { p with triggers := declared Trigger.triggerName Trigger.ignore trg.triggerName trg (fun x => { x with sql := trg.sql }) p.triggers }

/-- All calls, in order. -/
def calls (at_ : Place) : List TOp → Parts → Option Parts
  | [], p => some p
  | op :: ops, p => (call at_ p op).bind (calls at_ ops)

/-- What is derived at the end: the marks of the columns, and the columns of an FTS5 table. -/
def finished (p : Parts) : Parts :=
  { p with
    columns := p.columns.map (marked p.constraints)
    arguments := (if p.module.map Char.toLower = "fts5".toList then
        (p.columns.filter fun c => !c.ignore && c.columnType.map Char.toLower = "text".toList).map Column.columnName
      else []) ++ p.arguments }

/-- The parts the tags of a struct stand for. -/
def tagParts (num : Str → Bool) (at_ : Place) (fs : List Field) : Parts :=
  { columns := fs.flatMap (Field.columns num at_)
    constraints := constraintsOf at_ fs
    indexes := indexesOfAll at_ fs
    module := moduleOf at_.dialect fs
    arguments := ((fs.flatMap (Field.virtuals at_.dialect)).flatMap Prod.snd).map argument }

/-- The parts of a loaded table. -/
def partsOf (t : Table) : Parts :=
  ⟨t.columns, t.constraints, t.indexes, t.triggers, t.virtualTable, t.virtualTableArgs, t.ignore⟩

/-- No call of `Config` (whose effect is that of the function given). -/
def NoConfig : TOp → Prop
  | .column _ ops => ∀ f, ColOp.config f ∉ ops
  | .constraint _ _ _ _ ops => ∀ f, ConsOp.config f ∉ ops
  | .exclude _ _ _ _ _ ops => ∀ f, ConsOp.config f ∉ ops
  | .index _ _ _ ops => ∀ f, IdxOp.config f ∉ ops
  | _ => True

end Ddl.Declared
