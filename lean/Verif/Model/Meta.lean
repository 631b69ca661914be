import Verif.Basic
/-
Model of the metadata structures of package ddl and their position caches: ddl/table.go:12-194, ddl/schema.go:10-155,
ddl/view.go:9-104, ddl/database_metadata.go:12-99, ddl/column.go:11-30, ddl/constraint.go:11-32, ddl/index.go:11-24,
ddl/trigger.go:11-18, ddl/function.go:12-20.

A Go map is an association list without duplicate keys; a nil map is the empty one (the code creates the map before it
writes).  Positions are natural numbers (the code stores only slice indexes).
-/
namespace Ddl

/-! ### Maps -/

abbrev Cache (κ : Type) := List (κ × Nat)

namespace Cache
variable {κ : Type} [DecidableEq κ]

def get (c : Cache κ) (k : κ) : Option Nat := (c.find? fun e => e.1 = k).map Prod.snd
def del (c : Cache κ) (k : κ) : Cache κ := c.filter fun e => e.1 ≠ k
def put (c : Cache κ) (k : κ) (v : Nat) : Cache κ := (k, v) :: c.del k

end Cache

/-! ### The generic cache

The functions `Cached{Column,Constraint,Index,Trigger}Position`, `Append{...}` and `Refresh{...}Cache` of `Table`, and those of
`Schema` (tables, views), `View` (indexes, triggers) and `DatabaseMetadata` (schemas) are copies of each other up to the
element type; `Entry` says how an element is keyed. -/

class Entry (α : Type) (κ : outParam Type) where
  key : α → κ
  ignore : α → Bool
  /-- keys for which the lookup answers -1 at once (`if columnName == "" { return -1 }`); schemas have no such test -/
  blank : κ → Bool

variable {α κ : Type} [DecidableEq κ] [Entry α κ]

/-- table.go:29-47, 71-89, 113-131, 155-173; schema.go:22-40, 64-82; view.go:23-41, 65-84; database_metadata.go:24-39
`CachedXPosition`: the position (`none` for -1) and the cache afterwards. -/
def cachedPosition (items : List α) (cache : Cache κ) (k : κ) : Option Nat × Cache κ :=
  if Entry.blank α k then (none, cache)
  else match cache.get k with
    | none => (none, cache)
    | some n =>
      match items[n]? with
      | none => (none, cache.del k)
      | some x => if Entry.key x ≠ k ∨ Entry.ignore x = true then (none, cache.del k) else (some n, cache)

/-- table.go:49-57, 91-99, 133-141, 175-183; schema.go:42-50, 84-92; view.go:43-51, 86-95; database_metadata.go:41-49
`AppendX`. -/
def appendItem (items : List α) (cache : Cache κ) (x : α) : List α × Cache κ :=
  (items ++ [x], cache.put (Entry.key x) items.length)

/-- The loop of `RefreshXCache` from index `i` on. -/
def refreshFrom : List α → Nat → Cache κ → Cache κ
  | [], _, c => c
  | x :: xs, i, c => refreshFrom xs (i + 1) (if Entry.ignore x then c else c.put (Entry.key x) i)

/-- table.go:59-69, 101-111, 143-153, 185-194; schema.go:52-62, 94-105; view.go:97-108; database_metadata.go:51-61
`RefreshXCache`. -/
def refreshCache (items : List α) (cache : Cache κ) : Cache κ := refreshFrom items 0 cache

/-! ### Metadata -/

/-- column.go:11-30. -/
structure Column where
  tableSchema : Str := []
  tableName : Str := []
  columnName : Str := []
  columnType : Str := []
  numericPrecision : Int := 0
  numericScale : Int := 0
  identity : Str := []
  isAutoincrement : Bool := false
  isNotNull : Bool := false
  isUnique : Bool := false
  isPrimaryKey : Bool := false
  onUpdateCurrentTimestamp : Bool := false
  generatedExpr : Str := []
  generatedExprStored : Bool := false
  collationName : Str := []
  columnDefault : Str := []
  columnComment : Str := []
  ignore : Bool := false
  deriving DecidableEq

/-- ddl/ddl.go:21-28 the constraint types; `other` is any other string. -/
inductive ConstraintType where
  | primaryKey | foreignKey | unique | check | exclude
  | other (s : Str)
  deriving DecidableEq

/-- constraint.go:11-32. -/
structure Constraint where
  tableSchema : Str := []
  tableName : Str := []
  constraintName : Str := []
  constraintType : ConstraintType := .other []
  columns : List Str := []
  exprs : List Str := []
  referencesSchema : Str := []
  referencesTable : Str := []
  referencesColumns : List Str := []
  updateRule : Str := []
  deleteRule : Str := []
  matchOption : Str := []
  checkExpr : Str := []
  exclusionOperators : List Str := []
  exclusionIndexType : Str := []
  predicate : Str := []
  isDeferrable : Bool := false
  isInitiallyDeferred : Bool := false
  comment : Str := []
  ignore : Bool := false
  deriving DecidableEq

/-- index.go:11-24. -/
structure Index where
  tableSchema : Str := []
  tableName : Str := []
  indexName : Str := []
  indexType : Str := []
  isUnique : Bool := false
  columns : List Str := []
  exprs : List Str := []
  includeColumns : List Str := []
  predicate : Str := []
  sql : Str := []
  comment : Str := []
  ignore : Bool := false
  deriving DecidableEq

/-- trigger.go:11-18. -/
structure Trigger where
  tableSchema : Str := []
  tableName : Str := []
  triggerName : Str := []
  sql : Str := []
  comment : Str := []
  ignore : Bool := false
  deriving DecidableEq

/-- function.go:12-20. -/
structure Function where
  functionSchema : Str := []
  functionName : Str := []
  rawArgs : Str := []
  returnType : Str := []
  sql : Str := []
  comment : Str := []
  ignore : Bool := false
  deriving DecidableEq

/-- view.go:10-21. -/
structure View where
  viewSchema : Str := []
  viewName : Str := []
  isMaterialized : Bool := false
  indexes : List Index := []
  triggers : List Trigger := []
  sql : Str := []
  comment : Str := []
  ignore : Bool := false
  indexCache : Cache Str := []
  triggerCache : Cache (Str × Str × Str) := []
  deriving DecidableEq

/-- table.go:11-27. -/
structure Table where
  tableSchema : Str := []
  tableName : Str := []
  columns : List Column := []
  constraints : List Constraint := []
  indexes : List Index := []
  triggers : List Trigger := []
  virtualTable : Str := []
  virtualTableArgs : List Str := []
  sql : Str := []
  comment : Str := []
  ignore : Bool := false
  columnCache : Cache Str := []
  constraintCache : Cache Str := []
  indexCache : Cache Str := []
  triggerCache : Cache Str := []
  deriving DecidableEq

/-- schema.go:10-20. -/
structure Schema where
  schemaName : Str := []
  tables : List Table := []
  views : List View := []
  functions : List Function := []
  comment : Str := []
  ignore : Bool := false
  tableCache : Cache Str := []
  viewCache : Cache Str := []
  functionCache : List (Str × List Nat) := []
  deriving DecidableEq

/-- database_metadata.go:12-22. -/
structure DatabaseMetadata where
  dialect : Option Dialect := none      -- `none` is the empty string
  currentSchema : Str := []
  extensions : List Str := []
  schemas : List Schema := []
  schemaCache : Cache Str := []
  extensionCache : Cache Str := []
  deriving DecidableEq

instance : Entry Column Str := ⟨Column.columnName, Column.ignore, fun k => k = []⟩
instance : Entry Constraint Str := ⟨Constraint.constraintName, Constraint.ignore, fun k => k = []⟩
instance : Entry Index Str := ⟨Index.indexName, Index.ignore, fun k => k = []⟩
instance : Entry Trigger Str := ⟨Trigger.triggerName, Trigger.ignore, fun k => k = []⟩
instance : Entry Table Str := ⟨Table.tableName, Table.ignore, fun k => k = []⟩
instance : Entry View Str := ⟨View.viewName, View.ignore, fun k => k = []⟩
/-- database_metadata.go:24-39: no test for the empty name. -/
instance : Entry Schema Str := ⟨Schema.schemaName, Schema.ignore, fun _ => false⟩

/-- A trigger of a view is keyed by its table too (view.go:65-95). -/
structure ViewTrigger where
  trigger : Trigger
  deriving DecidableEq
instance : Entry ViewTrigger (Str × Str × Str) :=
  ⟨fun t => (t.trigger.tableSchema, t.trigger.tableName, t.trigger.triggerName), fun t => t.trigger.ignore, fun k => k.2.2 = []⟩

/-- view.go:52-63 `RefreshIndexCache` of a view: it tests `view.Ignore` where the others test the element's flag. -/
def View.refreshIndexCache (v : View) : View :=
  let rec go : List Index → Nat → Cache Str → Cache Str
    | [], _, c => c
    | x :: xs, i, c => go xs (i + 1) (if v.ignore then c else c.put x.indexName i)
  { v with indexCache := go v.indexes 0 v.indexCache }

def View.cachedIndexPosition (v : View) (n : Str) : Option Nat := (cachedPosition v.indexes v.indexCache n).1

def Table.cachedColumnPosition (t : Table) (n : Str) : Option Nat := (cachedPosition t.columns t.columnCache n).1
def Table.cachedConstraintPosition (t : Table) (n : Str) : Option Nat := (cachedPosition t.constraints t.constraintCache n).1
def Table.cachedIndexPosition (t : Table) (n : Str) : Option Nat := (cachedPosition t.indexes t.indexCache n).1
def Table.cachedTriggerPosition (t : Table) (n : Str) : Option Nat := (cachedPosition t.triggers t.triggerCache n).1
def Schema.cachedTablePosition (s : Schema) (n : Str) : Option Nat := (cachedPosition s.tables s.tableCache n).1
def Schema.cachedViewPosition (s : Schema) (n : Str) : Option Nat := (cachedPosition s.views s.viewCache n).1
def DatabaseMetadata.cachedSchemaPosition (d : DatabaseMetadata) (n : Str) : Option Nat := (cachedPosition d.schemas d.schemaCache n).1

def Table.appendColumn (t : Table) (c : Column) : Table :=
  let r := appendItem t.columns t.columnCache c; { t with columns := r.1, columnCache := r.2 }
def Table.appendConstraint (t : Table) (c : Constraint) : Table :=
  let r := appendItem t.constraints t.constraintCache c; { t with constraints := r.1, constraintCache := r.2 }
def Table.appendIndex (t : Table) (c : Index) : Table :=
  let r := appendItem t.indexes t.indexCache c; { t with indexes := r.1, indexCache := r.2 }
def Table.appendTrigger (t : Table) (c : Trigger) : Table :=
  let r := appendItem t.triggers t.triggerCache c; { t with triggers := r.1, triggerCache := r.2 }
def Schema.appendTable (s : Schema) (t : Table) : Schema :=
  let r := appendItem s.tables s.tableCache t; { s with tables := r.1, tableCache := r.2 }
def Schema.appendView (s : Schema) (t : View) : Schema :=
  let r := appendItem s.views s.viewCache t; { s with views := r.1, viewCache := r.2 }
def DatabaseMetadata.appendSchema (d : DatabaseMetadata) (s : Schema) : DatabaseMetadata :=
  let r := appendItem d.schemas d.schemaCache s; { d with schemas := r.1, schemaCache := r.2 }

/-! ### Functions: several positions per name -/

def fget (c : List (Str × List Nat)) (k : Str) : List Nat := ((c.find? fun e => e.1 = k).map Prod.snd).getD []
def fput (c : List (Str × List Nat)) (k : Str) (v : List Nat) : List (Str × List Nat) := (k, v) :: c.filter fun e => e.1 ≠ k

/-- schema.go:107-130 `CachedFunctionPositions`.  (The result; invalid positions are also removed from the cache, which later
lookups would do again.) -/
def Schema.cachedFunctionPositions (s : Schema) (n : Str) : List Nat :=
  if n = [] then []
  else (fget s.functionCache n).filter fun i => match s.functions[i]? with
    | none => false
    | some f => f.functionName = n

/-- schema.go:132-140 `AppendFunction`. -/
def Schema.appendFunction (s : Schema) (f : Function) : Schema :=
  { s with functions := s.functions ++ [f]
           functionCache := fput s.functionCache f.functionName (fget s.functionCache f.functionName ++ [s.functions.length]) }

def refreshFunctionsFrom : List Function → Nat → List (Str × List Nat) → List (Str × List Nat)
  | [], _, c => c
  | f :: fs, i, c =>
    refreshFunctionsFrom fs (i + 1) (if f.ignore then c else fput c f.functionName (fget c f.functionName ++ [i]))

/-- schema.go:142-155 `RefreshFunctionCache`. -/
def Schema.refreshFunctionCache (s : Schema) : Schema :=
  { s with functionCache := refreshFunctionsFrom s.functions 0 (s.functionCache.map fun e => (e.1, [])) }

/-! ### Extensions -/

/-- `if i := strings.IndexByte(extension, '@'); i >= 0 { extension = extension[:i] }` -/
def extensionName (e : Str) : Str := e.takeWhile (· ≠ '@')

/-- database_metadata.go:63-76 `CachedExtensionPosition`.  The position is compared with the number of *schemas*; the indexing
`dbm.Extensions[extensionPosition]` may be out of range. -/
def DatabaseMetadata.cachedExtensionPosition (d : DatabaseMetadata) (ext : Str) : Res (Option Nat) :=
  let ext := extensionName ext
  match d.extensionCache.get ext with
  | none => .ok none
  | some n =>
    if n ≥ d.schemas.length then .ok none
    else match d.extensions[n]? with
      | none => .panic
      | some e => if ext <+: e then .ok (some n) else .ok none

/-- database_metadata.go:78-89 `AppendExtension`. -/
def DatabaseMetadata.appendExtension (d : DatabaseMetadata) (e : Str) : DatabaseMetadata :=
  { d with extensions := d.extensions ++ [e], extensionCache := d.extensionCache.put (extensionName e) d.extensions.length }

end Ddl
