import Verif.Model.Field
import Verif.Model.Load
/-
Model of reflect_table.go:11-105 (`ReflectTable`) and ddl/ddl.go:77-120 (`defaultColumnType`), and of what ddl/t.go:744-776 (`LoadTable`) sees of the
same struct.

A struct is its type name and the list of its fields in order; a field is its Go name, whether it is exported (`reflect.Value.CanInterface`, and,
behind a pointer, `CanSet`), its `sq` and `ddl` tags and its value.  `strings.ToLower` is a parameter `lower`.  After an error the Go function
leaves the fields before the failing one set; the model returns only the error.
-/
namespace Sq.Reflecting

/-- The eight field types of the package's type switch (reflect_table.go:83-100). -/
inductive FType where
  | binary | boolean | custom | json | number | string | time | uuid
  deriving DecidableEq

/-- The value of a struct field. -/
inductive FVal where
  /-- one of the eight field types; `neg` is `BooleanField.Negative` -/
  | typed (t : FType) (info : FInfo) (neg : Bool)
  /-- any other type that implements `Field`, with the result of its `GetName` method -/
  | foreign (name : Res Str)
  /-- a `TableInfo` -/
  | tableInfo (t : TInfo)
  | other
  deriving DecidableEq

structure SField where
  goName : Str
  exported : Bool := true
  embedded : Bool := false
  sqTag : Str := []
  ddlTag : Str := []
  val : FVal
  deriving DecidableEq

structure SType where
  typeName : Str
  fields : List SField
  deriving DecidableEq

/-- The argument `table`. -/
inductive Target where
  | nilInterface
  | notPointer
  | nilPointer
  | pointerToOther
  | pointer (s : SType)
  deriving DecidableEq

/-- `if i, ok := modifierIndex[k]; ok { x = modifiers[i][1] }`: `modifierIndex` holds the position of the last modifier of a name. -/
def tagValue (ms : List (Str × Str)) (k : String) : Option Str := (ms.reverse.find? fun m => m.1 = k.toList).map Prod.snd

/-- reflect_table.go:36-54: schema and name of the table. -/
def tableNames (lower : Str → Str) (typeName tag : Str) (t : TInfo) : Res TInfo :=
  (if t.schema = [] ∨ t.name = [] then
    (lexModifiers true tag).map fun ms =>
      { t with schema := if t.schema = [] then (tagValue ms "schema").getD [] else t.schema
               name := if t.name = [] then (tagValue ms "name").getD [] else t.name }
   else .ok t).map fun t => { t with name := if t.name = [] then lower typeName else t.name }

/-- `GetName()` of a value that implements `Field`. -/
def FVal.getName : FVal → Option (Res Str)
  | .typed _ fi _ => some (.ok fi.name)
  | .foreign n => some n
  | .tableInfo _ | .other => none

/-- reflect_table.go:72-82: the name of a column. -/
def columnName (lower : Str → Str) (f : SField) : Res Str :=
  (lexModifiers true f.sqTag).map fun ms =>
    let n := (tagValue ms "name").getD []
    if n = [] then lower f.goName else n

/-- The `FieldInfo` set by the constructors (blob_field.go:11-18 and copies, cf. `newField`). -/
def freshInfo (name : Str) (t : TInfo) : FInfo := { tableName := t.name, tableAlias := t.alias, name := name }

/-- reflect_table.go:57-102: one field. -/
def reflectField (lower : Str → Str) (t : TInfo) (f : SField) : Res SField :=
  if f.exported = false then .ok f
  else match f.val.getName with
    | none => .ok f
    | some r => r.bind fun n =>
      if n ≠ [] then .ok f
      else (columnName lower f).map fun n =>
        match f.val with
        | .typed ty _ _ => { f with val := .typed ty (freshInfo n t) false }
        | _ => f

/-- The loop reflect_table.go:56-103. -/
def reflectFields (lower : Str → Str) (t : TInfo) : List SField → Res (List SField)
  | [] => .ok []
  | f :: fs => (reflectField lower t f).bind fun f => (reflectFields lower t fs).map fun fs => f :: fs

/-- reflect_table.go:11-105 `ReflectTable`: the struct afterwards.  `v.Interface()` of an unexported first field panics; a first field that can be read can be
set, so the early return of lines 33-35 is never taken. -/
def reflectTable (lower : Str → Str) (target : Target) (alias : Str) : Res SType :=
  match target with
  | .nilInterface | .nilPointer => .panic
  | .notPointer => .err "not a pointer".toList
  | .pointerToOther => .err "not a struct pointer".toList
  | .pointer s =>
    match s.fields with
    | [] => .err "empty struct".toList
    | f :: fs =>
      if f.exported = false then .panic
      else match f.val with
        | .tableInfo t =>
          if f.embedded = false then .err "first field not an embedded TableInfo".toList
          else (tableNames lower s.typeName f.sqTag t).bind fun t =>
            let t := { t with alias := alias }
            (reflectFields lower t fs).map fun fs => { s with fields := { f with val := .tableInfo t } :: fs }
        | _ => .err "first field not a embedded TableInfo".toList

/-! ### The struct in queries -/

/-- A field of a struct used in a query (e.g. blob_field.go:22-24: all field types render their `FieldInfo`). -/
def FVal.node : FVal → Node
  | .typed .boolean fi neg => .field fi false neg []
  | .typed _ fi _ => .field fi false false []
  | _ => .nil

/-- The table used in a query: `GetName`, `GetSchema`, `GetAlias` and `AppendSQL` are those of the embedded TableInfo (table_info.go:22-36). -/
def tableNode (t : TInfo) : Node := .table t.schema t.name t.alias (fun _ => .none) (fun _ => .nil)

/-- The embedded TableInfo. -/
def SType.info (s : SType) : TInfo :=
  match s.fields with
  | { val := .tableInfo t, .. } :: _ => t
  | _ => {}

/-! ### The struct in migrations -/

/-- ddl/ddl.go:77-120 `defaultColumnType`. -/
def defaultColumnType (d : Dialect) : FVal → Str
  | .typed .binary _ _ => if d = .postgres then "BYTEA".toList else "BLOB".toList
  | .typed .boolean _ _ => "BOOLEAN".toList
  | .typed .json _ _ => if d = .postgres then "JSONB".toList else "JSON".toList
  | .typed .number _ _ => "INT".toList
  | .typed .string _ _ => if d = .sqlite ∨ d = .postgres then "TEXT".toList else "VARCHAR(255)".toList
  | .typed .time _ _ => if d = .postgres then "TIMESTAMPTZ".toList else "DATETIME".toList
  | .typed .uuid _ _ => if d = .sqlite ∨ d = .postgres then "UUID".toList else "BINARY(16)".toList
  | _ => "VARCHAR(255)".toList

/-- ddl/t.go:744-772: what `LoadTable` sees of a field. -/
def SField.decl (d : Dialect) (f : SField) : Res Ddl.FieldDecl :=
  if f.exported = false then .ok (.other f.ddlTag)
  else match f.val.getName with
    | none => .ok (.other f.ddlTag)
    | some r => r.map fun n => .column n (defaultColumnType d f.val) f.ddlTag

def declFields (d : Dialect) : List SField → Res (List Ddl.FieldDecl)
  | [] => .ok []
  | f :: fs => (f.decl d).bind fun x => (declFields d fs).map fun xs => x :: xs

/-- ddl/t.go:717-776: the table struct as `LoadTable` sees it. -/
def SType.decl (d : Dialect) (s : SType) (ddl : Dialect → List Ddl.TOp := fun _ => []) : Res Ddl.TableDecl :=
  (declFields d s.fields).map fun fs => { schema := s.info.schema, name := s.info.name, fields := fs, ddl := ddl }

end Sq.Reflecting
