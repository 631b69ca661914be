import Verif.Model.Reflect
import Verif.Spec.Declared
import Verif.Spec.Parts
/-
Specification: which table and columns a table struct stands for.
-/
namespace Sq.Reflecting.Spec
open Sq.Reflecting
open Ddl.Declared (WrittenTag Each)

/-- The last modifier of that name has that value. -/
def Last (mods : List (Str × Str)) (key : Str) (v : Str) : Prop :=
  ∃ before after, mods = before ++ (key, v) :: after ∧ ∀ m ∈ after, m.1 ≠ key

/-- What something is called: the name it was given before, else the one in the tag, else the name of the Go declaration. -/
def Called (given : Str) (mods : List (Str × Str)) (key go r : Str) : Prop :=
  (given ≠ [] ∧ r = given) ∨
  (given = [] ∧ (∃ v, v ≠ [] ∧ Last mods key v ∧ r = v)) ∨
  (given = [] ∧ (Last mods key [] ∨ ∀ m ∈ mods, m.1 ≠ key) ∧ r = go)

/-- A field that needs a name: exported, one of the package's field types, not yet bound to a column. -/
def Unbound (f : SField) : Prop := f.exported = true ∧ ∃ t fi neg, f.val = .typed t fi neg ∧ fi.name = []

/-- The field afterwards. -/
inductive FieldBound (lower : Str → Str) (t : TInfo) : SField → SField → Prop
  /-- Nothing to do: not a field, not exported, or bound before. -/
  | left (f) : ¬ Unbound f → FieldBound lower t f f
  /-- The column of the table with the name from the tag, else the lower-case Go name. -/
  | bound (f ty fi neg mods n) : f.exported = true → f.val = .typed ty fi neg → fi.name = [] → WrittenTag f.sqTag mods →
      Called [] mods "name".toList (lower f.goName) n →
      FieldBound lower t f { f with val := .typed ty { tableName := t.name, tableAlias := t.alias, name := n } false }

/-- The tag can be read, if it has to be, and the `GetName` methods of other field types do not panic. -/
def Readable (f : SField) : Prop :=
  (Unbound f ∨ f.exported = true ∧ f.val = .foreign (.ok []) → ∃ mods, WrittenTag f.sqTag mods) ∧
  (∀ n, f.exported = true → f.val = .foreign n → ∃ x, n = .ok x)

/-- A pointer to a struct that begins with an embedded `TableInfo`. -/
def TableStruct (s : SType) (f : SField) (t : TInfo) (fs : List SField) : Prop :=
  s.fields = f :: fs ∧ f.exported = true ∧ f.embedded = true ∧ f.val = .tableInfo t

/-- `x.y` with an optional qualifier. -/
def qualified (d : Dialect) (q x : Str) : Str := if q = [] then quoteIdentifier d x else quoteIdentifier d q ++ ".".toList ++ quoteIdentifier d x

/-- Column types of a dialect that hold the values of a field type. -/
def holds : Dialect → FType → List String
  | .postgres, .binary => ["BYTEA"]
  | .postgres, .json => ["JSON", "JSONB"]
  | .postgres, .string => ["TEXT", "VARCHAR(255)"]
  | .postgres, .time => ["TIMESTAMP", "TIMESTAMPTZ"]
  | .postgres, .uuid => ["UUID"]
  | .mysql, .binary => ["BLOB", "LONGBLOB"]
  | .mysql, .json => ["JSON"]
  | .mysql, .string => ["TEXT", "VARCHAR(255)"]
  | .mysql, .time => ["DATETIME", "TIMESTAMP"]
  | .mysql, .uuid => ["BINARY(16)"]
  | .sqlite, .binary => ["BLOB"]
  | .sqlite, .json => ["JSON", "TEXT"]
  | .sqlite, .string => ["TEXT", "VARCHAR(255)"]
  | .sqlite, .time => ["DATETIME", "TIMESTAMP"]
  | .sqlite, .uuid => ["UUID", "BINARY(16)"]
  | .postgres, .boolean | .mysql, .boolean | .sqlite, .boolean => ["BOOLEAN"]
  | .postgres, .number | .mysql, .number | .sqlite, .number => ["INT", "BIGINT"]
  | .postgres, .custom | .mysql, .custom | .sqlite, .custom => ["VARCHAR(255)"]
  | _, _ => []

end Sq.Reflecting.Spec
