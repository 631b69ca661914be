import Verif.Model.Filter
import Verif.Spec.Scanner
/-
Specification for the introspection filters: how a server reads the list of an `IN`, what a WHERE
clause means for a row, and which rows a `Filter` asks for.
-/
namespace Spec.Filter

/-- The scanner for string literals: MySQL also treats a backslash as an escape by default. -/
def literal : Dialect → Str → Option (Str × Str)
  | .mysql => Spec.scanBackslash '\''
  | _ => Spec.scan '\''

/-- `text` is a list of string literals separated by a comma and a space, denoting these names.  The empty
text is no such list (`IN ()` is a syntax error in PostgreSQL and MySQL). -/
inductive NameList (d : Dialect) : Str → List Str → Prop where
  | one {t n} : literal d t = some (n, []) → NameList d ('\'' :: t) [n]
  | cons {t n more ns} : literal d t = some (n, ',' :: ' ' :: more) → NameList d more ns →
      NameList d ('\'' :: t) (n :: ns)

/-- SQL `LIKE`: `%` stands for any text, `_` for any one byte.  `fold` is applied to both bytes before
they are compared (SQLite's LIKE ignores ASCII case). -/
inductive Like (fold : Char → Char) : Str → Str → Prop where
  | nil : Like fold [] []
  | any {p s} (skip : Str) : Like fold p s → Like fold ('%' :: p) (skip ++ s)
  | single {p s} (c : Char) : Like fold p s → Like fold ('_' :: p) (c :: s)
  | char {p s c d} : c ≠ '%' → c ≠ '_' → fold c = fold d → Like fold p s → Like fold (c :: p) (d :: s)

def likeFold : Dialect → Char → Char
  | .sqlite => Char.toLower
  | _ => id

/-- A row seen by a WHERE clause: the value of every column expression (never NULL), and whether the row
meets the fixed conditions of the script. -/
structure Row where
  col : String → Str
  fixed : Prop

/-- The condition holds of the row. -/
def Holds (d : Dialect) (row : Row) : Ddl.Cond → Prop
  | .fixed => row.fixed
  | .ne c text => row.col c ≠ text.toList
  | .notLike c pattern => ¬ Like (likeFold d) pattern.toList (row.col c)
  | .isIn c list => ∃ names, NameList d list names ∧ row.col c ∈ names
  | .notIn c list => ∃ names, NameList d list names ∧ row.col c ∉ names

/-- The server can parse the condition. -/
def Parses (d : Dialect) : Ddl.Cond → Prop
  | .isIn _ list => ∃ names, NameList d list names
  | .notIn _ list => ∃ names, NameList d list names
  | _ => True

/-- The tokens are `c1 AND c2 AND ... AND cn`, n ≥ 1, with every condition well formed. -/
def Clause (d : Dialect) (toks : List Ddl.Tok) (conds : List Ddl.Cond) : Prop :=
  conds ≠ [] ∧ toks = (conds.map Ddl.Tok.cond).intersperse .and ∧ ∀ c ∈ conds, Parses d c

/-- The WHERE clause is well formed and accepts exactly the rows satisfying `P`. -/
def Selects (d : Dialect) (toks : List Ddl.Tok) (P : Row → Prop) : Prop :=
  ∃ conds, Clause d toks conds ∧ ∀ row, (∀ c ∈ conds, Holds d row c) ↔ P row

/-- The SQL column expressions that hold the schema and the name a row belongs to, and whether the part of
the script has conditions of its own. -/
structure Subject where
  schema : Option String
  name : String
  hasFixed : Bool := true

/-- The objects listed by each part of each script: for foreign keys the referencing table. -/
def subjects : Dialect → Ddl.Kind → Option (List Subject)
  | .sqlite, .functions => none
  | .sqlite, .constraints =>
    some [⟨none, "tbl_name", true⟩, ⟨none, "tbl_name", true⟩, ⟨none, "tbl_name", true⟩]
  | .sqlite, _ => some [⟨none, "tbl_name", true⟩]
  | .postgres, .constraints =>
    some [⟨some "schemas.nspname", "tables.relname", true⟩, ⟨some "schemas1.nspname", "tables1.relname", true⟩,
          ⟨some "schemas.nspname", "tables.relname", true⟩, ⟨some "schemas.nspname", "tables.relname", true⟩]
  | .postgres, .views =>
    some [⟨some "schemaname", "viewname", true⟩, ⟨some "schemaname", "matviewname", true⟩]
  | .postgres, .functions => some [⟨some "schemas.nspname", "proc1.proname", true⟩]
  | .postgres, _ => some [⟨some "schemas.nspname", "tables.relname", true⟩]
  | .mysql, .columns => some [⟨some "c.table_schema", "c.table_name", true⟩]
  | .mysql, .constraints =>
    some [⟨some "tc.table_schema", "tc.table_name", true⟩,
          ⟨some "tc.table_schema", "tc.table_name", false⟩]
  | .mysql, .triggers => some [⟨some "event_object_schema", "event_object_table", true⟩]
  | .mysql, .functions => none
  | .mysql, _ => some [⟨some "table_schema", "table_name", true⟩]
  | _, _ => none

/-- Equal when ASCII case is ignored. -/
def EqFold (s t : Str) : Prop := s.map Char.toLower = t.map Char.toLower

/-- Rows left out unless `IncludeSystemCatalogs` is set.  On PostgreSQL: the schema is `information_schema`, or
begins with `pg` and has at least one more byte (whatever it is).  On SQLite: the name begins with
`sqlite` in any case and has at least one more byte, or the statement that made it begins with
`CREATE TABLE '` in any case.  On MySQL: the four system schemas. -/
def Hidden (d : Dialect) (s : Subject) (row : Row) : Prop :=
  match d with
  | .sqlite =>
    (∃ a c rest, row.col s.name = a ++ c :: rest ∧ EqFold a "sqlite".toList) ∨
    (∃ a rest, row.col "sql" = a ++ rest ∧ EqFold a "CREATE TABLE '".toList)
  | .postgres => ∃ c, s.schema = some c ∧
      (row.col c = "information_schema".toList ∨ ∃ x rest, row.col c = "pg".toList ++ x :: rest)
  | .mysql => ∃ c, s.schema = some c ∧
      row.col c ∈ ["mysql".toList, "information_schema".toList, "performance_schema".toList, "sys".toList]
  | _ => False

/-- What the servers reserve: PostgreSQL the schemas beginning with `pg_` and `information_schema`, SQLite the
tables beginning with `sqlite_`, MySQL its four system schemas. -/
def System (d : Dialect) (s : Subject) (row : Row) : Prop :=
  match d with
  | .sqlite => ∃ rest, row.col s.name = "sqlite_".toList ++ rest
  | .postgres => ∃ c, s.schema = some c ∧
      (row.col c = "information_schema".toList ∨ ∃ rest, row.col c = "pg_".toList ++ rest)
  | .mysql => ∃ c, s.schema = some c ∧
      row.col c ∈ ["mysql".toList, "information_schema".toList, "performance_schema".toList, "sys".toList]
  | _ => False

/-- The name lists that apply to an object of this kind. -/
def wantedNames (f : Ddl.Filter) : Ddl.Kind → List Str
  | .functions => f.withFunctions
  | _ => f.withTables
def unwantedNames (f : Ddl.Filter) : Ddl.Kind → List Str
  | .functions => f.withoutFunctions
  | _ => f.withoutTables

/-- The rows the filter asks for: an empty list puts no restriction. -/
def Wanted (d : Dialect) (k : Ddl.Kind) (s : Subject) (f : Ddl.Filter) (row : Row) : Prop :=
  (s.hasFixed = true → row.fixed) ∧
  (f.includeSystem = true ∨ ¬ Hidden d s row) ∧
  (∀ c, s.schema = some c →
    (f.withSchemas ≠ [] → row.col c ∈ f.withSchemas) ∧ row.col c ∉ f.withoutSchemas) ∧
  (wantedNames f k ≠ [] → row.col s.name ∈ wantedNames f k) ∧
  row.col s.name ∉ unwantedNames f k

/-- The filter a call uses: its argument, else the introspector's default, else the zero filter. -/
def Chosen (dflt arg : Option Ddl.Filter) (f : Ddl.Filter) : Prop :=
  arg = some f ∨ (arg = none ∧ dflt = some f) ∨ (arg = none ∧ dflt = none ∧ f = {})

/-- A name that survives `EscapeQuote` between single quotes: no doubled quote before its end, and on MySQL no
backslash. -/
def Plain (d : Dialect) (s : Str) : Prop :=
  ¬ Spec.InnerPair '\'' s ∧ (d = .mysql → '\\' ∉ s)

/-- All names of the filter are plain. -/
def PlainFilter (d : Dialect) (f : Ddl.Filter) : Prop :=
  ∀ s, s ∈ f.withSchemas ∨ s ∈ f.withoutSchemas ∨ s ∈ f.withTables ∨ s ∈ f.withoutTables ∨
    s ∈ f.withFunctions ∨ s ∈ f.withoutFunctions → Plain d s

end Spec.Filter
