import Verif.Spec.Tags
import Verif.Model.Meta
import Verif.Model.GenName
/-
Specification of `ddl` struct tags: what can be written in a tag, how it is written, and what columns, constraints and indexes a
struct with such tags stands for.  Nothing here follows the order in which the tags are processed: an attribute of a column is
what the last modifier about it says.
-/
namespace Ddl.Declared
open Sq.Spec (Modifier Gap writeMods Word Balanced)

/-! ### What a tag says -/

/-- What happens to a row when the row it refers to is updated or deleted. -/
inductive Action where
  | cascade | restrict | noAction | setNull | setDefault
  deriving DecidableEq

def Action.word : Action → String
  | .cascade => "cascade" | .restrict => "restrict" | .noAction => "noaction" | .setNull => "setnull" | .setDefault => "setdefault"

def Action.sql : Action → String
  | .cascade => "CASCADE" | .restrict => "RESTRICT" | .noAction => "NO ACTION" | .setNull => "SET NULL" | .setDefault => "SET DEFAULT"

/-- Modifiers of an index. -/
inductive IdxTag where
  | unique
  | using (method : Str)
  | where (predicate : Str)
  | include (columns : List Str)
  /-- not for these dialects; with no dialect at all: for none -/
  | ignore (dialects : List Str)

/-- An index: on these columns, or (no columns) on the column the tag belongs to. -/
structure IdxDecl where
  cols : List Str := []
  mods : List IdxTag := []

/-- A referenced table and columns; without columns: those of the same names. -/
structure Ref where
  schema : Option Str := none
  table : Str
  cols : List Str := []
  deriving DecidableEq

/-- Modifiers of a constraint. -/
inductive ConTag where
  | name (n : Str)
  | references (r : Ref)
  | onUpdate (a : Action)
  | onDelete (a : Action)
  | deferrable
  | deferred
  | ignore (dialects : List Str)
  /-- an index on the columns of the constraint -/
  | index (i : IdxDecl)

/-- A constraint on these columns, or (no columns) on the column the tag belongs to. -/
structure ConDecl where
  cols : List Str := []
  mods : List ConTag := []

/-- Modifiers that declare constraints and indexes; they stand in the tags of columns and of tables. -/
inductive Decl where
  | primaryKey (c : ConDecl)
  | unique (c : ConDecl)
  | foreignKey (c : ConDecl)
  /-- a foreign key on the column the tag belongs to -/
  | references (r : Ref) (mods : List ConTag)
  | index (i : IdxDecl)

/-- Modifiers of a column. -/
inductive ColTag where
  | type (t : Str)
  | autoIncrement          -- auto_increment
  | autoincrement
  | identity
  | alwaysIdentity
  | notNull
  | onUpdateCurrentTimestamp
  | expr (e : Str)
  | storedExpr (e : Str)
  | collate (c : Str)
  | default (e : Str)
  | ignore (dialects : List Str)
  | decl (x : Decl)

/-- Modifiers of a table. -/
inductive TabTag where
  /-- a virtual table (SQLite), with arguments -/
  | virtual (module : Str) (args : List (Str × Str))
  | ignore (dialects : List Str)
  | decl (x : Decl)

/-- A modifier, possibly for one dialect only (`postgres:type=...`). -/
structure Tag (α : Type) where
  only : Option Str := none
  tag : α

/-- A field of the struct: a column, or a field that carries a tag for the table. -/
inductive Field where
  | column (name type : Str) (tags : List (Tag ColTag))
  | table (tags : List (Tag TabTag))

/-! ### How it is written -/

/-- Words joined by a comma. -/
def commas : List Str → Str
  | [] => []
  | [x] => x
  | x :: y :: xs => x ++ ',' :: commas (y :: xs)

/-- Elementwise relation of two lists. -/
def Each {α β : Type} (R : α → β → Prop) : List α → List β → Prop
  | [], [] => True
  | a :: as, b :: bs => R a b ∧ Each R as bs
  | _, _ => False

/-- The text consists of these modifiers (names and values), in any spacing, values bare or in braces. -/
def Written (text : Str) (pairs : List (Str × Str)) : Prop :=
  ∃ ms : List (Str × Modifier), text = writeMods ms ∧ (∀ p ∈ ms, Gap p.1 ∧ p.2.Ok) ∧ ms.map (fun p => p.2.read) = pairs

/-- The same for a whole tag, which need not begin with a space. -/
def WrittenTag (text : Str) (pairs : List (Str × Str)) : Prop := Written text pairs ∨ Written (' ' :: text) pairs

/-- The text consists of a first word and these modifiers; or it is empty. -/
def WrittenValue (text first : Str) (pairs : List (Str × Str)) : Prop :=
  (text = [] ∧ first = [] ∧ pairs = []) ∨ ∃ rest, text = first ++ rest ∧ Word first ∧ Written rest pairs

/-- A name in a comma-separated list. -/
def Plain (x : Str) : Prop := x ≠ [] ∧ ',' ∉ x ∧ '.' ∉ x

/-- The columns of a constraint or index, written out; the column itself is a dot, or nothing. -/
def ColsText (cols : List Str) (text : Str) : Prop :=
  (cols = [] ∧ (text = [] ∨ text = ".".toList)) ∨ (cols ≠ [] ∧ (∀ x ∈ cols, Plain x) ∧ text = commas cols)

/-- The dialects of an `ignore`. -/
def DialectsText (ds : List Str) (text : Str) : Prop := text = commas ds ∧ ∀ x ∈ ds, x ≠ [] ∧ ',' ∉ x

def IdxTag.Says : IdxTag → Str × Str → Prop
  | .unique, p => p.1 = "unique".toList
  | .using m, p => p = ("using".toList, m)
  | .where e, p => p = ("where".toList, e)
  | .include cs, p => p.1 = "include".toList ∧ cs ≠ [] ∧ (∀ x ∈ cs, ',' ∉ x) ∧ p.2 = commas cs
  | .ignore ds, p => p.1 = "ignore".toList ∧ DialectsText ds p.2

def IdxDecl.Says (i : IdxDecl) (text : Str) : Prop :=
  ∃ first pairs, WrittenValue text first pairs ∧ ColsText i.cols first ∧ Each IdxTag.Says i.mods pairs

/-- `table`, `table.columns` or `schema.table.columns`. -/
def Ref.Says (r : Ref) (text : Str) : Prop :=
  Plain r.table ∧ (∀ s, r.schema = some s → Plain s ∧ r.cols ≠ []) ∧ (∀ x ∈ r.cols, Plain x) ∧
  text = (match r.schema with | some s => s ++ ".".toList | none => []) ++ r.table ++
    (if r.cols = [] then [] else ".".toList ++ commas r.cols)

def ConTag.Says : ConTag → Str × Str → Prop
  | .name n, p => p = ("name".toList, n) ∧ n ≠ []
  | .references r, p => p.1 = "references".toList ∧ r.Says p.2
  | .onUpdate a, p => p = ("onupdate".toList, a.word.toList)
  | .onDelete a, p => p = ("ondelete".toList, a.word.toList)
  | .deferrable, p => p.1 = "deferrable".toList
  | .deferred, p => p.1 = "deferred".toList
  | .ignore ds, p => p.1 = "ignore".toList ∧ DialectsText ds p.2
  | .index i, p => p.1 = "index".toList ∧ i.Says p.2

def ConDecl.Says (c : ConDecl) (text : Str) : Prop :=
  ∃ first pairs, WrittenValue text first pairs ∧ ColsText c.cols first ∧ Each ConTag.Says c.mods pairs

def Decl.Says : Decl → Str × Str → Prop
  | .primaryKey c, p => p.1 = "primarykey".toList ∧ c.Says p.2
  | .unique c, p => p.1 = "unique".toList ∧ c.Says p.2
  | .foreignKey c, p => p.1 = "foreignkey".toList ∧ c.Says p.2
  | .references r mods, p => p.1 = "references".toList ∧
    ∃ first pairs, WrittenValue p.2 first pairs ∧ r.Says first ∧ Each ConTag.Says mods pairs
  | .index i, p => p.1 = "index".toList ∧ i.Says p.2

def ColTag.Says : ColTag → Str × Str → Prop
  | .type t, p => p = ("type".toList, t)
  | .autoIncrement, p => p.1 = "auto_increment".toList
  | .autoincrement, p => p.1 = "autoincrement".toList
  | .identity, p => p.1 = "identity".toList
  | .alwaysIdentity, p => p.1 = "alwaysidentity".toList
  | .notNull, p => p.1 = "notnull".toList
  | .onUpdateCurrentTimestamp, p => p.1 = "onupdatecurrenttimestamp".toList
  | .expr e, p => p = ("expr".toList, e)
  | .storedExpr e, p => p = ("storedexpr".toList, e)
  | .collate c, p => p = ("collate".toList, c)
  | .default e, p => p = ("default".toList, e)
  | .ignore ds, p => p.1 = "ignore".toList ∧ DialectsText ds p.2
  | .decl x, p => x.Says p

def TabTag.Says : TabTag → Str × Str → Prop
  | .virtual m args, p => p.1 = "virtual".toList ∧ WrittenValue p.2 m args
  | .ignore ds, p => p.1 = "ignore".toList ∧ DialectsText ds p.2
  | .decl x, p => x.Says p

/-- `postgres:` in front of the name restricts it to PostgreSQL. -/
def Tag.Says {α : Type} (R : α → Str × Str → Prop) (t : Tag α) (p : Str × Str) : Prop :=
  match t.only with
  | none => R t.tag p
  | some o => ':' ∉ o ∧ ∃ k, p.1 = o ++ ':' :: k ∧ R t.tag (k, p.2)

/-- The text of the tag of a field. -/
def Field.Says : Field → Str → Prop
  | .column _ _ tags, text => ∃ pairs, WrittenTag text pairs ∧ Each (Tag.Says ColTag.Says) tags pairs
  | .table tags, text => ∃ pairs, WrittenTag text pairs ∧ Each (Tag.Says TabTag.Says) tags pairs

/-! ### What it stands for -/

/-- The names dialects go by (package sq). -/
def dialectWord : Dialect → Option String
  | .sqlite => some "sqlite" | .postgres => some "postgres" | .mysql => some "mysql"
  | .sqlserver => some "sqlserver" | .oracle => some "oracle" | .other => none

/-- The dialect goes by this name. -/
def named (d : Dialect) (w : Str) : Bool := (dialectWord d).map String.toList = some w

/-- `ignore` applies to a dialect. -/
def ignores (d : Dialect) (ds : List Str) : Bool := ds.isEmpty || ds.any (named d)

/-- The modifiers that apply to a dialect. -/
def applicable {α : Type} (d : Dialect) (tags : List (Tag α)) : List α :=
  tags.filterMap fun t => if t.only.all (named d) then some t.tag else none

/-- The last value there is. -/
def lastOf {α β : Type} (f : α → Option β) (l : List α) : Option β := (l.filterMap f).getLast?

/-- Where a declaration stands. -/
structure Place where
  dialect : Dialect
  schema : Str
  table : Str

def IdxDecl.index (at_ : Place) (own : List Str) (i : IdxDecl) : Index :=
  let cols := if i.cols = [] then own else i.cols
  { tableSchema := at_.schema, tableName := at_.table
    indexName := generateName .index at_.table cols
    columns := cols
    isUnique := i.mods.any fun | .unique => true | _ => false
    indexType := ((lastOf (fun | .using m => some m | _ => none) i.mods).map fun m => m.map Char.toUpper).getD []
    predicate := (lastOf (fun | .where e => some e | _ => none) i.mods).getD []
    includeColumns := (lastOf (fun | .include cs => some cs | _ => none) i.mods).getD []
    ignore := i.mods.any fun | .ignore ds => ignores at_.dialect ds | _ => false }

def ConTag.ref? : ConTag → Option Ref
  | .references r => some r
  | _ => none

def ConTag.name? : ConTag → Option Str
  | .name n => some n
  | _ => none

/-- A constraint of this kind on these columns, with a reference. -/
def constraintOf (at_ : Place) (kind : ConstraintType) (nameKind : NameKind) (cols : List Str) (ref : Option Ref) (mods : List ConTag) :
    Constraint :=
  { tableSchema := at_.schema, tableName := at_.table
    constraintName := (lastOf ConTag.name? mods).getD (generateName nameKind at_.table cols)
    constraintType := kind
    columns := cols
    referencesSchema := (ref.bind Ref.schema).getD []
    referencesTable := (ref.map Ref.table).getD []
    referencesColumns := (ref.map fun r => if r.cols = [] then cols else r.cols).getD []
    updateRule := ((lastOf (fun | .onUpdate a => some a | _ => none) mods).map fun a => a.sql.toList).getD []
    deleteRule := ((lastOf (fun | .onDelete a => some a | _ => none) mods).map fun a => a.sql.toList).getD []
    isDeferrable := at_.dialect ≠ .mysql && mods.any fun | .deferrable => true | .deferred => true | _ => false
    isInitiallyDeferred := at_.dialect ≠ .mysql && mods.any fun | .deferred => true | _ => false
    ignore := mods.any fun | .ignore ds => ignores at_.dialect ds | _ => false }

/-- The one reference of a constraint. -/
def refOf (first : Option Ref) (mods : List ConTag) : Option Ref := first.or (mods.filterMap ConTag.ref?).head?

/-- The references of a constraint are at most one. -/
def OneRef (first : Option Ref) (mods : List ConTag) : Prop := first.toList.length + (mods.filterMap ConTag.ref?).length ≤ 1

def ownOr (own cols : List Str) : List Str := if cols = [] then own else cols

/-- The constraint a declaration stands for. -/
def Decl.constraint? (at_ : Place) (own : List Str) : Decl → Option Constraint
  | .primaryKey c => some (constraintOf at_ .primaryKey .primaryKey (ownOr own c.cols) (refOf none c.mods) c.mods)
  | .unique c => some (constraintOf at_ .unique .unique (ownOr own c.cols) (refOf none c.mods) c.mods)
  | .foreignKey c => some (constraintOf at_ .foreignKey .foreignKey (ownOr own c.cols) (refOf none c.mods) c.mods)
  | .references r mods => some (constraintOf at_ .foreignKey .foreignKey own (refOf (some r) mods) mods)
  | .index _ => none

/-- The indexes among the modifiers of a constraint. -/
def indexesOf (at_ : Place) (cols : List Str) (mods : List ConTag) : List Index :=
  mods.filterMap fun | .index i => some (i.index at_ cols) | _ => none

/-- The indexes a declaration stands for. -/
def Decl.indexes (at_ : Place) (own : List Str) : Decl → List Index
  | .primaryKey c => indexesOf at_ (ownOr own c.cols) c.mods
  | .unique c => indexesOf at_ (ownOr own c.cols) c.mods
  | .foreignKey c => indexesOf at_ (ownOr own c.cols) c.mods
  | .references _ mods => indexesOf at_ own mods
  | .index i => [i.index at_ own]

/-- The declaration makes sense: it has columns, and at most one reference. -/
def Decl.Ok (own : List Str) : Decl → Prop
  | .primaryKey c => (own ≠ [] ∨ c.cols ≠ []) ∧ OneRef none c.mods
  | .unique c => (own ≠ [] ∨ c.cols ≠ []) ∧ OneRef none c.mods
  | .foreignKey c => (own ≠ [] ∨ c.cols ≠ []) ∧ OneRef none c.mods
  | .references r mods => own ≠ [] ∧ OneRef (some r) mods
  | .index i => own ≠ [] ∨ i.cols ≠ []

/-- A DEFAULT that is a literal, one of a few constants, or already in brackets. -/
def simpleDefault (num : Str → Bool) (e : Str) : Bool :=
  (decide (2 ≤ e.length) && e.head? == some '\'' && e.getLast? == some '\'') ||
  (decide (2 ≤ e.length) && e.head? == some '(' && e.getLast? == some ')') ||
  num e ||
  ["true", "false", "current_date", "current_time", "current_timestamp", "null"].any fun w => e.map Char.toLower == w.toList

def ColTag.decl? : ColTag → Option Decl
  | .decl x => some x
  | _ => none

def TabTag.decl? : TabTag → Option Decl
  | .decl x => some x
  | _ => none

/-- The column these modifiers (those that apply) stand for, apart from the marks its constraints give it. -/
def columnOf (num : Str → Bool) (at_ : Place) (name type : Str) (tags : List ColTag) : Column :=
  let generated := lastOf (fun | .expr e => some (e, decide (at_.dialect = .postgres)) | .storedExpr e => some (e, true) | _ => none) tags
  { tableSchema := at_.schema, tableName := at_.table, columnName := name
    columnType := (lastOf (fun | .type t => some t | _ => none) tags).getD type
    isAutoincrement := tags.any fun
      | .autoIncrement => at_.dialect = .mysql | .autoincrement => at_.dialect = .sqlite | _ => false
    identity := if at_.dialect = .postgres then
        (lastOf (fun | .identity => some "BY DEFAULT AS IDENTITY".toList | .alwaysIdentity => some "ALWAYS AS IDENTITY".toList | _ => none) tags).getD []
      else []
    isNotNull := tags.any fun | .notNull => true | _ => false
    onUpdateCurrentTimestamp := tags.any fun | .onUpdateCurrentTimestamp => at_.dialect = .mysql | _ => false
    generatedExpr := (generated.map Prod.fst).getD []
    generatedExprStored := (generated.map Prod.snd).getD false
    collationName := (lastOf (fun | .collate c => some c | _ => none) tags).getD []
    columnDefault := ((lastOf (fun | .default e => some e | _ => none) tags).map fun e =>
      if at_.dialect ≠ .postgres ∧ simpleDefault num e = false then "(".toList ++ e ++ ")".toList else e).getD []
    ignore := tags.any fun | .ignore ds => ignores at_.dialect ds | _ => false }

def Field.columns (num : Str → Bool) (at_ : Place) : Field → List Column
  | .column name type tags => [columnOf num at_ name type (applicable at_.dialect tags)]
  | .table _ => []

/-- The declarations of a field that apply, with the column they belong to. -/
def Field.decls (d : Dialect) : Field → List (List Str × Decl)
  | .column name _ tags => ((applicable d tags).filterMap ColTag.decl?).map fun x => ([name], x)
  | .table tags => ((applicable d tags).filterMap TabTag.decl?).map fun x => ([], x)

/-- The field says that the table is not for this dialect. -/
def Field.ignored (d : Dialect) : Field → Bool
  | .column _ _ _ => false
  | .table tags => (applicable d tags).any fun | .ignore ds => ignores d ds | _ => false

/-- The virtual table modules and arguments given, on SQLite. -/
def Field.virtuals (d : Dialect) : Field → List (Str × List (Str × Str))
  | .column _ _ _ => []
  | .table tags => if d = .sqlite then (applicable d tags).filterMap fun | .virtual m args => some (m, args) | _ => none else []

/-- The constraints and indexes of a struct, in the order of its fields. -/
def constraintsOf (at_ : Place) (fs : List Field) : List Constraint :=
  (fs.flatMap (Field.decls at_.dialect)).filterMap fun x => x.2.constraint? at_ x.1
def indexesOfAll (at_ : Place) (fs : List Field) : List Index :=
  (fs.flatMap (Field.decls at_.dialect)).flatMap fun x => x.2.indexes at_ x.1

/-- A column is marked by the constraints on it alone (unless it is ignored). -/
def marked (cons : List Constraint) (c : Column) : Column :=
  { c with isPrimaryKey := c.isPrimaryKey || (!c.ignore && cons.any fun x => x.constraintType = .primaryKey && x.columns = [c.columnName])
           isUnique := c.isUnique || (!c.ignore && cons.any fun x => x.constraintType = .unique && x.columns = [c.columnName]) }

/-- The columns of a struct. -/
def columnsOf (num : Str → Bool) (at_ : Place) (fs : List Field) : List Column :=
  (fs.flatMap (Field.columns num at_)).map (marked (constraintsOf at_ fs))

/-- The module of a virtual table. -/
def moduleOf (d : Dialect) (fs : List Field) : Str := ((fs.flatMap (Field.virtuals d)).getLast?.map Prod.fst).getD []

/-- An argument: `key` or `key=value`. -/
def argument (x : Str × Str) : Str := if x.2 = [] then x.1 else x.1 ++ '=' :: x.2

/-- The arguments of a virtual table; those of an FTS5 table begin with its text columns. -/
def argumentsOf (num : Str → Bool) (at_ : Place) (fs : List Field) : List Str :=
  (if (moduleOf at_.dialect fs).map Char.toLower = "fts5".toList then
    ((fs.flatMap (Field.columns num at_)).filter fun c => !c.ignore && c.columnType.map Char.toLower = "text".toList).map Column.columnName
   else []) ++ ((fs.flatMap (Field.virtuals at_.dialect)).flatMap Prod.snd).map argument

/-- Everything is declared once, and makes sense. -/
structure Once (num : Str → Bool) (at_ : Place) (fs : List Field) : Prop where
  columns : ((fs.flatMap (Field.columns num at_)).map Column.columnName).Nodup
  named : ∀ c ∈ fs.flatMap (Field.columns num at_), c.columnName ≠ []
  constraints : ((constraintsOf at_ fs).map Constraint.constraintName).Nodup
  indexes : ((indexesOfAll at_ fs).map Index.indexName).Nodup
  ok : ∀ x ∈ fs.flatMap (Field.decls at_.dialect), x.2.Ok x.1

/-! ### Words -/

/-- The words of column tags, table tags, constraints and indexes. -/
def declWords : List String := ["primarykey", "references", "foreignkey", "unique", "index"]
def columnWords : List String :=
  ["type", "auto_increment", "autoincrement", "identity", "alwaysidentity", "notnull", "onupdatecurrenttimestamp", "expr", "storedexpr", "collate",
   "default", "ignore"] ++ declWords
def tableWords : List String := ["virtual", "ignore"] ++ declWords
def constraintWords : List String := ["name", "cols", "references", "onupdate", "ondelete", "deferrable", "deferred", "ignore", "index"]
def indexWords : List String := ["cols", "unique", "using", "where", "include", "ignore"]

/-- The name of a modifier, for a dialect, is this word. -/
def ReadsAs (d : Dialect) (key w : Str) : Prop := (key = w ∧ ':' ∉ w) ∨ ∃ o, ':' ∉ o ∧ key = o ++ ':' :: w ∧ named d o

end Ddl.Declared
