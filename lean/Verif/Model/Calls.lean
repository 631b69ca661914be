import Verif.Model.View
/-
Model of ddl/t.go:29-715: the methods of `*T`, `*TColumn`, `*TConstraint` and `*TIndex` with the arguments the `DDL` method of a table passes
them (fields, formats with values), and of ddl/t.go:717-815 (`LoadTable`) on such calls.

`Model/Load.lean` has what the methods do to the table once names and texts are known (`TOp`); here names and texts are taken from the
arguments.  The methods called on a `*TColumn`, `*TConstraint` or `*TIndex` are listed with the call that returned it.  Simplification: the
arguments of a call and of the methods called on its result are all evaluated before any of them changes the table; since an error makes
`LoadTable` fail as a whole, this only matters for which of several failures is reported.  Error messages are abbreviated.
-/
namespace Ddl
open Sq (Node)

/-- ddl/t.go:65-216: the methods of a `*TColumn`. -/
inductive TColCall where
  | ignore
  | type (s : Str)
  | config (f : Column → Column)
  | generated (fmt : Str) (vals : List Node)
  | stored
  | default (fmt : Str) (vals : List Node)
  | autoIncrement
  | autoincrement
  | identity
  | alwaysIdentity
  | onUpdateCurrentTimestamp
  | notNull
  | primaryKey
  | unique
  | collate (s : Str)

/-- ddl/t.go:471-542: the methods of a `*TConstraint`. -/
inductive TConsCall where
  | config (f : Constraint → Constraint)
  | references (table : Node) (fields : List Node)
  | onUpdate (action : Str)
  | onDelete (action : Str)
  | deferrable
  | initiallyDeferred
  | where (fmt : Str) (vals : List Node)

/-- ddl/t.go:650-687: the methods of a `*TIndex`. -/
inductive TIdxCall where
  | unique
  | using (type : Str)
  | where (fmt : Str) (vals : List Node)
  | include (fields : List Node)
  | config (f : Index → Index)

/-- The constraints declared by a list of fields: ddl/t.go:346-398, 420-469. -/
inductive KeyKind where
  | unique | primaryKey | foreignKey
  deriving DecidableEq

def KeyKind.type : KeyKind → ConstraintType
  | .unique => .unique
  | .primaryKey => .primaryKey
  | .foreignKey => .foreignKey

/-- ddl/t.go:29-37, 45-63, 305-469, 610-648, 696-715: the methods of `*T`.  A name of `none` is a call of the method that generates it
(`Unique`), `some n` one of the method that takes it (`NameUnique`). -/
inductive TCall where
  | ignore
  | virtualTable (module : Str) (args : List Str)
  | column (field : Node) (calls : List TColCall)
  | check (name : Str) (fmt : Str) (vals : List Node) (calls : List TConsCall)
  | key (kind : KeyKind) (name : Option Str) (fields : List Node) (calls : List TConsCall)
  | exclude (name : Option Str) (indexType : Str) (exclusions : List (Node × Str)) (calls : List TConsCall)
  | index (name : Option Str) (fields : List Node) (calls : List TIdxCall)
  | trigger (fmt : Str) (vals : List Node)

/-- The results of all, or the first failure. -/
def mapRes {α β : Type} (f : α → Res β) : List α → Res (List β)
  | [] => .ok []
  | a :: as => (f a).bind fun b => (mapRes f as).map (b :: ·)

/-- ddl/t.go:122-139: the text of a default without values. -/
def plainDefault (num : Str → Bool) (d : Dialect) (fmt : Str) : Str :=
  if fmt.length ≥ 2 ∧ fmt.head? = some '\'' ∧ fmt.getLast? = some '\'' then fmt
  else if ["TRUE", "FALSE", "CURRENT_DATE", "CURRENT_TIME", "CURRENT_TIMESTAMP"].any fun w => eqFold fmt w.toList then fmt
  else if num fmt then fmt
  else if d = .postgres then fmt
  else '(' :: fmt ++ [')']

/-- ddl/t.go:120-152 `Default`. -/
def defaultText (opq : Nat → Sq.Val) (num : Str → Bool) (d : Dialect) (table fmt : Str) (vals : List Node) : Res Str :=
  if vals = [] then .ok (plainDefault num d fmt)
  else (formatted opq d [table] fmt vals).map fun e => if d = .postgres then e else '(' :: e ++ [')']

/-- ddl/t.go:65-216. -/
def TColCall.op (opq : Nat → Sq.Val) (num : Str → Bool) (d : Dialect) (table : Str) : TColCall → Res ColOp
  | .ignore => .ok .ignore
  | .type s => .ok (.type s)
  | .config f => .ok (.config f)
  | .generated fmt vals => (formatted opq d [table] fmt vals).map .generated
  | .stored => .ok .stored
  | .default fmt vals => (defaultText opq num d table fmt vals).map .default
  | .autoIncrement => .ok .autoIncrement
  | .autoincrement => .ok .autoincrement
  | .identity => .ok .identity
  | .alwaysIdentity => .ok .alwaysIdentity
  | .onUpdateCurrentTimestamp => .ok .onUpdateCurrentTimestamp
  | .notNull => .ok .notNull
  | .primaryKey => .ok .primaryKey
  | .unique => .ok .unique
  | .collate s => .ok (.collate s)

/-- ddl/t.go:471-542. -/
def TConsCall.op (opq : Nat → Sq.Val) (d : Dialect) (table : Str) : TConsCall → Res ConsOp
  | .config f => .ok (.config f)
  | .references t fields =>
    if t.kind.isNil then .err "table is nil".toList
    else if t.name = [] then .err "table has no name".toList
    else (columnNames fields).map (.references t.name)
  | .onUpdate a => .ok (.onUpdate a)
  | .onDelete a => .ok (.onDelete a)
  | .deferrable => .ok .deferrable
  | .initiallyDeferred => .ok .initiallyDeferred
  | .where fmt vals => (formatted opq d [table] fmt vals).map .where

/-- ddl/t.go:650-687. -/
def TIdxCall.op (opq : Nat → Sq.Val) (d : Dialect) (table : Str) : TIdxCall → Res IdxOp
  | .unique => .ok .unique
  | .using t => .ok (.using t)
  | .where fmt vals => (formatted opq d [table] fmt vals).map .where
  | .include fields => (columnNames fields).map .include
  | .config f => .ok (.config f)

/-- ddl/t.go:29-37, 45-63, 305-469, 610-648, 696-715. -/
def TCall.op (opq : Nat → Sq.Val) (num : Str → Bool) (d : Dialect) (table : Str) : TCall → Res TOp
  | .ignore => .ok .ignore
  | .virtualTable m args => .ok (.virtualTable m args)
  | .column f calls =>
    if f.kind.isNil then .err "field is nil".toList
    else if f.name = [] then .err "field has no name".toList
    else (mapRes (TColCall.op opq num d table) calls).map (.column f.name)
  | .check name fmt vals calls =>
    (formatted opq d [table] fmt vals).bind fun e =>
      (mapRes (TConsCall.op opq d table) calls).map (.constraint .check (some name) [] e)
  | .key kind name fields calls =>
    (columnNames fields).bind fun cs => (mapRes (TConsCall.op opq d table) calls).map (.constraint kind.type name cs [])
  | .exclude name indexType exclusions calls =>
    (if name = none then (columnNames (exclusions.map Prod.fst)).map fun _ => () else .ok ()).bind fun _ =>
      if d ≠ .postgres then .err "no exclusion constraints".toList
      else (columnsAndExprs opq d table true (exclusions.map Prod.fst)).bind fun ce =>
        (mapRes (TConsCall.op opq d table) calls).map (.exclude name indexType ce.1 ce.2 (exclusions.map Prod.snd))
  | .index name fields calls =>
    (columnsAndExprs opq d table false fields).bind fun ce => (mapRes (TIdxCall.op opq d table) calls).map (.index name ce.1 ce.2)
  | .trigger fmt vals => (formatted opq d [] fmt vals).bind fun sql => (triggerOp d sql).map .trigger

/-- A table struct as it is written: its fields, and the calls its `DDL` method makes. -/
structure TableSource where
  schema : Str := []
  name : Str
  fields : List FieldDecl
  ddl : Dialect → List TCall := fun _ => []

/-- One call: its arguments, then its effect. -/
def TCall.run (opq : Nat → Sq.Val) (num : Str → Bool) (d : Dialect) (table : Str) (t : Table) (c : TCall) : Res Table :=
  (c.op opq num d table).bind (TOp.run d t)

/-- ddl/t.go:717-815 `LoadTable`.  (The recovered panics become errors.) -/
def Table.loadSource (opq : Nat → Sq.Val) (num : Str → Bool) (d : Dialect) (t : Table) (src : TableSource) : Res Table :=
  if src.name = [] then .err "table name is empty".toList
  else
    let r := (loadFields num d { t with tableSchema := src.schema, tableName := src.name } src.fields).bind fun r =>
      if r.2 then .ok r.1
      else (foldRes (TCall.run opq num d src.name) r.1 (src.ddl d)).map fun t => t.constraints.foldl markColumn (fts5Columns t)
    match r with
    | .panic => .err "panic".toList
    | r => r

/-- database_metadata.go:102-137 `loadTable`. -/
def DatabaseMetadata.loadSource (opq : Nat → Sq.Val) (num : Str → Bool) (dia : Dialect) (d : DatabaseMetadata) (src : TableSource) :
    Res DatabaseMetadata :=
  if src.name = [] then .err "table name is empty".toList
  else d.putSchema src.schema fun s =>
    s.putTable src.name { tableSchema := src.schema, tableName := src.name } fun t => t.loadSource opq num dia src

/-- database_metadata.go:336-346 `WithTables`. -/
def withSources (opq : Nat → Sq.Val) (num : Str → Bool) (dia : Dialect) (srcs : List TableSource) (d : DatabaseMetadata) :
    Res DatabaseMetadata :=
  foldRes (DatabaseMetadata.loadSource opq num dia) d srcs

end Ddl
