import Verif.Model.Derived
import Verif.Model.Sprintf
import Verif.Model.Load
import Verif.Model.Ident
/-
Model of ddl/v.go (the declaration of views in Go), of ddl/view.go:110-131, ddl/t.go:83-104 (`sprintf`), 224-237 (`getColumnNames`),
550-590 (`getColumnNamesAndExprs`) and of ddl/database_metadata.go:138-166, 359-369 (`loadDDLView`, `WithDDLViews`).

A `DDL` method is Go code that calls the methods of `*V`; what it does to the view is a list of such calls, which may depend on the
dialect.  The methods of the `*VIndex` that `Index` and `NameIndex` return are listed with the call that returned it.  Error messages are
abbreviated.  `panicErr` (t.go:14-17) is an error at once: it is recovered by `LoadDDLView` (v.go:229-238) and nothing in between looks at
it.
-/
namespace Ddl
open Sq (Node)

/-- The Go value of an element of the `args` slice, given the values of the opaque ones. -/
def valOf (opq : Nat → Sq.Val) : Sq.Arg → Sq.Val
  | .val s => scalar s
  | .named n s => .named n (scalar s)
  | .slice id => opq id
where
  scalar : Sq.Scalar → Sq.Val
  | .nil => .nil
  | .bool b => .bool b
  | .int i => .int i
  | .str s => .str s
  | .bytes s => .bytes (s.map fun c => Fin.ofNat 256 c.toNat)
  | .opaque id => opq id

/-- ddl/t.go:92-104, v.go:42-52: the text in the buffer, with the arguments put in by `sq.Sprintf` (which returns the text as it is if there are
none). -/
def inlined (opq : Nat → Sq.Val) (d : Dialect) (w : Sq.W) : Res Str :=
  match w.st with
  | .ok => let s := Sq.exec d w.code {}; Sq.sprintf d (Sq.bufString d s.out) (s.args.map (valOf opq))
  | .err e => .err e
  | .panic => .panic
  | .hang => .hang

/-- ddl/t.go:83-104 `sprintf`. -/
def formatted (opq : Nat → Sq.Val) (d : Dialect) (ex : List Str) (fmt : Str) (vals : List Node) : Res Str :=
  inlined opq d (Sq.bprintf { d := d, ex := ex } fmt ((Sq.objs vals).map Sq.PV.toObj))

/-- ddl/t.go:224-237 `getColumnNames`. -/
def columnNames : List Node → Res (List Str)
  | [] => .ok []
  | f :: fs =>
    if f.kind.isNil then .err "field is nil".toList
    else if f.name = [] then .err "field has no name".toList
    else (columnNames fs).map (f.name :: ·)

/-- ddl/t.go:560-586: the column or the expression of one field. -/
def columnOrExpr (opq : Nat → Sq.Val) (d : Dialect) (table : Str) (bare : Bool) (f : Node) : Res (Str × Str) :=
  match f with
  | .nil => .err "field is nil".toList
  | .literal s _ => .ok ([], s)
  | f =>
    if f.name ≠ [] then .ok (f.name, [])
    else (inlined opq d (Sq.ren f { d := d, ex := [table] } [])).map fun e => ([], if bare then e else '(' :: e ++ [')'])

/-- ddl/t.go:550-590 `getColumnNamesAndExprs`. -/
def columnsAndExprs (opq : Nat → Sq.Val) (d : Dialect) (table : Str) (bare : Bool) : List Node → Res (List Str × List Str)
  | [] => .ok ([], [])
  | f :: fs =>
    (columnOrExpr opq d table bare f).bind fun p =>
      (columnsAndExprs opq d table bare fs).map fun r => (p.1 :: r.1, p.2 :: r.2)

/-- ddl/v.go:176-226: the methods of an index. -/
inductive VIdxOp where
  | unique
  | using (type : Str)
  | where (fmt : Str) (vals : List Node)
  | include (fields : List Node)
  | config (f : Index → Index)

/-- ddl/v.go:176-226, on PostgreSQL (elsewhere they return at once, and there is no index). -/
def VIdxOp.run (opq : Nat → Sq.Val) (v : View) (name : Str) (x : Index) : VIdxOp → Res Index
  | .unique => .ok { x with isUnique := true }
  | .using t => .ok { x with indexType := t.map Char.toUpper }
  | .where fmt vals => (formatted opq .postgres [v.viewName] fmt vals).map fun e => { x with predicate := e }
  | .include fields => (columnNames fields).map fun cs => { x with includeColumns := cs }
  | .config f => .ok { f x with tableSchema := v.viewSchema, tableName := v.viewName, indexName := name }

/-- The methods of `*V`. -/
inductive VOp where
  | isMaterialized
  | setQuery (query : Node)
  | trigger (fmt : Str) (vals : List Node)
  | index (name : Option Str) (fields : List Node) (ops : List VIdxOp)

/-- ddl/view.go:110-131 `createOrUpdateIndex`, then the methods called on the result. -/
def View.putIndex (v : View) (name : Str) (columns exprs : List Str) (edit : Index → Res Index) : Res View :=
  if name = [] then .err "indexName cannot be empty".toList
  else match v.cachedIndexPosition name with
    | some n =>
      (edit { (v.indexes[n]?).getD { indexName := name } with
        tableSchema := v.viewSchema, tableName := v.viewName, columns := columns, exprs := exprs }).map fun x =>
          { v with indexes := v.indexes.set n x }
    | none =>
      (edit { indexName := name, tableSchema := v.viewSchema, tableName := v.viewName, columns := columns, exprs := exprs }).map v.appendIndex

/-- view.go:65-84 `CachedTriggerPosition`. -/
def View.cachedTriggerPosition (v : View) (key : Str × Str × Str) : Option Nat :=
  (cachedPosition (v.triggers.map ViewTrigger.mk) v.triggerCache key).1

/-- ddl/v.go:53-72: how often each column is there, minus how often it should. -/
def columnDiff (want got : List Str) (c : Str) : Int := (got.count c : Int) - (want.count c : Int)

/-- ddl/v.go:73-92: the comparison. -/
def columnsMatch (want got : List Str) : Bool := (want ++ got).all fun c => decide (columnDiff want got c = 0)

/-- ddl/v.go:61-72: the names of the columns of the query. -/
def queryColumns : List Node → Res (List Str)
  | [] => .ok []
  | f :: fs =>
    if f.kind.isNil then .panic
    else if Sq.Deriving.fieldNameOf f = [] then .err "view query column has no name and no alias".toList
    else (queryColumns fs).map (Sq.Deriving.fieldNameOf f :: ·)

/-- ddl/v.go:30-94 `SetQuery`. -/
def View.setQuery (opq : Nat → Sq.Val) (ext : Sq.Deriving.Ext) (d : Dialect) (want : List Str) (v : View) (q : Node) : Res View :=
  if q.kind.isNil then .err "query is nil".toList
  else (inlined opq d (Sq.ren q { d := d } [])).bind fun sql =>
    (Sq.Deriving.fetchable ext q).bind fun fields =>
      (queryColumns fields).bind fun got =>
        if columnsMatch want got then .ok { v with sql := sql } else .err "view query columns do not match struct fields".toList

/-- ddl/v.go:24-28, 30-94, 96-114, 123-174: one call. -/
def VOp.run (opq : Nat → Sq.Val) (ext : Sq.Deriving.Ext) (d : Dialect) (want : List Str) (v : View) : VOp → Res View
  | .isMaterialized => .ok { v with isMaterialized := v.isMaterialized || decide (d = .postgres) }
  | .setQuery q => v.setQuery opq ext d want q
  | .trigger fmt vals =>
    if d ≠ .postgres then .ok v
    else (formatted opq d [] fmt vals).bind fun sql => (triggerOp d sql).map fun t =>
      match v.cachedTriggerPosition (t.tableSchema, t.tableName, t.triggerName) with
      | some n => { v with triggers := v.triggers.modify n fun x => { x with sql := t.sql } }
      | none => v.appendTrigger t
  | .index name fields ops =>
    if d ≠ .postgres then .ok v
    else if v.isMaterialized = false then .err "Indexes can only be defined on Materialized Views".toList
    else (columnsAndExprs opq d v.viewName false fields).bind fun ce =>
      let name := name.getD (generateName .index v.viewName ce.1)
      v.putIndex name ce.1 ce.2 fun x => foldRes (VIdxOp.run opq v name) x ops

/-- A view struct: the names of its fields (`none`: a struct field that is no `sq.Field`), and its `DDL` method. -/
structure ViewDecl where
  schema : Str := []
  name : Str
  fields : List (Option Str)
  ddl : Dialect → List VOp

/-- ddl/v.go:255-265: the columns the struct has. -/
def wantColumns : List (Option Str) → Res (List Str)
  | [] => .ok []
  | none :: fs => wantColumns fs
  | some n :: fs => if n = [] then .err "view struct field has no name set for it".toList else (wantColumns fs).map (n :: ·)

/-- ddl/v.go:228-268 `LoadDDLView`. -/
def View.load (opq : Nat → Sq.Val) (ext : Sq.Deriving.Ext) (d : Dialect) (v : View) (decl : ViewDecl) : Res View :=
  if decl.name = [] then .err "view name is empty".toList
  else
    match (wantColumns decl.fields).bind fun want =>
      foldRes (VOp.run opq ext d want) { v with viewSchema := decl.schema, viewName := decl.name } (decl.ddl d) with
    | .panic => .err "panic".toList
    | r => r

/-- database_metadata.go:154-165. -/
def Schema.putView (s : Schema) (name : Str) (new : View) (f : View → Res View) : Res Schema :=
  match s.cachedViewPosition name with
  | some n => (f ((s.views[n]?).getD new)).map fun t => { s with views := s.views.set n t }
  | none => (f new).map s.appendView

/-- database_metadata.go:138-166 `loadDDLView`.  (On an error the metadata is returned too, with the unfinished view in it; the model
returns the error alone.) -/
def DatabaseMetadata.loadView (opq : Nat → Sq.Val) (ext : Sq.Deriving.Ext) (dia : Dialect) (d : DatabaseMetadata) (decl : ViewDecl) :
    Res DatabaseMetadata :=
  if decl.name = [] then .err "table name is empty".toList
  else d.putSchema decl.schema fun s =>
    s.putView decl.name { viewSchema := decl.schema, viewName := decl.name } fun v => v.load opq ext dia decl

/-- database_metadata.go:359-369 `WithDDLViews`. -/
def withViews (opq : Nat → Sq.Val) (ext : Sq.Deriving.Ext) (dia : Dialect) (decls : List ViewDecl) (d : DatabaseMetadata) :
    Res DatabaseMetadata :=
  foldRes (DatabaseMetadata.loadView opq ext dia) d decls

end Ddl
