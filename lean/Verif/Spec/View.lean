import Verif.Model.View
/-
Specification: what a view declared in Go says.
-/
namespace Ddl.ViewSpec
open Ddl
open Sq (Node)

/-- The text of a query or expression: it renders, and the text is the rendered one with the arguments put in. -/
def Text (opq : Nat → Sq.Val) (m : Sq.Mode) (q : Node) (sql : Str) : Prop :=
  let w := Sq.ren q m []
  let s := Sq.exec m.d w.code {}
  w.st = .ok ∧ Sq.sprintf m.d (Sq.bufString m.d s.out) (s.args.map (valOf opq)) = .ok sql

/-- The same for a format with values. -/
def FormatText (opq : Nat → Sq.Val) (m : Sq.Mode) (fmt : Str) (vals : List Node) (sql : Str) : Prop :=
  let w := Sq.bprintf m fmt ((Sq.objs vals).map Sq.PV.toObj)
  let s := Sq.exec m.d w.code {}
  w.st = .ok ∧ Sq.sprintf m.d (Sq.bufString m.d s.out) (s.args.map (valOf opq)) = .ok sql

/-- The name a column of a query goes by. -/
def columnName (f : Node) : Str := if f.alias = [] then f.name else f.alias

/-- The columns of the query are those of the struct, in any order. -/
def Fits (ext : Sq.Deriving.Ext) (q : Node) (want : List Str) : Prop :=
  ∃ fields, Sq.Deriving.fetchable ext q = .ok fields ∧ (∀ f ∈ fields, f ≠ .nil ∧ columnName f ≠ []) ∧ (fields.map columnName).Perm want

/-- What a field of an index stands for: a column, or an expression. -/
def Element (opq : Nat → Sq.Val) (view : Str) (f : Node) (p : Str × Str) : Prop :=
  (∃ s a, f = .literal s a ∧ p = ([], s)) ∨
  ((∀ s a, f ≠ .literal s a) ∧ f ≠ .nil ∧ f.name ≠ [] ∧ p = (f.name, [])) ∨
  ((∀ s a, f ≠ .literal s a) ∧ f ≠ .nil ∧ f.name = [] ∧ ∃ e, Text opq { d := .postgres, ex := [view] } f e ∧ p = ([], "(".toList ++ e ++ ")".toList))

/-- The fields stand for these columns and expressions. -/
def Elements (opq : Nat → Sq.Val) (view : Str) : List Node → List (Str × Str) → Prop
  | [], [] => True
  | f :: fs, p :: ps => Element opq view f p ∧ Elements opq view fs ps
  | _, _ => False

/-- The method call is all right. -/
def AcceptedOption (opq : Nat → Sq.Val) (view : Str) : VIdxOp → Prop
  | .where fmt vals => ∃ e, FormatText opq { d := .postgres, ex := [view] } fmt vals e
  | .include fs => ∀ f ∈ fs, f ≠ .nil ∧ f.name ≠ []
  | _ => True

/-- The call is all right; `mat`: the view has been declared materialized. -/
def Accepted (opq : Nat → Sq.Val) (ext : Sq.Deriving.Ext) (d : Dialect) (view : Str) (want : List Str) (mat : Prop) : VOp → Prop
  | .isMaterialized => True
  | .setQuery q => q ≠ .nil ∧ (∃ sql, Text opq { d := d } q sql) ∧ Fits ext q want
  | .trigger fmt vals => d = .postgres → ∃ sql t, FormatText opq { d := d } fmt vals sql ∧ triggerOp d sql = .ok t
  | .index name fields ops => d = .postgres → mat ∧ (∃ es, Elements opq view fields es) ∧ name ≠ some [] ∧ ∀ op ∈ ops, AcceptedOption opq view op

/-- The columns of the struct. -/
def _root_.Ddl.ViewDecl.columns (decl : ViewDecl) : List Str := decl.fields.filterMap id

def _root_.Ddl.VOp.isQuery : VOp → Bool
  | .setQuery _ => true
  | _ => false

def _root_.Ddl.VOp.isTrigger : VOp → Bool
  | .trigger .. => true
  | _ => false

def _root_.Ddl.VOp.isIndex : VOp → Bool
  | .index .. => true
  | _ => false

/-- `Config` hands the index to arbitrary code. -/
def NoConfig (ops : List VIdxOp) : Prop := ∀ f, VIdxOp.config f ∉ ops

/-- What a call of `Index` or `NameIndex`, with the methods called on its result, says. -/
structure IndexSays (opq : Nat → Sq.Val) (schema view : Str) (name : Option Str) (fields : List Node) (ops : List VIdxOp) (x : Index) : Prop where
  schema : x.tableSchema = schema
  table : x.tableName = view
  elements : x.columns.length = x.exprs.length ∧ Elements opq view fields (x.columns.zip x.exprs)
  name : x.indexName = name.getD (generateName .index view x.columns)
  unique : x.isUnique = true ↔ VIdxOp.unique ∈ ops
  type : ((∀ t, VIdxOp.using t ∉ ops) → x.indexType = []) ∧
    ∀ pre t post, ops = pre ++ .using t :: post → (∀ t, VIdxOp.using t ∉ post) → x.indexType = t.map Char.toUpper
  predicate : ((∀ f vs, VIdxOp.where f vs ∉ ops) → x.predicate = []) ∧
    ∀ pre f vs post, ops = pre ++ .where f vs :: post → (∀ f vs, VIdxOp.where f vs ∉ post) →
      FormatText opq { d := .postgres, ex := [view] } f vs x.predicate
  included : ((∀ fs, VIdxOp.include fs ∉ ops) → x.includeColumns = []) ∧
    ∀ pre fs post, ops = pre ++ .include fs :: post → (∀ fs, VIdxOp.include fs ∉ post) → x.includeColumns = fs.map Node.name

/-- The two lists correspond, element by element. -/
inductive AllSay (P : α → β → Prop) : List α → List β → Prop
  | nil : AllSay P [] []
  | cons {a b as bs} : P a b → AllSay P as bs → AllSay P (a :: as) (b :: bs)

/-- The call declares this index. -/
def IndexOf (opq : Nat → Sq.Val) (schema view : Str) (op : VOp) (x : Index) : Prop :=
  ∃ name fields ops, op = .index name fields ops ∧ IndexSays opq schema view name fields ops x

/-- The call declares this trigger. -/
def TriggerOf (opq : Nat → Sq.Val) (op : VOp) (t : Trigger) : Prop :=
  ∃ fmt vals sql, op = .trigger fmt vals ∧ FormatText opq { d := .postgres } fmt vals sql ∧ triggerOp .postgres sql = .ok t

end Ddl.ViewSpec
