import Verif.Model.Chain
import Verif.Model.Expr
import Verif.Model.Send
/-
Specification: the statements that store, read, change and remove records of a table, as texts; and a database that understands these texts.
-/
namespace Sq.Spec.Store
open Sq Sq.Chain

/-- How a statement refers to its `i`-th value, counting from 1. -/
def slot : Lang → Nat → Str
  | .mysql, _ => "?".toList
  | _, i => "$".toList ++ (toString i).toList

def commas (xs : List Str) : Str := (xs.intersperse ", ".toList).flatten

/-- A table, as it is named in a query. -/
structure Tab where
  schema : Str
  name : Str
  alias : Str

/-- The name that stands before its columns. -/
def Tab.label (t : Tab) : Str := if t.alias = [] then t.name else t.alias

def Tab.text (d : Dialect) (t : Tab) : Str :=
  (if t.schema = [] then [] else quoteIdentifier d t.schema ++ ".".toList) ++ quoteIdentifier d t.name

/-- `schema.name AS alias` -/
def Tab.source (d : Dialect) (t : Tab) : Str :=
  t.text d ++ if t.alias = [] then [] else " AS ".toList ++ quoteIdentifier d t.alias

/-- `label.column` -/
def Tab.column (d : Dialect) (t : Tab) (c : Str) : Str := quoteIdentifier d t.label ++ ".".toList ++ quoteIdentifier d c

/-- `(p, p+1, ...)`: the slots of one record of `k` values, the first being the `p`-th. -/
def rowText (l : Lang) (k p : Nat) : Str := "(".toList ++ commas ((List.range' p k).map (slot l)) ++ ")".toList

/-- Storing `n` records. -/
def insertText (l : Lang) (t : Tab) (cols : List Str) (n : Nat) : Str :=
  "INSERT INTO ".toList ++ t.source l.dialect ++ " (".toList ++ commas (cols.map (quoteIdentifier l.dialect)) ++ ") VALUES ".toList ++
  commas ((List.range n).map fun i => rowText l cols.length (i * cols.length + 1))

/-- Reading these columns of all records. -/
def selectText (l : Lang) (t : Tab) (cols : List Str) : Str :=
  "SELECT ".toList ++ commas (cols.map (t.column l.dialect)) ++ " FROM ".toList ++ t.source l.dialect

/-- `label.key = p` -/
def keyText (l : Lang) (t : Tab) (key : Str) (p : Nat) : Str := t.column l.dialect key ++ " = ".toList ++ slot l p

/-- Reading these columns of the records with a given key. -/
def selectKeyText (l : Lang) (t : Tab) (cols : List Str) (key : Str) : Str :=
  selectText l t cols ++ " WHERE ".toList ++ keyText l t key 1

/-- The column that is assigned to: qualified on MySQL only. -/
def target (l : Lang) (t : Tab) (c : Str) : Str := if l = .mysql then t.column l.dialect c else quoteIdentifier l.dialect c

/-- Changing these columns of the records with a given key. -/
def updateText (l : Lang) (t : Tab) (cols : List Str) (key : Str) : Str :=
  "UPDATE ".toList ++ t.source l.dialect ++ " SET ".toList ++
  commas ((cols.zip (List.range' 1 cols.length)).map fun x => target l t x.1 ++ " = ".toList ++ slot l x.2) ++
  " WHERE ".toList ++ keyText l t key (cols.length + 1)

/-- Removing the records with a given key. -/
def deleteText (l : Lang) (t : Tab) (key : Str) : Str :=
  "DELETE FROM ".toList ++ t.source l.dialect ++ " WHERE ".toList ++ keyText l t key 1

/-! ### The queries a program builds -/

/-- A table struct without hooks, and its fields (table_info.go, field_info.go); `raw c` says of what Go type the field is (Model/Node). -/
def Tab.node (t : Tab) : Node := .table t.schema t.name t.alias (fun _ => .none) (fun _ => .nil)
def Tab.field (t : Tab) (raw : Str → Bool) (c : Str) : Node := .field { tableName := t.name, tableAlias := t.alias, name := c } (raw c) false []

/-- `for rec in recs { col.Set(c1, rec.v1); col.Set(c2, rec.v2); ... }` -/
def setAll (t : Tab) (raw : Str → Bool) (cols : List Str) (recs : List (List Scalar)) : List (Node × Node) :=
  recs.flatMap fun rec => (cols.map (t.field raw)).zip (rec.map .scalar)

def insertQuery (b : Builder) (t : Tab) (raw : Str → Bool) (cols : List Str) (recs : List (List Scalar)) : Node :=
  (Chain.insert b (.insertInto t.node) [.valuesx { sets := setAll t raw cols recs, err := none }]).node

def keyIs (t : Tab) (raw : Str → Bool) (key : Str) (v : Scalar) : Node := (Call.eq (t.field raw key) (.scalar v)).node

def selectQuery (b : Builder) (t : Tab) (raw : Str → Bool) (cols : List Str) : Node :=
  (Chain.select b (.select (cols.map (t.field raw))) [.from t.node]).node

def selectKeyQuery (b : Builder) (t : Tab) (raw : Str → Bool) (cols : List Str) (key : Str) (v : Scalar) : Node :=
  (Chain.select b (.select (cols.map (t.field raw))) [.from t.node, .where [keyIs t raw key v]]).node

def updateQuery (b : Builder) (t : Tab) (raw : Str → Bool) (cols : List Str) (rec : List Scalar) (key : Str) (v : Scalar) : Node :=
  (Chain.update b (.update t.node) [.setx { sets := setAll t raw cols [rec], err := none }, .where [keyIs t raw key v]]).node

def deleteQuery (b : Builder) (t : Tab) (raw : Str → Bool) (key : Str) (v : Scalar) : Node :=
  (Chain.delete b (.deleteFrom [t.node]) [.where [keyIs t raw key v]]).node

/-- `From(table)` without fields, to be fetched with a row mapper; and the same for one key. -/
def fromQuery (b : Builder) (t : Tab) : Node := (Chain.select b (.from t.node) []).node
def fromKeyQuery (b : Builder) (t : Tab) (raw : Str → Bool) (key : Str) (v : Scalar) : Node :=
  (Chain.select b (.from t.node) [.where [keyIs t raw key v]]).node

/-! ### A database -/

/-- A row of a table: a value for every column. -/
abbrev Row := Str → Scalar

/-- A database, as seen by its clients: what a statement does, what a query answers, what the tables contain, and which values it holds equal. -/
structure Database where
  State : Type
  exec : Str → List Arg → State → State × Int × Int
  query : Str → List Arg → State → List (List Scalar)
  rows : State → List Row
  eq : Scalar → Scalar → Bool

/-- A row with these columns changed (the first of two values for one column counts). -/
def Row.set (r : Row) (new : List (Str × Scalar)) : Row := fun c => (new.lookup c).getD (r c)

/-- The database understands the statements about these columns of this table: `rows` is what is in the table.  Nothing is said about columns that
a statement does not mention, except that UPDATE and DELETE do not touch them. -/
structure Understands (D : Database) (l : Lang) (t : Tab) (cols : List Str) (key : Str) : Prop where
  insert : ∀ s recs, recs ≠ [] → (∀ r ∈ recs, r.length = cols.length) →
    ∃ new : List Row, D.rows (D.exec (insertText l t cols recs.length) (recs.flatten.map .val) s).1 = D.rows s ++ new ∧
      new.map (fun r => cols.map r) = recs
  select : ∀ s, D.query (selectText l t cols) [] s = (D.rows s).map fun r => cols.map r
  selectKey : ∀ s v, D.query (selectKeyText l t cols key) [.val v] s = ((D.rows s).filter fun r => D.eq (r key) v).map fun r => cols.map r
  update : ∀ s rec v, rec.length = cols.length →
    D.rows (D.exec (updateText l t cols key) (rec.map .val ++ [.val v]) s).1 =
      (D.rows s).map fun r => if D.eq (r key) v then Row.set r (cols.zip rec) else r
  delete : ∀ s v, D.rows (D.exec (deleteText l t key) [.val v] s).1 = (D.rows s).filter fun r => !D.eq (r key) v

/-- A connection to it, with or without a logger. -/
def Database.conn (D : Database) (source : Logging.LogSource) (s : D.State) (Ctx : Type) : Sending.Conn Ctx Scalar :=
  { source := source
    query := fun _ text args => .ok { rows := D.query text args s }
    exec := fun _ text args => .ok (.ok (D.exec text args s).2.1, .ok (D.exec text args s).2.2) }

/-- Its state after a call that sent something, or nothing. -/
def Database.after {Ctx : Type} (D : Database) (s : D.State) : Option (Ctx × Str × List Arg) → D.State
  | none => s
  | some (_, text, args) => (D.exec text args s).1

/-- A row mapper that reads these fields, each with the method for its kind, and keeps what it read. -/
def reader {V : Type} : List (Fetching.Kind × Node) → List V → Fetching.Prog Node V (List V)
  | [], got => .process [got] false none .ret
  | (k, f) :: fs, got => .read k f fun v => reader fs (got ++ [v])

/-- `kind c`: as what column `c` is read. -/
def reads {V : Type} (t : Tab) (raw : Str → Bool) (kind : Str → Fetching.Kind) (cols : List Str) (_ : List (List V)) : Fetching.Prog Node V (List V) :=
  reader (cols.map fun c => (kind c, t.field raw c)) []

end Sq.Spec.Store
