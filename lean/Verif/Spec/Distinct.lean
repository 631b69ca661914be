import Verif.Spec.Select
/-
Specification: `SELECT DISTINCT` and `SELECT DISTINCT ON`: one record of each combination.

The first part says which records are asked for, the second part reads the text of such a statement.  It mentions nothing of the Go code.
-/
namespace Sq.Spec.Dist
open Sq Sq.Chain Sq.Spec.Store Sq.Spec.Where Sq.Spec.Sel
open _root_.Spec (Tok tokens BTok BExp readBool)

/-! ### One of each -/

/-- `ws` holds one of `rows` for each class of alike records, and that is one before which no other of its class comes. -/
structure OneOfEach (alike before : World → World → Bool) (rows ws : List World) : Prop where
  among : ∀ w ∈ ws, w ∈ rows
  once : ws.Pairwise fun w v => alike w v = false
  all : ∀ r ∈ rows, ∃ w ∈ ws, alike w r = true ∧ before r w = false

/-- Records with the same values of these fields; `same` says which values are the same for the database (NULL and NULL are). -/
def agree (same : Scalar → Scalar → Bool) (fields : List Field) (w v : World) : Bool := fields.all fun c => same (c.value w) (c.value v)

/-! ### What a program asks for -/

/-- `SelectDistinct(cols...)` for `none`, `Select(cols...).DistinctOn(on...)` for `some on`. -/
def query (b : Builder) (raw : Field → Bool) (a : Ask) (on : Option (List Field)) (limit offset : Option Nat) : Node :=
  match on with
  | none => (Chain.select b (.selectDistinct (a.cols.map (Field.node raw))) (.from a.tab.node :: a.calls raw limit offset)).node
  | some on => (Chain.select b (.select (a.cols.map (Field.node raw))) (.distinctOn (on.map (Field.node raw)) :: .from a.tab.node :: a.calls raw limit offset)).node
/-- The same without fields, to be fetched with a row mapper. -/
def fromQuery (b : Builder) (raw : Field → Bool) (a : Ask) (on : Option (List Field)) (limit offset : Option Nat) : Node :=
  match on with
  | none => (Chain.select b (.from a.tab.node) (.selectDistinct [] :: a.calls raw limit offset)).node
  | some on => (Chain.select b (.from a.tab.node) (.distinctOn (on.map (Field.node raw)) :: a.calls raw limit offset)).node

/-- The fields whose combinations are wanted once. -/
def fieldsOf (a : Ask) (on : Option (List Field)) : List Field := on.getD a.cols

/-! ### How SQL reads the text -/

/-- The names of the tables of a statement. -/
def labels (m : Core) : List Str := m.ref.label :: m.joins.map (·.ref.label)

/-- What stands before the first closing parenthesis, and what follows it. -/
def upTo : List Lex → Option (List Lex × List Lex)
  | [] => none
  | x :: xs => if x = .tok (.sym ')') then some ([], xs) else (upTo xs).map fun y => (x :: y.1, y.2)

/-- `ON (...)` at the head: what is in the parentheses, and what follows. -/
def onList? : List Lex → Option (List Lex × List Lex)
  | .tok (.word on) :: .tok (.sym '(') :: r => if upper on = "ON".toList then upTo r else none
  | _ => none

/-- ORDER BY of a `DISTINCT ON` begins with columns of that list, with all of them if another one follows. -/
def leads (on order : List Sel.Col) : Bool :=
  (order.dropWhile fun c => decide (c ∈ on)).isEmpty || on.all fun c => decide (c ∈ order.takeWhile fun c => decide (c ∈ on))

/-- `SELECT DISTINCT ...`, sorted by columns that are selected, or (PostgreSQL only) `SELECT DISTINCT ON (...) ...`: the columns of ON, and the statement
without it. -/
def distinct? (l : Lang) : List Lex → Option (Option (List Sel.Col) × Stmt)
  | .tok (.word sel) :: .tok (.word dis) :: r =>
    if upper dis = "DISTINCT".toList then
      match onList? r with
      | none => (stmt? l (.tok (.word sel) :: r)).bind fun m => if m.core.order.all fun k => decide (k.col ∈ m.core.cols) then some (none, m) else none
      | some (K, r) =>
        (stmt? l (.tok (.word sel) :: r)).bind fun m => (every (col? l.dialect (labels m.core)) (pieces K)).bind fun on =>
          if l = .postgres ∧ leads on (m.core.order.map Key.col) = true then some (some on, m) else none
    else none
  | _ => none

def readDistinct (l : Lang) (args : List Arg) (text : Str) : Option (Option (List Sel.Col) × Stmt) :=
  (tokens (lexing l) text).bind fun ts => (resolve l args 0 ts).bind fun xs => distinct? l xs

example : readDistinct .mysql [.val (.int 3)] "SELECT DISTINCT u.age FROM users AS u ORDER BY u.age LIMIT ?".toList =
    some (none, ⟨⟨[⟨"u".toList, "age".toList⟩], ⟨[], "users".toList, "u".toList⟩, [], none, [⟨⟨"u".toList, "age".toList⟩, false, none⟩]⟩, some 3, none⟩) ∧
  readDistinct .postgres [] "SELECT DISTINCT ON (u.age) u.id FROM users AS u ORDER BY u.age, u.id DESC".toList =
    some (some [⟨"u".toList, "age".toList⟩], ⟨⟨[⟨"u".toList, "id".toList⟩], ⟨[], "users".toList, "u".toList⟩, [], none,
      [⟨⟨"u".toList, "age".toList⟩, false, none⟩, ⟨⟨"u".toList, "id".toList⟩, true, none⟩]⟩, none, none⟩) := by decide +kernel
/-- Sorted by a column that is not selected, by another column than that of ON; `DISTINCT ON` elsewhere; no DISTINCT. -/
example : readDistinct .postgres [] "SELECT DISTINCT u.age FROM users AS u ORDER BY u.id".toList = none ∧
  readDistinct .postgres [] "SELECT DISTINCT ON (u.age) u.id FROM users AS u ORDER BY u.id, u.age".toList = none ∧
  readDistinct .mysql [] "SELECT DISTINCT ON (u.age) u.id FROM users AS u".toList = none ∧
  readDistinct .postgres [] "SELECT u.age FROM users AS u".toList = none := by decide +kernel

/-! ### A database that understands DISTINCT -/

/-- The same values in these columns. -/
def agreeCols (same : Scalar → Scalar → Bool) (cols : List Sel.Col) (w v : World) : Bool := cols.all fun c => same (w.at c) (v.at c)

/-- The database answers every such statement with one row of each combination, in the order asked for; which one, if the order leaves a choice, and how
rows are arranged that the order does not tell apart, is the same for every LIMIT and OFFSET. -/
structure Understands (D : Database) (T : D.State → Tables) (C : Compare) (O : Order) (same : Scalar → Scalar → Bool) (l : Lang)
    (arrange : D.State → Option (List Sel.Col) → Core → List World) : Prop where
  each : ∀ s on m, OneOfEach (agreeCols same (on.getD m.cols)) (earlier O m.order) (m.rows C (T s)) (arrange s on m)
  sorted : ∀ s on m, Sorted O m.order (arrange s on m)
  select : ∀ s text args on m, readDistinct l args text = some (on, m) →
    D.query text args s = (page m.limit m.offset (arrange s on m.core)).map fun w => m.core.cols.map w.at

/-! ### Questions that can be asked -/

/-- The question makes sense (Spec/Select), and SQL lets it be sorted like that. -/
structure Sound (l : Lang) (a : Ask) (on : Option (List Field)) : Prop where
  ask : a.Sound l
  /-- Sorted by fields that are selected. -/
  order : on = none → ∀ k ∈ a.order, k.col.col ∈ a.cols.map Field.col
  /-- `DistinctOn` is PostgreSQL's, names some fields of tables that are there, and ORDER BY begins with these. -/
  on : ∀ fs, on = some fs → l = .postgres ∧ fs ≠ [] ∧ (∀ c ∈ fs, InScope l.dialect a.labels c) ∧
    leads (fs.map Field.col) (a.order.map fun k => k.col.col) = true

end Sq.Spec.Dist
