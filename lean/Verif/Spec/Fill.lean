import Verif.Spec.Change
/-
Specification: INSERT statements that store the answers to a question (INSERT ... SELECT).

The first part says what a program wants to be stored.  The second part is about SQL text only: a reader that turns the text of a whole statement, with the
arguments sent along, into its parts.  It mentions nothing of the Go code.
-/
namespace Sq.Spec.Fill
open Sq Sq.Chain Sq.Spec.Store Sq.Spec.Where Sq.Spec.Sel Sq.Spec.Chg
open _root_.Spec (Tok tokens BTok BExp readBool)

/-! ### What a program asks for -/

/-- The records of that page of the answers become records of `tab`, with their values in these columns; with `skip` not those that conflict with
what is there. -/
structure Filling where
  tab : Tab
  cols : List Str
  ask : Ask
  limit : Option Nat
  offset : Option Nat
  skip : Bool

/-- `InsertInto(tab).Columns(cols...).Select(question)`, with `.OnConflict().DoNothing()` if conflicts are to be skipped.  The question may have been
built with another environment. -/
def Filling.query (b : Builder) (env : Env) (raw : Field → Bool) (x : Filling) : Node :=
  (Chain.insert b (.insertInto x.tab.node) ([.columns (x.cols.map fun c => Field.node raw ⟨x.tab, c⟩),
    .select (Chain.select { b with env := env } (.select (x.ask.cols.map (Field.node raw))) (.from x.ask.tab.node :: x.ask.calls raw x.limit x.offset))] ++
    if x.skip then [.onConflict [] [] .doNothing] else [])).node

/-- New records with these values: all of them, or, if conflicts are skipped, some. -/
def Stored (skip : Bool) (cols : List Str) (values : List (List Scalar)) (new : List Row) : Prop :=
  if skip then (new.map fun r => cols.map r).Sublist values else (new.map fun r => cols.map r) = values

/-! ### How SQL reads the text -/

/-- `INSERT INTO ref (cols) stmt [ON CONFLICT DO NOTHING]` -/
structure Parts where
  ref : Ref
  cols : List Str
  stmt : Stmt
  skip : Bool
  deriving DecidableEq

/-- What stands before the first such symbol, and what follows it. -/
def upTo (c : Char) : List Lex → Option (List Lex × List Lex)
  | [] => none
  | x :: xs => if x = .tok (.sym c) then some ([], xs) else (upTo c xs).map fun y => (x :: y.1, y.2)

def one? (d : Dialect) : List Lex → Option Str
  | [.tok x] => name? d x
  | _ => none

/-- `CONFLICT DO NOTHING` -/
def nothing? : List Lex → Bool
  | [.tok (.word x), .tok (.word y), .tok (.word z)] => upper x = "CONFLICT".toList ∧ upper y = "DO".toList ∧ upper z = "NOTHING".toList
  | _ => false

/-- Nothing, or `ON CONFLICT DO NOTHING`, which MySQL does not have.  SQLite takes ON for the condition of a join, unless there is a WHERE before it. -/
def skip? (l : Lang) (filtered : Bool) : List (Word × List Lex) → Option Bool
  | [] => some false
  | [(.on, x)] => if nothing? x = true ∧ (l = .postgres ∨ l = .sqlite ∧ filtered = true) then some true else none
  | _ => none

def fill? (l : Lang) : List Lex → Option Parts
  | .tok (.word i) :: .tok (.word o) :: r =>
    if upper i = "INSERT".toList ∧ upper o = "INTO".toList then
      (upTo '(' r).bind fun x => (upTo ')' x.2).bind fun y =>
      (ref? l.dialect x.1).bind fun t =>
      -- MySQL has no alias for the table
      if l = .mysql ∧ t.label ≠ t.name then none
      else
        (every (one? l.dialect) (pieces y.1)).bind fun cs =>
        (selected? (columns? l) l y.2).bind fun m =>
        (skip? l ((sections y.2).2.any fun s => s.1 = .where_) m.2).bind fun k =>
          if cs.Nodup ∧ cs.length = m.1.core.cols.length then some ⟨t, cs, m.1, k⟩ else none
    else none
  | _ => none

def readFill (l : Lang) (args : List Arg) (text : Str) : Option Parts :=
  (tokens (lexing l) text).bind fun ts => (resolve l args 0 ts).bind fun xs => fill? l xs

example : readFill .sqlite [.val (.int 18)]
    "INSERT INTO adults AS a (id, \"Name\") SELECT u.id, u.name FROM users AS u WHERE u.age >= $1 ON CONFLICT DO NOTHING".toList =
  some ⟨⟨[], "adults".toList, "a".toList⟩, ["id".toList, "Name".toList],
    ⟨⟨[⟨"u".toList, "id".toList⟩, ⟨"u".toList, "name".toList⟩], ⟨[], "users".toList, "u".toList⟩, [],
      some (.atom (.cmp .ge ⟨"u".toList, "age".toList⟩ (.val (.int 18)))), []⟩, none, none⟩, true⟩ := by decide +kernel
/-- Without a WHERE; too few columns; a column twice. -/
example : readFill .sqlite [] "INSERT INTO adults (id) SELECT u.id FROM users AS u ON CONFLICT DO NOTHING".toList = none ∧
    (readFill .sqlite [] "INSERT INTO adults (id) SELECT u.id FROM users AS u WHERE TRUE ON CONFLICT DO NOTHING".toList).isSome = true ∧
    (readFill .postgres [] "INSERT INTO adults (id) SELECT u.id FROM users AS u ON CONFLICT DO NOTHING".toList).isSome = true ∧
    readFill .mysql [] "INSERT INTO adults (id) SELECT u.id, u.age FROM users AS u".toList = none ∧
    readFill .mysql [] "INSERT INTO adults (id, id) SELECT u.id, u.age FROM users AS u".toList = none := by decide +kernel

/-! ### A database that understands INSERT ... SELECT -/

/-- The database stores what the SELECT gives, in an arrangement as in `Sel.Understands`, behind the records that are there. -/
structure Understands (D : Database) (T : D.State → Tables) (C : Compare) (O : Order) (l : Lang) (arrange : D.State → Core → List World) : Prop where
  all : ∀ s m, (arrange s m).Perm (m.rows C (T s))
  sorted : ∀ s m, Sorted O m.order (arrange s m)
  fill : ∀ s text args m, readFill l args text = some m →
    let after := T (D.exec text args s).1
    Only m.ref (T s) after ∧
      ∃ new, after m.ref.schema m.ref.name = T s m.ref.schema m.ref.name ++ new ∧
        Stored m.skip m.cols ((page m.stmt.limit m.stmt.offset (arrange s m.stmt.core)).map fun w => m.stmt.core.cols.map w.at) new

/-! ### What can be stored -/

structure Filling.Sound (l : Lang) (x : Filling) : Prop where
  tab : Named l.dialect x.tab
  /-- MySQL has no alias for the table. -/
  alias : l = .mysql → x.tab.alias = []
  cols : ∀ c ∈ x.cols, Readable l.dialect c
  once : x.cols.Nodup
  ask : x.ask.Sound l
  /-- One column for each value. -/
  fits : x.cols.length = x.ask.cols.length
  page : Allowed l x.limit x.offset
  /-- MySQL has no ON CONFLICT. -/
  skip : x.skip = true → l ≠ .mysql

end Sq.Spec.Fill
