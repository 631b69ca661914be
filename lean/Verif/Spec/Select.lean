import Verif.Spec.Where
/-
Specification: SELECT statements over several tables.

The first part says what a program asks for and which records answer it.  The second part is about SQL text only: a reader that turns the text of a
whole SELECT statement, with the arguments sent along, into its parts.  It mentions nothing of the Go code.
-/
namespace Sq.Spec.Sel
open Sq Sq.Chain Sq.Spec.Store Sq.Spec.Where
open _root_.Spec (Tok tokens BTok BExp readBool)

/-! ### Records of several tables -/

/-- The record that each table name of a statement stands for. -/
abbrev World := Str → Row

/-- A row of NULLs, for a table without a matching record. -/
def nulls : Row := fun _ => .nil
def World.put (w : World) (label : Str) (r : Row) : World := fun l => if l = label then r else w l
/-- The record `r` alone, under this name. -/
def World.only (label : Str) (r : Row) : World := World.put (fun _ => nulls) label r

/-- The ways to join a table. -/
inductive How where
  | inner | left | right | full | cross
  deriving DecidableEq, Repr

/-- The pairs of what is there (`ws`) and a record of the joined table for which the condition holds. -/
def matching (label : Str) (rows : List Row) (on : World → Bool) (ws : List World) : List World :=
  ws.flatMap fun w => (rows.map (w.put label)).filter on
/-- What is there and matches no record of the joined table, with NULLs for that table. -/
def unmatchedLeft (label : Str) (rows : List Row) (on : World → Bool) (ws : List World) : List World :=
  (ws.filter fun w => rows.all fun r => !on (w.put label r)).map fun w => w.put label nulls
/-- The records of the joined table that match nothing, with NULLs for the other tables. -/
def unmatchedRight (label : Str) (rows : List Row) (on : World → Bool) (ws : List World) : List World :=
  (rows.filter fun r => ws.all fun w => !on (w.put label r)).map (World.only label)

/-- What joining the records `rows` of a table under the name `label` makes of `ws` (in some order). -/
def How.joined (label : Str) (rows : List Row) (on : World → Bool) (ws : List World) : How → List World
  | .inner => matching label rows on ws
  | .left => matching label rows on ws ++ unmatchedLeft label rows on ws
  | .right => matching label rows on ws ++ unmatchedRight label rows on ws
  | .full => matching label rows on ws ++ unmatchedLeft label rows on ws ++ unmatchedRight label rows on ws
  | .cross => ws.flatMap fun w => rows.map (w.put label)

/-- The tables of a database: the records of `schema.name`. -/
abbrev Tables := Str → Str → List Row

/-! ### What a program asks for -/

/-- A column of a table. -/
structure Field where
  tab : Tab
  name : Str
def Field.value (w : World) (c : Field) : Scalar := w c.tab.label c.name

structure Join where
  how : How
  tab : Tab
  on : List (Cond Field)

/-- `Asc()`, `Desc()`, `NullsFirst()`, `NullsLast()` -/
structure Sorting where
  col : Field
  desc : Option Bool
  nullsFirst : Option Bool

/-- `Select(cols...).From(tab).Join(tab, on...)....Where(conds...).OrderBy(order...)` -/
structure Ask where
  cols : List Field
  tab : Tab
  joins : List Join
  conds : List (Cond Field)
  order : List Sorting

def joinedAll (C : Compare) (T : Tables) : List Join → List World → List World
  | [], ws => ws
  | j :: js, ws => joinedAll C T js (j.how.joined j.tab.label (T j.tab.schema j.tab.name) (fun w => described C j.on (Field.value w)) ws)

/-- The records that answer it, in some order. -/
def Ask.answer (C : Compare) (T : Tables) (a : Ask) : List World :=
  (joinedAll C T a.joins ((T a.tab.schema a.tab.name).map (World.only a.tab.label))).filter fun w => described C a.conds (Field.value w)

/-- `raw` says of what Go type a field is (Model/Node). -/
def Field.node (raw : Field → Bool) (c : Field) : Node :=
  .field { tableName := c.tab.name, tableAlias := c.tab.alias, name := c.name } (raw c) false []
/-- field_info.go:57-86 and the same methods of the typed fields: the sort order is kept in the field. -/
def Sorting.node (raw : Field → Bool) (k : Sorting) : Node :=
  .field { tableName := k.col.tab.name, tableAlias := k.col.tab.alias, name := k.col.name, desc := k.desc, nullsFirst := k.nullsFirst } (raw k.col) false []
def Join.call (raw : Field → Bool) (j : Join) : SelectCall :=
  match j.how with
  | .inner => .join .join j.tab.node (nodes (mapAll (Field.node raw) j.on))
  | .left => .join .leftJoin j.tab.node (nodes (mapAll (Field.node raw) j.on))
  | .right => .join .rightJoin j.tab.node (nodes (mapAll (Field.node raw) j.on))
  | .full => .join .fullJoin j.tab.node (nodes (mapAll (Field.node raw) j.on))
  | .cross => .crossJoin j.tab.node

/-- What follows `From`; `Limit` and `Offset` only if asked for. -/
def Ask.calls (raw : Field → Bool) (a : Ask) (limit offset : Option Nat) : List SelectCall :=
  a.joins.map (Join.call raw) ++ [.where (nodes (mapAll (Field.node raw) a.conds)), .orderBy (a.order.map (Sorting.node raw))] ++
  (limit.map fun n => SelectCall.limit n).toList ++ (offset.map fun n => SelectCall.offset n).toList
def Ask.query (b : Builder) (raw : Field → Bool) (a : Ask) (limit offset : Option Nat) : Node :=
  (Chain.select b (.select (a.cols.map (Field.node raw))) (.from a.tab.node :: a.calls raw limit offset)).node
/-- The same without fields, to be fetched with a row mapper. -/
def Ask.fromQuery (b : Builder) (raw : Field → Bool) (a : Ask) (limit offset : Option Nat) : Node :=
  (Chain.select b (.from a.tab.node) (a.calls raw limit offset)).node

/-- A row mapper that reads these fields, each with the method for its kind, and keeps what it read. -/
def readsFields {V : Type} (raw : Field → Bool) (kind : Field → Fetching.Kind) (cols : List Field) (_ : List (List V)) : Fetching.Prog Node V (List V) :=
  reader (cols.map fun c => (kind c, c.node raw)) []

/-! ### The parts of a SELECT statement -/

structure Col where
  label : Str
  name : Str
  deriving DecidableEq, Repr
def World.at (w : World) (c : Col) : Scalar := w c.label c.name

/-- A table, and the name it has in the statement. -/
structure Ref where
  schema : Str
  name : Str
  label : Str
  deriving DecidableEq, Repr

structure JoinPart where
  how : How
  ref : Ref
  on : Option (BExp (Test Col))
  deriving DecidableEq

structure Key where
  col : Col
  desc : Bool
  nullsFirst : Option Bool
  deriving DecidableEq

/-- A statement without LIMIT and OFFSET. -/
structure Core where
  cols : List Col
  ref : Ref
  joins : List JoinPart
  cond : Option (BExp (Test Col))
  order : List Key
  deriving DecidableEq

structure Stmt where
  core : Core
  limit : Option Nat
  offset : Option Nat
  deriving DecidableEq

def holds (C : Compare) (e : Option (BExp (Test Col))) (w : World) : Bool :=
  match e with
  | none => true
  | some e => chosen C e w.at

def joinParts (C : Compare) (T : Tables) : List JoinPart → List World → List World
  | [], ws => ws
  | j :: js, ws => joinParts C T js (j.how.joined j.ref.label (T j.ref.schema j.ref.name) (holds C j.on) ws)

/-- The rows of the result, in some order. -/
def Core.rows (C : Compare) (T : Tables) (m : Core) : List World :=
  (joinParts C T m.joins ((T m.ref.schema m.ref.name).map (World.only m.ref.label))).filter (holds C m.cond)

/-- LIMIT and OFFSET. -/
def page {α : Type} (limit offset : Option Nat) (xs : List α) : List α :=
  match limit with
  | none => xs.drop (offset.getD 0)
  | some n => (xs.drop (offset.getD 0)).take n

/-- The order of the database: whether a value comes before another one, for a direction and a place of NULLs. -/
structure Order where
  before : Bool → Option Bool → Scalar → Scalar → Bool

/-- The first column in which the rows differ decides. -/
def earlier (O : Order) : List Key → World → World → Bool
  | [], _, _ => false
  | k :: ks, w, v =>
    O.before k.desc k.nullsFirst (w.at k.col) (v.at k.col) || (!O.before k.desc k.nullsFirst (v.at k.col) (w.at k.col) && earlier O ks w v)

def Sorted (O : Order) (keys : List Key) (ws : List World) : Prop := ws.Pairwise fun w v => earlier O keys v w = false

/-! ### How SQL reads the text -/

/-- The words that begin a clause. -/
inductive Word where
  | from_ | join | left | right | full | cross | on | where_ | order | limit | offset | set_ | using_ | group | having
  deriving DecidableEq, Repr

def word? (w : Str) : Option Word :=
  if w = "FROM".toList then some .from_ else if w = "JOIN".toList then some .join else if w = "LEFT".toList then some .left
  else if w = "RIGHT".toList then some .right else if w = "FULL".toList then some .full else if w = "CROSS".toList then some .cross
  else if w = "ON".toList then some .on else if w = "WHERE".toList then some .where_ else if w = "ORDER".toList then some .order
  else if w = "LIMIT".toList then some .limit else if w = "OFFSET".toList then some .offset
  else if w = "SET".toList then some .set_ else if w = "USING".toList then some .using_ else if w = "GROUP".toList then some .group
  else if w = "HAVING".toList then some .having else none

def clauseWord : Lex → Option Word
  | .tok (.word w) => word? (upper w)
  | _ => none

/-- The statement cut before its clause words: what stands before the first, and what follows each. -/
def sections : List Lex → List Lex × List (Word × List Lex)
  | [] => ([], [])
  | x :: xs =>
    match clauseWord x with
    | some w => ([], (w, (sections xs).1) :: (sections xs).2)
    | none => (x :: (sections xs).1, (sections xs).2)

/-- Cut at the commas. -/
def pieces : List Lex → List (List Lex)
  | [] => [[]]
  | x :: xs =>
    if x = .tok (.sym ',') then [] :: pieces xs
    else match pieces xs with
      | [] => [[x]]
      | p :: ps => (x :: p) :: ps

def every {α β : Type} (f : α → Option β) : List α → Option (List β)
  | [] => some []
  | x :: xs => (f x).bind fun y => (every f xs).map (y :: ·)

/-- Columns of these tables can be used. -/
def scope (labels : List Str) : Scope Col := fun label name => if label ∈ labels then some ⟨label, name⟩ else none

def col? (d : Dialect) (labels : List Str) (xs : List Lex) : Option Col :=
  match column? d (scope labels) xs with
  | some (c, []) => some c
  | _ => none

/-- `AS alias`, or nothing. -/
def alias? (d : Dialect) (schema name : Str) : List Lex → Option Ref
  | [] => some ⟨schema, name, name⟩
  | [.tok (.word as), .tok x] => if upper as = "AS".toList then (name? d x).map fun a => ⟨schema, name, a⟩ else none
  | _ => none

/-- `name`, `schema.name`, `name AS alias`, `schema.name AS alias` -/
def ref? (d : Dialect) : List Lex → Option Ref
  | .tok s :: .tok (.sym '.') :: .tok x :: r => (name? d s).bind fun s => (name? d x).bind fun x => alias? d s x r
  | .tok x :: r => (name? d x).bind fun x => alias? d [] x r
  | _ => none

/-- `NULLS FIRST`, `NULLS LAST`, or nothing; MySQL has none of these. -/
def nulls? (l : Lang) : List Lex → Option (Option Bool)
  | [] => some none
  | [.tok (.word x), .tok (.word y)] =>
    if l ≠ .mysql ∧ upper x = "NULLS".toList then
      if upper y = "FIRST".toList then some (some true) else if upper y = "LAST".toList then some (some false) else none
    else none
  | _ => none

/-- `label.name`, ASC or DESC, where the NULLs are. -/
def key? (l : Lang) (labels : List Str) (xs : List Lex) : Option Key :=
  (column? l.dialect (scope labels) xs).bind fun c =>
    match c.2 with
    | .tok (.word x) :: r =>
      if upper x = "ASC".toList then (nulls? l r).map fun n => ⟨c.1, false, n⟩
      else if upper x = "DESC".toList then (nulls? l r).map fun n => ⟨c.1, true, n⟩
      else (nulls? l c.2).map fun n => ⟨c.1, false, n⟩
    | r => (nulls? l r).map fun n => ⟨c.1, false, n⟩

/-- `TRUE` -/
def always : List Lex → Bool
  | [.tok (.word x)] => upper x = "TRUE".toList
  | _ => false
/-- A condition; `TRUE` is none. -/
def cond? (d : Dialect) (labels : List Str) (xs : List Lex) : Option (Option (BExp (Test Col))) :=
  match expression d (scope labels) xs with
  | some e => some (some e)
  | none => if always xs then some none else none

/-- Which joins there are: SQLite (before version 3.39) has neither RIGHT nor FULL JOIN, MySQL no FULL JOIN. -/
def How.known (l : Lang) : How → Bool
  | .right => l ≠ .sqlite
  | .full => l = .postgres
  | _ => true

/-- A join at the head: how, the table, the condition, what follows. -/
def nextJoin : List (Word × List Lex) → Option (How × List Lex × Option (List Lex) × List (Word × List Lex))
  | (.join, x) :: (.on, y) :: r => some (.inner, x, some y, r)
  | (.left, []) :: (.join, x) :: (.on, y) :: r => some (.left, x, some y, r)
  | (.right, []) :: (.join, x) :: (.on, y) :: r => some (.right, x, some y, r)
  | (.full, []) :: (.join, x) :: (.on, y) :: r => some (.full, x, some y, r)
  | (.cross, []) :: (.join, x) :: r => some (.cross, x, none, r)
  | _ => none

/-- ON: the condition can use the tables up to this one. -/
def on? (d : Dialect) (labels : List Str) : Option (List Lex) → Option (Option (BExp (Test Col)))
  | none => some none
  | some y => cond? d labels y

/-- The joins, the names of all tables, and what follows (first number: recursion bound; `labels`: the names so far).  Each table has a name of its own. -/
def joins? (l : Lang) : Nat → List Str → List (Word × List Lex) → Option (List JoinPart × List Str × List (Word × List Lex))
  | 0, _, _ => none
  | k + 1, labels, ss =>
    match nextJoin ss with
    | none => some ([], labels, ss)
    | some (how, x, y, r) =>
      (ref? l.dialect x).bind fun t =>
        if how.known l = true ∧ t.label ∉ labels then
          (on? l.dialect (labels ++ [t.label]) y).bind fun e =>
          (joins? l k (labels ++ [t.label]) r).map fun z => (⟨how, t, e⟩ :: z.1, z.2)
        else none

def where? (d : Dialect) (labels : List Str) : List (Word × List Lex) → Option (Option (BExp (Test Col)) × List (Word × List Lex))
  | (.where_, x) :: r => (cond? d labels x).map fun e => (e, r)
  | r => some (none, r)
def order? (l : Lang) (labels : List Str) : List (Word × List Lex) → Option (List Key × List (Word × List Lex))
  | (.order, .tok (.word by_) :: x) :: r => if upper by_ = "BY".toList then (every (key? l labels) (pieces x)).map fun ks => (ks, r) else none
  | r => some ([], r)
/-- A number that was sent along. -/
def number? : List Lex → Option Nat
  | [.val (.int i)] => if 0 ≤ i then some i.toNat else none
  | _ => none
/-- LIMIT, LIMIT and OFFSET, or (PostgreSQL only) OFFSET; and what follows. -/
def page? (l : Lang) : List (Word × List Lex) → Option ((Option Nat × Option Nat) × List (Word × List Lex))
  | (.limit, x) :: (.offset, y) :: r => (number? x).bind fun n => (number? y).map fun k => ((some n, some k), r)
  | (.limit, x) :: r => (number? x).map fun n => ((some n, none), r)
  | (.offset, y) :: r => if l = .postgres then (number? y).map fun k => ((none, some k), r) else none
  | r => some ((none, none), r)

/-- The statement that these tokens and values begin with, and the clauses that follow; `list?` reads what stands behind SELECT, with the names of the tables. -/
def selected? (list? : List Str → List Lex → Option (List Col)) (l : Lang) (xs : List Lex) : Option (Stmt × List (Word × List Lex)) :=
  match sections xs with
  | (.tok (.word sel) :: cols, (.from_, x) :: r) =>
    if upper sel = "SELECT".toList then
      (ref? l.dialect x).bind fun t =>
      (joins? l (r.length + 1) [t.label] r).bind fun j =>
      (where? l.dialect j.2.1 j.2.2).bind fun w =>
      (order? l j.2.1 w.2).bind fun o =>
      (page? l o.2).bind fun p =>
      (list? j.2.1 cols).map fun cs => (⟨⟨cs, t, j.1, w.1, o.1⟩, p.1.1, p.1.2⟩, p.2)
    else none
  | _ => none
/-- The statement that they are: nothing follows. -/
def stmtOf? (list? : List Str → List Lex → Option (List Col)) (l : Lang) (xs : List Lex) : Option Stmt :=
  match selected? list? l xs with
  | some (m, []) => some m
  | _ => none

def columns? (l : Lang) (labels : List Str) (xs : List Lex) : Option (List Col) := every (col? l.dialect labels) (pieces xs)
def stmt? (l : Lang) (xs : List Lex) : Option Stmt := stmtOf? (columns? l) l xs

/-- The statement that a text is, with the arguments sent along. -/
def readSelect (l : Lang) (args : List Arg) (text : Str) : Option Stmt :=
  (tokens (lexing l) text).bind fun ts => (resolve l args 0 ts).bind fun xs => stmt? l xs

/-- What stands before the last closing parenthesis. -/
def inside : List Lex → Option (List Lex)
  | [] => none
  | [x] => if x = .tok (.sym ')') then some [] else none
  | x :: xs => (inside xs).map (x :: ·)

/-- `SELECT EXISTS (SELECT ...)`: the statement in parentheses, which may also select just `1`. -/
def readExists (l : Lang) (args : List Arg) (text : Str) : Option Stmt :=
  (tokens (lexing l) text).bind fun ts => (resolve l args 0 ts).bind fun xs =>
    match xs with
    | .tok (.word sel) :: .tok (.word ex) :: .tok (.sym '(') :: r =>
      if upper sel = "SELECT".toList ∧ upper ex = "EXISTS".toList then
        (inside r).bind (stmtOf? (fun labels xs => if xs = [.tok (.word "1".toList)] then some [] else columns? l labels xs) l)
      else none
    | _ => none

example : readSelect .postgres [.val (.int 18), .val (.int 10), .val (.int 20)]
    "SELECT u.id, o.\"Total\" FROM users AS u LEFT JOIN shop.orders AS o ON o.user_id = u.id WHERE u.age >= $1 ORDER BY o.\"Total\" DESC NULLS LAST, u.id LIMIT $2 OFFSET $3".toList =
  some ⟨⟨[⟨"u".toList, "id".toList⟩, ⟨"o".toList, "Total".toList⟩], ⟨[], "users".toList, "u".toList⟩,
    [⟨.left, ⟨"shop".toList, "orders".toList, "o".toList⟩,
      some (.atom (.cmp .eq ⟨"o".toList, "user_id".toList⟩ (.col ⟨"u".toList, "id".toList⟩)))⟩],
    some (.atom (.cmp .ge ⟨"u".toList, "age".toList⟩ (.val (.int 18)))),
    [⟨⟨"o".toList, "Total".toList⟩, true, some false⟩, ⟨⟨"u".toList, "id".toList⟩, false, none⟩]⟩, some 10, some 20⟩ := by decide +kernel
/-- A condition on a table that is not there, and a name used twice. -/
example : readSelect .mysql [] "SELECT u.id FROM users AS u WHERE o.id = u.id".toList = none ∧
    readSelect .mysql [] "SELECT u.id FROM users AS u JOIN orders AS u ON u.id = u.id".toList = none := by decide +kernel

/-! ### A database that understands SELECT -/

/-- The database answers every SELECT statement that is one: with the rows of the statement in some arrangement that has the order asked for and
is the same for every LIMIT and OFFSET. -/
structure Understands (D : Database) (T : D.State → Tables) (C : Compare) (O : Order) (l : Lang) (arrange : D.State → Core → List World) : Prop where
  all : ∀ s m, (arrange s m).Perm (m.rows C (T s))
  sorted : ∀ s m, Sorted O m.order (arrange s m)
  select : ∀ s text args m, readSelect l args text = some m →
    D.query text args s = (page m.limit m.offset (arrange s m.core)).map fun w => m.core.cols.map w.at

/-- The database answers every `SELECT EXISTS (...)` with one truth value: whether the statement in parentheses has any row. -/
def AnswersExists (D : Database) (T : D.State → Tables) (C : Compare) (l : Lang) (truth : Bool → Scalar) : Prop :=
  ∀ s text args m, readExists l args text = some m → D.query text args s = [[truth (!(page m.limit m.offset (m.core.rows C (T s))).isEmpty)]]

/-! ### Questions that can be asked -/

/-- The columns of conditions, of fields in scope, have names that are read as they are. -/
def InScope (d : Dialect) (labels : List Str) (c : Field) : Prop := c.tab.name ≠ [] ∧ c.tab.label ∈ labels ∧ Readable d c.name

structure Conds (d : Dialect) (labels : List Str) (cs : List (Cond Field)) : Prop where
  fine : (Cond.group false false cs).fine true
  scope : ∀ c ∈ columns cs, InScope d labels c

/-- The names of a table are read as they are. -/
structure Named (d : Dialect) (t : Tab) : Prop where
  schema : Readable d t.schema
  name : Readable d t.name
  label : Readable d t.label
  some : t.name ≠ []

def JoinsSound (l : Lang) : List Str → List Join → Prop
  | _, [] => True
  | labels, j :: js => j.how.known l = true ∧ Named l.dialect j.tab ∧ j.tab.label ∉ labels ∧
      (if j.how = .cross then j.on = [] else Conds l.dialect (labels ++ [j.tab.label]) j.on) ∧ JoinsSound l (labels ++ [j.tab.label]) js

def Ask.labels (a : Ask) : List Str := a.tab.label :: a.joins.map (·.tab.label)

/-- The question makes sense: names are read as they are, conditions are about tables that are there, the clauses exist in the dialect. -/
structure Ask.Body (l : Lang) (a : Ask) : Prop where
  tab : Named l.dialect a.tab
  joins : JoinsSound l [a.tab.label] a.joins
  conds : a.conds = [] ∨ Conds l.dialect a.labels a.conds
  order : ∀ k ∈ a.order, InScope l.dialect a.labels k.col ∧ (l = .mysql → k.nullsFirst = none)
/-- ... and there are columns, of tables that are there. -/
structure Ask.Sound (l : Lang) (a : Ask) : Prop extends Ask.Body l a where
  some : a.cols ≠ []
  cols : ∀ c ∈ a.cols, InScope l.dialect a.labels c

/-- The column that a field is, and the key that a sorting is: ascending unless `Desc()`. -/
def Field.col (c : Field) : Col := ⟨c.tab.label, c.name⟩
def Sorting.key (k : Sorting) : Key := ⟨k.col.col, k.desc.getD false, k.nullsFirst⟩

/-- OFFSET without LIMIT is PostgreSQL's. -/
def Allowed (l : Lang) (limit offset : Option Nat) : Prop := offset ≠ none → limit ≠ none ∨ l = .postgres

end Sq.Spec.Sel
