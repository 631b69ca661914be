import Verif.Spec.Select
import Verif.Model.Expr
/-
Specification: `GROUP BY` and aggregate functions: one row of each group.

The first part says which groups are asked for and what is read of each; the second part is the Go program; the third part reads the text of such a statement.
-/
namespace Sq.Spec.Group
open Sq Sq.Chain Sq.Spec.Store Sq.Spec.Where Sq.Spec.Sel
open _root_.Spec (Tok tokens BTok BExp readBool)

/-! ### Groups -/

/-- The records, put into groups of alike ones. -/
structure Groups (alike : World → World → Bool) (rows : List World) (gs : List (List World)) : Prop where
  all : gs.flatten.Perm rows
  some : ∀ g ∈ gs, g ≠ []
  within : ∀ g ∈ gs, ∀ w ∈ g, ∀ v ∈ g, alike w v = true
  apart : gs.Pairwise fun g h => ∀ w ∈ g, ∀ v ∈ h, alike w v = false

inductive Fn where
  | count | sum | avg | min | max
  deriving DecidableEq, Repr

/-- What is read of a group: the value of a column that all records of the group share, an aggregate of the values of a column, the number of records. -/
inductive Item (κ : Type) where
  | key (c : κ)
  | agg (f : Fn) (c : κ)
  | all
  deriving DecidableEq, Repr

/-- What the aggregate functions of the database give for values, and COUNT(*) for a number of records. -/
structure Aggregates where
  of : Fn → List Scalar → Scalar
  all : Nat → Scalar

/-- `r`: the value of a column of a record. -/
def Item.value (A : Aggregates) (r : World → κ → Scalar) (g : List World) : Item κ → Scalar
  | .key c => match g.head? with
    | some w => r w c
    | none => .nil
  | .agg f c => A.of f (g.map fun w => r w c)
  | .all => A.all g.length

/-- A condition on groups: what is read of a group, compared with a value. -/
structure Bound (κ : Type) where
  item : Item κ
  op : Op
  value : Scalar
  deriving DecidableEq, Repr

def Bound.holds (C : Compare) (A : Aggregates) (r : World → κ → Scalar) (g : List World) (b : Bound κ) : Bool :=
  C.op b.op (b.item.value A r g) b.value == some true
/-- All conditions are true of the group. -/
def kept (C : Compare) (A : Aggregates) (r : World → κ → Scalar) (bs : List (Bound κ)) (g : List World) : Bool := bs.all (Bound.holds C A r g)

/-- What groups are sorted by: what is read of a group, ascending or descending, where the NULLs are. -/
structure Ranked (κ : Type) where
  item : Item κ
  desc : Bool
  nullsFirst : Option Bool
  deriving DecidableEq, Repr

/-- The first value in which the groups differ decides. -/
def before (O : Order) (A : Aggregates) (r : World → κ → Scalar) : List (Ranked κ) → List World → List World → Bool
  | [], _, _ => false
  | k :: ks, g, h =>
    O.before k.desc k.nullsFirst (k.item.value A r g) (k.item.value A r h) ||
      (!O.before k.desc k.nullsFirst (k.item.value A r h) (k.item.value A r g) && before O A r ks g h)
def InOrder (O : Order) (A : Aggregates) (r : World → κ → Scalar) (ks : List (Ranked κ)) (gs : List (List World)) : Prop :=
  gs.Pairwise fun g h => before O A r ks h g = false

/-! ### What a program asks for -/

/-- `Asc()`, `Desc()`, `NullsFirst()`, `NullsLast()` of a field or an aggregate. -/
structure Ranking where
  item : Item Field
  desc : Option Bool
  nullsFirst : Option Bool
def Ranking.key (k : Ranking) : Ranked Field := ⟨k.item, k.desc = some true, k.nullsFirst⟩

/-- What is selected, what it is grouped by, which groups are wanted, and in which order. -/
structure Grouping where
  items : List (Item Field)
  keys : List Field
  having : List (Bound Field) := []
  order : List Ranking := []

/-- Records with the same values of these fields; `same` says which values are the same for the database (NULL and NULL are). -/
def agree (same : Scalar → Scalar → Bool) (fields : List Field) (w v : World) : Bool := fields.all fun c => same (c.value w) (c.value v)

/-- The groups of the records that answer the question: one for each combination of the keys, or, without keys, all records together (perhaps none). -/
def Grouped (C : Compare) (same : Scalar → Scalar → Bool) (T : Tables) (a : Ask) (G : Grouping) (gs : List (List World)) : Prop :=
  if G.keys = [] then ∃ g, g.Perm (a.answer C T) ∧ gs = [g] else Groups (agree same G.keys) (a.answer C T) gs
/-- Those of which the conditions are true, in order. -/
def Answers (C : Compare) (O : Order) (same : Scalar → Scalar → Bool) (A : Aggregates) (T : Tables) (a : Ask) (G : Grouping) (gs : List (List World)) : Prop :=
  ∃ all, Grouped C same T a G all ∧ gs = all.filter (kept C A Field.value G.having) ∧ InOrder O A Field.value (G.order.map Ranking.key) gs

/-- `sq.Count(f)`, `sq.Sum(f)`, `sq.Avg(f)`, `sq.Min(f)`, `sq.Max(f)`, `sq.CountAll()` -/
def Fn.call (f : Fn) (n : Node) : Call :=
  match f with
  | .count => .count n
  | .sum => .sum n
  | .avg => .avg n
  | .min => .min n
  | .max => .max n
def Item.node (raw : Field → Bool) : Item Field → Node
  | .key c => c.node raw
  | .agg f c => (f.call (c.node raw)).node
  | .all => Call.countAll.node

/-- `sq.Gt(item, value)`, ... -/
def Bound.node (raw : Field → Bool) (b : Bound Field) : Node := (b.op.call (b.item.node raw) (.scalar b.value)).node

/-- number_field.go:42-66 and the same methods of the other fields: the sort order is kept in the field. -/
def Ranking.node (raw : Field → Bool) (k : Ranking) : Node :=
  match k.item.node raw with
  | .field fi r n vs => .field { fi with desc := k.desc, nullsFirst := k.nullsFirst } r n vs
  | n => n

def ranked (raw : Field → Bool) (G : Grouping) : List SelectCall := if G.order = [] then [] else [.orderBy (G.order.map (Ranking.node raw))]
def grouped (raw : Field → Bool) (G : Grouping) : List SelectCall :=
  (if G.keys = [] then [] else [.groupBy (G.keys.map (Field.node raw))]) ++
  if G.having = [] then [] else [.having (G.having.map (Bound.node raw))]
/-- `Select(items...).From(tab).GroupBy(keys...).Having(conditions...).Join(tab, on...)....Where(conds...).Limit(n).Offset(k).OrderBy(order...)` -/
def query (b : Builder) (raw : Field → Bool) (a : Ask) (G : Grouping) (limit offset : Option Nat) : Node :=
  (Chain.select b (.select (G.items.map (Item.node raw))) (.from a.tab.node :: (grouped raw G ++ (a.calls raw limit offset ++ ranked raw G)))).node
/-- The same without fields, to be fetched with a row mapper. -/
def fromQuery (b : Builder) (raw : Field → Bool) (a : Ask) (G : Grouping) (limit offset : Option Nat) : Node :=
  (Chain.select b (.from a.tab.node) (grouped raw G ++ (a.calls raw limit offset ++ ranked raw G))).node
/-- A row mapper that reads these items. -/
def readsItems {V : Type} (raw : Field → Bool) (kind : Item Field → Fetching.Kind) (items : List (Item Field)) (_ : List (List V)) :
    Fetching.Prog Node V (List V) :=
  reader (items.map fun i => (kind i, i.node raw)) []

/-! ### How SQL reads the text -/

/-- A statement with GROUP BY (the columns and the order of `core` play no part). -/
structure Stmt where
  items : List (Item Sel.Col)
  keys : List Sel.Col
  having : List (Bound Sel.Col)
  order : List (Ranked Sel.Col)
  core : Core
  limit : Option Nat
  offset : Option Nat
  deriving DecidableEq

def fn? (w : Str) : Option Fn :=
  if w = "COUNT".toList then some .count else if w = "SUM".toList then some .sum else if w = "AVG".toList then some .avg
  else if w = "MIN".toList then some .min else if w = "MAX".toList then some .max else none

/-- `label.name`, `FUNCTION(label.name)` or `COUNT(*)`, and what follows. -/
def itemAt? (d : Dialect) (labels : List Str) : List Lex → Option (Item Sel.Col × List Lex)
  | .tok (.word f) :: .tok (.sym '(') :: .tok (.sym '*') :: .tok (.sym ')') :: r => if fn? (upper f) = some .count then some (.all, r) else none
  | .tok (.word f) :: .tok (.sym '(') :: r =>
    (fn? (upper f)).bind fun fn => (column? d (scope labels) r).bind fun y =>
      match y.2 with
      | .tok (.sym ')') :: r => some (.agg fn y.1, r)
      | _ => none
  | xs => (column? d (scope labels) xs).map fun y => (.key y.1, y.2)
def item? (d : Dialect) (labels : List Str) (xs : List Lex) : Option (Item Sel.Col) :=
  (itemAt? d labels xs).bind fun y => if y.2 = [] then some y.1 else none

/-- GROUP BY -/
def group? (l : Lang) (labels : List Str) : List (Word × List Lex) → Option (List Sel.Col × List (Word × List Lex))
  | (.group, .tok (.word by_) :: x) :: r => if upper by_ = "BY".toList then (every (col? l.dialect labels) (pieces x)).map fun ks => (ks, r) else none
  | r => some ([], r)

def isAnd : Lex → Bool
  | .tok (.word w) => decide (upper w = "AND".toList)
  | _ => false
/-- Cut at the ANDs. -/
def ands : List Lex → List (List Lex)
  | [] => [[]]
  | x :: xs =>
    if isAnd x = true then [] :: ands xs
    else match ands xs with
      | [] => [[x]]
      | p :: ps => (x :: p) :: ps
/-- `item = value`, ... -/
def bound? (d : Dialect) (labels : List Str) (xs : List Lex) : Option (Bound Sel.Col) :=
  (itemAt? d labels xs).bind fun y => (op? y.2).bind fun z =>
    match z.2 with
    | [.val v] => some ⟨y.1, z.1, v⟩
    | _ => none
/-- HAVING: conditions joined by AND. -/
def having? (l : Lang) (labels : List Str) : List (Word × List Lex) → Option (List (Bound Sel.Col) × List (Word × List Lex))
  | (.having, x) :: r => (every (bound? l.dialect labels) (ands x)).map fun bs => (bs, r)
  | r => some ([], r)

/-- `item`, ASC or DESC, where the NULLs are. -/
def rank? (l : Lang) (labels : List Str) (xs : List Lex) : Option (Ranked Sel.Col) :=
  (itemAt? l.dialect labels xs).bind fun c =>
    match c.2 with
    | .tok (.word x) :: r =>
      if upper x = "ASC".toList then (nulls? l r).map fun n => ⟨c.1, false, n⟩
      else if upper x = "DESC".toList then (nulls? l r).map fun n => ⟨c.1, true, n⟩
      else (nulls? l c.2).map fun n => ⟨c.1, false, n⟩
    | r => (nulls? l r).map fun n => ⟨c.1, false, n⟩
def order? (l : Lang) (labels : List Str) : List (Word × List Lex) → Option (List (Ranked Sel.Col) × List (Word × List Lex))
  | (.order, .tok (.word by_) :: x) :: r => if upper by_ = "BY".toList then (every (rank? l labels) (pieces x)).map fun ks => (ks, r) else none
  | r => some ([], r)

/-- Aggregates, and columns of GROUP BY, can be selected, and conditions can be about them. -/
def Item.within (keys : List Sel.Col) : Item Sel.Col → Bool
  | .key c => decide (c ∈ keys)
  | _ => true

/-- `SELECT items FROM ... JOIN ... WHERE ... GROUP BY keys HAVING ... ORDER BY ... LIMIT ... OFFSET ...`: selected columns, those of HAVING and sort keys are among the columns of GROUP BY. -/
def stmtOf? (list? : List Str → List Lex → Option (List (Item Sel.Col))) (l : Lang) (xs : List Lex) : Option Stmt :=
  match sections xs with
  | (.tok (.word sel) :: items, (.from_, x) :: r) =>
    if upper sel = "SELECT".toList then
      (ref? l.dialect x).bind fun t =>
      (joins? l (r.length + 1) [t.label] r).bind fun j =>
      (where? l.dialect j.2.1 j.2.2).bind fun w =>
      (group? l j.2.1 w.2).bind fun g =>
      (having? l j.2.1 g.2).bind fun h =>
      (Group.order? l j.2.1 h.2).bind fun o =>
      (page? l o.2).bind fun p =>
      (list? j.2.1 items).bind fun is =>
      if p.2 = [] ∧ is.all (Item.within g.1) = true ∧ (∀ b ∈ h.1, b.item.within g.1 = true) ∧ (∀ k ∈ o.1, k.item.within g.1) then
        some ⟨is, g.1, h.1, o.1, ⟨[], t, j.1, w.1, []⟩, p.1.1, p.1.2⟩ else none
    else none
  | _ => none

def items? (l : Lang) (labels : List Str) (xs : List Lex) : Option (List (Item Sel.Col)) := every (item? l.dialect labels) (pieces xs)
def stmt? (l : Lang) (xs : List Lex) : Option Stmt := stmtOf? (items? l) l xs

def readGroups (l : Lang) (args : List Arg) (text : Str) : Option Stmt :=
  (tokens (lexing l) text).bind fun ts => (resolve l args 0 ts).bind fun xs => stmt? l xs

/-- `SELECT EXISTS (SELECT ... GROUP BY ...)`: the statement in parentheses, which may also select just `1`. -/
def readExists (l : Lang) (args : List Arg) (text : Str) : Option Stmt :=
  (tokens (lexing l) text).bind fun ts => (resolve l args 0 ts).bind fun xs =>
    match xs with
    | .tok (.word sel) :: .tok (.word ex) :: .tok (.sym '(') :: r =>
      if upper sel = "SELECT".toList ∧ upper ex = "EXISTS".toList then
        (inside r).bind (stmtOf? (fun labels xs => if xs = [.tok (.word "1".toList)] then some [] else items? l labels xs) l)
      else none
    | _ => none

example : readGroups .postgres [.val (.int 18), .val (.int 7), .val (.int 2)]
    "SELECT u.age, COUNT(*), SUM(o.\"Total\") FROM users AS u JOIN orders AS o ON o.user_id = u.id WHERE u.age >= $1 GROUP BY u.age HAVING COUNT(*) > $2 AND u.age <> $1 ORDER BY SUM(o.\"Total\") DESC NULLS LAST, u.age LIMIT $3".toList =
  some ⟨[.key ⟨"u".toList, "age".toList⟩, .all, .agg .sum ⟨"o".toList, "Total".toList⟩], [⟨"u".toList, "age".toList⟩],
    [⟨.all, .gt, .int 7⟩, ⟨.key ⟨"u".toList, "age".toList⟩, .ne, .int 18⟩],
    [⟨.agg .sum ⟨"o".toList, "Total".toList⟩, true, some false⟩, ⟨.key ⟨"u".toList, "age".toList⟩, false, none⟩],
    ⟨[], ⟨[], "users".toList, "u".toList⟩,
      [⟨.inner, ⟨[], "orders".toList, "o".toList⟩, some (.atom (.cmp .eq ⟨"o".toList, "user_id".toList⟩ (.col ⟨"u".toList, "id".toList⟩)))⟩],
      some (.atom (.cmp .ge ⟨"u".toList, "age".toList⟩ (.val (.int 18)))), []⟩, some 2, none⟩ := by decide +kernel
example : readGroups .mysql [] "SELECT u.id, COUNT(*) FROM users AS u GROUP BY u.age".toList = none ∧
  readGroups .mysql [] "SELECT COUNT(*) FROM users AS u ORDER BY u.age".toList = none ∧
  readGroups .mysql [.val (.int 1)] "SELECT COUNT(*) FROM users AS u GROUP BY u.age HAVING u.id = ?".toList = none ∧
  readGroups .mysql [] "SELECT COUNT(*) FROM users AS u".toList = some ⟨[.all], [], [], [], ⟨[], ⟨[], "users".toList, "u".toList⟩, [], none, []⟩, none, none⟩ := by decide +kernel

/-! ### A database that understands GROUP BY -/

/-- The same values in these columns. -/
def agreeCols (same : Scalar → Scalar → Bool) (cols : List Sel.Col) (w v : World) : Bool := cols.all fun c => same (w.at c) (v.at c)

/-- The database answers every such statement with one row of each group of which the conditions of HAVING are true, in the order asked for; how it arranges groups that the order does not tell apart is the
same for every LIMIT and OFFSET.  Without GROUP BY (or without any column there) and with aggregates there is one group. -/
structure Understands (D : Database) (T : D.State → Tables) (C : Compare) (O : Order) (same : Scalar → Scalar → Bool) (A : Aggregates) (l : Lang)
    (arrange : D.State → List Sel.Col → List (Ranked Sel.Col) → Core → List (List World)) : Prop where
  each : ∀ s ks os m, ks ≠ [] → Groups (agreeCols same ks) (m.rows C (T s)) (arrange s ks os m)
  one : ∀ s os m, ∃ g, g.Perm (m.rows C (T s)) ∧ arrange s [] os m = [g]
  sorted : ∀ s ks os m, InOrder O A World.at os (arrange s ks os m)
  select : ∀ s text args q, readGroups l args text = some q →
    D.query text args s = (page q.limit q.offset ((arrange s q.keys q.order q.core).filter (kept C A World.at q.having))).map fun g => q.items.map fun i => i.value A World.at g

/-- The database answers every `SELECT EXISTS (...)` of such a statement (with a column in GROUP BY) with one truth value: whether the statement in parentheses has any row. -/
def AnswersExists (D : Database) (C : Compare) (A : Aggregates) (l : Lang) (arrange : D.State → List Sel.Col → List (Ranked Sel.Col) → Core → List (List World)) (truth : Bool → Scalar) : Prop :=
  ∀ s text args q, q.keys ≠ [] → readExists l args text = some q →
    D.query text args s = [[truth (!(page q.limit q.offset ((arrange s q.keys q.order q.core).filter (kept C A World.at q.having))).isEmpty)]]

/-! ### Questions that can be asked -/

def Item.column : Item κ → Option κ
  | .key c => some c
  | .agg _ c => some c
  | .all => none

/-- The question makes sense (Spec/Select); what groups are sorted by or compared is what they are grouped by, or an aggregate. -/
structure Body (l : Lang) (a : Ask) (G : Grouping) : Prop where
  ask : a.Body l
  keys : ∀ c ∈ G.keys, InScope l.dialect a.labels c
  having : ∀ b ∈ G.having, ∀ c ∈ b.item.column, InScope l.dialect a.labels c
  compared : ∀ b ∈ G.having, ∀ c, b.item = .key c → c.col ∈ G.keys.map Field.col
  unsorted : a.order = []
  order : ∀ k ∈ G.order, (∀ c ∈ k.item.column, InScope l.dialect a.labels c) ∧ (l = .mysql → k.nullsFirst = none)
  ranked : ∀ k ∈ G.order, ∀ c, k.item = .key c → c.col ∈ G.keys.map Field.col

/-- Also, what is selected is what it is grouped by, or an aggregate. -/
structure Sound (l : Lang) (a : Ask) (G : Grouping) : Prop extends Body l a G where
  some : G.items ≠ []
  items : ∀ i ∈ G.items, ∀ c ∈ i.column, InScope l.dialect a.labels c
  selected : ∀ i ∈ G.items, ∀ c, i = .key c → c.col ∈ G.keys.map Field.col

end Sq.Spec.Group
