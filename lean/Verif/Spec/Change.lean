import Verif.Spec.Select
/-
Specification: UPDATE and DELETE statements about a table together with other tables.

The first part says which records of a table a program wants changed or removed.  The second part is about SQL text only: a reader that turns the text of a
whole statement, with the arguments sent along, into its parts.  It mentions nothing of the Go code.
-/
namespace Sq.Spec.Chg
open Sq Sq.Chain Sq.Spec.Store Sq.Spec.Where Sq.Spec.Sel
open _root_.Spec (Tok tokens BTok BExp readBool)

/-! ### What a program asks for -/

/-- The records of `tab` that, together with records of other tables, meet the conditions.  The other tables are `t` and what is joined to it
(`other = some t`: PostgreSQL, SQLite), or what is joined to `tab` itself (`none`: MySQL). -/
structure Reach where
  tab : Tab
  other : Option Tab
  joins : List Join
  conds : List (Cond Field)

/-- The record `r` together with records of the other tables. -/
def Reach.around (C : Compare) (T : Tables) (a : Reach) (r : Row) : List World :=
  match a.other with
  | some t => (joinedAll C T a.joins ((T t.schema t.name).map (World.only t.label))).map fun w => w.put a.tab.label r
  | none => joinedAll C T a.joins [World.only a.tab.label r]
/-- Those that meet the conditions. -/
def Reach.matches (C : Compare) (T : Tables) (a : Reach) (r : Row) : List World :=
  (a.around C T r).filter fun w => described C a.conds (Field.value w)

/-- `t.COL.Set(value)`, `Assign(t.COL, column)` -/
structure Assign where
  col : Str
  rhs : Rhs Field
def Assign.value (w : World) (x : Assign) : Str × Scalar := (x.col, x.rhs.value (Field.value w))

/-- What an UPDATE makes of the records of its table: one that matches nothing is left alone, another gets the new values, computed with some match. -/
def Updated (matches_ : Row → List World) (new : World → List (Str × Scalar)) (before after : List Row) : Prop :=
  after.length = before.length ∧ ∀ (i : Nat) (r r' : Row), before[i]? = some r → after[i]? = some r' →
    (matches_ r = [] → r' = r) ∧ (matches_ r ≠ [] → ∃ w ∈ matches_ r, r' = Row.set r (new w))
/-- What a DELETE leaves: the records that match nothing. -/
def Removed (matches_ : Row → List World) (before after : List Row) : Prop := after = before.filter fun r => (matches_ r).isEmpty

def Join.kind : How → Option JoinKind
  | .inner => some .join | .left => some .leftJoin | .right => some .rightJoin | .full => some .fullJoin | .cross => none
def Join.inUpdate (raw : Field → Bool) (j : Join) : UpdateCall :=
  match Join.kind j.how with
  | some k => .join k j.tab.node (nodes (mapAll (Field.node raw) j.on))
  | none => .crossJoin j.tab.node
def Join.inDelete (raw : Field → Bool) (j : Join) : DeleteCall :=
  match Join.kind j.how with
  | some k => .join k j.tab.node (nodes (mapAll (Field.node raw) j.on))
  | none => .crossJoin j.tab.node
def Assign.node (raw : Field → Bool) (t : Tab) (x : Assign) : Node × Node :=
  (Field.node raw ⟨t, x.col⟩, match x.rhs with | .col c => c.node raw | .val v => .scalar v)

/-- `Update(tab).Set(sets...).From(t).Join(...)....Where(conds...)`; on MySQL without `From`. -/
def Reach.update (b : Builder) (raw : Field → Bool) (a : Reach) (sets : List Assign) : Node :=
  (Chain.update b (.update a.tab.node) (.set (sets.map (Assign.node raw a.tab)) :: (a.other.map fun t => UpdateCall.from t.node).toList ++
    a.joins.map (Join.inUpdate raw) ++ [.where (nodes (mapAll (Field.node raw) a.conds))])).node
/-- `DeleteFrom(tab).Using(t).Join(...)....Where(conds...)`; on MySQL `Using(tab)`. -/
def Reach.delete (b : Builder) (raw : Field → Bool) (a : Reach) : Node :=
  (Chain.delete b (.deleteFrom [a.tab.node]) (.using (a.other.getD a.tab).node ::
    a.joins.map (Join.inDelete raw) ++ [.where (nodes (mapAll (Field.node raw) a.conds))])).node

/-! ### How SQL reads the text -/

/-- The parts of a statement that say which records of the table `ref` it is about. -/
structure Target where
  ref : Ref
  other : Option Ref
  joins : List JoinPart
  cond : Option (BExp (Test Sel.Col))
  deriving DecidableEq

def Target.around (C : Compare) (T : Tables) (m : Target) (r : Row) : List World :=
  match m.other with
  | some t => (joinParts C T m.joins ((T t.schema t.name).map (World.only t.label))).map fun w => w.put m.ref.label r
  | none => joinParts C T m.joins [World.only m.ref.label r]
def Target.matches (C : Compare) (T : Tables) (m : Target) (r : Row) : List World := (m.around C T r).filter (holds C m.cond)

/-- Joins that keep the records on the left. -/
def How.inward : How → Bool
  | .inner | .left | .cross => true
  | _ => false

/-- `name = value` or `name = label.name`; on MySQL `label.name = ...`, where `label` is the name of the table that is changed. -/
def assign? (l : Lang) (label : Str) (labels : List Str) (xs : List Lex) : Option (Str × Rhs Sel.Col) :=
  let right (c : Str) (r : List Lex) : Option (Str × Rhs Sel.Col) :=
    match rhs? l.dialect (scope labels) r with
    | some (x, []) => some (c, x)
    | _ => none
  if l = .mysql then
    match column? l.dialect (scope [label]) xs with
    | some (c, .tok (.sym '=') :: r) => right c.name r
    | _ => none
  else
    match xs with
    | .tok x :: .tok (.sym '=') :: r => (name? l.dialect x).bind fun c => right c r
    | _ => none

/-- No column twice; and none of the columns of `label` is used if it is changed itself (MySQL makes the changes one after the other). -/
def orderly (l : Lang) (label : Str) (xs : List (Str × Rhs Sel.Col)) : Bool :=
  decide (xs.map Prod.fst).Nodup && (decide (l ≠ .mysql) || xs.all fun x => match x.2 with
    | .col c => decide (c.label ≠ label ∨ c.name ∉ xs.map Prod.fst)
    | .val _ => true)
def sets? (l : Lang) (label : Str) (labels : List Str) (xs : List Lex) : Option (List (Str × Rhs Sel.Col)) :=
  (every (assign? l label labels) (pieces xs)).bind fun ys => if orderly l label ys then some ys else none

/-- WHERE, and nothing after it. -/
def last? (d : Dialect) (labels : List Str) (ss : List (Word × List Lex)) : Option (Option (BExp (Test Sel.Col))) :=
  match where? d labels ss with
  | some (e, []) => some e
  | _ => none

def update? (l : Lang) (xs : List Lex) : Option (Target × List (Str × Rhs Sel.Col)) :=
  match sections xs with
  | (.tok (.word u) :: x, ss) =>
    if upper u = "UPDATE".toList then
      (ref? l.dialect x).bind fun t =>
      if l = .mysql then
        (joins? l (ss.length + 1) [t.label] ss).bind fun j =>
          match j.2.2 with
          | (.set_, a) :: r =>
            if j.1.all (fun j => How.inward j.how) then
              (last? l.dialect j.2.1 r).bind fun e => (sets? l t.label j.2.1 a).map fun s => (⟨t, none, j.1, e⟩, s)
            else none
          | _ => none
      else
        match ss with
        | (.set_, a) :: (.from_, y) :: r =>
          (ref? l.dialect y).bind fun o =>
          (joins? l (r.length + 1) [o.label] r).bind fun j =>
            if t.label ∉ j.2.1 then
              (last? l.dialect (t.label :: j.2.1) j.2.2).bind fun e => (sets? l t.label (t.label :: j.2.1) a).map fun s => (⟨t, some o, j.1, e⟩, s)
            else none
        | _ => none
    else none
  | _ => none

def delete? (l : Lang) (xs : List Lex) : Option Target :=
  match sections xs with
  | ([.tok (.word u)], (.from_, x) :: (.using_, y) :: r) =>
    if upper u = "DELETE".toList then
      (ref? l.dialect y).bind fun o =>
      (joins? l (r.length + 1) [o.label] r).bind fun j =>
        match l with
        | .postgres =>
          (ref? l.dialect x).bind fun t =>
            if t.label ∉ j.2.1 then (last? l.dialect (t.label :: j.2.1) j.2.2).map fun e => ⟨t, some o, j.1, e⟩ else none
        | .mysql =>
          match x with
          | [.tok x] =>
            if name? l.dialect x = some o.label ∧ j.1.all (fun j => How.inward j.how) then (last? l.dialect j.2.1 j.2.2).map fun e => ⟨o, none, j.1, e⟩ else none
          | _ => none
        | .sqlite => none
    else none
  | _ => none

def readUpdate (l : Lang) (args : List Arg) (text : Str) : Option (Target × List (Str × Rhs Sel.Col)) :=
  (tokens (lexing l) text).bind fun ts => (resolve l args 0 ts).bind fun xs => update? l xs
def readDelete (l : Lang) (args : List Arg) (text : Str) : Option Target :=
  (tokens (lexing l) text).bind fun ts => (resolve l args 0 ts).bind fun xs => delete? l xs

example : readUpdate .postgres [.val (.int 7), .val (.int 80)]
    "UPDATE users AS u SET age = $1, \"Last\" = o.id FROM shop.orders AS o WHERE o.user_id = u.id AND o.total > $2".toList =
  some (⟨⟨[], "users".toList, "u".toList⟩, some ⟨"shop".toList, "orders".toList, "o".toList⟩, [],
    some (.and (.atom (.cmp .eq ⟨"o".toList, "user_id".toList⟩ (.col ⟨"u".toList, "id".toList⟩))) (.atom (.cmp .gt ⟨"o".toList, "total".toList⟩ (.val (.int 80)))))⟩,
    [("age".toList, .val (.int 7)), ("Last".toList, .col ⟨"o".toList, "id".toList⟩)]) := by decide +kernel
example : readDelete .mysql [.val (.int 80)]
    "DELETE FROM u USING users AS u LEFT JOIN shop.orders AS o ON o.user_id = u.id WHERE o.total > ?".toList =
  some ⟨⟨[], "users".toList, "u".toList⟩, none,
    [⟨.left, ⟨"shop".toList, "orders".toList, "o".toList⟩, some (.atom (.cmp .eq ⟨"o".toList, "user_id".toList⟩ (.col ⟨"u".toList, "id".toList⟩)))⟩],
    some (.atom (.cmp .gt ⟨"o".toList, "total".toList⟩ (.val (.int 80))))⟩ := by decide +kernel
/-- The condition of a join in FROM cannot mention the changed table; changes that depend on each other. -/
example : readUpdate .postgres [.val (.int 7)] "UPDATE users AS u SET age = $1 FROM orders AS o JOIN items AS i ON i.id = u.id".toList = none ∧
    readUpdate .mysql [] "UPDATE users AS u JOIN orders AS o ON o.id = u.id SET u.a = u.b, u.b = u.a".toList = none := by decide +kernel

/-! ### A database that understands UPDATE and DELETE -/

/-- The tables after a statement: only one is changed. -/
def Only (ref : Ref) (before after : Tables) : Prop := ∀ schema name, (schema, name) ≠ (ref.schema, ref.name) → after schema name = before schema name

structure Understands (D : Database) (T : D.State → Tables) (C : Compare) (l : Lang) : Prop where
  update : ∀ s text args m sets, readUpdate l args text = some (m, sets) →
    let after := T (D.exec text args s).1
    Only m.ref (T s) after ∧
      Updated (m.matches C (T s)) (fun w => sets.map fun x => (x.1, x.2.value w.at)) (T s m.ref.schema m.ref.name) (after m.ref.schema m.ref.name)
  delete : ∀ s text args m, readDelete l args text = some m →
    let after := T (D.exec text args s).1
    Only m.ref (T s) after ∧ Removed (m.matches C (T s)) (T s m.ref.schema m.ref.name) (after m.ref.schema m.ref.name)

/-! ### Questions that can be asked -/

def Reach.labels (a : Reach) : List Str := a.tab.label :: (a.other.map Tab.label).toList ++ a.joins.map (·.tab.label)

/-- Names are read as they are, and the clauses exist in the dialect. -/
structure Reach.Sound (l : Lang) (a : Reach) : Prop where
  tab : Named l.dialect a.tab
  shape : a.other = none ↔ l = .mysql
  apart : ∀ t, a.other = some t → Named l.dialect t ∧ JoinsSound l [t.label] a.joins ∧ a.tab.label ∉ t.label :: a.joins.map (·.tab.label)
  within : a.other = none → JoinsSound l [a.tab.label] a.joins ∧ ∀ j ∈ a.joins, How.inward j.how = true
  conds : a.conds = [] ∨ Conds l.dialect a.labels a.conds

structure SetsSound (l : Lang) (a : Reach) (sets : List Assign) : Prop where
  some : sets ≠ []
  once : (sets.map Assign.col).Nodup
  names : ∀ x ∈ sets, Readable l.dialect x.col
  scope : ∀ x ∈ sets, ∀ c, x.rhs = .col c → InScope l.dialect a.labels c
  /-- The code writes the columns of the changed table without the name of the table (`C82_own_column_violated`). -/
  foreign : l ≠ .mysql → ∀ x ∈ sets, ∀ c, x.rhs = .col c → c.tab.label ≠ a.tab.label
  /-- MySQL makes the changes one after the other. -/
  free : l = .mysql → ∀ x ∈ sets, ∀ c, x.rhs = .col c → c.tab.label ≠ a.tab.label ∨ c.name ∉ sets.map Assign.col

end Sq.Spec.Chg
