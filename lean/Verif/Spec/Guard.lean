import Verif.Spec.Select
/-
Specification: tables with a policy, which says of every record whether it may be seen, and what a program may see through them.

In Go a table has a policy if it implements `PredicateHook` (sq.go:91-93): `InjectPredicate(env)` gives a condition on the table's columns, which depends
on the environment of the query (the user, the tenant, ...), or none.
-/
namespace Sq.Spec.Guard
open Sq Sq.Chain Sq.Spec.Store Sq.Spec.Where Sq.Spec.Sel

/-- The condition each table asks of its records, in an environment; `none`: the table asks nothing. -/
abbrev Policy := Tab → Env → Option (Cond Str)

/-! ### What may be seen -/

/-- The condition holds for the record. -/
def permits (C : Compare) (p : Option (Cond Str)) (r : Row) : Bool :=
  match p with
  | none => true
  | some c => c.truth C r == some true

/-- The records of a table that may be seen. -/
def visible (C : Compare) (T : Tables) (P : Policy) (env : Env) (t : Tab) : List Row :=
  (T t.schema t.name).filter (permits C (P t env))

def joinedVisible (C : Compare) (T : Tables) (P : Policy) (env : Env) : List Join → List World → List World
  | [], ws => ws
  | j :: js, ws => joinedVisible C T P env js (j.how.joined j.tab.label (visible C T P env j.tab) (fun w => described C j.on (Field.value w)) ws)

/-- The answer to a question (Spec/Select) when nothing else is in the tables than what may be seen. -/
def answer (C : Compare) (T : Tables) (P : Policy) (env : Env) (a : Ask) : List World :=
  (joinedVisible C T P env a.joins ((visible C T P env a.tab).map (World.only a.tab.label))).filter fun w => described C a.conds (Field.value w)

/-- The answers to the question for which the policies of all tables hold, behind the joins: a table without a matching record counts as a row of NULLs. -/
def permitted (C : Compare) (P : Policy) (env : Env) (ts : List Tab) (w : World) : Bool := ts.all fun t => permits C (P t env) (w t.label)
def permittedAnswer (C : Compare) (T : Tables) (P : Policy) (env : Env) (a : Ask) : List World :=
  (a.answer C T).filter (permitted C P env (a.tab :: a.joins.map Join.tab))

/-! ### The Go program -/

/-- The predicate that the hook of a table returns: the condition, on the table's own fields. -/
def hookCond (t : Tab) (c : Cond Str) : Cond Field := c.map (Field.mk t)
/-- A table with a hook. -/
def table (raw : Field → Bool) (P : Policy) (t : Tab) : Node :=
  .table t.schema t.name t.alias (fun env => if (P t env).isSome then .pred else .none)
    fun env => match P t env with
      | some c => ((hookCond t c).map (Field.node raw)).node
      | none => .nil

/-- As `Join.call` and `Ask.query` (Spec/Select), with these tables. -/
def joinCall (raw : Field → Bool) (P : Policy) (j : Join) : SelectCall :=
  match j.how with
  | .inner => .join .join (table raw P j.tab) (nodes (mapAll (Field.node raw) j.on))
  | .left => .join .leftJoin (table raw P j.tab) (nodes (mapAll (Field.node raw) j.on))
  | .right => .join .rightJoin (table raw P j.tab) (nodes (mapAll (Field.node raw) j.on))
  | .full => .join .fullJoin (table raw P j.tab) (nodes (mapAll (Field.node raw) j.on))
  | .cross => .crossJoin (table raw P j.tab)
def calls (raw : Field → Bool) (P : Policy) (a : Ask) (limit offset : Option Nat) : List SelectCall :=
  a.joins.map (joinCall raw P) ++ [.where (nodes (mapAll (Field.node raw) a.conds)), .orderBy (a.order.map (Sorting.node raw))] ++
  (limit.map fun n => SelectCall.limit n).toList ++ (offset.map fun n => SelectCall.offset n).toList
/-- `Select(cols...).From(tab).Join(tab, on...)....Where(conds...).OrderBy(order...).Limit(n).Offset(k)` -/
def query (b : Builder) (raw : Field → Bool) (P : Policy) (a : Ask) (limit offset : Option Nat) : Node :=
  (Chain.select b (.select (a.cols.map (Field.node raw))) (.from (table raw P a.tab) :: calls raw P a limit offset)).node
def fromQuery (b : Builder) (raw : Field → Bool) (P : Policy) (a : Ask) (limit offset : Option Nat) : Node :=
  (Chain.select b (.from (table raw P a.tab)) (calls raw P a limit offset)).node
/-- `DeleteFrom(table).Where(cs...)` -/
def deleteQuery (b : Builder) (raw : Field → Bool) (P : Policy) (t : Tab) (cs : List (Cond Str)) : Node :=
  (Chain.delete b (.deleteFrom [table raw P t]) [.where (nodes (mapAll (t.field fun c => raw ⟨t, c⟩) cs))]).node
/-- `Update(table).Setx(...).Where(cs...)` -/
def updateQuery (b : Builder) (raw : Field → Bool) (P : Policy) (t : Tab) (cols : List Str) (rec : List Scalar) (cs : List (Cond Str)) : Node :=
  (Chain.update b (.update (table raw P t))
    [.setx { sets := setAll t (fun c => raw ⟨t, c⟩) cols [rec], err := none }, .where (nodes (mapAll (t.field fun c => raw ⟨t, c⟩) cs))]).node

/-! ### Questions that can be asked -/

/-- The conditions that the tables of a question supply, in order. -/
def supplied (P : Policy) (env : Env) (a : Ask) : List (Cond Field) :=
  (a.tab :: a.joins.map Join.tab).filterMap fun t => (P t env).map (hookCond t)

/-- A policy whose columns have names that are read as they are, without empty groups. -/
def PolicySound (d : Dialect) (P : Policy) (env : Env) (t : Tab) : Prop :=
  ∀ c, P t env = some c → c.fine false ∧ ∀ x ∈ c.columns, Readable d x

/-- Where a table with a policy may stand beside an outer join, such that filtering behind the joins is the same as hiding records before them: a table
that a join fills up with NULLs has none. -/
def Placed (P : Policy) (env : Env) : List Tab → List Join → Prop
  | _, [] => True
  | before, j :: js =>
    (j.how = .left ∨ j.how = .full → P j.tab env = none) ∧ (j.how = .right ∨ j.how = .full → ∀ t ∈ before, P t env = none) ∧
    Placed P env (before ++ [j.tab]) js

/-- The question makes sense (compare `Ask.Body`, Spec/Select); if a table supplies a policy, there is a condition in WHERE. -/
structure Body (l : Lang) (P : Policy) (env : Env) (a : Ask) : Prop where
  tab : Named l.dialect a.tab
  joins : JoinsSound l [a.tab.label] a.joins
  policies : ∀ t ∈ a.tab :: a.joins.map Join.tab, PolicySound l.dialect P env t
  conds : if supplied P env a = [] then a.conds = [] ∨ Conds l.dialect a.labels a.conds
    else (Cond.group false false a.conds).fine false ∧ ∀ c ∈ columns a.conds, InScope l.dialect a.labels c
  order : ∀ k ∈ a.order, InScope l.dialect a.labels k.col ∧ (l = .mysql → k.nullsFirst = none)
structure Sound (l : Lang) (P : Policy) (env : Env) (a : Ask) : Prop extends Body l P env a where
  some : a.cols ≠ []
  cols : ∀ c ∈ a.cols, InScope l.dialect a.labels c

end Sq.Spec.Guard
