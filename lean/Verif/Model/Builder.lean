import Verif.Basic
/-
Model of the query builders: {select,insert,update,delete}_query_{sqlite,postgres,mysql}.go, and of the expressions that are built
step by step in the same way: predicate.go:116-136 (`And`, `Or`, `Append`, `Not`), case.go:54-81, 133-153 (`CaseWhen`, `Case`, `When`,
`Else`, `As`), window.go:40-61 (`PartitionBy`, `OrderBy`, `Frame`).

Every builder method has a value receiver: it gets a copy of the query (or expression) struct, changes the copy and returns it.  The slices inside
the copy still point to the arrays of the original, so the model has a heap of arrays.  A slice is an array and a length; the builders
never reslice from the left, so the offset is always 0 and the capacity is the size of the array.

`α` is the type of the values in the slices and in the other fields of the query (CTEs, fields, join tables, predicates, rows,
assignments, tables, numbers, mappers).  The values themselves are not changed by any builder method.

Not modelled: a caller that keeps a slice it passed with `f(xs...)` and writes to it afterwards (its own mutation); the in-place change
of the SELECT of an `INSERT ... SELECT` while it is *rendered* for SQLite (insert_query.go:110-112).
-/
namespace Sq.Building

/-- A Go slice with offset 0. -/
structure Slice where
  arr : Nat
  len : Nat
  deriving DecidableEq

/-- All arrays ever allocated; the size of an array is its capacity. -/
abbrev Heap (α : Type) := List (List α)

variable {α : Type}

def Heap.arr (h : Heap α) (a : Nat) : List α := (h[a]?).getD []

/-- The elements of a slice. -/
def Heap.read (h : Heap α) (s : Slice) : List α := (h.arr s.arr).take s.len

/-- A slice made of the arguments of a variadic call `f(x, y, z)`: a new array of exactly that size. -/
def Heap.fresh (h : Heap α) (xs : List α) : Heap α × Slice := (h ++ [xs], ⟨h.length, xs.length⟩)

/-- Go's `append(s, xs...)`: nothing happens if there is nothing to append; in place if the capacity suffices; otherwise a new array,
whose capacity is chosen by the runtime (`grow` of the old capacity and the needed one; the rest is filled with zero values). -/
def Heap.append [Inhabited α] (grow : Nat → Nat → Nat) (h : Heap α) (s : Slice) (xs : List α) : Heap α × Slice :=
  if xs = [] then (h, s)
  else if s.len + xs.length ≤ (h.arr s.arr).length then
    (h.modify s.arr fun a => a.take s.len ++ xs ++ a.drop (s.len + xs.length), ⟨s.arr, s.len + xs.length⟩)
  else
    (h ++ [h.read s ++ xs ++ List.replicate (grow (h.arr s.arr).length (s.len + xs.length) - (s.len + xs.length)) default],
     ⟨h.length, s.len + xs.length⟩)

/-- The slice-valued fields of the query structs (select_query.go:9-33, insert_query.go:9-35, update_query.go:9-32,
delete_query.go:9-29) and of the expressions (predicate.go:46-54, case.go:13-17, 88-93, window.go:5-9). -/
inductive Clause where
  | ctes | selectFields | distinctOn | joinTables | where_ | groupBy | having | orderBy
  | fromTables | assignments | insertColumns | rowValues | columnAliases | conflictFields | resolution | resolutionWhere | returning
  | predicates | cases | partitionBy
  deriving DecidableEq

/-- The other fields. -/
inductive Slot where
  | fromTable | usingTable | updateTable | intoTable | distinct | limit | offset | columnMapper | rowAlias | selectQuery
  | conflictConstraint | conflictPredicate | doNothing | insertIgnore
  | or | negative | alias | fallback | expression | frame
  deriving DecidableEq

inductive Kind where
  | select | insert | update | delete
  | predicate | predicateCases | simpleCases | window
  deriving DecidableEq

/-- A query struct, or one of the expression structs (which have no dialect; the field then means nothing). -/
structure Query (α : Type) where
  kind : Kind
  dialect : Dialect
  slices : Clause → Slice
  slots : Slot → Option α

/-- The nil slice: array 0 is allocated with size 0. -/
def nilSlice : Slice := ⟨0, 0⟩

/-- A slice argument of a variadic method: listed arguments, or `xs...` with a slice of the caller. -/
inductive SliceArg (α : Type) where
  | list (xs : List α)
  | spread (s : Slice)

/-- What a method does to one field of its copy of the query. -/
inductive Effect (α : Type) where
  /-- `q.C = append(q.C, xs...)` -/
  | append (c : Clause) (xs : List α)
  /-- `q.C = xs` -/
  | assign (c : Clause) (xs : SliceArg α)
  /-- `q.F = v` -/
  | set (f : Slot) (v : α)
  /-- `if len(q.C) == 0 { q.C = append(q.C, x) } else { q.C[0] = x; q.C = q.C[:1] }` -/
  | overwrite (c : Clause) (x : α)
  /-- `q.F = !q.F` (`none` is false, `some true_` is true) -/
  | flip (f : Slot) (true_ : α)

/-- The methods of the builders (names as in Go; the joins are given the join table they build, see join_table.go:22-71).  `true` as a
value stands for `q.Distinct = true` etc. -/
inductive Method (α : Type) where
  | with (ctes : List α)
  | select (fields : List α)
  | selectOne (one : α)
  | selectDistinct (true_ : α) (fields : SliceArg α)
  | distinctOn (fields : SliceArg α)
  | from (table : α)
  | join (joinTable : α)            -- Join, LeftJoin, RightJoin, FullJoin, CrossJoin, CustomJoin
  | where (predicates : List α)
  | groupBy (fields : List α)
  | having (predicates : List α)
  | orderBy (fields : SliceArg α) (values : List α)
  | limit (n : α)
  | offset (n : α)
  | insertInto (table : α)
  | columns (fields : SliceArg α)
  | values (row : α)
  | valuesx (mapper : α)
  | asRow (alias : α)
  | asColumns (aliases : SliceArg α)
  | selectQuery (q : α)             -- InsertQuery.Select
  | onDuplicateKeyUpdate (assignments : SliceArg α)
  | returning (fields : List α)
  | update (table : α)
  | set (assignments : List α)
  | setx (mapper : α)
  | deleteFrom (table : α) (tables : SliceArg α)
  | using (table : α)
  | append (predicates : List α)    -- VariadicPredicate.Append
  | not (true_ : α)                 -- VariadicPredicate.Not
  | when (case : α)                 -- PredicateCases.When, SimpleCases.When
  | else_ (fallback : α)
  | alias_ (alias : α)              -- As
  | partitionBy (fields : SliceArg α)
  | windowOrderBy (fields : SliceArg α)
  | frame (definition : α)

/-- The effects of the methods.
select_query_*.go: With, Select, SelectOne, SelectDistinct, DistinctOn, From, joins, Where, GroupBy, Having, OrderBy, Limit, Offset;
insert_query_*.go: With, InsertInto, Columns, Values, Valuesx, AsRow, AsColumns, Select, OnDuplicateKeyUpdate, Where (of the conflict
resolution), Returning; update_query_*.go: With, Update, Set, Setx, From, joins, Where, OrderBy, Limit, Offset, Returning;
delete_query_*.go: With, DeleteFrom, Using, joins, Where, OrderBy (which *replaces* the fields), Limit, Offset, Returning;
predicate.go:116-128: Not, Append; case.go:54-79, 133-151: As, When, Else; window.go:48-61: PartitionBy, OrderBy, Frame.
The table is a superset: a combination that does not exist in Go is given the effect of its namesake. -/
def Method.effects (k : Kind) (d : Dialect) : Method α → List (Effect α)
  | .with ctes => [.append .ctes ctes]
  | .select fs => [.append .selectFields fs]
  | .selectOne one => [.assign .selectFields (.list [one])]
  | .selectDistinct t fs => [.set .distinct t, .assign .selectFields fs]
  | .distinctOn fs => [.assign .distinctOn fs]
  | .from t => [.set .fromTable t]
  | .join j => [.append .joinTables [j]]
  | .where ps => [.append (if k = .insert then .resolutionWhere else .where_) ps]
  | .groupBy fs => [.append .groupBy fs]
  | .having ps => [.append .having ps]
  | .orderBy fs vals => if k = .delete then [.assign .orderBy fs] else [.append .orderBy vals]
  | .limit n => [.set .limit n]
  | .offset n => [.set .offset n]
  | .insertInto t => [.set .intoTable t]
  | .columns fs => [.assign .insertColumns fs]
  | .values row => [.append .rowValues [row]]
  | .valuesx f => [.set .columnMapper f]
  | .asRow a => [.set .rowAlias a]
  | .asColumns as => [.assign .columnAliases as]
  | .selectQuery q => [.set .selectQuery q]
  | .onDuplicateKeyUpdate as => [.assign .resolution as]
  | .returning fs => [.append .returning fs]
  | .update t => [.set .updateTable t]
  | .set as => [.append .assignments as]
  | .setx f => [.set .columnMapper f]
  | .deleteFrom t ts => if d = .mysql then [.assign .fromTables ts] else [.overwrite .fromTables t]
  | .using t => [.set .usingTable t]
  | .append ps => [.append .predicates ps]
  | .not t => [.flip .negative t]
  | .when c => [.append .cases [c]]
  | .else_ v => [.set .fallback v]
  | .alias_ a => [.set .alias a]
  | .partitionBy fs => [.assign .partitionBy fs]
  | .windowOrderBy fs => [.assign .orderBy fs]
  | .frame s => [.set .frame s]

/-- The functions of the dialect builders that start a query: `From`, `Select`, `SelectOne`, `SelectDistinct`, `SelectWith`,
`InsertWith`, `InsertInto`, `InsertIgnoreInto`, `UpdateWith`, `Update`, `DeleteWith`, `DeleteFrom`; and the functions that start an
expression: `And`, `Or` (predicate.go:130-136), `CaseWhen`, `Case` (case.go:59-66, 138), `PartitionBy`, `OrderBy` (window.go:40-46). -/
inductive Start (α : Type) where
  | with (k : Kind) (ctes : SliceArg α)
  | from (table : α)
  | select (fields : SliceArg α)
  | selectOne (one : α)
  | selectDistinct (true_ : α) (fields : SliceArg α)
  | insertInto (table : α)
  | insertIgnoreInto (true_ table : α)
  | update (table : α)
  | deleteFrom (table : α) (tables : SliceArg α)
  | and (predicates : SliceArg α)
  | or (true_ : α) (predicates : SliceArg α)
  | caseWhen (case : α)
  | case (expression : α)
  | partitionBy (fields : SliceArg α)
  | orderBy (fields : SliceArg α)

def Start.kind : Start α → Kind
  | .with k _ => k
  | .from _ | .select _ | .selectOne _ | .selectDistinct _ _ => .select
  | .insertInto _ | .insertIgnoreInto _ _ => .insert
  | .update _ => .update
  | .deleteFrom _ _ => .delete
  | .and _ | .or _ _ => .predicate
  | .caseWhen _ => .predicateCases
  | .case _ => .simpleCases
  | .partitionBy _ | .orderBy _ => .window

def Start.effects (d : Dialect) : Start α → List (Effect α)
  | .with _ ctes => [.assign .ctes ctes]
  | .from t => [.set .fromTable t]
  | .select fs => [.assign .selectFields fs]
  | .selectOne one => [.assign .selectFields (.list [one])]
  | .selectDistinct t fs => [.set .distinct t, .assign .selectFields fs]
  | .insertInto t => [.set .intoTable t]
  | .insertIgnoreInto b t => [.set .insertIgnore b, .set .intoTable t]
  | .update t => [.set .updateTable t]
  | .deleteFrom t ts => [.assign .fromTables (if d = .mysql then ts else .list [t])]
  | .and ps => [.assign .predicates ps]
  | .or t ps => [.set .or t, .assign .predicates ps]
  | .caseWhen c => [.append .cases [c]]
  | .case e => [.set .expression e]
  | .partitionBy fs => [.assign .partitionBy fs]
  | .orderBy fs => [.assign .orderBy fs]

def Query.setSlice (q : Query α) (c : Clause) (s : Slice) : Query α :=
  { q with slices := fun c' => if c' = c then s else q.slices c' }
def Query.setSlot (q : Query α) (f : Slot) (v : α) : Query α :=
  { q with slots := fun f' => if f' = f then some v else q.slots f' }

def Query.flipSlot (q : Query α) (f : Slot) (v : α) : Query α :=
  { q with slots := fun f' => if f' = f then (if (q.slots f).isSome then none else some v) else q.slots f' }

/-- One effect on a copy of the query. -/
def Effect.run [Inhabited α] (grow : Nat → Nat → Nat) (e : Effect α) (s : Heap α × Query α) : Heap α × Query α :=
  match e with
  | .append c xs => let r := s.1.append grow (s.2.slices c) xs; (r.1, s.2.setSlice c r.2)
  | .assign c (.list xs) => let r := s.1.fresh xs; (r.1, s.2.setSlice c r.2)
  | .assign c (.spread sl) => (s.1, s.2.setSlice c sl)
  | .set f v => (s.1, s.2.setSlot f v)
  | .flip f v => (s.1, s.2.flipSlot f v)
  | .overwrite c x =>
    if (s.2.slices c).len = 0 then let r := s.1.append grow (s.2.slices c) [x]; (r.1, s.2.setSlice c r.2)
    else (s.1.modify (s.2.slices c).arr fun a => x :: a.tail, s.2.setSlice c ⟨(s.2.slices c).arr, 1⟩)

def runEffects [Inhabited α] (grow : Nat → Nat → Nat) (es : List (Effect α)) (s : Heap α × Query α) : Heap α × Query α :=
  es.foldl (fun s e => e.run grow s) s

/-- The memory of a program that builds queries: the arrays, the queries built so far, the structs that a
`{SQLite,Postgres}InsertConflict` points to, and the `InsertConflict` values built so far (pointers). -/
structure State (α : Type) where
  heap : Heap α := [[]]
  queries : List (Query α) := []
  cells : List (Query α) := []
  conflicts : List Nat := []

/-- One statement of the program; each defines a new query (or a new conflict value) from an existing one, given by its number. -/
inductive Step (α : Type) where
  /-- `sq.Postgres.Select(...)` etc. -/
  | start (d : Dialect) (s : Start α)
  /-- `q.Method(...)` -/
  | call (q : Nat) (m : Method α)
  /-- insert_query_postgres.go:148-160, insert_query_sqlite.go:74-79: `q.OnConflict(fields...)` -/
  | onConflict (q : Nat) (fields : SliceArg α)
  /-- insert_query_postgres.go:155-160: `q.OnConflictOnConstraint(name)` -/
  | onConflictOnConstraint (q : Nat) (name : α)
  /-- `c.Where(p)` -/
  | conflictWhere (c : Nat) (p : α)
  /-- `c.DoNothing()` -/
  | doNothing (c : Nat) (true_ : α)
  /-- `c.DoUpdateSet(assignments...)` -/
  | doUpdateSet (c : Nat) (assignments : SliceArg α)

/-- A query whose fields are all zero. -/
def emptyQuery (k : Kind) (d : Dialect) : Query α := { kind := k, dialect := d, slices := fun _ => nilSlice, slots := fun _ => none }

/-- Copy query `q`, change the copy, and make it the next query.  (A number that is out of range has no counterpart in Go.) -/
def State.derive [Inhabited α] (grow : Nat → Nat → Nat) (st : State α) (q : Query α) (es : List (Effect α)) : State α :=
  let r := runEffects grow es (st.heap, q)
  { st with heap := r.1, queries := st.queries ++ [r.2] }

/-- Copy the query, change the copy, and let the next conflict value point to it. -/
def State.point [Inhabited α] (grow : Nat → Nat → Nat) (st : State α) (q : Query α) (es : List (Effect α)) : State α :=
  let r := runEffects grow es (st.heap, q)
  { st with heap := r.1, cells := st.cells ++ [r.2], conflicts := st.conflicts ++ [st.cells.length] }

/-- Change the struct a conflict value points to. -/
def State.change [Inhabited α] (grow : Nat → Nat → Nat) (st : State α) (cell : Nat) (es : List (Effect α)) : State α :=
  match st.cells[cell]? with
  | none => st
  | some q => let r := runEffects grow es (st.heap, q); { st with heap := r.1, cells := st.cells.set cell r.2 }

/-- `return *c.insertQuery` -/
def State.fetch (st : State α) (cell : Nat) : State α :=
  match st.cells[cell]? with
  | none => st
  | some q => { st with queries := st.queries ++ [q] }

def Step.run [Inhabited α] (grow : Nat → Nat → Nat) (st : State α) : Step α → State α
  | .start d s => st.derive grow (emptyQuery s.kind d) (s.effects d)
  | .call i m => match st.queries[i]? with
    | none => st
    | some q => st.derive grow q (m.effects q.kind q.dialect)
  | .onConflict i fs => match st.queries[i]? with
    | none => st
    | some q => st.point grow q [.assign .conflictFields fs]
  | .onConflictOnConstraint i n => match st.queries[i]? with
    | none => st
    | some q => st.point grow q [.set .conflictConstraint n]
  | .conflictWhere i p => match st.conflicts[i]? with
    | none => st
    | some cell => let st := st.change grow cell [.set .conflictPredicate p]; { st with conflicts := st.conflicts ++ [cell] }
  | .doNothing i t => match st.conflicts[i]? with
    | none => st
    | some cell => (st.change grow cell [.set .doNothing t]).fetch cell
  | .doUpdateSet i as => match st.conflicts[i]? with
    | none => st
    | some cell => (st.change grow cell [.assign .resolution as]).fetch cell

/-- A whole program. -/
def runSteps [Inhabited α] (grow : Nat → Nat → Nat) (steps : List (Step α)) : State α :=
  steps.foldl (fun st s => s.run grow st) {}

end Sq.Building
