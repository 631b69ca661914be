import Verif.Model.Builder
/-
What a user expects of the query builders: queries are values.  A program (`Step`, the syntax only) is run on immutable lists; no step
changes a query that was built before.
-/
namespace Spec.Building
open Sq.Building (Clause Slot Kind Effect Step SliceArg)

variable {α : Type}

/-- A query as a value. -/
structure Value (α : Type) where
  kind : Kind
  dialect : Dialect
  clauses : Clause → List α
  slots : Slot → Option α

def Value.setClause (v : Value α) (c : Clause) (xs : List α) : Value α :=
  { v with clauses := fun c' => if c' = c then xs else v.clauses c' }

/-- The intended meaning of the effects.  (Slices of the caller are outside: see `Listed` in `track`.) -/
def Value.edit (v : Value α) : Effect α → Value α
  | .append c xs => v.setClause c (v.clauses c ++ xs)
  | .assign c (.list xs) => v.setClause c xs
  | .assign _ (.spread _) => v
  | .set f x => { v with slots := fun f' => if f' = f then some x else v.slots f' }
  | .overwrite c x => v.setClause c [x]
  | .flip f x => { v with slots := fun f' => if f' = f then (match v.slots f with | none => some x | some _ => none) else v.slots f' }

def Value.edits (v : Value α) (es : List (Effect α)) : Value α := es.foldl Value.edit v

def Value.empty (k : Kind) (d : Dialect) : Value α := ⟨k, d, fun _ => [], fun _ => none⟩

/-- All queries and all conflict values built so far. -/
structure Store (α : Type) where
  queries : List (Value α) := []
  conflicts : List (Value α) := []

def Store.query (st : Store α) (v : Value α) : Store α := { st with queries := st.queries ++ [v] }
def Store.conflict (st : Store α) (v : Value α) : Store α := { st with conflicts := st.conflicts ++ [v] }

/-- One step: it only adds. -/
def Store.step (st : Store α) : Step α → Store α
  | .start d s => st.query ((Value.empty s.kind d).edits (s.effects d))
  | .call i m => match st.queries[i]? with
    | none => st
    | some v => st.query (v.edits (m.effects v.kind v.dialect))
  | .onConflict i fs => match st.queries[i]? with
    | none => st
    | some v => st.conflict (v.edit (.assign .conflictFields fs))
  | .onConflictOnConstraint i n => match st.queries[i]? with
    | none => st
    | some v => st.conflict (v.edit (.set .conflictConstraint n))
  | .conflictWhere i p => match st.conflicts[i]? with
    | none => st
    | some v => st.conflict (v.edit (.set .conflictPredicate p))
  | .doNothing i t => match st.conflicts[i]? with
    | none => st
    | some v => st.query (v.edit (.set .doNothing t))
  | .doUpdateSet i as => match st.conflicts[i]? with
    | none => st
    | some v => st.query (v.edit (.assign .resolution as))

def run (steps : List (Step α)) : Store α := steps.foldl Store.step {}

/-! ### Careful programs

A program is careful if no two steps append to the result of the same append, `DeleteFrom` is not called on a query that already has
FROM tables, no conflict value is used twice, and slices are not passed with `xs...`. -/

/-- A query with, for each clause, the step that appended to it last (`none`: it was not appended to since it was set). -/
structure Tracked (α : Type) where
  value : Value α
  origin : Clause → Option Nat

/-- Appending in step `t` to a clause; `used` are the appends whose results have been appended to. -/
def Tracked.append (t : Nat) (x : Tracked α) (used : List Nat) (c : Clause) (xs : List α) : Option (Tracked α × List Nat) :=
  if xs = [] then some (x, used)
  else
    let x' : Tracked α := ⟨x.value.edit (.append c xs), fun c' => if c' = c then some t else x.origin c'⟩
    match x.origin c with
    | none => some (x', used)
    | some n => if n ∈ used then none else some (x', n :: used)

def Tracked.edit (t : Nat) (x : Tracked α) (used : List Nat) : Effect α → Option (Tracked α × List Nat)
  | .append c xs => x.append t used c xs
  | .assign c (.list xs) => some (⟨x.value.edit (.assign c (.list xs)), fun c' => if c' = c then none else x.origin c'⟩, used)
  | .assign _ (.spread _) => none
  | .set f v => some (⟨x.value.edit (.set f v), x.origin⟩, used)
  | .flip f v => some (⟨x.value.edit (.flip f v), x.origin⟩, used)
  | .overwrite c v => if x.value.clauses c = [] then x.append t used c [v] else none

def Tracked.edits (t : Nat) : Tracked α → List Nat → List (Effect α) → Option (Tracked α × List Nat)
  | x, used, [] => some (x, used)
  | x, used, e :: es => (x.edit t used e).bind fun r => r.1.edits t r.2 es

structure Tracking (α : Type) where
  queries : List (Tracked α) := []
  conflicts : List (Tracked α × Bool) := []      -- the flag: already used
  used : List Nat := []

def Tracking.query (T : Tracking α) (r : Tracked α × List Nat) : Tracking α := { T with queries := T.queries ++ [r.1], used := r.2 }
def Tracking.conflict (T : Tracking α) (r : Tracked α × List Nat) : Tracking α :=
  { T with conflicts := T.conflicts ++ [(r.1, false)], used := r.2 }
def Tracking.spend (T : Tracking α) (i : Nat) (x : Tracked α) : Tracking α := { T with conflicts := T.conflicts.set i (x, true) }

/-- One step of a careful program. -/
def Tracking.step (t : Nat) (T : Tracking α) : Step α → Option (Tracking α)
  | .start d s => ((⟨Value.empty s.kind d, fun _ => none⟩ : Tracked α).edits t T.used (s.effects d)).map T.query
  | .call i m => match T.queries[i]? with
    | none => some T
    | some x => (x.edits t T.used (m.effects x.value.kind x.value.dialect)).map T.query
  | .onConflict i fs => match T.queries[i]? with
    | none => some T
    | some x => (x.edit t T.used (.assign .conflictFields fs)).map T.conflict
  | .onConflictOnConstraint i n => match T.queries[i]? with
    | none => some T
    | some x => (x.edit t T.used (.set .conflictConstraint n)).map T.conflict
  | .conflictWhere i p => match T.conflicts[i]? with
    | none => some T
    | some (x, b) => if b then none else (x.edit t T.used (.set .conflictPredicate p)).map (T.spend i x).conflict
  | .doNothing i v => match T.conflicts[i]? with
    | none => some T
    | some (x, b) => if b then none else (x.edit t T.used (.set .doNothing v)).map (T.spend i x).query
  | .doUpdateSet i as => match T.conflicts[i]? with
    | none => some T
    | some (x, b) => if b then none else (x.edit t T.used (.assign .resolution as)).map (T.spend i x).query

def track : Nat → Tracking α → List (Step α) → Option (Tracking α)
  | _, T, [] => some T
  | t, T, s :: ss => (T.step t s).bind fun T' => track (t + 1) T' ss

def Careful (steps : List (Step α)) : Prop := (track 0 {} steps).isSome

end Spec.Building
