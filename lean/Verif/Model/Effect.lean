import Verif.Model.Node
/-
What rendering writes to besides its own buffers.  Queries are passed by value, but the SELECT of `INSERT ... SELECT` is a pointer
(insert_query.go:24), and on SQLite rendering the INSERT writes to it.  All other rendering methods have value receivers and assign to
their own copies only (select_query.go:119-124, update_query.go:151, delete_query.go:116-121, cte.go:181, predicate.go:56-114).
-/
namespace Sq.Effect
open Sq

/-- `Predicatef("TRUE")` (fmt.go, predicate.go:20-23). -/
def truePredicate : Node := .cpred [] "TRUE".toList false []

/-- insert_query.go:115-117, what is assigned to the SELECT when an INSERT of it is rendered on SQLite: an empty WHERE becomes TRUE. -/
def fill : Node → Node
  | .select q ctes fs don fr js (.vpred t a o ng []) gb hv ob => .select q ctes fs don fr js (.vpred t a o ng [truePredicate]) gb hv ob
  | n => n

/-- The SELECT queries that are held by pointer. -/
abbrev Heap := Nat → Node

/-- A query that holds pointers: what it is when the SELECT queries are `h`, and which of them are sources of an INSERT in it. -/
structure Query where
  tree : Heap → Node
  sources : List Nat

/-- What a call of ToSQL may do to the SELECT queries: on SQLite those that are sources of an INSERT in the query may be written to (all
of them, or, if the rendering fails, some). -/
def Writes (d : Dialect) (q : Query) (h h' : Heap) : Prop :=
  ∀ a, h' a = h a ∨ (d = .sqlite ∧ a ∈ q.sources ∧ h' a = fill (h a))

/-- A sequence of ToSQL calls (sq.go:113-127), with the dialect, the query and the result of each. -/
inductive Run : Heap → List (Dialect × Query × Rendered) → Heap → Prop
  | done (h) : Run h [] h
  | call {h h1 h2 : Heap} {cs} (d : Dialect) (q : Query) : Writes d q h h1 → Run h1 cs h2 → Run h ((d, q, toSQL d (q.tree h)) :: cs) h2

end Sq.Effect
