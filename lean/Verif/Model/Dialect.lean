import Verif.Model.Chain
/-
Model of which dialect a query is written in: sq.go:113-127 (`ToSQL`), the `GetDialect` methods, and the constructors of set operations and
formatted queries (variadic_query.go:93-122, fmt.go:547-561).
-/
namespace Sq.Dial
open Sq

/-- variadic_query.go:100-122. -/
def union (qs : List Node) : Node := .vquery true "UNION" qs
def unionAll (qs : List Node) : Node := .vquery true "UNION ALL" qs
def intersect (qs : List Node) : Node := .vquery true "INTERSECT" qs
def intersectAll (qs : List Node) : Node := .vquery true "INTERSECT ALL" qs
def except (qs : List Node) : Node := .vquery true "EXCEPT" qs
def exceptAll (qs : List Node) : Node := .vquery true "EXCEPT ALL" qs

/-- fmt.go:547-549 `Queryf`: no dialect. -/
def queryf (fmt : Str) (vals : List Node) : Node := .customQuery .other fmt vals

/-- fmt.go:551-561 `SQLite.Queryf`, `Postgres.Queryf`, `MySQL.Queryf`. -/
def langQueryf (l : Chain.Lang) (fmt : Str) (vals : List Node) : Node := .customQuery l.dialect fmt vals

mutual
/-- `GetDialect()`: select_query.go:181, insert_query.go:216, update_query.go:221, delete_query.go:197, line 21 of the twelve files of the
dialects (select_query_mysql.go:21, select_query_postgres.go:21, select_query_sqlite.go:21, insert_query_mysql.go:21,
insert_query_postgres.go:21, insert_query_sqlite.go:21, update_query_mysql.go:21, update_query_postgres.go:21, update_query_sqlite.go:21,
delete_query_mysql.go:21, delete_query_postgres.go:21, delete_query_sqlite.go:21), fmt.go:575, variadic_query.go:93-98.  `.other` is the
empty string; calling the method of a nil interface panics; `own` is the method of a user-defined query. -/
def getDialect (own : Node → Dialect) : Node → Res Dialect
  | .nil => .panic
  | .select q _ _ _ _ _ _ _ _ _ => .ok q.dialect
  | .insert q _ _ _ _ _ _ _ _ _ _ _ => .ok q.dialect
  | .update q _ _ _ _ _ _ _ _ _ => .ok q.dialect
  | .delete q _ _ _ _ _ _ _ => .ok q.dialect
  | .customQuery d _ _ => .ok d
  | .vquery _ _ qs => headDialect own qs
  | n => .ok (own n)
/-- variadic_query.go:94-97. -/
def headDialect (own : Node → Dialect) : List Node → Res Dialect
  | [] => .ok .other
  | q :: _ => getDialect own q
end

/-- The `q.(Query)` assertion of sq.go:121. -/
def isQuery (n : Node) : Bool := match n.kind with
  | .query | .vquery => true
  | _ => false

/-- sq.go:113-127 `ToSQL(dialect, q)`: an empty dialect (`.other` stands for it) asks the query for its own. -/
def toSQLOf (own : Node → Dialect) (d : Dialect) (n : Node) : Res Rendered :=
  if d = .other ∧ isQuery n = true then (getDialect own n).bind fun d' => .ok (toSQL d' n)
  else .ok (toSQL d n)

end Sq.Dial
