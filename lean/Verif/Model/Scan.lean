import Verif.Model.Ident
import Verif.Model.SplitArgs
import Verif.Model.Meta
/-
Model of the row readers in ddl/introspect.go: 435-556 (`GetConstraints`) and 558-685 (`GetIndexes`), after `rows.Scan`.
-/
namespace Ddl

/-- `strings.Split(s, ",")`. -/
def splitComma : Str → List Str
  | [] => [[]]
  | c :: cs =>
    if c = ',' then [] :: splitComma cs
    else match splitComma cs with
      | [] => [[c]]
      | x :: xs => (c :: x) :: xs

/-- introspect.go:522-524, 534-536, 538-540, 598-600, 637-639, 662-664. -/
def readColumns (raw : Str) : List Str := if raw = [] then [] else splitComma raw

/-- introspect.go:642-647 (wrap adds brackets), 528-533 (it does not). -/
def fillExprs (wrap : Str → Str) : (columns exprs : List Str) → List Str
  | [], _ => []
  | c :: cs, es =>
    if c = [] then match es with
      | e :: es' => wrap (trim e) :: fillExprs wrap cs es'
      | [] => [] :: fillExprs wrap cs []
    else [] :: fillExprs wrap cs es

def bracketed (s : Str) : Str := '(' :: s ++ [')']

/-- introspect.go:637-648, PostgreSQL.  `index.Columns[:numKeyColumns]` panics when there are fewer columns than that. -/
def readIndexPg (index : Index) (numKeyColumns : Nat) (rawColumns rawExprs : Str) : Res Index :=
  let columns := readColumns rawColumns
  let exprs := fillExprs bracketed columns (splitArgs rawExprs)
  if columns.length < numKeyColumns then .panic
  else .ok { index with columns := columns.take numKeyColumns, includeColumns := columns.drop numKeyColumns, exprs := exprs }

/-- `strings.ReplaceAll(s, "\\'", "'")`. -/
def dropBackslash : Str → Str
  | '\\' :: '\'' :: cs => '\'' :: dropBackslash cs
  | c :: cs => c :: dropBackslash cs
  | [] => []

/-- introspect.go:667-672, MySQL: `exprs = exprs[1:]` panics when nothing is left. -/
def fillMySQL : (columns exprs : List Str) → Res (List Str)
  | [], _ => .ok []
  | _ :: _, [] => .panic
  | c :: cs, e :: es => (fillMySQL cs es).map fun r => (if c = [] then bracketed (trim e) else []) :: r

/-- introspect.go:662-672. -/
def readIndexMySQL (index : Index) (rawColumns rawExprs : Str) : Res Index :=
  let columns := readColumns rawColumns
  (fillMySQL columns (splitArgs (trim (dropBackslash rawExprs)))).map fun exprs => { index with columns := columns, exprs := exprs }

/-- introspect.go:607-616, SQLite.  `args[i]` panics when there are fewer arguments than columns; the test `i >= len(args)` comes too late. -/
def fillSQLite : (columns args : List Str) → Res (List Str)
  | [], _ => .ok []
  | _ :: _, [] => .panic
  | c :: cs, a :: as =>
    if c ≠ [] then
      if trim a ≠ c then .err "column mismatch".toList else (fillSQLite cs as).map fun r => [] :: r
    else (fillSQLite cs as).map fun r => trim a :: r

/-- `strings.LastIndexByte(s, c)`: the text before and after the last `c`. -/
def cutLast (c : Char) (s : Str) : Option (Str × Str) := (cutAt c s.reverse).map fun r => (r.2.reverse, r.1.reverse)

/-- introspect.go:603-617: the expressions. -/
def sqliteExprs (columns : List Str) (sql : Str) : Res (List Str) :=
  match cutAt '(' sql, cutLast ')' sql with
  | some (before, _), some (before', _) =>
    if before.length < before'.length then fillSQLite columns (splitArgs (before'.drop (before.length + 1)))
    else .ok (columns.map fun _ => [])
  | _, _ => .ok (columns.map fun _ => [])

/-- introspect.go:618-620: the text after the last closing bracket (all of it, if there is none). -/
def sqlitePredicate (sql : Str) : Str :=
  let rest := match cutLast ')' sql with | some (_, r) => r | none => sql
  if equalFold (popToken .sqlite rest).1 "WHERE" then trim (popToken .sqlite rest).2 else []

/-- introspect.go:598-621. -/
def readIndexSQLite (index : Index) (rawColumns : Str) : Res Index :=
  let columns := readColumns rawColumns
  if index.sql = [] then .ok { index with columns := columns, exprs := columns.map fun _ => [] }
  else (sqliteExprs columns index.sql).map fun exprs =>
    { index with columns := columns, exprs := exprs, predicate := sqlitePredicate index.sql }

/-- `strings.TrimPrefix`. -/
def trimPrefix (p s : Str) : Str := if p.isPrefixOf s then s.drop p.length else s

/-- introspect.go:500-502, 542-544. -/
def readCheck (d : Dialect) (s : Str) : Str :=
  let s := if d = .postgres ∧ s ≠ [] then trimPrefix "CHECK ".toList s else s
  if s.length > 2 ∧ s.head? = some '(' ∧ s.getLast? = some ')' then s.tail.dropLast else s

/-- introspect.go:522-544. -/
def readConstraint (d : Dialect) (con : Constraint) (rawColumns rawExprs rawReferencesColumns rawOperators : Str) : Constraint :=
  let columns := readColumns rawColumns
  { con with
    columns := columns
    exprs := if d = .postgres then fillExprs id columns (splitArgs rawExprs) else columns.map fun _ => []
    exclusionOperators := if d = .postgres then readColumns rawOperators else con.exclusionOperators
    referencesColumns := readColumns rawReferencesColumns
    checkExpr := readCheck d con.checkExpr }

end Ddl
