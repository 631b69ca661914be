import Verif.Model.Format
import Verif.Model.Quote
import Verif.Model.Search
import Verif.Model.Column
/-
The rendering methods of package sq, each as a function from the interface values it holds to the
effects it performs.  Error *messages* are abbreviated and the `%w` wrapping prefixes are dropped.
-/
namespace Sq

/-- Result of `InjectPredicate(env)` on a table: the table does not implement `PredicateHook` or returned a
nil predicate (`none`), an error, or a predicate. -/
inductive HookRes where
  | none
  | err (msg : Str)
  | pred (o : Obj)

/-- An interface value together with its `PredicateHook` behaviour (only tables have one). -/
structure PV extends Obj where
  hook : Env → HookRes := fun _ => .none

/-- Call with the given environment and excluded qualifiers. -/
def Mode.call (m : Mode) (env : Env) (ex : List Str) : Mode := { d := m.d, env := env, ex := ex }

/-- Dialect name as used in `FieldfDialect` maps. -/
def _root_.Dialect.nm : Dialect → Str
  | .sqlite => "sqlite" | .postgres => "postgres" | .mysql => "mysql"
  | .sqlserver => "sqlserver" | .oracle => "oracle" | .other => "?other"

/-- Whitespace test of fmt.go:129 (`strings.ContainsAny`). -/
def hasSpace (s : Str) : Bool := s.any trimSpace

/-- fmt.go:122-147: `sql.NamedArg`. -/
def namedArgAppend (m : Mode) (name : Str) (v : Scalar) : W :=
  if m.d = .postgres ∨ m.d = .mysql then .fail "named parameters not supported"
  else if name = [] then .fail "sql.NamedArg name cannot be empty"
  else if hasSpace name then .fail "sql.NamedArg name cannot have whitespace"
  else .emit (.named name v)

/-- param.go:37-77 `NamedParam.AppendSQLExclude`. -/
def paramAppend (m : Mode) (name : Str) (v : Obj) : W :=
  if name = [] then .fail "Param name cannot be empty"
  else if v.kind.isAppender then v.act (m.call none m.ex) []
  else match v.kind with
    | .slice _ => v.act (m.call none m.ex) []        -- explodeSlice
    | k => .emit (.param name k.toArg)

/-- Non-recursive part of field_info.go:19-31 `FieldInfo` (TableSchema is never printed). -/
structure FInfo where
  err : Option Str := none
  tableName : Str := []
  tableAlias : Str := []
  name : Str := []
  alias : Str := []
  formats : List (Str × Str) := []
  collation : Str := []
  desc : Option Bool := none
  nullsFirst : Option Bool := none
  deriving DecidableEq

/-- field_info.go:44-61: choose the format for the dialect; a "default" entry is mandatory. Later entries
overwrite earlier ones. -/
def chooseFormat (d : Dialect) (formats : List (Str × Str)) : Option Str :=
  let last (k : Str) : Option Str := formats.foldl (fun r p => if p.1 = k then some p.2 else r) none
  match last "default" with
  | none => none
  | some dflt => match last d.nm with
    | some f => some f
    | none => some dflt

/-- field_info.go:67-80: the possibly qualified column name. -/
def columnName (m : Mode) (fi : FInfo) : Str :=
  let q := if fi.tableAlias = [] then fi.tableName else fi.tableAlias
  (if q = [] ∨ isExcluded m.ex q then [] else quoteIdentifier m.d q ++ ".".toList) ++ quoteIdentifier m.d fi.name

/-- field_info.go:82-103: COLLATE, ASC/DESC, NULLS FIRST/LAST. -/
def fieldSuffix (d : Dialect) (fi : FInfo) : Str :=
  (if fi.collation = [] then [] else " COLLATE ".toList ++
    (if d = .postgres then '"' :: escapeQuote '"' fi.collation ++ ['"'] else quoteIdentifier d fi.collation))
  ++ (match fi.desc with | none => [] | some true => " DESC".toList | some false => " ASC".toList)
  ++ (match fi.nullsFirst with | none => [] | some true => " NULLS FIRST".toList | some false => " NULLS LAST".toList)

/-- field_info.go:39-105 `FieldInfo.AppendSQLExclude`. -/
def fieldInfoAppend (m : Mode) (fi : FInfo) (vals : List Obj) : W :=
  match fi.err with
  | some e => .fail e
  | none =>
    (if fi.formats ≠ [] then
      match chooseFormat m.d fi.formats with
      | none => .fail "CustomField formats has no default format"
      | some f => bprintf m f vals
     else .wr (columnName m fi))
    ⨟ .wr (fieldSuffix m.d fi)

/-- custom_field.go:157-176 `Fields.AppendSQLExclude`: a nil field is bound as a NULL argument. -/
def fieldsAppend (m : Mode) (fs : List Obj) : W := sepBy ", " (fs.map (fun f => f.act m []))

/-- `" AS " + QuoteIdentifier(alias)` when there is an alias. -/
def asAlias (d : Dialect) (alias : Str) : W :=
  if alias = [] then .ok else .wr (" AS ".toList ++ quoteIdentifier d alias)

/-- custom_field.go:180-203 `AliasFields.AppendSQLExclude`: non-nil fields get a nil environment. -/
def aliasField (m : Mode) (f : Obj) : W :=
  if f.kind.isNil then f.act m []
  else f.act (m.call none m.ex) [] ⨟ asAlias m.d f.alias
def aliasFieldsAppend (m : Mode) (fs : List Obj) : W := sepBy ", " (fs.map (aliasField m))

/-- predicate.go:34-39 `CustomPredicate.AppendSQLExclude`. -/
def customPredAppend (m : Mode) (neg : Bool) (fmt : Str) (vals : List Obj) : W :=
  .when neg (.wr "NOT ") ⨟ bprintf m fmt vals

/-- One operand of a variadic predicate with two or more operands (predicate.go:98-104). -/
def operand (m : Mode) (p : Obj) : W :=
  if p.kind.isNil then .fail "predicate is nil" else p.act (m.call none m.ex) []

/-- predicate.go:56-114 `VariadicPredicate.AppendSQLExclude`, `top` being the receiver's Toplevel. -/
def variadicAppend (m : Mode) (top isOr neg : Bool) (ps : List Obj) : W :=
  match ps with
  | [] => .ok
  | [p] =>
    .when neg (.wr "NOT ") ⨟
    (match p.kind with
     | .nilv => .fail "predicate #1 is nil"
     | .vpred _ =>
       .when (!top) (.wr "(") ⨟ p.act { m.call none m.ex with meth := .top true } [] ⨟ .when (!top) (.wr ")")
     | _ => p.act (m.call none m.ex) [])
  | _ =>
    .when neg (.wr "NOT ") ⨟ .when (!top) (.wr "(") ⨟
    sepBy (if isOr then " OR " else " AND ") (ps.map (operand m)) ⨟
    .when (!top) (.wr ")")

/-- Receiver's Toplevel after a possible override by the caller. -/
def effTop (m : Mode) (top : Bool) : Bool :=
  match m.meth with
  | .top b => b
  | _ => top

def caseArm (m : Mode) (p : Obj × Obj) : W :=
  .wr " WHEN " ⨟ p.1.act m [] ⨟ .wr " THEN " ⨟ p.2.act m []

def seqAll : List W → W
  | [] => .ok
  | w :: ws => w ⨟ seqAll ws

/-- case.go:45-52, 122-129: `ELSE fallback` when the fallback is not nil, then `END`. -/
def elseEnd (m : Mode) (fallback : Obj) : W :=
  .when (!fallback.kind.isNil) (.wr " ELSE " ⨟ fallback.act m []) ⨟ .wr " END"

/-- The plain (std) method with the same environment and exclusions. -/
def Mode.std (m : Mode) : Mode := { m with meth := .std }

/-- case.go:25-54 `PredicateCases.AppendSQLExclude`. -/
def predCasesAppend (m : Mode) (cases : List (Obj × Obj)) (fallback : Obj) : W :=
  .wr "CASE" ⨟
  (if cases = [] then .fail "CASE: no predicate cases provided" else .ok) ⨟
  seqAll (cases.map (caseArm m)) ⨟ elseEnd m fallback

/-- case.go:101-133 `SimpleCases.AppendSQLExclude`. -/
def simpleCasesAppend (m : Mode) (expr : Obj) (cases : List (Obj × Obj)) (fallback : Obj) : W :=
  .wr "CASE " ⨟
  (if cases = [] then .fail "no predicate cases provided" else .ok) ⨟
  expr.act m [] ⨟
  seqAll (cases.map (caseArm m)) ⨟ elseEnd m fallback

/-- window.go:13-39 `Window.AppendSQL`: the errors of the two field lists are ignored. -/
def windowAppend (m : Mode) (part order : List Obj) (frame : Str) : W :=
  .wr "(" ⨟
  .when (part ≠ []) (.wr "PARTITION BY " ⨟ (fieldsAppend (m.call none []) part).ignoreErr) ⨟
  .when (order ≠ []) (.when (part ≠ []) (.wr " ") ⨟ .wr "ORDER BY " ⨟ (fieldsAppend (m.call none []) order).ignoreErr) ⨟
  .when (frame ≠ []) (.when (part ≠ [] || order ≠ []) (.wr " ") ⨟ .wr frame) ⨟
  .wr ")"

/-- rowvalue.go:10-24 `RowValue.AppendSQLExclude`. -/
def rowValueAppend (m : Mode) (vs : List Obj) : W :=
  .wr "(" ⨟ sepBy ", " (vs.map (fun v => v.act m [])) ⨟ .wr ")"

/-- rowvalue.go:40-53 `RowValues.AppendSQL` (rowvalue.go:30-32 passes nil env and nil exclusions). -/
def rowValuesAppend (m : Mode) (rows : List (List Obj)) : W :=
  sepBy ", " (rows.map (rowValueAppend (m.call none [])))

/-- assignment.go:20-43 `Assignment.AppendSQLExclude`: LHS with nil environment, a query on the right is
parenthesised. -/
def assignAppend (m : Mode) (l r : Obj) : W :=
  l.act (m.call none m.ex) [] ⨟ .wr " = " ⨟
  (if r.kind.isQuery then .wr "(" ⨟ r.act m [] ⨟ .wr ")" else r.act m [])

/-- assignment.go:47-59 `Assignments.AppendSQLExclude` (nil environment). -/
def assignsAppend (m : Mode) (as : List (Obj × Obj)) : W :=
  sepBy ", " (as.map (fun p => assignAppend (m.call none m.ex) p.1 p.2))

/-- table_info.go:22-28 `TableInfo.AppendSQL`. -/
def tableAppend (m : Mode) (schema name : Str) : W :=
  .wr ((if schema = [] then [] else quoteIdentifier m.d schema ++ ".".toList) ++ quoteIdentifier m.d name)

/-- Constants of join_table.go:10-16. -/
def joinNeedsPredicate (jt : Str) : Bool :=
  jt = "JOIN".toList || jt = "RIGHT JOIN".toList || jt = "FULL JOIN".toList
def sqliteRejectsJoin (jt : Str) : Bool := jt = "RIGHT JOIN".toList || jt = "FULL JOIN".toList

/-- number of predicates of a VariadicPredicate value -/
def Obj.npreds (o : Obj) : Nat := match o.kind with | .vpred n => n | _ => 0

/-- join_table.go:73-109 `JoinTable.AppendSQL`. -/
def joinAppend (m : Mode) (jt0 : Str) (tbl on : Obj) : W :=
  let jt := if jt0 = [] then "JOIN".toList else jt0
  if on.npreds = 0 ∧ joinNeedsPredicate jt then .fail "join requires at least one predicate"
  else if m.d = .sqlite ∧ sqliteRejectsJoin jt then .fail "sqlite does not support this join"
  else
    .wr (jt ++ " ".toList) ⨟
    (if tbl.kind.isNil then .fail "joining on a nil table" else tbl.act (m.call none []) []) ⨟
    asAlias m.d tbl.alias ⨟
    .when (on.npreds > 0) (.wr " ON " ⨟ on.act { m.call none [] with meth := .top true } [])

/-- join_table.go:113-125 `JoinTables.AppendSQL`. -/
def joinsAppend (m : Mode) (js : List Obj) : W := sepBy " " (js.map (fun j => j.act (m.call none []) []))

/-- Non-recursive part of cte.go:10-20 `CTE`. -/
structure CteMeta where
  sticky : Option Str := none
  isRec : Bool := false
  explicit : Bool := false
  name : Str := []
  alias : Str := []
  fieldNames : List Str := []
  materialized : Option Bool := none
  deriving DecidableEq

def joinStr (sep : Str) : List Str → Str
  | [] => []
  | [x] => x
  | x :: xs => x ++ sep ++ joinStr sep xs

/-- cte.go:28-37 `CTE.AppendSQL`: a reference to the CTE. -/
def cteRefAppend (c : CteMeta) : W :=
  match c.sticky with
  | some e => .fail e
  | none => if c.name = [] then .fail "CTE has no name" else .wr c.name

/-- cte.go:156-193: one definition inside `CTEs.AppendSQL`. -/
def cteDefAppend (m : Mode) (c : CteMeta) (q : Obj) : W :=
  match c.sticky with
  | some e => .fail e
  | none =>
    if c.name = [] then .fail "CTE has no name"
    else
      .wr c.name ⨟
      .when c.explicit (.wr (" (".toList ++ joinStr ", " c.fieldNames ++ ")".toList)) ⨟
      .wr " AS " ⨟
      (match m.d, c.materialized with
       | .postgres, some true => .wr "MATERIALIZED "
       | .postgres, some false => .wr "NOT MATERIALIZED "
       | _, _ => .ok) ⨟
      .wr "(" ⨟
      (match q.kind with
       | .nilv => .fail "CTE query is nil"
       | .vquery => q.act { m.call none [] with meth := .top true } []
       | _ => q.act (m.call none []) []) ⨟
      .wr ")"

def isRecCte (o : Obj) : Bool := match o.kind with | .cte b => b | _ => false

/-- cte.go:141-197 `CTEs.AppendSQL`. -/
def ctesAppend (m : Mode) (cs : List Obj) : W :=
  .wr (if cs.any isRecCte then "WITH RECURSIVE " else "WITH ") ⨟
  sepBy ", " (cs.map (fun c => c.act { m.call none [] with meth := .cteDef } [])) ⨟
  .wr " "

/-- subquery.go:60-74 `Subquery.AppendSQL`. -/
def subqueryAppend (m : Mode) (sticky : Option Str) (alias : Str) (q : Obj) : W :=
  match sticky with
  | some e => .fail e
  | none =>
    .wr "(" ⨟ q.act (m.call none []) [] ⨟ .wr ")" ⨟
    (if alias = [] ∧ (m.d = .postgres ∨ m.d = .mysql) then .fail "subquery needs an alias" else .ok)

/-- cte.go:211-224 `CTEField.AppendSQLExclude` (`sub = false`), subquery.go:101-113
`SubqueryField.AppendSQLExclude` (`sub = true`). -/
def checkedFieldAppend (m : Mode) (sub : Bool) (avail : List Str) (fi : FInfo) : W :=
  if sub = true ∧ fi.tableAlias = [] ∧ (m.d = .postgres ∨ m.d = .mysql) then .fail "subquery needs an alias"
  else if fi.name ∉ avail then .fail "field does not exist"
  else fieldInfoAppend (m.call none m.ex) fi []

/-- variadic_query.go:27-83 `VariadicQuery.AppendSQL`. -/
def vqOperand (m : Mode) (q : Obj) : W :=
  match q.kind with
  | .nilv => .fail "VariadicQuery query is nil"
  | .vquery => q.act { m.call none [] with meth := .top false } []
  | _ => q.act (m.call none []) []
def variadicQueryAppend (m : Mode) (top : Bool) (op0 : Str) (qs : List Obj) : W :=
  let op := if op0 = [] then "UNION".toList else op0
  match qs with
  | [] => .ok
  | [q] =>
    (match q.kind with
     | .nilv => .fail "VariadicQuery query #1 is nil"
     | .vquery => q.act { m.call none [] with meth := .top top } []
     | _ => q.act (m.call none []) [])
  | _ =>
    .when (!top) (.wr "(") ⨟
    sepBy (" ".toList ++ op ++ " ".toList) (qs.map (vqOperand m)) ⨟
    .when (!top) (.wr ")")

/-- `" LIMIT {}"` / `" OFFSET {}"` with an int64 value. -/
def limitAppend (m : Mode) (kw : Str) (n : Option Int) : W :=
  match n with
  | none => .ok
  | some i => bprintf m (' ' :: kw ++ " {}".toList)
      [{ kind := .scalar (.int i), alias := [], name := [], key := none,
         act := fun _ pn => .emit (.bind pn (.val (.int i))) }]

/-- Collect the predicates injected by tables, in order; the first hook error aborts
(select_query.go:88-111, update_query.go:116-149, delete_query.go:104-117). -/
def collectHooks (env : Env) : List PV → Res (List Obj)
  | [] => .ok []
  | t :: ts =>
    match t.hook env with
    | .err e => .err e
    | .none => collectHooks env ts
    | .pred o => (collectHooks env ts).map (o :: ·)

/-- Clause `kw fields` printed when there are fields. -/
def clause (kw : Str) (fs : List Obj) (w : W) : W := .when (fs ≠ []) (.wr kw ⨟ w)

/-- `kw predicate` for a VariadicPredicate with Toplevel set by the caller, printed when it has at least one
operand. -/
def predClause (m : Mode) (kw : Str) (p : Obj) : W :=
  .when (p.npreds > 0) (.wr kw ⨟ p.act { m with meth := .top true } [])

/-- WHERE of SELECT and DELETE: when hooks injected predicates, WHERE becomes the conjunction of those and
the query's own WHERE (select_query.go:112-122, delete_query.go:118-128). -/
def whereWithHooks (m : Mode) (hooks : List Obj) (own : Obj) : W :=
  if hooks ≠ [] then .wr " WHERE " ⨟ variadicAppend m true false false (hooks ++ [own])
  else predClause m " WHERE " own

/-- Non-recursive parts of `SelectQuery`. -/
structure SelMeta where
  dialect : Dialect := .other
  env : Env := none
  distinct : Bool := false
  limit : Option Int := none
  offset : Option Int := none

/-- `if env == nil && q.Env != nil { env = q.Env }`. -/
def effEnv (env qenv : Env) : Env := match env with | some e => some e | none => qenv

/-- FROM-like part: table and alias. -/
def tableRef (m : Mode) (t : Obj) : W := t.act m [] ⨟ asAlias m.d t.alias

/-- `Predicatef("TRUE")`. -/
def truePred : Obj :=
  { kind := .field, alias := [], name := [], key := none, act := fun m _ => customPredAppend m.std false "TRUE" [] }

/-- insert_query.go:110-112: an empty WHERE of the SELECT gets the single predicate TRUE (its other flags are
kept; see the `vpred` case of `ren`). -/
def withTrue (o : Obj) : Obj :=
  { o with kind := .vpred 1, act := fun m pn => o.act { m with meth := .whereTrue } pn }

/-- select_query.go:37-170 `SelectQuery.AppendSQL`. -/
def selectAppend (m0 : Mode) (q : SelMeta) (ctes fields distinctOn : List Obj) (from_ : PV) (joins : List PV)
    (where0 : Obj) (groupBy : List Obj) (having : Obj) (orderBy : List Obj) : W :=
  let m : Mode := { d := m0.d, env := effEnv m0.env q.env, ex := [] }
  let where_ := if m0.meth = .whereTrue ∧ where0.npreds = 0 then withTrue where0 else where0
  .when (ctes ≠ []) (ctesAppend m ctes) ⨟
  .wr "SELECT " ⨟
  (if distinctOn ≠ [] then
    if m.d ≠ .postgres then .fail "SELECT DISTINCT ON not supported"
    else if q.distinct then .fail "cannot be DISTINCT and DISTINCT ON"
    else .wr "DISTINCT ON (" ⨟ fieldsAppend m distinctOn ⨟ .wr ") "
   else .when q.distinct (.wr "DISTINCT ")) ⨟
  (if fields = [] then .fail "no fields SELECT-ed" else aliasFieldsAppend m fields) ⨟
  .when (!from_.kind.isNil) (.wr " FROM " ⨟ tableRef m from_.toObj) ⨟
  .when (joins ≠ []) ((if from_.kind.isNil then .fail "can't JOIN without a FROM table" else .wr " ") ⨟
      joinsAppend m (joins.map PV.toObj)) ⨟
  (W.ofRes (collectHooks m.env (from_ :: joins)) fun hooks => whereWithHooks m hooks where_) ⨟
  clause " GROUP BY " groupBy (fieldsAppend m groupBy) ⨟
  predClause m " HAVING " having ⨟
  clause " ORDER BY " orderBy (fieldsAppend m orderBy) ⨟
  limitAppend m "LIMIT" q.limit ⨟
  limitAppend m "OFFSET" q.offset

/-- Qualifiers excluded in INSERT/UPDATE: the alias if any, otherwise the table name. -/
def qualifierOf (t : Obj) : List Str := [if t.alias = [] then t.name else t.alias]

/-- Non-recursive parts of `InsertQuery`.  `mapErr` is the error returned by the ColumnMapper. -/
structure InsMeta where
  dialect : Dialect := .other
  env : Env := none
  hasMapper : Bool := false
  mapErr : Option Str := none
  ignore : Bool := false
  rowAlias : Str := []
  columnAliases : List Str := []
  conflictConstraint : Str := []
  doNothing : Bool := false

/-- ON CONFLICT / ON DUPLICATE KEY part (insert_query.go:121-176). -/
def insertConflict (m : Mode) (ex : List Str) (q : InsMeta) (conflictFields : List Obj) (conflictPred : Obj)
    (resolution : List (Obj × Obj)) (resolutionPred : Obj) : W :=
  match m.d with
  | .sqlite | .postgres =>
    if q.conflictConstraint = [] ∧ conflictFields = [] ∧ q.doNothing = false then .ok
    else
      .wr " ON CONFLICT" ⨟
      (if q.conflictConstraint ≠ [] then
        if m.d ≠ .postgres then .fail "ON CONFLICT ON CONSTRAINT not supported"
        else .wr (" ON CONSTRAINT ".toList ++ q.conflictConstraint)
       else .when (conflictFields ≠ [])
        (.wr " (" ⨟ fieldsAppend { m with ex := ex } conflictFields ⨟ .wr ")" ⨟
         .when (!conflictPred.kind.isNil)
           (.wr " WHERE " ⨟ conflictPred.act { m with ex := ex, meth := .top true } []))) ⨟
      (if resolution = [] ∨ q.doNothing = true then .wr " DO NOTHING"
       else
        .wr " DO UPDATE SET " ⨟ assignsAppend { m with ex := ex } resolution ⨟
        predClause m " WHERE " resolutionPred)
  | .mysql => .when (resolution ≠ []) (.wr " ON DUPLICATE KEY UPDATE " ⨟ assignsAppend { m with env := none, ex := ex } resolution)
  | _ => .ok

/-- RETURNING part, common to INSERT, UPDATE, DELETE. -/
def returningAppend (m : Mode) (fs : List Obj) : W :=
  .when (fs ≠ [])
    (if m.d ≠ .postgres ∧ m.d ≠ .sqlite then .fail "RETURNING not supported"
     else .wr " RETURNING " ⨟ aliasFieldsAppend m fs)

/-- insert_query.go:42-50: the columns and rows, taken from the column mapper when there is one.  A nil field
passed to `Column.Set` panics (column.go:48-51). -/
def insertColumnsRows (q : InsMeta) (columns : List Obj) (rows : List (List Obj)) (sets : List (Obj × Obj)) :
    Res (List Obj × List (List Obj)) :=
  if q.hasMapper then
    if sets.any (fun p => p.1.kind.isNil) then .panic
    else match q.mapErr with
      | some e => .err e
      | none => .ok (columnInsert (fun o : Obj => o.name) sets)
  else .ok (columns, rows)

/-- insert_query.go:38-195 `InsertQuery.AppendSQL`. -/
def insertAppend (m0 : Mode) (q : InsMeta) (ctes : List Obj) (into : Obj) (columns0 : List Obj)
    (rows0 : List (List Obj)) (sets : List (Obj × Obj)) (sel : Obj) (conflictFields : List Obj) (conflictPred : Obj)
    (resolution : List (Obj × Obj)) (resolutionPred : Obj) (returning : List Obj) : W :=
  let m : Mode := { d := m0.d, env := effEnv m0.env q.env, ex := [] }
  W.ofRes (insertColumnsRows q columns0 rows0 sets) fun (columns, rows) =>
  .when (ctes ≠ []) (ctesAppend m ctes) ⨟
  (if q.ignore then if m.d ≠ .mysql then .fail "INSERT IGNORE not supported" else .wr "INSERT IGNORE INTO "
   else .wr "INSERT INTO ") ⨟
  (if into.kind.isNil then .fail "no table provided to INSERT" else into.act m []) ⨟
  (if into.alias ≠ [] then
    if m.d = .mysql then .fail "mysql does not allow an alias for the INSERT table"
    else .wr (" AS ".toList ++ quoteIdentifier m.d into.alias)
   else .ok) ⨟
  .when (columns ≠ []) (.wr " (" ⨟ fieldsAppend { m with ex := qualifierOf into } columns ⨟ .wr ")") ⨟
  (if rows ≠ [] then
    .wr " VALUES " ⨟ rowValuesAppend m rows ⨟
    .when (q.rowAlias ≠ [])
      (if m.d ≠ .mysql then .fail "row aliases not supported"
       else .wr (" AS ".toList ++ q.rowAlias) ⨟
         .when (q.columnAliases ≠ []) (.wr (" (".toList ++ joinStr ", " q.columnAliases ++ ")".toList)))
   else if !sel.kind.isNil then
    .wr " " ⨟ sel.act { m with meth := if m.d = .sqlite then .whereTrue else .std } []
   else .fail "RowValues not provided and SelectQuery not provided to INSERT query") ⨟
  insertConflict m (qualifierOf into) q conflictFields conflictPred resolution resolutionPred ⨟
  returningAppend m returning

/-- Non-recursive parts of `UpdateQuery` / `DeleteQuery`. -/
structure ModMeta where
  dialect : Dialect := .other
  env : Env := none
  hasMapper : Bool := false
  mapErr : Option Str := none
  limit : Option Int := none
  offset : Option Int := none

/-- update_query.go:40-47: assignments from the column mapper. -/
def updateAssignments (q : ModMeta) (assigns sets : List (Obj × Obj)) : Res (List (Obj × Obj)) :=
  if q.hasMapper then
    if sets.any (fun p => p.1.kind.isNil) then .panic
    else match q.mapErr with
      | some e => .err e
      | none => .ok (columnUpdate sets)
  else .ok assigns

/-- mysql and sqlite only (update_query.go:157-183, delete_query.go:130-164). -/
def mysqlSqlite (d : Dialect) : Bool := d = .mysql || d = .sqlite

/-- update_query.go:36-200 `UpdateQuery.AppendSQL`.  The predicates injected by hooks are collected (so a
failing hook is an error) but the collected list is never used. -/
def updateAppend (m0 : Mode) (q : ModMeta) (ctes : List Obj) (table : PV) (from_ : PV) (joins : List PV)
    (assigns0 sets : List (Obj × Obj)) (where_ : Obj) (orderBy returning : List Obj) : W :=
  let m : Mode := { d := m0.d, env := effEnv m0.env q.env, ex := [] }
  W.ofRes (updateAssignments q assigns0 sets) fun assigns =>
  .when (ctes ≠ []) (ctesAppend m ctes) ⨟
  .wr "UPDATE " ⨟
  (if table.kind.isNil then .fail "no table provided to UPDATE" else tableRef m table.toObj) ⨟
  (if assigns = [] then .fail "no fields to update" else .ok) ⨟
  .when (m.d ≠ .mysql) (.wr " SET " ⨟ assignsAppend { m with ex := qualifierOf table.toObj } assigns) ⨟
  .when (!from_.kind.isNil)
    (if m.d = .mysql then .fail "mysql UPDATE does not support FROM"
     else .wr " FROM " ⨟ tableRef m from_.toObj) ⨟
  .when (joins ≠ [])
    ((if from_.kind.isNil ∧ m.d ≠ .mysql then .fail "can't JOIN without a FROM table" else .wr " ") ⨟
     joinsAppend m (joins.map PV.toObj)) ⨟
  .when (m.d = .mysql) (.wr " SET " ⨟ assignsAppend m assigns) ⨟
  (W.ofRes (collectHooks m.env (table :: from_ :: joins)) fun _ => .ok) ⨟
  predClause m " WHERE " where_ ⨟
  .when (orderBy ≠ [])
    (if !mysqlSqlite m.d then .fail "UPDATE does not support ORDER BY"
     else .wr " ORDER BY " ⨟ fieldsAppend m orderBy) ⨟
  .when q.limit.isSome (if !mysqlSqlite m.d then .fail "UPDATE does not support LIMIT" else limitAppend m "LIMIT" q.limit) ⨟
  .when q.offset.isSome (if m.d ≠ .sqlite then .fail "UPDATE does not support OFFSET" else limitAppend m "OFFSET" q.offset) ⨟
  returningAppend m returning

/-- delete_query.go:33-176 `DeleteQuery.AppendSQL`.  Only the FROM tables' hooks are consulted.  In the MySQL
multi-table form a nil element of FromTables makes `table.GetAlias()` panic. -/
def deleteAppend (m0 : Mode) (q : ModMeta) (ctes : List Obj) (froms : List PV) (using_ : Obj) (joins : List Obj)
    (where_ : Obj) (orderBy returning : List Obj) : W :=
  let m : Mode := { d := m0.d, env := effEnv m0.env q.env, ex := [] }
  let multi := !using_.kind.isNil || joins ≠ []
  .when (ctes ≠ []) (ctesAppend m ctes) ⨟
  .wr "DELETE FROM " ⨟
  (match froms with
   | [] => .fail "no table provided to DELETE"
   | f :: _ =>
    if !using_.kind.isNil ∧ m.d = .mysql then
      sepBy ", " (froms.map fun t => if t.kind.isNil then .panic else .wr (if t.alias = [] then t.name else t.alias))
    else if f.kind.isNil then .fail "no table provided to DELETE"
    else tableRef m f.toObj) ⨟
  .when (!using_.kind.isNil)
    (if m.d = .sqlite then .fail "sqlite DELETE does not support joins" else .wr " USING " ⨟ tableRef m using_) ⨟
  .when (joins ≠ [])
    (if m.d = .sqlite then .fail "sqlite DELETE does not support joins"
     else if using_.kind.isNil then .fail "can't use JOIN without providing an initial table to join on"
     else .wr " " ⨟ joinsAppend m joins) ⨟
  (W.ofRes (collectHooks m.env froms) fun hooks => whereWithHooks m hooks where_) ⨟
  .when (orderBy ≠ [])
    (if !mysqlSqlite m.d then .fail "DELETE does not support ORDER BY"
     else if multi then .fail "ORDER BY not allowed when using multi-table DELETE syntax"
     else .wr " ORDER BY " ⨟ fieldsAppend m orderBy) ⨟
  .when q.limit.isSome
    (if !mysqlSqlite m.d then .fail "DELETE does not support LIMIT"
     else if multi then .fail "LIMIT not allowed when using multi-table DELETE syntax"
     else limitAppend m "LIMIT" q.limit) ⨟
  .when q.offset.isSome (if m.d ≠ .sqlite then .fail "DELETE does not support OFFSET" else limitAppend m "OFFSET" q.offset) ⨟
  returningAppend m returning

end Sq
