import Verif.Model.Node
/-
Model of the constructors of derived tables: cte.go:39-131 (`NewCTE`, `NewRecursiveCTE`, `Materialized`, `NotMaterialized`, `As`, `Field`),
subquery.go:21-87 (`NewSubquery`, `Field`), and of `GetFetchableFields` / `SetFetchableFields` of every kind of query.

Rendering of the resulting values is in Model/Render (`cteDefAppend`, `cteRefAppend`, `subqueryAppend`, `checkedFieldAppend`).
Error messages are abbreviated.  `NewSubquery(alias, query)` and `NewCTE` share the loop over the fields.
-/
namespace Sq.Deriving

/-- What `GetFetchableFields` of a user-defined query returns: any function.  The methods of a non-query cannot be called (Go's static
types); they are given to `ext` too. -/
abbrev Ext := Node → Res (List Node)

mutual
/-- `query.GetFetchableFields()`: select_query.go:177-179, insert_query.go:207-214, update_query.go:212-219, delete_query.go:188-195,
variadic_query.go:86-91, fmt.go:571-573.  Calling the method of a nil query panics. -/
def fetchable (ext : Ext) : Node → Res (List Node)
  | .nil => .panic
  | .select _ _ fields _ _ _ _ _ _ _ => .ok fields
  | .insert q _ _ _ _ _ _ _ _ _ _ returning =>
    if q.dialect = .postgres ∨ q.dialect = .sqlite then .ok returning else .err "INSERT is not fetchable"
  | .update q _ _ _ _ _ _ _ _ returning =>
    if q.dialect = .postgres ∨ q.dialect = .sqlite then .ok returning else .err "UPDATE is not fetchable"
  | .delete q _ _ _ _ _ _ returning =>
    if q.dialect = .postgres ∨ q.dialect = .sqlite then .ok returning else .err "DELETE is not fetchable"
  | .customQuery _ _ _ => .err "custom query is not fetchable"
  | .vquery _ _ qs => fetchableHead ext qs
  | n => ext n
/-- variadic_query.go:86-91: the fields of the first query. -/
def fetchableHead (ext : Ext) : List Node → Res (List Node)
  | [] => .ok []
  | q :: _ => fetchable ext q
end

/-- `query.SetFetchableFields(fields)`: select_query.go:172-175, insert_query.go:197-205, update_query.go:202-210,
delete_query.go:178-186, variadic_query.go:82-84, fmt.go:567-569. -/
def setFetchable (ext : Node → List Node → Res Node) (fields : List Node) : Node → Res Node
  | .nil => .panic
  | .select q ctes _ don from_ joins wh gb hv ob => .ok (.select q ctes fields don from_ joins wh gb hv ob)
  | .insert q ctes into cols rows sets sel cf cp res rp _ =>
    if q.dialect = .postgres ∨ q.dialect = .sqlite then .ok (.insert q ctes into cols rows sets sel cf cp res rp fields)
    else .err "INSERT is not fetchable"
  | .update q ctes t from_ joins as sets wh ob _ =>
    if q.dialect = .postgres ∨ q.dialect = .sqlite then .ok (.update q ctes t from_ joins as sets wh ob fields)
    else .err "UPDATE is not fetchable"
  | .delete q ctes froms us joins wh ob _ =>
    if q.dialect = .postgres ∨ q.dialect = .sqlite then .ok (.delete q ctes froms us joins wh ob fields)
    else .err "DELETE is not fetchable"
  | .customQuery _ _ _ => .err "custom query is not fetchable"
  | .vquery _ _ _ => .err "variadic query is not fetchable"
  | n => ext n fields

/-- cte.go:87-90, subquery.go:40-43: the name a field goes by. -/
def fieldNameOf (f : Node) : Str := if f.alias = [] then f.name else f.alias

/-- cte.go:86-97, subquery.go:39-49: the loop over the fields; the names gathered so far and whether it stopped at a field without a
name.  A nil field panics (`field.GetAlias()`). -/
def gather : List Node → Res (List Str × Bool)
  | [] => .ok ([], true)
  | f :: fs =>
    if f.kind.isNil then .panic
    else if fieldNameOf f = [] then .ok ([], false)
    else (gather fs).map fun r => (fieldNameOf f :: r.1, r.2)

/-- cte.go:10-20 `CTE`; `cache` are the keys of fieldCache. -/
structure CTE where
  info : CteMeta
  cache : List Str
  query : Node

/-- subquery.go:9-16 `Subquery`. -/
structure Subquery where
  sticky : Option Str
  alias : Str
  fieldNames : List Str
  cache : List Str
  query : Node

/-- cte.go:59-102 `newCTE`. -/
def newCTE (ext : Ext) (recursive : Bool) (name : Str) (columns : List Str) (query : Node) : Res CTE :=
  let info : CteMeta := { isRec := recursive, name := name, explicit := !columns.isEmpty, fieldNames := columns }
  let failed (e : Str) : Res CTE := .ok ⟨{ info with sticky := some e }, [], query⟩
  if name = [] then failed "CTE name cannot be empty"
  else if query.kind.isNil then failed "CTE query cannot be nil"
  else if columns ≠ [] then .ok ⟨info, columns, query⟩
  else match fetchable ext query with
    | .panic => .panic
    | .hang => .hang
    | .err _ => failed "CTE failed to fetch query fields"
    | .ok [] => failed "CTE does not return any fields"
    | .ok (f :: fs) => match gather (f :: fs) with
      | .ok (names, true) => .ok ⟨{ info with fieldNames := names }, names, query⟩
      | .ok (names, false) => .ok ⟨{ info with fieldNames := names, sticky := some "CTE field needs a name or an alias" }, [], query⟩
      | .panic => .panic
      | .hang => .hang
      | .err e => .err e

/-- cte.go:47-57 `Materialized` / `NotMaterialized`. -/
def CTE.materialized (c : CTE) (b : Bool) : CTE := { c with info := { c.info with materialized := some b } }

/-- cte.go:104-122 `CTE.As`. -/
def CTE.as (c : CTE) (alias : Str) : CTE :=
  if c.info.sticky.isSome then c
  else if c.info.name = [] then { c with info := { c.info with sticky := some "CTE name cannot be empty" } }
  else if c.query.kind.isNil then { c with info := { c.info with sticky := some "CTE query cannot be nil" } }
  else if c.cache = [] then { c with info := { c.info with sticky := some "CTE does not return any fields" } }
  else { c with info := { c.info with alias := alias } }

/-- cte.go:124-135 `CTE.Field`. -/
def CTE.field (c : CTE) (f : Str) : Node :=
  .checkedField false c.cache { tableName := c.info.name, tableAlias := c.info.alias, name := f }

/-- The value as it stands in FROM, JOIN or With. -/
def CTE.node (c : CTE) : Node := .cte c.info c.query

/-- subquery.go:20-54 `NewSubquery`. -/
def newSubquery (ext : Ext) (alias : Str) (query : Node) : Res Subquery :=
  let failed (e : Str) : Res Subquery := .ok ⟨some e, alias, [], [], query⟩
  if query.kind.isNil then failed "subquery query cannot be nil"
  else match fetchable ext query with
    | .panic => .panic
    | .hang => .hang
    | .err _ => failed "subquery failed to fetch query fields"
    | .ok [] => failed "subquery does not return any fields"
    | .ok (f :: fs) => match gather (f :: fs) with
      | .ok (names, true) => .ok ⟨none, alias, names, names, query⟩
      | .ok (names, false) => .ok ⟨some "subquery field needs a name or an alias", alias, names, [], query⟩
      | .panic => .panic
      | .hang => .hang
      | .err e => .err e

/-- subquery.go:76-86 `Subquery.Field`. -/
def Subquery.field (s : Subquery) (f : Str) : Node := .checkedField true s.cache { tableAlias := s.alias, name := f }

/-- The value as it stands in FROM or JOIN. -/
def Subquery.node (s : Subquery) : Node := .subquery s.sticky s.alias s.query

end Sq.Deriving
