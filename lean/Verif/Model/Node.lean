import Verif.Model.Render
/-
`Node`: the values a user can build with package sq (and plain Go values), as data; `ren`: the rendering
method of each of them.  Go's static typing (a `Field` where a field is expected, ...) is not enforced by
`Node`; theorems that quantify over all nodes cover a superset of the programs that compile.
-/
namespace Sq

/-- What `InjectPredicate` does in an environment; `pred` means: returns the table's predicate for that
environment (third component of `Node.table`). -/
inductive HookKind where
  | none
  | err (msg : Str)
  | pred
  deriving DecidableEq

/-- The interfaces a user-defined type can implement. -/
inductive ExtKind where
  | field
  | table
  | query
  | app
  deriving DecidableEq

def ExtKind.kind : ExtKind → Kind
  | .field => .field
  | .table => .table
  | .query => .query
  | .app => .app

inductive Node where
  /-- nil interface -/
  | nil
  /-- a plain value that is no appender and no slice -/
  | scalar (a : Scalar)
  /-- an explodable slice (sq.go:150-157) -/
  | slice (id : Nat) (xs : List Node)
  /-- sql.NamedArg -/
  | namedArg (name : Str) (v : Scalar)
  /-- NamedParam (param.go) -/
  | param (name : Str) (v : Node)
  /-- the typed fields (NumberField, StringField, BooleanField, ..., CustomField) and, with `raw`, a bare
  FieldInfo, which alone passes the environment on.  `neg` is BooleanField.Negative. -/
  | field (fi : FInfo) (raw neg : Bool) (vals : List Node)
  /-- CTEField / SubqueryField: `avail` are the keys of fieldCache -/
  | checkedField (sub : Bool) (avail : List Str) (fi : FInfo)
  /-- custom_field.go:112-114 `Literal` -/
  | literal (s alias : Str)
  /-- FieldValue (custom_field.go:144-146 `Value`) -/
  | value (v : Node) (alias : Str)
  /-- CustomPredicate -/
  | cpred (alias fmt : Str) (neg : Bool) (vals : List Node)
  /-- VariadicPredicate -/
  | vpred (top : Bool) (alias : Str) (isOr neg : Bool) (ps : List Node)
  | predCases (alias : Str) (cases : List (Node × Node)) (fallback : Node)
  | simpleCases (alias : Str) (expr : Node) (cases : List (Node × Node)) (fallback : Node)
  | window (part order : List Node) (frame : Str)
  | rowValue (vs : List Node)
  | rowValues (rows : List (List Node))
  | assign (l r : Node)
  | assigns (as : List (Node × Node))
  | fields (fs : List Node)
  /-- TableInfo or a user struct embedding it, possibly with a predicate hook -/
  | table (schema name alias : Str) (hk : Env → HookKind) (hp : Env → Node)
  /-- Tablef (fmt.go:527-529) -/
  | customTable (fmt : Str) (vals : List Node)
  | join (jt : Str) (tbl on : Node)
  | cte (c : CteMeta) (q : Node)
  | subquery (sticky : Option Str) (alias : Str) (q : Node)
  | vquery (top : Bool) (op : Str) (qs : List Node)
  /-- Queryf -/
  | customQuery (dialect : Dialect) (fmt : Str) (vals : List Node)
  | select (q : SelMeta) (ctes fields distinctOn : List Node) (from_ : Node) (joins : List Node)
      (where_ : Node) (groupBy : List Node) (having : Node) (orderBy : List Node)
  | insert (q : InsMeta) (ctes : List Node) (into : Node) (columns : List Node) (rows : List (List Node))
      (sets : List (Node × Node)) (sel : Node) (conflictFields : List Node) (conflictPred : Node)
      (resolution : List (Node × Node)) (resolutionPred : Node) (returning : List Node)
  | update (q : ModMeta) (ctes : List Node) (table from_ : Node) (joins : List Node)
      (assigns sets : List (Node × Node)) (where_ : Node) (orderBy returning : List Node)
  | delete (q : ModMeta) (ctes froms : List Node) (using_ : Node) (joins : List Node)
      (where_ : Node) (orderBy returning : List Node)
  /-- a user-defined Field/Predicate, Table, Query or other SQLAppender: any method that writes to the buffer,
  the args and the params only through the package (`BufferPrintf`, `BufferPrintValue`, other appenders) -/
  | ext (k : ExtKind) (alias name : Str) (act : Mode → W)

namespace Node

/-- Dynamic type. -/
def kind : Node → Kind
  | .nil => .nilv
  | .scalar a => .scalar a
  | .slice id _ => .slice id
  | .namedArg n v => .namedArg n v
  | .param _ _ | .field _ _ _ _ | .checkedField _ _ _ | .literal _ _ | .value _ _ | .cpred _ _ _ _
  | .predCases _ _ _ | .simpleCases _ _ _ _ => .field
  | .vpred _ _ _ _ ps => .vpred ps.length
  | .rowValue _ => .rowvalue
  | .window _ _ _ | .rowValues _ | .assign _ _ | .assigns _ | .fields _ | .join _ _ _ => .app
  | .table _ _ _ _ _ | .customTable _ _ | .subquery _ _ _ => .table
  | .cte c _ => .cte c.isRec
  | .vquery _ _ _ => .vquery
  | .customQuery _ _ _ | .select _ _ _ _ _ _ _ _ _ _ | .insert _ _ _ _ _ _ _ _ _ _ _ _
  | .update _ _ _ _ _ _ _ _ _ _ | .delete _ _ _ _ _ _ _ _ => .query
  | .ext k _ _ _ => k.kind

/-- `GetAlias()` (param.go:20-25, custom_field.go:128-136 delegate to the wrapped value; the others return the alias they store, or ""):
blob_field.go:20, boolean_field.go:23, case.go:21, 97, cte.go:24, 207, custom_field.go:23, 108, field_info.go:35, fmt.go:531,
json_field.go:24, number_field.go:17, predicate.go:30, rowvalue.go:28, string_field.go:15, subquery.go:97, time_field.go:18,
uuid_field.go:24.  Set by `As` (custom_field.go:116-119, 148-151, predicate.go:25-28). -/
def alias : Node → Str
  | .param _ v => v.alias
  | .field fi _ _ _ | .checkedField _ _ fi => fi.alias
  | .literal _ a => a
  | .value v a => if a = [] then v.alias else a
  | .cpred a _ _ _ | .vpred _ a _ _ _ | .predCases a _ _ | .simpleCases a _ _ _ => a
  | .table _ _ a _ _ | .subquery _ a _ => a
  | .cte c _ => c.alias
  | .ext _ a _ _ => a
  | _ => []

/-- `GetName()` (param.go:27-32 delegates; the others return the name they store, or ""): boolean_field.go:25, case.go:23, 99,
cte.go:26, 209, custom_field.go:25, 110, 138, field_info.go:37, fmt.go:533, json_field.go:26, number_field.go:19, predicate.go:32,
rowvalue.go:26, string_field.go:17, subquery.go:99, time_field.go:20, uuid_field.go:26. -/
def name : Node → Str
  | .param _ v => v.name
  | .field fi _ _ _ | .checkedField _ _ fi => fi.name
  | .literal s _ => s
  | .table _ n _ _ _ => n
  | .cte c _ => c.name
  | .ext _ _ n _ => n
  | _ => []

/-- The key under which `BufferPrintf` finds the value by name (fmt.go:26-33). -/
def key : Node → Option Str
  | .param n _ => some n
  | .namedArg n _ => some n
  | _ => none

end Node

/-- The interface value of a node, given its methods. -/
def mkPV (n : Node) (act : Mode → Str → W) (hook : Env → HookRes) : PV :=
  { kind := n.kind, alias := n.alias, name := n.name, key := n.key, act := act, hook := hook }

mutual

/-- `BufferPrintValue(dialect, buf, args, params, env, excluded, value, pn)` for each kind of value
(fmt.go:121-191), i.e. the `AppendSQLExclude`/`AppendSQL` method of each type. -/
def ren : Node → Mode → Str → W
  | .nil, _, pn => .emit (.bind pn (.val .nil))
  | .scalar a, _, pn => .emit (.bind pn (.val a))
  | .slice _ xs, m, _ => explodeSlice m ((objs xs).map PV.toObj)
  | .namedArg n v, m, _ => namedArgAppend m n v
  | .param n v, m, _ => paramAppend m n (mkPV v (ren v) (hookOf v)).toObj
  -- blob_field.go:24, boolean_field.go:27-32, number_field.go:13, custom_field.go:27-29, json_field.go:20-22, string_field.go:11-13,
  -- time_field.go:14-16, uuid_field.go:20-22: nil environment; with a format (string_field.go:28-33, time_field.go:31-36) the same
  | .field fi raw neg vals, m, _ =>
    .when neg (.wr "NOT ") ⨟
    fieldInfoAppend (if raw then m.std else m.call none m.ex) fi ((objs vals).map PV.toObj)
  | .checkedField sub avail fi, m, _ => checkedFieldAppend m.std sub avail fi
  | .literal s _, _, _ => .wr s                                            -- custom_field.go:103-106
  | .value v _, m, _ => ren v m.std []                                     -- custom_field.go:140-142
  | .cpred _ fmt neg vals, m, _ => customPredAppend m.std neg fmt ((objs vals).map PV.toObj)
  | .vpred top _ isOr neg ps, m, _ =>
    if m.meth = .whereTrue ∧ ps.length = 0 then variadicAppend m true isOr neg [truePred]
    else variadicAppend m (effTop m top) isOr neg ((objs ps).map PV.toObj)
  | .predCases _ cases fb, m, _ => predCasesAppend m.std (pairs cases) (mkPV fb (ren fb) (hookOf fb)).toObj
  | .simpleCases _ e cases fb, m, _ => simpleCasesAppend m.std (mkPV e (ren e) (hookOf e)).toObj (pairs cases) (mkPV fb (ren fb) (hookOf fb)).toObj
  | .window part order frame, m, _ =>
    windowAppend m.std ((objs part).map PV.toObj) ((objs order).map PV.toObj) frame
  | .rowValue vs, m, _ => rowValueAppend m.std ((objs vs).map PV.toObj)
  | .rowValues rows, m, _ => rowValuesAppend m.std (objss rows)
  | .assign l r, m, _ => assignAppend m.std (mkPV l (ren l) (hookOf l)).toObj (mkPV r (ren r) (hookOf r)).toObj
  | .assigns as, m, _ => assignsAppend m.std (pairs as)
  | .fields fs, m, _ => fieldsAppend m.std ((objs fs).map PV.toObj)
  | .table schema name _ _ _, m, _ => tableAppend m schema name
  | .customTable fmt vals, m, _ => bprintf (m.call m.env []) fmt ((objs vals).map PV.toObj)  -- fmt.go:535-537
  | .join jt tbl on, m, _ => joinAppend m jt (mkPV tbl (ren tbl) (hookOf tbl)).toObj (mkPV on (ren on) (hookOf on)).toObj
  | .cte c q, m, _ => if m.meth = .cteDef then cteDefAppend m c (mkPV q (ren q) (hookOf q)).toObj else cteRefAppend c
  | .subquery sticky alias q, m, _ => subqueryAppend m sticky alias (mkPV q (ren q) (hookOf q)).toObj
  | .vquery top op qs, m, _ => variadicQueryAppend m (effTop m top) op ((objs qs).map PV.toObj)
  | .customQuery _ fmt vals, m, _ => bprintf (m.call m.env []) fmt ((objs vals).map PV.toObj)  -- fmt.go:563-565
  | .select q ctes fields distinctOn from_ joins where_ groupBy having orderBy, m, _ =>
    selectAppend m q ((objs ctes).map PV.toObj) ((objs fields).map PV.toObj) ((objs distinctOn).map PV.toObj)
      (mkPV from_ (ren from_) (hookOf from_)) (objs joins) (mkPV where_ (ren where_) (hookOf where_)).toObj ((objs groupBy).map PV.toObj) (mkPV having (ren having) (hookOf having)).toObj
      ((objs orderBy).map PV.toObj)
  | .insert q ctes into columns rows sets sel cf cp resolution rp returning, m, _ =>
    insertAppend m q ((objs ctes).map PV.toObj) (mkPV into (ren into) (hookOf into)).toObj ((objs columns).map PV.toObj) (objss rows)
      (pairs sets) (mkPV sel (ren sel) (hookOf sel)).toObj ((objs cf).map PV.toObj) (mkPV cp (ren cp) (hookOf cp)).toObj (pairs resolution) (mkPV rp (ren rp) (hookOf rp)).toObj
      ((objs returning).map PV.toObj)
  | .update q ctes table from_ joins as sets where_ orderBy returning, m, _ =>
    updateAppend m q ((objs ctes).map PV.toObj) (mkPV table (ren table) (hookOf table)) (mkPV from_ (ren from_) (hookOf from_)) (objs joins) (pairs as) (pairs sets)
      (mkPV where_ (ren where_) (hookOf where_)).toObj ((objs orderBy).map PV.toObj) ((objs returning).map PV.toObj)
  | .delete q ctes froms using_ joins where_ orderBy returning, m, _ =>
    deleteAppend m q ((objs ctes).map PV.toObj) (objs froms) (mkPV using_ (ren using_) (hookOf using_)).toObj ((objs joins).map PV.toObj)
      (mkPV where_ (ren where_) (hookOf where_)).toObj ((objs orderBy).map PV.toObj) ((objs returning).map PV.toObj)
  | .ext _ _ _ act, m, _ => act m.std

/-- `InjectPredicate(env)`; for a join, that of the joined table. -/
def hookOf : Node → Env → HookRes
  | .table _ _ _ hk hp, env =>
    match hk env with
    | .none => .none
    | .err e => .err e
    | .pred =>
      .pred { kind := (hp env).kind, alias := (hp env).alias, name := (hp env).name, key := (hp env).key,
              act := ren (hp env) }
  | .join _ tbl _, env => hookOf tbl env
  | _, _ => .none

def objs : List Node → List PV
  | [] => []
  | n :: ns => mkPV n (ren n) (hookOf n) :: objs ns

def objss : List (List Node) → List (List Obj)
  | [] => []
  | r :: rs => ((objs r).map PV.toObj) :: objss rs

def pairs : List (Node × Node) → List (Obj × Obj)
  | [] => []
  | (a, b) :: ps => ((mkPV a (ren a) (hookOf a)).toObj, (mkPV b (ren b) (hookOf b)).toObj) :: pairs ps

end

/-- The interface value of a node. -/
def obj (n : Node) : PV := mkPV n (ren n) (hookOf n)

/-- sq.go:113-127 `ToSQL` for a given (already chosen) dialect: query text, args, params, status. -/
structure Rendered where
  query : Str
  args : List Arg
  params : Params
  pieces : List Piece
  status : Status

def toSQL (d : Dialect) (n : Node) : Rendered :=
  let w := ren n { d := d } []
  let s := exec d w.code {}
  { query := bufString d s.out, args := s.args, params := s.params, pieces := s.out, status := w.st }

end Sq
