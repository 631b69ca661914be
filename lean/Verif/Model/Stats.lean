import Verif.Model.Fetch
import Verif.Model.Logger
import Verif.Model.View
/-
Model of what `Fetch`, `FetchExists` and `Exec` report to a logger: fetch.go:21-162 (`fetchContext`), fetch.go:199-246
(`computeFieldNames`, `accumulateResults`), fetch.go:256-353 (`fetchExistsContext`), exec.go:18-120 (`execContext`).

These are the functions of Model/Fetch with the query itself (its text and arguments, and what the database answers to them), the source of
the log settings, and the whole `QueryStats` value.  Props/Stats shows that they do the same as those of Model/Fetch.

Simplifications: field names and values are written by total functions that may report an error (a panic of `Sprintf` is not modelled here,
see C12); `TimeTaken` is whether it was measured; the caller's file and line are whether they were looked up; asynchronous logging is the same
call made later (see `printed`).
-/
namespace Sq.Logging
open Sq.Fetching

inductive Verb where
  | select | insert | update | delete
  deriving DecidableEq

/-- A query value: one of the four query structs (`goType = none`: `sq.SelectQuery`, `sq.InsertQuery`, ...), or one of the types made from
them for a dialect, which are what the builders return (e.g. select_query_postgres.go:5 `type PostgresSelectQuery SelectQuery`).  `env` is its
`Env`; `tables` are schema and name of the tables it modifies (`none`: nil). -/
structure QueryValue where
  verb : Verb
  goType : Option Dialect
  env : Nat
  tables : List (Option (Str × Str)) := []
  deriving DecidableEq

/-- What `db.(LoggerDB)` and `GetLogSettings` give (fetch.go:46-54). -/
inductive LogSource where
  | noLogger
  | unsupported
  | fails (e : Str)
  | settings (s : LogSettings)
  deriving DecidableEq

/-- logger.go:53-74 `QueryStats`. -/
structure Entry where
  env : Option Nat := none
  dialect : Dialect
  queryType : Str := []
  tableModified : Str × Str := ([], [])
  query : Str := []
  args : List Arg := []
  error : Option Str := none
  rowCount : Option Nat := none
  rowsAffected : Option Int := none
  lastInsertID : Option Int := none
  exists_ : Option Bool := none
  timed : Bool := false
  results : Str := []
  caller : Bool := false
  deriving DecidableEq

def Verb.text : Verb → Str
  | .select => "SELECT".toList
  | .insert => "INSERT".toList
  | .update => "UPDATE".toList
  | .delete => "DELETE".toList

/-- fetch.go:58-71: the type switch, which sees the four structs only. -/
def fetchSwitch (q : QueryValue) (e : Entry) : Entry :=
  match q.goType with
  | some _ => e
  | none => { e with env := some q.env, queryType := q.verb.text }

/-- exec.go:41-68. -/
def execSwitch (q : QueryValue) (e : Entry) : Entry :=
  match q.goType with
  | some _ => e
  | none =>
    { e with env := some q.env, queryType := q.verb.text
             tableModified := match q.verb, q.tables with
               | .select, _ => e.tableModified
               | _, some t :: _ => t
               | _, _ => e.tableModified }

/-- fetch.go:279-289. -/
def existsSwitch (q : QueryValue) (e : Entry) : Entry :=
  match q.goType with
  | some _ => { e with queryType := "SELECT".toList }
  | none => { e with env := some q.env, queryType := "SELECT".toList }

/-- The logger, if there is one that can be used: `logQueryStats != nil`, with its settings. -/
def LogSource.active : LogSource → Option LogSettings
  | .settings s => some s
  | _ => none

/-- `logSettings` (the zero value if they are not available). -/
def LogSource.used (l : LogSource) : LogSettings :=
  l.active.getD { resultsLimit := 0, getCallerInfo := false, asyncLogging := false, timeQuery := false }

def errText (e : Str) : Str := "%!(error=".toList ++ e ++ ")".toList

/-- fetch.go:90-92: the query of an entry, if it was not rendered, and the error. -/
def finishEntry (buf : Str) (err : Option Str) (e : Entry) : Entry :=
  { e with query := match e.query, err with
             | [], some x => buf ++ errText x
             | q, _ => q
           error := err }

def textOf (d : Dialect) (w : W) : Str := bufString d (exec d w.code {}).out
def argsOf (d : Dialect) (w : W) : List Arg := (exec d w.code {}).args

/-- fetch.go:231-246 `accumulateResults`. -/
def rowText {V : Type} (show_ : V → Except Str Str) (names : List Str) (dest : List (Fetching.Kind × V)) (n : Nat) : Str :=
  "\n----[ Row ".toList ++ (toString n).toList ++ " ]----".toList ++
    go names dest
where
  go : List Str → List (Fetching.Kind × V) → Str
    | _, [] => []
    | names, (_, v) :: ds => "\n".toList ++ names.headD [] ++ ": ".toList ++ (match show_ v with | .ok s => s | .error e => errText e) ++ go names.tail ds

/-- fetch.go:199-229 `computeFieldNames`: alias and text of a field. -/
def fieldName (f : Str × Except Str Str) : Str :=
  if f.1 ≠ [] then f.1 else match f.2 with | .ok s => s | .error e => errText e

/-- fetch.go:124-149 with the buffer of the results; cf. `Fetching.loop`. -/
def loopR {F V E Raw : Type} (zero : Fetching.Kind → V) (conv : Fetching.Kind → Raw → Option V) (show_ : V → Except Str Str) (mapper : List E → Prog F V E) (limit : Int) (names : List Str) :
    RowSt F V → List E → Nat → Str → List (List Raw) → Nat × LoopEnd × List E × Str
  | _, tr, n, buf, [] => (n, .exhausted, tr, buf)
  | r, tr, n, buf, x :: xs =>
    match scan conv r.dest x with
    | none => (n + 1, .err "scan", tr, buf)
    | some dest =>
      let buf := if 0 < limit ∧ ((n + 1 : Nat) : Int) ≤ limit then buf ++ rowText show_ names dest (n + 1) else buf
      let r := { r with dest := dest, index := 0, processed := false }
      match run zero (mapper tr) r tr with
      | (.panicErr e, _, tr) => (n + 1, .panicErr e, tr, buf)
      | (.crash, _, tr) => (n + 1, .crash, tr, buf)
      | (.done, r, tr) =>
        match r.processingErr with
        | some e => (n + 1, .err e, tr, buf)
        | none => if r.closed then (n + 1, .closedEarly, tr, buf) else loopR zero conv show_ mapper limit names r tr (n + 1) buf xs

/-- The database and the query, as seen by `fetchContext`. -/
structure World (Ctx F V Raw : Type) where
  source : LogSource
  value : QueryValue
  dialect : Dialect
  /-- `q.SetFetchableFields(fields)` -/
  setFields : List F → Option Str := fun _ => none
  /-- `q.AppendSQL` of the query selecting these fields (if it does not return, status `hang`, nor does the call; the outcome then means nothing) -/
  render : List F → W
  /-- `db.QueryContext` -/
  answer : Ctx → Str → List Arg → Except Str (Rows Raw)
  /-- a field's alias, and its text with arguments put in -/
  name : F → Str × Except Str Str
  /-- `Sprint` of a value -/
  show_ : V → Except Str Str

/-- Everything observable about one call. -/
structure Outcome (Ctx E : Type) where
  count : Nat := 0
  fin : Fin
  trace : List E
  /-- the context, query and arguments handed to the database, if it was asked -/
  sent : Option (Ctx × Str × List Arg) := none
  opened : Bool := false
  closed : Bool := false
  /-- what was handed to the logger, if anything -/
  entry : Option Entry := none

def Fin.ofErr : Option Str → Fin
  | none => .ok
  | some e => .err e

def statusErr : Status → Option Str
  | .ok => none
  | .err e => some e
  | .panic => some "panic".toList
  | .hang => none

/-- The entry before the query is rendered (fetch.go:55-72). -/
def World.entry0 {Ctx F V Raw : Type} (w : World Ctx F V Raw) : Entry :=
  { fetchSwitch w.value { dialect := w.dialect } with caller := w.source.used.getCallerInfo }

/-- The deferred logging function, fetch.go:86-104: `q` is the rendered query, `n` the row count, `res` the text of the results. -/
def World.log {Ctx F V Raw : Type} (w : World Ctx F V Raw) (q : W) (n : Nat) (err : Option Str) (res : Str) (e : Entry) : Option Entry :=
  w.source.active.map fun set =>
    { finishEntry (textOf w.dialect q) err e with
      results := if (0 : Int) < set.resultsLimit then res else [], rowCount := some n, args := argsOf w.dialect q }

/-- fetch.go:158-160. -/
def moreText (limit : Int) (n : Nat) (err : Option Str) : Str :=
  if err = none ∧ 0 < limit ∧ limit < (n : Int) then "\n...\n(".toList ++ (toString ((n : Int) - limit)).toList ++ " more rows)".toList else []

/-- fetch.go:118-161: after `db.QueryContext` succeeded.  Here `closed` is the deferred `rows.Close()`. -/
def afterRows {Ctx F V E Raw : Type} (w : World Ctx F V Raw) (zero : Fetching.Kind → V) (conv : Fetching.Kind → Raw → Option V)
    (mapper : List E → Prog F V E) (r : RowSt F V) (tr : List E) (q : W) (sent : Option (Ctx × Str × List Arg)) (e1 : Entry) (rows : Rows Raw) : Outcome Ctx E :=
  let limit := w.source.used.resultsLimit
  if r.dest = [] then { fin := .ok, trace := tr, sent := sent, opened := true, closed := true, entry := w.log q 0 none [] e1 }
  else
    match loopR zero conv w.show_ mapper limit (r.fields.map fun f => fieldName (w.name f)) { r with active := true } tr 0 [] rows.rows with
    | (n, .err e, tr, buf) => { count := n, fin := .err e, trace := tr, sent := sent, opened := true, closed := true, entry := w.log q n (some e) buf e1 }
    | (n, .panicErr e, tr, buf) => { count := n, fin := .err e, trace := tr, sent := sent, opened := true, closed := true, entry := w.log q n none buf e1 }
    | (n, .crash, tr, buf) => { count := n, fin := .crash, trace := tr, sent := sent, opened := true, closed := true, entry := w.log q n none buf e1 }
    | (n, .exhausted, tr, buf) =>
      let err := rows.closeErr.or rows.endErr
      { count := n, fin := Fin.ofErr err, trace := tr, sent := sent, opened := true, closed := true, entry := w.log q n err (buf ++ moreText limit n err) e1 }
    | (n, .closedEarly, tr, buf) =>
      let err := rows.closeErr
      { count := n, fin := Fin.ofErr err, trace := tr, sent := sent, opened := true, closed := true, entry := w.log q n err (buf ++ moreText limit n err) e1 }

/-- fetch.go:105-117: rendering and sending.  A panic while rendering is recovered and becomes an error (the logged error then is nil). -/
def afterFields {Ctx F V E Raw : Type} (w : World Ctx F V Raw) (zero : Fetching.Kind → V) (conv : Fetching.Kind → Raw → Option V)
    (mapper : List E → Prog F V E) (ctx : Ctx) (r : RowSt F V) (tr : List E) (q : W) : Outcome Ctx E :=
  match statusErr q.st with
  | some e => { fin := .err e, trace := tr, entry := w.log q 0 (if q.st = .panic then none else some e) [] w.entry0 }
  | none =>
    let text := textOf w.dialect q
    let args := argsOf w.dialect q
    let e1 := { w.entry0 with query := text, timed := w.source.used.timeQuery }
    match w.answer ctx text args with
    | .error e => { fin := .err e, trace := tr, sent := some (ctx, text, args), entry := w.log q 0 (some e) [] e1 }
    | .ok rows => afterRows w zero conv mapper r tr q (some (ctx, text, args)) e1 rows

/-- fetch.go:21-162 `fetchContext`. -/
def fetchContext {Ctx F V E Raw : Type} (w : World Ctx F V Raw) (zero : Fetching.Kind → V) (conv : Fetching.Kind → Raw → Option V)
    (mapper : List E → Prog F V E) (ctx : Ctx) (tr : List E) : Outcome Ctx E :=
  match w.source with
  | .fails e => { fin := .err e, trace := tr }
  | _ =>
    match run zero (mapper tr) {} tr with
    | (.panicErr e, _, tr) => { fin := .err e, trace := tr }
    | (.crash, _, tr) => { fin := .crash, trace := tr }
    | (.done, r, tr) =>
      match w.setFields r.fields with
      | some e => { fin := .err e, trace := tr }
      | none => afterFields w zero conv mapper ctx r tr (w.render r.fields)

/-! ### FetchExists -/

structure ExistsWorld (Ctx Raw : Type) where
  source : LogSource
  value : QueryValue
  dialect : Dialect
  early : Option Str := none
  render : W
  answer : Ctx → Str → List Arg → Except Str (Rows Raw)

structure ExistsOutcome (Ctx : Type) where
  exist : Bool := false
  fin : Fin
  sent : Option (Ctx × Str × List Arg) := none
  entry : Option Entry := none

/-- fetch.go:256-353 `fetchExistsContext`.  There is no `recover`: a panic while rendering goes to the caller (after logging). -/
def fetchExistsContext {Ctx Raw : Type} (w : ExistsWorld Ctx Raw) (conv : List Raw → Option Bool) (ctx : Ctx) : ExistsOutcome Ctx :=
  match w.source with
  | .fails e => { fin := .err e }
  | _ =>
    match w.early with
    | some e => { fin := .err e }
    | none =>
      let set := w.source.used
      let e0 : Entry := { existsSwitch w.value { dialect := w.dialect } with caller := set.getCallerInfo }
      let text := textOf w.dialect w.render
      let args := argsOf w.dialect w.render
      let open_ := "SELECT EXISTS (".toList
      let log (buf : Str) (b : Bool) (err : Option Str) (e : Entry) : Option Entry :=
        w.source.active.map fun _ => { finishEntry buf err e with exists_ := some b, args := args }
      match w.render.st with
      | .err e => { fin := .err e, entry := log (open_ ++ text) false (some e) e0 }
      | .panic => { fin := .crash, entry := log (open_ ++ text) false none e0 }
      | _ =>
        let q := open_ ++ text ++ ")".toList
        let e1 := { e0 with query := q, timed := set.timeQuery }
        let done (b : Bool) (err : Option Str) : ExistsOutcome Ctx :=
          { exist := b, fin := Fin.ofErr err, sent := some (ctx, q, args), entry := log q b err e1 }
        match w.answer ctx q args with
        | .error e => done false (some e)
        | .ok rows =>
          match rows.rows with
          | [] => done false (rows.closeErr.or rows.endErr)
          | x :: _ => match conv x with
            | none => done false (some "scan")
            | some b => done b rows.closeErr

/-! ### Exec -/

structure ExecWorld (Ctx : Type) where
  source : LogSource
  value : QueryValue
  dialect : Dialect
  render : W
  answer : Ctx → Str → List Arg → Except Str (Except Str Int × Except Str Int)

structure ExecOutcome (Ctx : Type) where
  rowsAffected : Int := 0
  lastInsertID : Int := 0
  fin : Fin
  sent : Option (Ctx × Str × List Arg) := none
  entry : Option Entry := none

/-- exec.go:18-120 `execContext`. -/
def execContext {Ctx : Type} (w : ExecWorld Ctx) (ctx : Ctx) : ExecOutcome Ctx :=
  match w.source with
  | .fails e => { fin := .err e }
  | _ =>
    let set := w.source.used
    let e0 : Entry := { execSwitch w.value { dialect := w.dialect } with caller := set.getCallerInfo }
    let text := textOf w.dialect w.render
    let args := argsOf w.dialect w.render
    let log (err : Option Str) (e : Entry) : Option Entry := w.source.active.map fun _ => { finishEntry text err e with args := args }
    match w.render.st with
    | .err e => { fin := .err e, entry := log (some e) e0 }
    | .panic => { fin := .crash, entry := log none e0 }
    | _ =>
      let e1 := { e0 with query := text, timed := set.timeQuery }
      let sent := some (ctx, text, args)
      match w.answer ctx text args with
      | .error e => { fin := .err e, sent := sent, entry := log (some e) e1 }
      | .ok (affected, last) =>
        match affected with
        | .error e => { fin := .err e, sent := sent, entry := log (some e) e1 }
        | .ok n =>
          let e2 := { e1 with rowsAffected := some n }
          if w.dialect = .sqlite ∨ w.dialect = .mysql then
            match last with
            | .error e => { fin := .err e, sent := sent, entry := log (some e) e2 }
            | .ok i => { rowsAffected := n, lastInsertID := i, fin := .ok, sent := sent, entry := log none { e2 with lastInsertID := some i } }
          else { rowsAffected := n, fin := .ok, sent := sent, entry := log none e2 }

/-! ### Printing -/

/-- logger.go:136-141: `LogQueryStats` prints nothing if the context is done by then. -/
def printed (ctxDone : Bool) (flag : Nat) (s : QueryStats) : Option Str := if ctxDone then none else some (logText flag s)

end Sq.Logging
