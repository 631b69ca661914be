import Verif.Basic
/-
Model of row.go (`Row`), fetch.go:13-170 (`fetchContext`), fetch.go:248-357 (`fetchExistsContext`) and exec.go
(`execContext`).

Not modelled: nil `db`/`q`/`rowmapper` arguments (checked first, fetch.go:34-42), timing, caller info and the text of
accumulated results; asynchronous logging is the same call made later; reads made inside `Process` (they are not registered);
`rows.Err()` after the mapper closed the row early (nil by database/sql's contract).
-/
namespace Sq.Fetching

/-- The kinds of scan destinations (row.go): the `sql.Null...` types, `[]byte`, and "any other pointer" (with a type id). -/
inductive Kind where
  | bool | float | int64 | int32 | string | time | bytes
  | custom (type : Nat)
  deriving DecidableEq

/-- What a row mapper does, step by step.  `F`: fields, `V`: Go values, `E`: observable side effects of the mapper on the
outside world (variables it captured).  -/
inductive Prog (F V E : Type) where
  | ret
  /-- a call of one of the reading methods (row.go:61-324): `Bool`, `Int`, `String`, `ScanInto`, ... -/
  | read (kind : Kind) (f : F) (k : V → Prog F V E)
  /-- user code outside `Process` -/
  | effect (e : E) (k : Prog F V E)
  /-- `row.IsActive()` (row.go:60) -/
  | isActive (k : Bool → Prog F V E)
  /-- `row.Process(fn)` / `row.ProcessErr(fn)` (row.go:35-51): `fn` has effects `es`, may call `row.Close()` and may return an
  error -/
  | process (es : List E) (cl : Bool) (err : Option Str) (k : Prog F V E)
  /-- `row.Close()` (row.go:55) -/
  | close (k : Prog F V E)
  /-- a panic in user code, with an `error` value or something else -/
  | panic (e : Option Str)

/-- row.go:14-23 `Row`.  (The exported accessors of its fields, row.go:24-33, are for other packages and are not used here.) -/
structure RowSt (F V : Type) where
  active : Bool := false
  index : Nat := 0
  fields : List F := []
  dest : List (Kind × V) := []
  processingErr : Option Str := none
  processed : Bool := false
  closed : Bool := false

/-- How a call of the mapper ended. -/
inductive Ended where
  | done
  | panicErr (e : Str)     -- a panic whose value is an `error` (includes all runtime errors)
  | crash                  -- any other panic
  deriving DecidableEq

/-- Running a mapper on a `Row`; the list collects its side effects. -/
def run {F V E : Type} (zero : Kind → V) : Prog F V E → RowSt F V → List E → Ended × RowSt F V × List E
  | .ret, r, tr => (.done, r, tr)
  | .read kind f k, r, tr =>
    if r.active = false then                       -- e.g. row.go:195-200
      run zero (k (zero kind)) { r with fields := r.fields ++ [f], dest := r.dest ++ [(kind, zero kind)] } tr
    else match r.dest[r.index]? with               -- e.g. row.go:201-203
      | none => (.panicErr "index out of range", r, tr)
      | some (kind', v) =>
        if kind' = kind then run zero (k v) { r with index := r.index + 1 } tr
        else (.panicErr "interface conversion", r, tr)
  | .effect e k, r, tr => run zero k r (tr ++ [e])
  | .isActive k, r, tr => run zero (k r.active) r tr
  | .process es cl err k, r, tr =>
    if r.active = false ∨ r.processed = true then run zero k r tr
    else run zero k { r with processed := true, processingErr := err, closed := r.closed || cl } (tr ++ es)
  | .close k, r, tr => run zero k { r with closed := true } tr
  | .panic (some e), r, tr => (.panicErr e, r, tr)
  | .panic none, r, tr => (.crash, r, tr)

/-- An open result set: its rows, the error `rows.Err()` reports when iteration ends, and the error of `rows.Close()`. -/
structure Rows (Raw : Type) where
  rows : List (List Raw)
  endErr : Option Str := none
  closeErr : Option Str := none

/-- `rows.Scan(dest...)`: one destination per column, each value converted. -/
def scan {V Raw : Type} (conv : Kind → Raw → Option V) : List (Kind × V) → List Raw → Option (List (Kind × V))
  | [], [] => some []
  | (k, _) :: ds, x :: xs =>
    match conv k x, scan conv ds xs with
    | some v, some rest => some ((k, v) :: rest)
    | _, _ => none
  | _, _ => none

/-- How the loop fetch.go:124-149 ended. -/
inductive LoopEnd where
  | exhausted | closedEarly | err (e : Str) | panicErr (e : Str) | crash
  deriving DecidableEq

/-- fetch.go:124-149: the loop over the rows.  Returns the row count, how it ended and the side effects. -/
def loop {F V E Raw : Type} (zero : Kind → V) (conv : Kind → Raw → Option V) (mapper : List E → Prog F V E) :
    RowSt F V → List E → Nat → List (List Raw) → Nat × LoopEnd × List E
  | _, tr, n, [] => (n, .exhausted, tr)
  | r, tr, n, x :: xs =>
    match scan conv r.dest x with
    | none => (n + 1, .err "scan", tr)
    | some dest =>
      let r := { r with dest := dest, index := 0, processed := false }     -- RowReset
      match run zero (mapper tr) r tr with
      | (.panicErr e, _, tr) => (n + 1, .panicErr e, tr)
      | (.crash, _, tr) => (n + 1, .crash, tr)
      | (.done, r, tr) =>
        match r.processingErr with
        | some e => (n + 1, .err e, tr)
        | none => if r.closed then (n + 1, .closedEarly, tr) else loop zero conv mapper r tr (n + 1) xs

/-- How the call ended for the caller. -/
inductive Fin where
  | ok
  | err (e : Str)
  | crash       -- the panic propagates to the caller
  deriving DecidableEq

/-- Everything observable about one call of `fetchContext`. -/
structure Outcome (Ctx E : Type) where
  count : Nat := 0
  fin : Fin
  trace : List E
  /-- the context handed to `db.QueryContext`, if it was called -/
  ctx : Option Ctx := none
  opened : Bool := false
  closed : Bool := false
  /-- the `QueryStats` logged: row count and error -/
  log : Option (Nat × Option Str) := none

/-- The database and the query, as seen by `fetchContext`. -/
structure World (Ctx F Raw : Type) where
  /-- `q.SetFetchableFields(fields)` -/
  setFields : List F → Option Str := fun _ => none
  /-- `q.AppendSQL`: an error, if any -/
  render : List F → Option Str := fun _ => none
  /-- `db.QueryContext` with the rendered query selecting these fields -/
  query : Ctx → List F → Except Str (Rows Raw)
  /-- the database is a `LoggerDB` whose settings are available (fetch.go:46-54) -/
  logs : Bool := false

/-- The part of `fetchContext` after `rows` was opened and `defer rows.Close()` registered (fetch.go:119-164).  `closed` is
set here only by the explicit `rows.Close()` of line 150.  On a panic `err` still is nil, so nil is what gets logged. -/
def afterOpen {Ctx F V E Raw : Type} (logs : Bool) (zero : Kind → V) (conv : Kind → Raw → Option V)
    (mapper : List E → Prog F V E) (ctx : Ctx) (r : RowSt F V) (tr : List E) (rows : Rows Raw) : Outcome Ctx E :=
  let log (n : Nat) (e : Option Str) := if logs then some (n, e) else none
  if r.dest = [] then { fin := .ok, trace := tr, ctx := some ctx, opened := true, log := log 0 none }
  else
    match loop zero conv mapper { r with active := true } tr 0 rows.rows with
    | (n, .err e, tr) => { count := n, fin := .err e, trace := tr, ctx := some ctx, opened := true, log := log n (some e) }
    | (n, .panicErr e, tr) => { count := n, fin := .err e, trace := tr, ctx := some ctx, opened := true, log := log n none }
    | (n, .crash, tr) => { count := n, fin := .crash, trace := tr, ctx := some ctx, opened := true, log := log n none }
    | (n, .exhausted, tr) =>
      let e := rows.closeErr.or rows.endErr
      { count := n, fin := match e with | none => .ok | some e => .err e
        trace := tr, ctx := some ctx, opened := true, closed := true, log := log n e }
    | (n, .closedEarly, tr) =>
      let e := rows.closeErr
      { count := n, fin := match e with | none => .ok | some e => .err e
        trace := tr, ctx := some ctx, opened := true, closed := true, log := log n e }

/-- `defer rows.Close()` (fetch.go:118): runs however the function ends. -/
def deferClose {Ctx E : Type} (o : Outcome Ctx E) : Outcome Ctx E := { o with closed := true }

/-- fetch.go:21-170 `fetchContext`.  The deferred functions run in the order: `rows.Close`, logging, buffers, `recover`; so a
panic is logged before it becomes an error. -/
def fetchContext {Ctx F V E Raw : Type} (w : World Ctx F Raw) (zero : Kind → V) (conv : Kind → Raw → Option V)
    (mapper : List E → Prog F V E) (ctx : Ctx) (tr : List E) : Outcome Ctx E :=
  match run zero (mapper tr) {} tr with
  | (.panicErr e, _, tr) => { fin := .err e, trace := tr }
  | (.crash, _, tr) => { fin := .crash, trace := tr }
  | (.done, r, tr) =>
    let log (e : Option Str) := if w.logs then some (0, e) else none
    match w.setFields r.fields with
    | some e => { fin := .err e, trace := tr }
    | none =>
      match w.render r.fields with
      | some e => { fin := .err e, trace := tr, log := log (some e) }
      | none =>
        match w.query ctx r.fields with
        | .error e => { fin := .err e, trace := tr, ctx := some ctx, log := log (some e) }
        | .ok rows => deferClose (afterOpen w.logs zero conv mapper ctx r tr rows)

/-- fetch.go:17-19 `FetchContext`. -/
def FetchContext {Ctx F V E Raw : Type} (w : World Ctx F Raw) (zero : Kind → V) (conv : Kind → Raw → Option V)
    (mapper : List E → Prog F V E) (ctx : Ctx) (tr : List E) : Outcome Ctx E := fetchContext w zero conv mapper ctx tr

/-! ### FetchExists -/

structure ExistsWorld (Ctx Raw : Type) where
  /-- `q.GetFetchableFields()`, then `q.SetFetchableFields` if there are none: an error, if any -/
  early : Option Str := none
  /-- `q.AppendSQL`: an error, if any -/
  prepare : Option Str := none
  query : Ctx → Except Str (Rows Raw)
  logs : Bool := false

structure ExistsOutcome (Ctx : Type) where
  exist : Bool := false
  fin : Fin
  ctx : Option Ctx := none
  opened : Bool := false
  closed : Bool := false
  /-- the `QueryStats` logged: existence flag and error -/
  log : Option (Bool × Option Str) := none

/-- fetch.go:256-357 `fetchExistsContext`: scan the first row, if any. -/
def fetchExistsContext {Ctx Raw : Type} (w : ExistsWorld Ctx Raw) (conv : List Raw → Option Bool) (ctx : Ctx) :
    ExistsOutcome Ctx :=
  let log (b : Bool) (e : Option Str) := if w.logs then some (b, e) else none
  match w.early with
  | some e => { fin := .err e }
  | none =>
  match w.prepare with
  | some e => { fin := .err e, log := log false (some e) }
  | none =>
    match w.query ctx with
    | .error e => { fin := .err e, ctx := some ctx, log := log false (some e) }
    | .ok rows =>
      let finish (b : Bool) (e : Option Str) : ExistsOutcome Ctx :=
        { exist := b, fin := match e with | none => .ok | some e => .err e, ctx := some ctx, opened := true, closed := true
          log := log b e }
      match rows.rows with
      | [] => finish false (rows.closeErr.or rows.endErr)
      | x :: _ =>
        match conv x with
        | none => finish false (some "scan")
        | some b => finish b rows.closeErr

/-- fetch.go:252-254 `FetchExistsContext`: the context argument is not used. -/
def FetchExistsContext {Ctx Raw : Type} (background : Ctx) (w : ExistsWorld Ctx Raw) (conv : List Raw → Option Bool) (_ctx : Ctx) :
    ExistsOutcome Ctx := fetchExistsContext w conv background

/-! ### Exec -/

structure ExecWorld (Ctx : Type) where
  dialect : Dialect
  render : Option Str := none
  exec : Ctx → Except Str (Except Str Int × Except Str Int)   -- RowsAffected(), LastInsertId() of the result
  logs : Bool := false

structure ExecOutcome (Ctx : Type) where
  rowsAffected : Int := 0
  lastInsertID : Int := 0
  err : Option Str := none
  ctx : Option Ctx := none
  /-- the `QueryStats` logged: rows affected and last insert id (if valid) and the error -/
  log : Option (Option Int × Option Int × Option Str) := none

/-- exec.go:18-120 `execContext`. -/
def execContext {Ctx : Type} (w : ExecWorld Ctx) (ctx : Ctx) : ExecOutcome Ctx :=
  let log (n i : Option Int) (e : Option Str) := if w.logs then some (n, i, e) else none
  match w.render with
  | some e => { err := some e, log := log none none (some e) }
  | none =>
    match w.exec ctx with
    | .error e => { err := some e, ctx := some ctx, log := log none none (some e) }
    | .ok (affected, last) =>
      match affected with
      | .error e => { err := some e, ctx := some ctx, log := log none none (some e) }
      | .ok n =>
        if w.dialect = .sqlite ∨ w.dialect = .mysql then
          match last with
          | .error e => { err := some e, ctx := some ctx, log := log (some n) none (some e) }
          | .ok i => { rowsAffected := n, lastInsertID := i, ctx := some ctx, log := log (some n) (some i) none }
        else { rowsAffected := n, ctx := some ctx, log := log (some n) none none }

/-- exec.go:10-16 `Exec`, `ExecContext`. -/
def ExecContext {Ctx : Type} (w : ExecWorld Ctx) (ctx : Ctx) : ExecOutcome Ctx := execContext w ctx

end Sq.Fetching
