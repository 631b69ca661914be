import Verif.Model.Stats
import Verif.Model.Dialect
import Verif.Model.Derived
/-
Model of `Fetch`, `FetchExists` and `Exec` called with an actual query value: fetch.go:21-162, fetch.go:256-353, exec.go:18-120.  Model/Stats has
these functions for a query of which only the text and the errors are known; here the query is a node of Model/Node, which is asked for its
dialect (Model/Dialect), given the fields that the row mapper reads (Model/Derived) and rendered (Model/Node).

Simplification: the Go type of the query (needed for the log only, C68) and the methods of user-defined queries are parameters.
-/
namespace Sq.Sending
open Sq.Logging
open Sq.Fetching (Prog Rows)

/-- The database, or transaction, and its logger. -/
structure Conn (Ctx Raw : Type) where
  source : LogSource
  query : Ctx → Str → List Arg → Except Str (Rows Raw)
  exec : Ctx → Str → List Arg → Except Str (Except Str Int × Except Str Int)

/-- What is not part of the node: the Go type of the query, the methods of user-defined queries, and what the logger writes for fields and
values. -/
structure Outside (V : Type) where
  value : QueryValue
  own : Node → Dialect
  getFields : Deriving.Ext
  setFields : Node → List Node → Res Node
  name : Node → Str × Except Str Str
  show_ : V → Except Str Str

def resErr {α : Type} : Res α → Option Str
  | .ok _ => none
  | .err e => some e
  | _ => some "panic".toList

/-- `q.AppendSQL(dialect, buf, &args, make(map[string][]int), nil)` on an empty buffer. -/
def appended (d : Dialect) (q : Node) : W := ren q { d := d } []

/-- fetch.go:73-79, 105: the query with the fields of the mapper. -/
def fetchWorld {Ctx V Raw : Type} (o : Outside V) (db : Conn Ctx Raw) (q : Node) (d : Dialect) : World Ctx Node V Raw :=
  { source := db.source, value := o.value, dialect := d
    setFields := fun fs => resErr (Deriving.setFetchable o.setFields fs q)
    render := fun fs => match Deriving.setFetchable o.setFields fs q with
      | .ok q' => appended d q'
      | _ => { code := [], st := .ok }
    answer := db.query, name := o.name, show_ := o.show_ }

/-- fetch.go:21-162 with the checks of lines 37-39.  `GetDialect` is called before the mapper (line 72); if it panics (a set operation whose first
query is nil), the panic is recovered. -/
def fetch {Ctx V E Raw : Type} (o : Outside V) (db : Conn Ctx Raw) (q : Node) (zero : Fetching.Kind → V) (conv : Fetching.Kind → Raw → Option V)
    (mapper : List E → Prog Node V E) (ctx : Ctx) (tr : List E) : Outcome Ctx E :=
  match q with
  | .nil => { fin := .err "sq: query is nil", trace := tr }
  | q =>
    match Dial.getDialect o.own q with
    | .ok d => fetchContext (fetchWorld o db q d) zero conv mapper ctx tr
    | _ => match db.source with
      | .fails e => { fin := .err e, trace := tr }
      | _ => { fin := .err "panic", trace := tr }

/-- fetch.go:291-300: a query that selects nothing selects the literal 1. -/
def existsQuery {V : Type} (o : Outside V) (q : Node) : Res Node :=
  (Deriving.fetchable o.getFields q).bind fun fields =>
    if fields = [] then Deriving.setFetchable o.setFields [.literal "1".toList []] q else .ok q

def existsWorld {Ctx V Raw : Type} (o : Outside V) (db : Conn Ctx Raw) (q : Node) (d : Dialect) : ExistsWorld Ctx Raw :=
  { source := db.source, value := o.value, dialect := d, early := resErr (existsQuery o q)
    render := match existsQuery o q with
      | .ok q' => appended d q'
      | _ => { code := [], st := .ok }
    answer := db.query }

/-- fetch.go:256-353; there is no `recover`. -/
def fetchExists {Ctx V Raw : Type} (o : Outside V) (db : Conn Ctx Raw) (q : Node) (conv : List Raw → Option Bool) (ctx : Ctx) : ExistsOutcome Ctx :=
  match q with
  | .nil => { fin := .err "sq: query is nil" }
  | q =>
    match db.source, Dial.getDialect o.own q with
    | .fails e, _ => { fin := .err e }
    | _, .ok d => match existsQuery o q with
      | .panic => { fin := .crash }
      | _ => fetchExistsContext (existsWorld o db q d) conv ctx
    | _, _ => { fin := .crash }

def execWorld {Ctx V Raw : Type} (o : Outside V) (db : Conn Ctx Raw) (q : Node) (d : Dialect) : ExecWorld Ctx :=
  { source := db.source, value := o.value, dialect := d, render := appended d q, answer := db.exec }

/-- exec.go:18-120. -/
def exec {Ctx V Raw : Type} (o : Outside V) (db : Conn Ctx Raw) (q : Node) (ctx : Ctx) : ExecOutcome Ctx :=
  match q with
  | .nil => { fin := .err "sq: query is nil" }
  | q =>
    match db.source, Dial.getDialect o.own q with
    | .fails e, _ => { fin := .err e }
    | _, .ok d => execContext (execWorld o db q d) ctx
    | _, _ => { fin := .crash }

end Sq.Sending
