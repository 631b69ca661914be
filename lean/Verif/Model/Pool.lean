import Verif.Model.Machine
import Verif.Model.Quote
import Verif.Model.Sprintf
import Verif.Model.Filter
import Verif.Model.GenName
import Verif.Model.Logger
/-
Model of concurrent use of the package: the shared state is the pools of buffers and argument slices (sq.go:17-20, ddl/ddl.go:16-19) and
the template cache of a `DatabaseIntrospector` with its mutex (ddl/introspect.go:52-53).

A goroutine is a program over that state (`Prog`).  Objects are referred to by the order in which the goroutine obtained them, so that a
program may use an object after giving it back, give it back twice, or not at all; nothing in the language forbids it.  A buffer and a
slice of arguments are both a `Cell` (text, arguments).  `sync.Pool` may hand out any object it holds, or a new one, and may drop objects
at any time.  The mutex is Go's `RWMutex`: a waiting writer keeps new readers out.

Simplifications: one introspector; the two packages' pools of the same kind are one; several writes in a row to one's own object may be
one step.
-/
namespace Sq.Conc

/-- The two pools (sq.go:18-19). -/
inductive Pool where
  | buf | args
  deriving DecidableEq

/-- The contents of a buffer (`text`) or of a slice (`args`). -/
structure Cell where
  text : Str := []
  args : List Arg := []
  deriving DecidableEq

/-- What a goroutine does.  `T`: parsed templates, `R`: results. -/
inductive Prog (T R : Type) where
  | ret (r : R)
  /-- `pool.Get()`, or (`none`) `make`/`new`/`var` -/
  | get (p : Option Pool) (k : Nat → Prog T R)
  | modify (h : Nat) (f : Cell → Cell) (k : Prog T R)
  /-- `buf.String()`, `buf.Len()`, `len(args)`, `args[i]` -/
  | read (h : Nat) (k : Cell → Prog T R)
  | put (p : Pool) (h : Nat) (k : Prog T R)
  | rlock (k : Prog T R)
  | runlock (k : Prog T R)
  | lock (k : Prog T R)
  /-- inside `Lock()`, waiting for the readers -/
  | lockWait (k : Prog T R)
  | unlock (k : Prog T R)
  /-- `dbi.templates[name]` -/
  | lookup (name : Str) (k : Option T → Prog T R)
  /-- `dbi.templates[name] = tmpl` -/
  | store (name : Str) (t : T) (k : Prog T R)

namespace Prog

def bind {T R S : Type} : Prog T R → (R → Prog T S) → Prog T S
  | .ret r, g => g r
  | .get p k, g => .get p fun h => (k h).bind g
  | .modify h f k, g => .modify h f (k.bind g)
  | .read h k, g => .read h fun c => (k c).bind g
  | .put p h k, g => .put p h (k.bind g)
  | .rlock k, g => .rlock (k.bind g)
  | .runlock k, g => .runlock (k.bind g)
  | .lock k, g => .lock (k.bind g)
  | .lockWait k, g => .lockWait (k.bind g)
  | .unlock k, g => .unlock (k.bind g)
  | .lookup n k, g => .lookup n fun t => (k t).bind g
  | .store n t k, g => .store n t (k.bind g)

/-- `buf.WriteString(s)` -/
def write {T R : Type} (h : Nat) (s : Str) (k : Prog T R) : Prog T R := .modify h (fun c => { c with text := c.text ++ s }) k
/-- `buf.Reset()`, `args = args[:0]` -/
def reset {T R : Type} (h : Nat) (k : Prog T R) : Prog T R := .modify h (fun _ => {}) k

end Prog
open Prog

/-! ### The machine -/

structure Thread (T R : Type) where
  /-- the objects obtained so far, in order -/
  env : List Nat := []
  prog : Prog T R

structure State (T R : Type) where
  heap : Nat → Cell := fun _ => {}
  next : Nat := 0
  pool : Pool → List Nat := fun _ => []
  /-- the goroutine that is in `Lock()` or holds the lock for writing -/
  writer : Option Nat := none
  /-- the goroutines that hold the lock for reading -/
  readers : List Nat := []
  cache : Str → Option T := fun _ => none
  threads : List (Thread T R)

def upd {α β : Type} [DecidableEq α] (f : α → β) (a : α) (b : β) : α → β := fun x => if x = a then b else f x

namespace State
variable {T R : Type}

/-- Goroutine `i` goes on with `th`. -/
def setThread (s : State T R) (i : Nat) (th : Thread T R) : State T R := { s with threads := s.threads.set i th }

end State

/-- One step of goroutine `i` (`some i`), or of the runtime (`none`). -/
inductive Step {T R : Type} : Option Nat → State T R → State T R → Prop
  /-- `Get` returns an object of the pool -/
  | reuse (s : State T R) (i : Nat) (env : List Nat) (p : Pool) (k : Nat → Prog T R) (l : Nat) : s.threads[i]? = some ⟨env, .get (some p) k⟩ → l ∈ s.pool p →
      Step (some i) s ({ s with pool := upd s.pool p ((s.pool p).erase l) }.setThread i ⟨env ++ [l], k env.length⟩)
  /-- `Get` calls `New`; or a plain allocation -/
  | fresh (s : State T R) (i : Nat) (env : List Nat) (p : Option Pool) (k : Nat → Prog T R) : s.threads[i]? = some ⟨env, .get p k⟩ →
      Step (some i) s ({ s with next := s.next + 1, heap := upd s.heap s.next {} }.setThread i ⟨env ++ [s.next], k env.length⟩)
  | modify (s : State T R) (i : Nat) (env : List Nat) (h : Nat) (f : Cell → Cell) (k : Prog T R) (l : Nat) : s.threads[i]? = some ⟨env, .modify h f k⟩ → env[h]? = some l →
      Step (some i) s ({ s with heap := upd s.heap l (f (s.heap l)) }.setThread i ⟨env, k⟩)
  | read (s : State T R) (i : Nat) (env : List Nat) (h : Nat) (k : Cell → Prog T R) (l : Nat) : s.threads[i]? = some ⟨env, .read h k⟩ → env[h]? = some l → Step (some i) s (s.setThread i ⟨env, k (s.heap l)⟩)
  | put (s : State T R) (i : Nat) (env : List Nat) (p : Pool) (h : Nat) (k : Prog T R) (l : Nat) : s.threads[i]? = some ⟨env, .put p h k⟩ → env[h]? = some l →
      Step (some i) s ({ s with pool := upd s.pool p (l :: s.pool p) }.setThread i ⟨env, k⟩)
  /-- the pool drops an object -/
  | drop (s : State T R) (p : Pool) (l : Nat) : l ∈ s.pool p → Step none s { s with pool := upd s.pool p ((s.pool p).erase l) }
  | rlock (s : State T R) (i : Nat) (env : List Nat) (k : Prog T R) : s.threads[i]? = some ⟨env, .rlock k⟩ → s.writer = none → Step (some i) s ({ s with readers := i :: s.readers }.setThread i ⟨env, k⟩)
  | runlock (s : State T R) (i : Nat) (env : List Nat) (k : Prog T R) : s.threads[i]? = some ⟨env, .runlock k⟩ → Step (some i) s ({ s with readers := s.readers.erase i }.setThread i ⟨env, k⟩)
  | lock (s : State T R) (i : Nat) (env : List Nat) (k : Prog T R) : s.threads[i]? = some ⟨env, .lock k⟩ → s.writer = none → Step (some i) s ({ s with writer := some i }.setThread i ⟨env, .lockWait k⟩)
  | locked (s : State T R) (i : Nat) (env : List Nat) (k : Prog T R) : s.threads[i]? = some ⟨env, .lockWait k⟩ → s.readers = [] → Step (some i) s (s.setThread i ⟨env, k⟩)
  | unlock (s : State T R) (i : Nat) (env : List Nat) (k : Prog T R) : s.threads[i]? = some ⟨env, .unlock k⟩ → Step (some i) s ({ s with writer := none }.setThread i ⟨env, k⟩)
  | lookup (s : State T R) (i : Nat) (env : List Nat) (n : Str) (k : Option T → Prog T R) : s.threads[i]? = some ⟨env, .lookup n k⟩ → Step (some i) s (s.setThread i ⟨env, k (s.cache n)⟩)
  | store (s : State T R) (i : Nat) (env : List Nat) (n : Str) (t : T) (k : Prog T R) : s.threads[i]? = some ⟨env, .store n t k⟩ →
      Step (some i) s ({ s with cache := upd s.cache n (some t) }.setThread i ⟨env, k⟩)

/-- All interleavings. -/
inductive Steps {T R : Type} : State T R → State T R → Prop
  | refl (s) : Steps s s
  | tail {a b c : State T R} {who : Option Nat} : Steps a b → Step who b c → Steps a c

/-- The goroutines start; pools and cache are empty. -/
def start {T R : Type} (ps : List (Prog T R)) : State T R := { threads := ps.map fun p => { prog := p } }

/-! ### The functions -/

section code
variable {T : Type}

/-- `buf := bufpool.Get(); defer func() { buf.Reset(); bufpool.Put(buf) }(); body` (sq.go:114-118 and copies).  A panic of the body is a
result of the body: the deferred function runs. -/
def withBuf {α : Type} (body : Nat → Prog T α) : Prog T α :=
  .get (some .buf) fun b => (body b).bind fun r => reset b (.put .buf b (.ret r))

/-- The same with a buffer and a slice (ddl/t.go:84-91 and copies). -/
def withBufArgs {α : Type} (body : Nat → Nat → Prog T α) : Prog T α :=
  .get (some .buf) fun b => .get (some .args) fun a =>
    (body b a).bind fun r => reset b (reset a (.put .buf b (.put .args a (.ret r))))

/-- sq.go:207-215: the loop of `EscapeQuote`, character by character as in `escapeQuote`. -/
def escapeLoop (b : Nat) (q : Char) : Str → Prog T Unit
  | [] => .ret ()
  | [c] => write b (if c = q then [q, q] else [c]) (.ret ())
  | [c, d] => if c = q then write b [q, q] (escapeLoop b q [d]) else write b [c] (escapeLoop b q [d])
  | c :: d :: e :: rest =>
    if c = q then
      if d = q then write b [q, q] (escapeLoop b q (e :: rest))
      else write b [q, q] (escapeLoop b q (d :: e :: rest))
    else write b [c] (escapeLoop b q (d :: e :: rest))

/-- sq.go:194-217 `EscapeQuote`. -/
def escapeQuoteP (q : Char) (s : Str) : Prog T Str :=
  if q ∈ s then withBuf fun b => (escapeLoop b q s).bind fun _ => .read b fun c => .ret c.text
  else .ret s

/-- sq.go:219-251 `QuoteIdentifier`. -/
def quoteIdentifierP (d : Dialect) (ident : Str) : Prog T Str :=
  if needsQuoting ident then
    match d with
    | .mysql => (escapeQuoteP '`' ident).bind fun s => .ret ('`' :: s ++ ['`'])
    | .sqlserver => (escapeQuoteP ']' ident).bind fun s => .ret ('[' :: s ++ [']'])
    | _ => (escapeQuoteP '"' ident).bind fun s => .ret ('"' :: s ++ ['"'])
  else .ret ident

/-- ddl/introspect.go:83-89: the loop of `printList`. -/
def printLoop (b : Nat) : List Str → Prog T Unit
  | [] => .ret ()
  | [s] => (escapeQuoteP '\'' s).bind fun e => write b ('\'' :: (e ++ ['\''])) (.ret ())
  | s :: t :: rest => (escapeQuoteP '\'' s).bind fun e => write b ('\'' :: (e ++ ['\''])) (write b [',', ' '] (printLoop b (t :: rest)))

/-- ddl/introspect.go:77-91 `printList`. -/
def printListP (ss : List Str) : Prog T Str := withBuf fun b => (printLoop b ss).bind fun _ => .read b fun c => .ret c.text

/-- ddl/ddl.go:43-75 `generateName`. -/
def generateNameP (kind : Ddl.NameKind) (tableName : Str) (columnNames : List Str) : Prog T Str :=
  withBuf fun b => write b (Ddl.underscored tableName) <| write b (columnNames.flatMap fun c => "_".toList ++ Ddl.underscored c) <|
    .read b fun c =>
      let excess : Int := c.text.length + (Ddl.nameSuffix kind).length - 63
      if excess > 0 then .ret (c.text.take (c.text.length - excess.toNat) ++ Ddl.nameSuffix kind) else .ret (c.text ++ Ddl.nameSuffix kind)

/-- The calls of `EscapeQuote` made on the way. -/
def escapes {R : Type} (es : List (Char × Str)) (k : Prog T R) : Prog T R :=
  match es with
  | [] => k
  | (q, s) :: es => (escapeQuoteP q s).bind fun _ => escapes es k

/-- What is left open about a call of `Sprintf`: the calls of `EscapeQuote` made for its arguments (fmt.go:403) and, if it fails, what had been
written before. -/
structure Inner where
  esc : List (Char × Str) := []
  part : Str := []

/-- fmt.go:193-333 `Sprintf`. -/
def sprintfP (n : Inner) (d : Dialect) (query : Str) (args : List Val) : Prog T (Res Str) :=
  if args = [] then .ret (.ok query)
  else withBuf fun b => escapes n.esc <| match sprintf d query args with
    | .ok s => write b s (.read b fun c => .ret (.ok c.text))
    | .err e => write b n.part (.ret (.err e))
    | .panic => write b n.part (.ret .panic)
    | .hang => write b n.part (.ret .hang)

/-- Any `AppendSQL`/`AppendSQLExclude` method: code that is given a buffer and a slice of arguments. -/
abbrev Appender (T : Type) := Nat → Nat → Prog T (Res Unit)

/-- One effect of a rendering (cf. `exec1`), on a buffer `b`, arguments `a` and the map `params` (which belongs to the call).  The text was
computed with the calls of `EscapeQuote` in `esc`. -/
def instrP (d : Dialect) (b a : Nat) (i : Instr) (ps : Params) (k : Params → Prog T (Res Unit)) : Prog T (Res Unit) :=
  .read a fun c =>
    let s' := exec1 d i { args := c.args, params := ps }
    .modify a (fun c => { c with args := s'.args }) (write b (bufString d s'.out) (k s'.params))

/-- A rendering: its effects one after another, then its status. -/
def codeP (d : Dialect) (b a : Nat) (esc : Instr → List (Char × Str)) (st : Status) : List Instr → Params → Prog T (Res Unit)
  | [], _ => .ret (match st with | .ok => .ok () | .err e => .err e | .panic => .panic | .hang => .hang)
  | i :: is, ps => escapes (esc i) (instrP d b a i ps fun ps => codeP d b a esc st is ps)

/-- The appender of a rendering `w`. -/
def renderP (d : Dialect) (esc : Instr → List (Char × Str)) (w : W) : Appender T := fun b a => codeP d b a esc w.st w.code fun _ => []

/-- sq.go:113-127 `ToSQL`, sq.go:129-138 `ToSQLExclude`: `args` is a variable of the call. -/
def toSQLP (app : Appender T) : Prog T (Str × List Arg × Res Unit) :=
  withBuf fun b => .get none fun a => (app b a).bind fun r => .read b fun c => .read a fun c' => .ret (c.text, c'.args, r)

/-- Turning rendered SQL and arguments into one text: `sq.Sprintf(dialect, buf.String(), args)`, with the values of the arguments. -/
def inlineP (val : Arg → Val) (n : Inner) (d : Dialect) (b a : Nat) : Prog T (Res Str) :=
  .read b fun c => .read a fun c' => sprintfP n d c.text (c'.args.map val)

/-- ddl/t.go:83-107 `sprintf`; the rendering part of ddl/v.go:30-52 `SetQuery`. -/
def ddlSprintfP (val : Arg → Val) (n : Inner) (d : Dialect) (app : Appender T) : Prog T (Res Str) :=
  withBufArgs fun b a => (app b a).bind fun
    | .ok () => .read a fun c => if c.args = [] then .read b fun c => .ret (.ok c.text) else inlineP val n d b a
    | .err e => .ret (.err e)
    | .panic => .ret .panic
    | .hang => .ret .hang

/-- An item of a list of fields: a name, or an expression to be rendered. -/
inductive Item (T : Type) where
  | name (s : Str)
  | expr (app : Appender T)

/-- fetch.go:209-228: the loop of `computeFieldNames`, which uses one buffer and one slice for all fields; `msg` is the text for an error. -/
def namesLoop (val : Arg → Val) (n : Inner) (d : Dialect) (b a : Nat) (msg : Str → Str) : List (Item T) → Prog T (Res (List Str))
  | [] => .ret (.ok [])
  | .name s :: is => (namesLoop val n d b a msg is).bind fun r => .ret (r.map (s :: ·))
  | .expr app :: is => reset b <| reset a <| (app b a).bind fun
    | .ok () => (inlineP val n d b a).bind fun
      | .ok s => (namesLoop val n d b a msg is).bind fun r => .ret (r.map (s :: ·))
      | .err e => (namesLoop val n d b a msg is).bind fun r => .ret (r.map (msg e :: ·))
      | .panic => .ret .panic
      | .hang => .ret .hang
    | .err e => (namesLoop val n d b a msg is).bind fun r => .ret (r.map (msg e :: ·))
    | .panic => .ret .panic
    | .hang => .ret .hang

/-- fetch.go:199-229 `computeFieldNames`; the left-hand sides of fetch.go:168-197 `decorateScanError`. -/
def fieldNamesP (val : Arg → Val) (n : Inner) (d : Dialect) (msg : Str → Str) (is : List (Item T)) : Prog T (Res (List Str)) :=
  withBufArgs fun b a => namesLoop val n d b a msg is

/-- ddl/t.go:561-587: the loop of `getColumnNamesAndExprs`, which stops at an error. -/
def exprsLoop (val : Arg → Val) (n : Inner) (d : Dialect) (b a : Nat) (wrap : Str → Str) : List (Item T) → Prog T (Res (List (Str × Str)))
  | [] => .ret (.ok [])
  | .name s :: is => (exprsLoop val n d b a wrap is).bind fun r => .ret (r.map ((s, []) :: ·))
  | .expr app :: is => reset b <| reset a <| (app b a).bind fun
    | .ok () => (Prog.read a fun c => if c.args = [] then .read b fun c => .ret (.ok c.text) else inlineP val n d b a).bind fun
      | .ok s => (exprsLoop val n d b a wrap is).bind fun r => .ret (r.map (([], wrap s) :: ·))
      | .err e => .ret (.err e)
      | .panic => .ret .panic
      | .hang => .ret .hang
    | .err e => .ret (.err e)
    | .panic => .ret .panic
    | .hang => .ret .hang

/-- ddl/t.go:550-590 `getColumnNamesAndExprs`. -/
def exprsP (val : Arg → Val) (n : Inner) (d : Dialect) (wrap : Str → Str) (is : List (Item T)) : Prog T (Res (List (Str × Str))) :=
  withBufArgs fun b a => exprsLoop val n d b a wrap is

/-- What `execContext`, `fetchContext` and `fetchExistsContext` send to the database, if they do, and the query they log. -/
structure Sent where
  sent : Option (Str × List Arg)
  logged : Str
  deriving DecidableEq

/-- exec.go:88-97, fetch.go:105-115, fetch.go:319-333: render between `before` and `after`, send, and (deferred, before the buffers are reset) log.
`answer` is the error of the database, if any; the logging function looks at the buffer again if there is an error and no query. -/
def sendBody (before after : Str) (app : Appender T) (answer : Str → List Arg → Option Str) (b : Nat) : Prog T Sent :=
  .get none fun a => write b before <| (app b a).bind fun r =>
    let logErr (sent : Option (Str × List Arg)) (e : Str) : Prog T Sent :=
      .read b fun c => .ret { sent := sent, logged := c.text ++ "%!(error=".toList ++ e ++ ")".toList }
    match r with
    | .ok () => write b after <| .read b fun c => .read a fun c' =>
        match c.text, answer c.text c'.args with
        | [], some e => logErr (some ([], c'.args)) e
        | q, _ => .ret { sent := some (q, c'.args), logged := q }
    | .err e => logErr none e
    | .panic => .ret { sent := none, logged := [] }
    | .hang => .ret { sent := none, logged := [] }

/-- exec.go:69-97, fetch.go:301-333. -/
def sendP (before after : Str) (app : Appender T) (answer : Str → List Arg → Option Str) : Prog T Sent :=
  withBuf fun b => sendBody before after app answer b

/-- fetch.go:80-115: with a second buffer for the texts of the results. -/
def fetchP (app : Appender T) (answer : Str → List Arg → Option Str) (results : Str) : Prog T (Sent × Str) :=
  .get (some .buf) fun b => .get (some .buf) fun rb =>
    ((sendBody [] [] app answer b).bind fun r => write rb results <| .read rb fun c => .ret (r, c.text)).bind fun r =>
      reset b (reset rb (.put .buf b (.put .buf rb (.ret r))))

/-- logger.go:136-213 `LogQueryStats`: the interpolated query comes from `Sprintf`. -/
def logP (n : Inner) (d : Dialect) (flag : Nat) (s : QueryStats) (vals : List Val) : Prog T (Res Str) :=
  withBuf fun b => (sprintfP n d s.query vals).bind fun
    | .ok x => write b (logText flag { s with interpolated := x }) (.read b fun c => .ret (.ok c.text))
    | .err e => write b (logText flag { s with interpolated := n.part ++ " ".toList ++ e }) (.read b fun c => .ret (.ok c.text))
    | .panic => .ret .panic
    | .hang => .ret .hang

/-- The parts of an executed template: text, and lists printed by `printList`. -/
inductive TPart where
  | text (s : Str)
  | list (ss : List Str)

/-- `tmpl.Execute(buf, *filter)` (ddl/introspect.go:126). -/
def executeP (b : Nat) : List TPart → Prog T Unit
  | [] => .ret ()
  | .text s :: ps => write b s (executeP b ps)
  | .list ss :: ps => (printListP ss).bind fun s => write b s (executeP b ps)

/-- ddl/introspect.go:92-130 `queryContext`: the query sent.  `load` reads and parses the file. -/
def queryContextP (load : Str → Res T) (parts : T → List TPart) (name : Str) : Prog T (Res Str) :=
  let go (t : T) : Prog T (Res Str) := withBuf fun b => (executeP b (parts t)).bind fun _ => .read b fun c => .ret (.ok c.text)
  .rlock <| .lookup name fun o => .runlock <|
    match o with
    | some t => go t
    | none => match load name with
      | .ok t => .lock <| .store name t <| .unlock <| go t
      | .err e => .ret (.err e)
      | .panic => .ret .panic
      | .hang => .ret .hang

/-- ddl/introspect.go:711-758: the SQL of MySQL triggers, rebuilt in one buffer (`header` is the text from `CREATE TRIGGER` to the body). -/
def triggersLoop (b : Nat) : List (Str × Str) → Prog T (List Str)
  | [] => .ret []
  | (header, body) :: ts => reset b <| write b header <| write b body <| .read b fun c => (triggersLoop b ts).bind fun r => .ret (c.text :: r)

def triggersP (ts : List (Str × Str)) : Prog T (List Str) := withBuf fun b => triggersLoop b ts

end code

end Sq.Conc
