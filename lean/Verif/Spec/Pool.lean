import Verif.Model.Pool
/-
Specification: what concurrent calls return, stated without pools, buffers or locks, and what a data race is.
-/
namespace Sq.Conc.Spec
open Sq.Conc

/-- What an `AppendSQL` writes and the arguments it leaves, starting from nothing (cf. `exec`). -/
def text (d : Dialect) (w : W) : Str := bufString d (exec d w.code {}).out
def args (d : Dialect) (w : W) : List Arg := (exec d w.code {}).args

def status : Status → Res Unit
  | .ok => .ok ()
  | .err e => .err e
  | .panic => .panic
  | .hang => .hang

/-- The rendered text with its arguments put in. -/
def inlined (val : Arg → Val) (d : Dialect) (w : W) : Res Str := (status w.st).bind fun _ => sprintf d (text d w) ((args d w).map val)

/-- A field: a name, or an expression. -/
inductive FieldItem where
  | name (s : Str)
  | expr (w : W)

/-- The calls. -/
inductive Call (T : Type) where
  | escapeQuote (q : Char) (s : Str)
  | quoteIdentifier (d : Dialect) (s : Str)
  | printList (ss : List Str)
  | generateName (kind : Ddl.NameKind) (table : Str) (columns : List Str)
  | sprintf (n : Inner) (d : Dialect) (query : Str) (args : List Val)
  | toSQL (d : Dialect) (esc : Instr → List (Char × Str)) (w : W)
  /-- an expression or query of a declaration (`t.Generated`, `t.Check`, `v.SetQuery`, ...) -/
  | declared (val : Arg → Val) (n : Inner) (d : Dialect) (esc : Instr → List (Char × Str)) (w : W)
  | fieldNames (val : Arg → Val) (n : Inner) (d : Dialect) (esc : Instr → List (Char × Str)) (msg : Str → Str) (fs : List FieldItem)
  | indexFields (val : Arg → Val) (n : Inner) (d : Dialect) (esc : Instr → List (Char × Str)) (wrap : Str → Str) (fs : List FieldItem)
  /-- `Exec`, and (with `SELECT EXISTS (` around it) `FetchExists` -/
  | exec (before after : Str) (d : Dialect) (esc : Instr → List (Char × Str)) (w : W) (answer : Str → List Arg → Option Str)
  | fetch (d : Dialect) (esc : Instr → List (Char × Str)) (w : W) (answer : Str → List Arg → Option Str) (results : Str)
  | log (n : Inner) (d : Dialect) (flag : Nat) (s : QueryStats) (vals : List Val)
  /-- a query of the introspector; `parts` is the template executed with the filter of the call -/
  | introspect (name : Str) (parts : T → List TPart)
  | triggers (ts : List (Str × Str))

inductive Out where
  | text (s : Str)
  | res (r : Res Str)
  | sql (text : Str) (args : List Arg) (r : Res Unit)
  | names (r : Res (List Str))
  | exprs (r : Res (List (Str × Str)))
  | sent (s : Sent)
  | fetched (s : Sent × Str)
  | texts (ts : List Str)
  deriving DecidableEq

/-- Names of fields; an expression that cannot be written is reported in place. -/
def names (val : Arg → Val) (d : Dialect) (msg : Str → Str) : List FieldItem → Res (List Str)
  | [] => .ok []
  | .name s :: fs => (names val d msg fs).map (s :: ·)
  | .expr w :: fs => match inlined val d w with
    | .ok s => (names val d msg fs).map (s :: ·)
    | .err e => (names val d msg fs).map (msg e :: ·)
    | .panic => .panic
    | .hang => .hang

/-- Columns and expressions of an index; an expression that cannot be written is an error. -/
def exprs (val : Arg → Val) (d : Dialect) (wrap : Str → Str) : List FieldItem → Res (List (Str × Str))
  | [] => .ok []
  | .name s :: fs => (exprs val d wrap fs).map ((s, []) :: ·)
  | .expr w :: fs => (inlined val d w).bind fun s => (exprs val d wrap fs).map (([], wrap s) :: ·)

/-- What is sent to the database and what is logged as the query: the rendered text; if there is none, the text so far and the error. -/
def sent (before after : Str) (d : Dialect) (w : W) (answer : Str → List Arg → Option Str) : Sent :=
  match status w.st with
  | .ok () =>
    let q := before ++ text d w ++ after
    { sent := some (q, args d w)
      logged := match q, answer q (args d w) with
        | [], some e => "%!(error=".toList ++ e ++ ")".toList
        | q, _ => q }
  | .err e => { sent := none, logged := before ++ text d w ++ "%!(error=".toList ++ e ++ ")".toList }
  | .panic => { sent := none, logged := [] }
  | .hang => { sent := none, logged := [] }

def partText : TPart → Str
  | .text s => s
  | .list ss => Ddl.printList ss

/-- What each call returns. -/
def Call.result {T : Type} (load : Str → Res T) : Call T → Out
  | .escapeQuote q s => .text (Sq.escapeQuote q s)
  | .quoteIdentifier d s => .text (Sq.quoteIdentifier d s)
  | .printList ss => .text (Ddl.printList ss)
  | .generateName k t cs => .text (Ddl.generateName k t cs)
  | .sprintf _ d q as => .res (Sq.sprintf d q as)
  | .toSQL d _ w => .sql (Spec.text d w) (args d w) (status w.st)
  | .declared val _ d _ w => .res (inlined val d w)
  | .fieldNames val _ d _ msg fs => .names (Spec.names val d msg fs)
  | .indexFields val _ d _ wrap fs => .exprs (Spec.exprs val d wrap fs)
  | .exec before after d _ w answer => .sent (Spec.sent before after d w answer)
  | .fetch d _ w answer results => .fetched (Spec.sent [] [] d w answer, results)
  | .log n d flag s vals => .res (match Sq.sprintf d s.query vals with
      | .ok x => .ok (logText flag { s with interpolated := x })
      | .err e => .ok (logText flag { s with interpolated := n.part ++ " ".toList ++ e })
      | .panic => .panic
      | .hang => .hang)
  | .introspect name parts => .res ((load name).map fun t => (parts t).flatMap partText)
  | .triggers ts => .texts (ts.map fun t => t.1 ++ t.2)

/-- The code that each call runs. -/
def item {T : Type} (d : Dialect) (esc : Instr → List (Char × Str)) : FieldItem → Item T
  | .name s => .name s
  | .expr w => .expr (renderP d esc w)

def Call.prog {T : Type} (load : Str → Res T) : Call T → Prog T Out
  | .escapeQuote q s => (escapeQuoteP q s).bind fun r => .ret (.text r)
  | .quoteIdentifier d s => (quoteIdentifierP d s).bind fun r => .ret (.text r)
  | .printList ss => (printListP ss).bind fun r => .ret (.text r)
  | .generateName k t cs => (generateNameP k t cs).bind fun r => .ret (.text r)
  | .sprintf n d q as => (sprintfP n d q as).bind fun r => .ret (.res r)
  | .toSQL d esc w => (toSQLP (renderP d esc w)).bind fun r => .ret (.sql r.1 r.2.1 r.2.2)
  | .declared val n d esc w => (ddlSprintfP val n d (renderP d esc w)).bind fun r => .ret (.res r)
  | .fieldNames val n d esc msg fs => (fieldNamesP val n d msg (fs.map (item d esc))).bind fun r => .ret (.names r)
  | .indexFields val n d esc wrap fs => (exprsP val n d wrap (fs.map (item d esc))).bind fun r => .ret (.exprs r)
  | .exec before after d esc w answer => (sendP before after (renderP d esc w) answer).bind fun r => .ret (.sent r)
  | .fetch d esc w answer results => (fetchP (renderP d esc w) answer results).bind fun r => .ret (.fetched r)
  | .log n d flag s vals => (logP n d flag s vals).bind fun r => .ret (.res r)
  | .introspect name parts => (queryContextP load parts name).bind fun r => .ret (.res r)
  | .triggers ts => (triggersP ts).bind fun r => .ret (.texts r)

/-! ### Races -/

inductive Obj where
  | cell (l : Nat)
  | cache
  deriving DecidableEq

/-- The unsynchronised access a goroutine is about to make: the object, and whether it writes. -/
def access {T R : Type} (th : Thread T R) : Option (Obj × Bool) :=
  match th.prog with
  | .modify h _ _ => (th.env[h]?).map fun l => (.cell l, true)
  | .read h _ => (th.env[h]?).map fun l => (.cell l, false)
  | .lookup _ _ => some (.cache, false)
  | .store _ _ _ => some (.cache, true)
  | _ => none

/-- Two goroutines are about to access one object, and one of them writes. -/
def Race {T R : Type} (s : State T R) : Prop :=
  ∃ (i j : Nat) (a b : Thread T R) (x : Obj) (wa wb : Bool), i ≠ j ∧ s.threads[i]? = some a ∧ s.threads[j]? = some b ∧ access a = some (x, wa) ∧ access b = some (x, wb) ∧ (wa || wb) = true

/-- All calls returned. -/
def Done {T R : Type} (s : State T R) : Prop := ∀ th ∈ s.threads, ∃ r, th.prog = .ret r

end Sq.Conc.Spec
