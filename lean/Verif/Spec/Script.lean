import Verif.Basic
/-
Independent specification: how a client cuts a SQL script into statements.  Nothing here mentions the model of the Go code.
-/
namespace Spec

/-- A statement reader: an automaton over the characters of the script.  `step s c = none` means that the terminator `c` ends the
statement (the next one starts in `start`). -/
structure Reader where
  σ : Type
  start : σ
  step : σ → Char → Option σ

namespace Reader
variable (R : Reader)

/-- The statements that are terminated, and what is left after the last terminator. -/
def readFrom (s : R.σ) (acc : Str) : Str → List Str × Str
  | [] => ([], acc)
  | c :: cs =>
    match R.step s c with
    | none => ((acc :: (readFrom R.start [] cs).1), (readFrom R.start [] cs).2)
    | some s' => readFrom s' (acc ++ [c]) cs

def read (script : Str) : List Str × Str := R.readFrom R.start [] script

/-- The state after a text that contains no terminator. -/
def run (s : R.σ) : Str → Option R.σ
  | [] => some s
  | c :: cs => (R.step s c).bind fun s' => run s' cs

/-- The text is one statement that only lacks its terminator. -/
def Whole (t : Str) : Prop := R.read (t ++ [';']) = ([t], [])

/-- The text neither ends the statement it stands in nor leaves a quote or a comment open. -/
def Neutral (t : Str) : Prop := R.run R.start t = some R.start

end Reader

/-! ### Statement readers of the dialects -/

/-- Where the scanner is. -/
inductive Lex where
  | top                         -- between tokens
  | dash | slash                -- after one `-` or `/`
  | quoted (q : Char)           -- inside a quoted token closed by `q`
  | escaped (q : Char)          -- after a backslash in it (MySQL)
  | line                        -- in a comment up to the end of the line
  | block | blockStar           -- in a `/* */` comment
  | tag (t : Str)               -- after `$t` (PostgreSQL dollar quoting)
  | body (t : Str)              -- inside `$t$ ... $t$`
  | close (t s : Str)           -- inside it, after `$s`
  deriving DecidableEq

/-- One character between tokens. -/
def lexTop (d : Dialect) (c : Char) : Option Lex :=
  if c = ';' then none
  else if c = '-' then some .dash
  else if c = '/' then some .slash
  else if c = '\'' then some (.quoted '\'')
  else if c = '"' then some (.quoted '"')
  else if c = '`' then some (if d = .postgres then .top else .quoted '`')
  else if c = '#' then some (if d = .mysql then .line else .top)
  else if c = '$' then some (if d = .postgres then .tag [] else .top)
  else some .top

/-- One step of the scanner of a dialect: quoted tokens with doubled quotes (a doubled quote leaves and re-enters the token),
backslashes in MySQL, both kinds of comments, PostgreSQL's dollar quotes. -/
def lexStep (d : Dialect) : Lex → Char → Option Lex
  | .top, c => lexTop d c
  | .dash, c => if c = '-' then some .line else lexTop d c
  | .slash, c => if c = '*' then some .block else lexTop d c
  | .quoted q, c => if c = q then some .top else if c = '\\' ∧ d = .mysql ∧ q ≠ '`' then some (.escaped q) else some (.quoted q)
  | .escaped q, _ => some (.quoted q)
  | .line, c => some (if c = '\n' then .top else .line)
  | .block, c => some (if c = '*' then .blockStar else .block)
  | .blockStar, c => some (if c = '/' then .top else if c = '*' then .blockStar else .block)
  | .tag t, c =>
    if c = '$' then some (.body t) else if c.isAlphanum || c == '_' then some (.tag (t ++ [c])) else lexTop d c
  | .body t, c => some (if c = '$' then .close t [] else .body t)
  | .close t s, c =>
    some (if c = '$' then (if s = t then .top else .close t []) else if c.isAlphanum || c == '_' then .close t (s ++ [c]) else .body t)

/-- The statement reader of a dialect. -/
def reader (d : Dialect) : Reader := ⟨Lex, .top, lexStep d⟩

example : (reader .postgres).read
    "CREATE FUNCTION f() AS $x$ BEGIN; $y$ END; $x$ LANGUAGE plpgsql; -- ;\nDROP TABLE \"a;b\"; rest".toList
    = (["CREATE FUNCTION f() AS $x$ BEGIN; $y$ END; $x$ LANGUAGE plpgsql".toList, " -- ;\nDROP TABLE \"a;b\"".toList], " rest".toList) := by
  decide +kernel

end Spec
