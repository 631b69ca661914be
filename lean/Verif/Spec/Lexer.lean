import Verif.Spec.Scanner
/-
Independent specification: the tokens of a SQL text.  Nothing here mentions the model of the Go code.

The reader knows bare words, quoted tokens (string literals and delimited identifiers, with doubled quotes, and MySQL's backslashes in
strings), and single punctuation characters.  It refuses comments and PostgreSQL's dollar quotes (`none`), so that a text it accepts
means the same wherever it is put between blanks or parentheses.
-/
namespace Spec

inductive Tok where
  | word (w : Str)
  | quoted (q : Char) (s : Str)      -- `q` is the closing quote; `s` the text with the quotes undoubled
  | sym (c : Char)
  deriving DecidableEq, Repr

/-- Where the reader is. -/
inductive At where
  | top                              -- between tokens
  | word (w : Str)                   -- in a bare word
  | quoted (q : Char) (s : Str)      -- in a quoted token
  | closing (q : Char) (s : Str)     -- after a quote in it: the end, or the first of two
  | escaped (q : Char) (s : Str)     -- after a backslash in it
  | dash | slash                     -- after one `-` or `/`
  deriving DecidableEq, Repr

def isBlank (c : Char) : Bool := c == ' ' || c == '\n' || c == '\t' || c == '\r'
def isWord (c : Char) : Bool := c.isAlphanum || c == '_' || decide (128 ≤ c.toNat)

/-- The quote that closes what `c` opens. -/
def closerFor (d : Dialect) (c : Char) : Option Char :=
  if c = '\'' then some '\''
  else if c = '"' then some '"'
  else if c = '`' then (if d = .postgres then none else some '`')
  else if c = '[' then (if d = .sqlserver then some ']' else none)
  else none

/-- A character between tokens: the tokens it completes and the new place. -/
def tokTop (d : Dialect) (c : Char) : Option (List Tok × At) :=
  if isBlank c then some ([], .top)
  else if isWord c then some ([], .word [c])
  else match closerFor d c with
    | some q => some ([], .quoted q [])
    | none =>
      if c = '-' then some ([], .dash)
      else if c = '/' then some ([], .slash)
      else if c = '#' ∧ d = .mysql then none
      else if c = '$' ∧ d = .postgres then none
      else some ([.sym c], .top)

def tokStep (d : Dialect) : At → Char → Option (List Tok × At)
  | .top, c => tokTop d c
  | .word w, c => if isWord c then some ([], .word (w ++ [c])) else (tokTop d c).map fun r => (.word w :: r.1, r.2)
  | .quoted q s, c =>
    if c = q then some ([], .closing q s)
    else if c = '\\' ∧ d = .mysql ∧ q ≠ '`' then some ([], .escaped q s)
    else some ([], .quoted q (s ++ [c]))
  | .closing q s, c =>
    if c = q then some ([], .quoted q (s ++ [q])) else (tokTop d c).map fun r => (.quoted q s :: r.1, r.2)
  | .escaped q s, c => some ([], .quoted q (s ++ [c]))
  | .dash, c => if c = '-' then none else (tokTop d c).map fun r => (.sym '-' :: r.1, r.2)
  | .slash, c => if c = '*' then none else (tokTop d c).map fun r => (.sym '/' :: r.1, r.2)

/-- The token that the end of the text completes; none inside a quoted token. -/
def tokEnd : At → Option (List Tok)
  | .top => some []
  | .word w => some [.word w]
  | .quoted _ _ => none
  | .closing q s => some [.quoted q s]
  | .escaped _ _ => none
  | .dash => some [.sym '-']
  | .slash => some [.sym '/']

def tokRun (d : Dialect) : At → Str → Option (List Tok × At)
  | s, [] => some ([], s)
  | s, c :: cs => (tokStep d s c).bind fun r => (tokRun d r.2 cs).map fun r' => (r.1 ++ r'.1, r'.2)

/-- The tokens of a text. -/
def tokens (d : Dialect) (t : Str) : Option (List Tok) :=
  (tokRun d .top t).bind fun r => (tokEnd r.2).map fun e => r.1 ++ e

example : tokens .postgres "CREATE TABLE \"Order\".t_1 (x NUMERIC(10,2) DEFAULT 'it''s')".toList =
    some [.word "CREATE".toList, .word "TABLE".toList, .quoted '"' "Order".toList, .sym '.', .word "t_1".toList, .sym '(',
      .word "x".toList, .word "NUMERIC".toList, .sym '(', .word "10".toList, .sym ',', .word "2".toList, .sym ')',
      .word "DEFAULT".toList, .quoted '\'' "it's".toList, .sym ')'] := by decide +kernel
example : tokens .postgres "a -- b".toList = none := by decide +kernel

/-- The token is the name `x` in the dialect: the bare word, if case folding cannot change it, or the delimited identifier. -/
def Denotes (d : Dialect) (t : Tok) (x : Str) : Prop := t = .quoted (identClose d) x ∨ t = .word x ∧ isBareIdent x = true

/-! ### Structure -/

/-- Keywords. -/
def splitBlank : Str → List Str
  | [] => [[]]
  | c :: cs =>
    match splitBlank cs with
    | [] => [[c]]
    | w :: ws => if c = ' ' then [] :: w :: ws else (c :: w) :: ws
def kw (s : String) : List Tok := (splitBlank s.toList).map .word

def comma : List Tok := [.sym ',']
/-- The parts with a comma between any two. -/
def commas : List (List Tok) → List Tok
  | [] => []
  | [x] => x
  | x :: y :: xs => x ++ comma ++ commas (y :: xs)
def parens (ts : List Tok) : List Tok := [.sym '('] ++ ts ++ [.sym ')']
/-- `ts`, if `b`. -/
def opt (b : Prop) [Decidable b] (ts : List Tok) : List Tok := if b then ts else []

/-- Cut at the commas outside of parentheses: `n` parentheses are open, `acc` is the part being read. -/
def cut (n : Nat) (acc : List Tok) : List Tok → List (List Tok)
  | [] => [acc]
  | t :: ts =>
    if t = .sym '(' then cut (n + 1) (acc ++ [t]) ts
    else if t = .sym ')' then cut (n - 1) (acc ++ [t]) ts
    else if t = .sym ',' ∧ n = 0 then acc :: cut 0 [] ts
    else cut n (acc ++ [t]) ts
def items (ts : List Tok) : List (List Tok) := cut 0 [] ts

/-- The parentheses still open after the tokens, starting from `n`; none if one closes too many, or a comma stands outside of all. -/
def depth (n : Nat) : List Tok → Option Nat
  | [] => some n
  | t :: ts =>
    if t = .sym '(' then depth (n + 1) ts
    else if t = .sym ')' then (if n = 0 then none else depth (n - 1) ts)
    else if t = .sym ',' ∧ n = 0 then none
    else depth n ts
/-- The tokens are one item of a comma-separated list. -/
def OneItem (ts : List Tok) : Prop := depth 0 ts = some 0

end Spec
