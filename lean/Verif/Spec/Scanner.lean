import Verif.Basic
/-
Independent specification: how a SQL server scans delimited tokens.  Nothing here mentions the
model of the Go code.
-/
namespace Spec

/-- Scan the body of a delimited token after its opening delimiter, `q` being the closing
delimiter and a doubled `q` standing for one `q` (SQL standard, PostgreSQL, SQLite, SQL Server,
MySQL with NO_BACKSLASH_ESCAPES).  Returns the denoted text and the input after the token. -/
def scan (q : Char) : Str → Option (Str × Str)
  | [] => none
  | [c] => if c = q then some ([], []) else none
  | c :: d :: rest =>
    if c = q then
      if d = q then (scan q rest).map (fun r => (q :: r.1, r.2))
      else some ([], d :: rest)
    else (scan q (d :: rest)).map (fun r => (c :: r.1, r.2))

/-- MySQL's default scanner: as `scan`, but a backslash also escapes the next character. -/
def scanBackslash (q : Char) : Str → Option (Str × Str)
  | [] => none
  | [c] => if c = q then some ([], []) else none
  | c :: d :: rest =>
    if c = '\\' then (scanBackslash q rest).map (fun r => (d :: r.1, r.2))
    else if c = q then
      if d = q then (scanBackslash q rest).map (fun r => (q :: r.1, r.2))
      else some ([], d :: rest)
    else (scanBackslash q (d :: rest)).map (fun r => (c :: r.1, r.2))

/-- Opening and closing identifier delimiters per dialect. -/
def identOpen : Dialect → Char
  | .mysql => '`' | .sqlserver => '[' | _ => '"'
def identClose : Dialect → Char
  | .mysql => '`' | .sqlserver => ']' | _ => '"'

/-- Characters that may appear in a bare identifier in every dialect without case folding. -/
def bareChar (c : Char) : Bool := c.isLower || c.isDigit || c == '_'

/-- A bare identifier: a lower case letter or underscore followed by `bareChar`s. -/
def isBareIdent : Str → Bool
  | [] => false
  | c :: cs => (c.isLower || c == '_') && cs.all bareChar

/-- Read one identifier token (bare or delimited) at the start of the input. -/
def readIdent (d : Dialect) : Str → Option (Str × Str)
  | [] => none
  | c :: cs =>
    if c = identOpen d then scan (identClose d) cs
    else if c.isLower || c == '_' then
      some (c :: cs.takeWhile bareChar, cs.dropWhile bareChar)
    else none

/-- `q q c` occurs somewhere: an adjacent pair of quotes that is not at the very end. -/
def InnerPair (q : Char) (s : Str) : Prop := ∃ a c b, s = a ++ q :: q :: c :: b

end Spec
