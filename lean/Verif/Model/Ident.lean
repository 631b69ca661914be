import Verif.Model.Tokenize
import Verif.Model.Run
/-
Model of ddl/fmt.go:90-147 (`popIdentifierToken`, `popIdentifierTokens`), ddl/trigger.go:20-69 (`populateTriggerInfo`) and
ddl/function.go:22-68 (`populateFunctionInfo`).  One `Char` is one rune (the code also looks at one following byte, which it compares
with an ASCII quote).  Invalid UTF-8 is outside the model.
-/
namespace Ddl

/-- fmt.go:121: the characters that open a quoted identifier. -/
def opensQuote (d : Dialect) (c : Char) : Bool := c = '"' || (c = '`' && d = .mysql) || (c = '[' && d = .sqlserver)

/-- fmt.go:102-119: the character that closes it. -/
def closerOf (c : Char) : Char := if c = '[' then ']' else c

/-- The loop fmt.go:97-131; the first argument is `openingQuote` when `insideIdentifier`.  Result: `s[:splitAt]`, `s[splitAt:]`.  In the
branch for a doubled quote `splitAt` is not moved past the second one until the next iteration, which matters when there is none. -/
def popLoop (d : Dialect) : Option Char → Str → Str × Str
  | _, [] => ([], [])
  | some q, c :: cs =>
    if c = closerOf q then
      match cs with
      | c' :: c'' :: cs' =>
        if c' = closerOf q then
          let r := popLoop d (some q) (c'' :: cs')
          (c :: c' :: r.1, r.2)
        else
          let r := popLoop d none (c' :: c'' :: cs')
          (c :: r.1, r.2)
      | [c'] =>
        if c' = closerOf q then ([c], [c'])
        else
          let r := popLoop d none [c']
          (c :: r.1, r.2)
      | [] => ([c], [])
    else
      let r := popLoop d (some q) cs
      (c :: r.1, r.2)
  | none, c :: cs =>
    if opensQuote d c then
      let r := popLoop d (some c) cs
      (c :: r.1, r.2)
    else if Sq.isSpace c then ([], c :: cs)
    else
      let r := popLoop d none cs
      (c :: r.1, r.2)

/-- fmt.go:90-133 `popIdentifierToken`: word and rest. -/
def popToken (d : Dialect) (s : Str) : Str × Str := popLoop d none (s.dropWhile Sq.trimSpace)

/-- fmt.go:135-147 `popIdentifierTokens` with a count: words and rest. -/
def popTokens (d : Dialect) : Nat → Str → List Str × Str
  | 0, s => ([], s)
  | n + 1, s =>
    if s = [] then ([], [])
    else match popToken d s with
      | ([], []) => ([], [])
      | (w, r) => let k := popTokens d n r
        (w :: k.1, k.2)

/-- Simple case folding, as far as it can reach ASCII letters (`strings.EqualFold`): besides A-Z, the long s and the Kelvin sign. -/
def foldChar (c : Char) : Char := if c = '\u017F' then 's' else if c = '\u212A' then 'k' else c.toLower

/-- `strings.EqualFold(word, keyword)` for an ASCII keyword. -/
def equalFold (w kw : Str) : Bool := w.map foldChar = kw.map foldChar

/-- trigger.go:32-37, 51-56, function.go:35-40: pop words until one is the keyword, and go on after it; stop when nothing is left.  A pop
that removes nothing is repeated for ever. -/
def seekWord (d : Dialect) (kw s : Str) : Res Str :=
  if s = [] then .ok []
  else if equalFold (popToken d s).1 kw then .ok (popToken d s).2
  else if (popToken d s).2.length < s.length then seekWord d kw (popToken d s).2
  else .hang
termination_by s.length

/-- `strings.IndexByte(s, c)`: the text before and after the first `c`. -/
def cutAt (c : Char) : Str → Option (Str × Str)
  | [] => none
  | x :: xs => if x = c then some ([], xs) else (cutAt c xs).map fun r => (x :: r.1, r.2)

/-- trigger.go:39-47: skip IF NOT EXISTS (SQLite). -/
def skipIfNotExists (d : Dialect) (s : Str) : Str :=
  if d = .sqlite then
    match popTokens d 3 s with
    | ([a, b, c], tmp) => if equalFold a "IF" && equalFold b "NOT" && equalFold c "EXISTS" then tmp else s
    | _ => s
  else s

/-- trigger.go:59-61: `schema.table`. -/
def splitDot (s : Str) : Option (Str × Str) := cutAt '.' s

/-- trigger.go:63-66, the check at the end. -/
def checkTrigger (t : Trigger) : Res Trigger :=
  if t.sql ≠ [] ∧ (t.triggerName = [] ∨ t.tableName = []) then .err "could not find trigger name or table name".toList else .ok t

/-- trigger.go:20-69 `populateTriggerInfo`. -/
def populateTrigger (d : Dialect) (t : Trigger) : Res Trigger :=
  (seekWord d "TRIGGER" t.sql).bind fun r1 =>
    if r1 = [] then checkTrigger t
    else
      let p := popToken d (skipIfNotExists d r1)
      let t1 := { t with triggerName := p.1 }
      if p.2 = [] then checkTrigger t1
      else (seekWord d "ON" p.2).bind fun r3 =>
        if r3 = [] then checkTrigger t1
        else
          let w := (popToken d r3).1
          match splitDot w with
          | some (s, n) => checkTrigger { t1 with tableSchema := s, tableName := n }
          | none => checkTrigger { t1 with tableName := w }

/-- function.go:63-66. -/
def checkFunction (f : Function) : Res Function :=
  if f.sql ≠ [] ∧ f.functionName = [] then .err "could not find function name".toList else .ok f

/-- function.go:46-48: the name up to its opening bracket. -/
def beforeBracket (n : Str) : Str := match cutAt '(' n with | some (n', _) => n' | none => n

/-- function.go:42-48: schema and name from the word after FUNCTION. -/
def functionNames (f : Function) (w : Str) : Function :=
  let (f1, n) : Function × Str := match splitDot w with
    | some (s, n) => ({ f with functionSchema := s }, n)
    | none => (f, w)
  { f1 with functionName := beforeBracket n }

/-- function.go:58-60: the word after RETURNS. -/
def functionReturn (d : Dialect) (f : Function) (tail : Str) : Function :=
  if equalFold (popToken d tail).1 "RETURNS" then { f with returnType := (popToken d (popToken d tail).2).1 } else f

/-- function.go:22-68 `populateFunctionInfo`.  `remainder[i+1:j]` panics when the first `)` comes before the first `(`. -/
def populateFunction (d : Dialect) (f : Function) : Res Function :=
  if d ≠ .postgres then .ok f
  else (seekWord d "FUNCTION" f.sql).bind fun r =>
    if r = [] then checkFunction f
    else
      let f1 := functionNames f (popToken d r).1
      match cutAt '(' r with
      | none => .err "opening bracket for args not found".toList
      | some (before, after) => match cutAt ')' r with
        | none => .err "closing bracket for args not found".toList
        | some (before', tail) =>
          if before'.length < before.length then .panic
          else match cutAt ')' after with
            | none => .panic
            | some (args, _) => checkFunction (functionReturn d { f1 with rawArgs := trim args } tail)

/-- t.go:694-715 `T.Trigger` after formatting: parse, then `TOp.trigger` (Model/Load). -/
def triggerOp (d : Dialect) (sql : Str) : Res Trigger := populateTrigger d { sql := trim sql }

/-- function.go:70-85 `FilesToFunctions`.  The file system is the function `read` from file names to contents, `none` for a file that
cannot be read; error texts are not compared in full. -/
def filesToFunctions (d : Dialect) (read : Str → Option Str) : List Str → Res (List Function)
  | [] => .ok []
  | n :: ns => match read n with
    | none => .err ("reading file ".toList ++ n)
    | some text => match populateFunction d { sql := text } with
      | .ok f => (filesToFunctions d read ns).bind fun fs => .ok (f :: fs)
      | .err e => .err ("populating function from ".toList ++ n ++ ": ".toList ++ e)
      | .panic => .panic
      | .hang => .hang

end Ddl
