import Verif.Basic
/-
Model of the struct-tag / modifier tokenisers:
  reflect_table.go:107-179  (`cutValue`, `lexValue`, `lexModifiers`)
  ddl/fmt.go:12-83          (`popBraceToken`, `tokenizeValue`, `tokenizeModifiers`)
These functions decode runes, so here one `Char` is one rune.  (Invalid UTF-8, decoded by Go as
U+FFFD of width 1, is outside the model.)
-/
namespace Sq

/-- The cutset of `strings.TrimLeft` in reflect_table.go:108 and ddl/fmt.go:13. -/
def trimSpace (c : Char) : Bool :=
  c = ' ' || c = '\t' || c = '\n' || c = '\x0b' || c = '\x0c' || c = '\r' || c = '\u0085' || c = '\u00A0'

/-- `unicode.IsSpace` (Go standard library): the Latin-1 space characters plus the other
characters with property White_Space. -/
def isSpace (c : Char) : Bool :=
  trimSpace c || c.val = 0x1680 || (0x2000 ≤ c.val && c.val ≤ 0x200a) || c.val = 0x2028 || c.val = 0x2029
    || c.val = 0x202f || c.val = 0x205f || c.val = 0x3000

/-- The scanning loop of `cutValue` (reflect_table.go:114-134) / `popBraceToken` (ddl/fmt.go:20-42),
as a recursion over the remaining runes.  `lvl` is `bracelevel`, `bq` is `isBraceQuoted`; the result is
the token text up to `splitAt`, the rest, and the final brace level (or the "too many closing braces"
error). -/
def cutLoop (bq : Bool) : (lvl : Nat) → Str → Res (Str × Str × Nat)
  | lvl, [] => .ok ([], [], lvl)
  | lvl, c :: cs =>
    if c = '}' ∧ lvl = 0 then .err "too many closing braces"
    else
      let lvl' := if c = '{' then lvl + 1 else if c = '}' then lvl - 1 else lvl
      if lvl' = 0 ∧ bq = true then .ok ([c], cs, 0)
      else if lvl' = 0 ∧ isSpace c = true then .ok ([], c :: cs, 0)
      else (cutLoop bq lvl' cs).map (fun r => (c :: r.1, r.2))

/-- reflect_table.go:107-144 `cutValue` and ddl/fmt.go:12-50 `popBraceToken` (the same code). -/
def cutValue (s : Str) : Res (Str × Str) :=
  match s.dropWhile trimSpace with
  | [] => .ok ([], [])
  | c :: cs =>
    let bq := decide (c = '{')
    (cutLoop bq 0 (c :: cs)).bind fun (value, rest, lvl) =>
      if lvl > 0 then .err "unclosed brace"
      else if bq then .ok (value.tail.dropLast, rest)   -- value[1:len(value)-1]
      else .ok (value, rest)

/-- `strings.Index(value, "=")` split: the part before the first `=` and the part after it. -/
def splitEq : Str → Option (Str × Str)
  | [] => none
  | c :: cs => if c = '=' then some ([], cs) else (splitEq cs).map (fun r => (c :: r.1, r.2))

/-- reflect_table.go:167-173 / ddl/fmt.go:73-79: split one token into name and value.
`subvalue[0]` panics when nothing follows the `=`; `subvalue[1:len(subvalue)-1]` panics when the
value is the single byte `{` (slice bounds 1:0). -/
def splitModifier (tok : Str) : Res (Str × Str) :=
  match splitEq tok with
  | none => .ok (tok, [])
  | some (_, []) => .panic
  | some (name, v :: vs) =>
    if v = '{' then
      if vs = [] then .panic else .ok (name, vs.dropLast)
    else .ok (name, v :: vs)

/-- reflect_table.go:158-179 `lexModifiers` (`keepEmpty = true`) and ddl/fmt.go:64-88
`tokenizeModifiers` (`keepEmpty = false`: empty tokens are skipped).  If an iteration does not shorten
the remainder the Go loop runs forever, which is the outcome `hang`.  The returned index map is the
position of the last modifier of each name and is derived from the list (`modifierIndex`). -/
def lexModifiers (keepEmpty : Bool) (s : Str) : Res (List (Str × Str)) :=
  if s = [] then .ok []
  else
    (cutValue s).bind fun (tok, rest) =>
      if rest.length < s.length then
        if tok = [] ∧ keepEmpty = false then lexModifiers keepEmpty rest
        else (splitModifier tok).bind fun m =>
          (lexModifiers keepEmpty rest).map (fun ms => m :: ms)
      else .hang
termination_by s.length

/-- reflect_table.go:146-156 `lexValue`, ddl/fmt.go:52-62 `tokenizeValue`. -/
def lexValue (keepEmpty : Bool) (s : Str) : Res (Str × List (Str × Str)) :=
  (cutValue s).bind fun (v, rest) =>
    (lexModifiers keepEmpty rest).map (fun ms => (v, ms))

end Sq
