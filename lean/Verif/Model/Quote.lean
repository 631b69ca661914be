import Verif.Basic
/-
Model of sq.go:194-251 (`EscapeQuote`, `QuoteIdentifier`).
-/
namespace Sq

/-- sq.go:194-217 `EscapeQuote(str, quote)`.

The Go loop jumps with `strings.IndexByte` from one quote byte to the next, copying the bytes
in between verbatim; here the copying is done byte by byte (`c :: ...`), which is the same
thing.  At a quote byte it writes the doubled quote and then, *if at least three bytes remain
and the next byte is also the quote* (`len(str[i:]) > 2 && str[i:i+2] == escapedQuote`), skips
both, otherwise skips one. -/
def escapeQuote (q : Char) : Str → Str
  | [] => []
  | [c] => if c = q then [q, q] else [c]
  | [c, d] => if c = q then q :: q :: escapeQuote q [d] else c :: escapeQuote q [d]
  | c :: d :: e :: rest =>
    if c = q then
      if d = q then q :: q :: escapeQuote q (e :: rest)
      else q :: q :: escapeQuote q (d :: e :: rest)
    else c :: escapeQuote q (d :: e :: rest)

/-- One byte of an identifier that never forces quoting (sq.go:227). -/
def plainChar (c : Char) : Bool :=
  c = '_' || ('0' ≤ c && c ≤ '9') || ('a' ≤ c && c ≤ 'z')

/-- sq.go:220-240: the `needsQuoting` computation.  Iterating over runes or over bytes makes no
difference: anything that is not one of the ASCII characters `_a-z0-9` forces quoting. -/
def needsQuoting : Str → Bool
  | [] => true
  | c :: cs => ('0' ≤ c && c ≤ '9') || !(plainChar c) || !(cs.all plainChar)

/-- sq.go:219-251 `QuoteIdentifier`. -/
def quoteIdentifier (d : Dialect) (ident : Str) : Str :=
  if needsQuoting ident then
    match d with
    | .mysql => '`' :: escapeQuote '`' ident ++ ['`']
    | .sqlserver => '[' :: escapeQuote ']' ident ++ [']']
    | _ => '"' :: escapeQuote '"' ident ++ ['"']
  else ident

end Sq
