import Verif.Basic
/-
Specification of argument lists: an argument is a sequence of plain characters, string literals, parenthesised groups
and bracketed groups; commas inside literals and groups do not separate arguments.
-/
namespace Ddl.Spec

/-- Nesting depth after reading a text, starting at depth `n`, counting `o` as opening and `c` as closing; `none` if it
would become negative. -/
def depth (o c : Char) : Nat → Str → Option Nat
  | n, [] => some n
  | n, x :: xs =>
    if x = o then depth o c (n + 1) xs
    else if x = c then match n with | 0 => none | n + 1 => depth o c n xs
    else depth o c n xs

inductive Piece where
  | plain (c : Char)
  | str (s : Str)      -- the text it denotes
  | paren (s : Str)
  | array (s : Str)

/-- Write a string literal's content: every quote is doubled. -/
def quoteBody : Str → Str
  | [] => []
  | c :: cs => if c = '\'' then '\'' :: '\'' :: quoteBody cs else c :: quoteBody cs

def Piece.write : Piece → Str
  | .plain c => [c]
  | .str s => '\'' :: quoteBody s ++ ['\'']
  | .paren s => '(' :: s ++ [')']
  | .array s => '[' :: s ++ [']']

def Piece.Ok : Piece → Prop
  | .plain c => c ≠ ',' ∧ c ≠ '\'' ∧ c ≠ '(' ∧ c ≠ '['
  | .str _ => True
  | .paren s => depth '(' ')' 0 s = some 0
  | .array s => depth '[' ']' 0 s = some 0

def Piece.isStr : Piece → Bool
  | .str _ => true
  | _ => false

/-- An argument: pieces, no two string literals in a row (they would be one literal). -/
def ArgOk : List Piece → Prop
  | [] => True
  | p :: ps => p.Ok ∧ (p.isStr = true → ∀ q, ps.head? = some q → q.isStr = false) ∧ ArgOk ps

def writeArg (ps : List Piece) : Str := ps.flatMap Piece.write

/-- Arguments joined with commas. -/
def join : List Str → Str
  | [] => []
  | [a] => a
  | a :: b :: as => a ++ ',' :: join (b :: as)

end Ddl.Spec
