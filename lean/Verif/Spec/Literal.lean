import Verif.Spec.Scanner
import Verif.Model.Sprintf
/-
Specification of SQL literals (how a server reads them) and of interpolated query text.  From the model only the type of
values (`Sq.Val`) and the character classes of the query language are used.
-/
namespace Sq.SqlText
open _root_.Spec

/-! ### Reading literals -/

inductive Lit where
  | null
  | bool (b : Bool)
  | num (text : Str)
  | str (s : Str)
  | bytes (b : List (Fin 256))
  | bits (b : List (Fin 256))   -- x'..' on Postgres is a bit string

def hexVal (c : Char) : Option Nat :=
  if '0' ≤ c ∧ c ≤ '9' then some (c.toNat - '0'.toNat)
  else if 'a' ≤ c ∧ c ≤ 'f' then some (c.toNat - 'a'.toNat + 10)
  else none

/-- Pairs of hex digits. -/
def readHex : Str → Option (List (Fin 256))
  | [] => some []
  | [_] => none
  | a :: b :: r =>
    match hexVal a, hexVal b, readHex r with
    | some x, some y, some r => some (Fin.ofNat 256 (16 * x + y) :: r)
    | _, _, _ => none

/-- Digits at the start of the text. -/
def spanDigits (s : Str) : Str × Str := (s.takeWhile Char.isDigit, s.dropWhile Char.isDigit)

/-- An optional fraction. -/
def readFrac : Str → Str × Str
  | '.' :: c :: r => if c.isDigit then ('.' :: c :: (spanDigits r).1, (spanDigits r).2) else ([], '.' :: c :: r)
  | s => ([], s)

/-- An optional exponent. -/
def readExp : Str → Str × Str
  | 'e' :: s :: c :: r =>
    if (s = '+' ∨ s = '-') ∧ c.isDigit then ('e' :: s :: c :: (spanDigits r).1, (spanDigits r).2)
    else ([], 'e' :: s :: c :: r)
  | s => ([], s)

/-- Digits, an optional fraction, an optional exponent. -/
def readUnsigned (s : Str) : Option (Str × Str) :=
  let (ds, r) := spanDigits s
  if ds = [] then none
  else
    let (f, r) := readFrac r
    let (e, r) := readExp r
    some (ds ++ f ++ e, r)

def readNumeral : Str → Option (Str × Str)
  | '-' :: r => (readUnsigned r).map fun p => ('-' :: p.1, p.2)
  | s => readUnsigned s

/-- Read a keyword. -/
def keyword (k s : Str) : Option Str := if k.isPrefixOf s then some (s.drop k.length) else none

/-- A string literal with content `t`; on Postgres `'\x..'::BYTEA` is a byte string. -/
def quotedLit (d : Dialect) (t rest : Str) : Option (Lit × Str) :=
  match d, t, keyword "::BYTEA" rest with
  | .postgres, '\\' :: 'x' :: h, some rest' => (readHex h).map fun b => (.bytes b, rest')
  | _, _, _ => some (.str t, rest)

/-- A literal `x'..'` with content `t`. -/
def hexLit (d : Dialect) (t rest : Str) : Option (Lit × Str) :=
  (readHex t).map fun b => (if d = .postgres then .bits b else .bytes b, rest)

/-- Read one literal at the start of the text (standard-conforming strings). -/
def readLiteral (d : Dialect) : Str → Option (Lit × Str)
  | '\'' :: r => (scan '\'' r).bind fun p => quotedLit d p.1 p.2
  | 'x' :: '\'' :: r => (scan '\'' r).bind fun p => hexLit d p.1 p.2
  | s =>
    match keyword "NULL" s, keyword "TRUE" s, keyword "FALSE" s with
    | some r, _, _ => some (.null, r)
    | _, some r, _ => some (.bool true, r)
    | _, _, some r => some (.bool false, r)
    | _, _, _ => (readNumeral s).map fun p => (.num p.1, p.2)

/-- Text that cannot extend a preceding literal. -/
def Apart (rest : Str) : Prop :=
  (∀ c, rest.head? = some c → c ≠ '\'' ∧ c ≠ '.' ∧ c.isAlphanum = false) ∧ ("::BYTEA".toList).isPrefixOf rest = false

/-- The number a decimal numeral denotes. -/
def intVal : Str → Int
  | '-' :: r => -(digitsVal r : Int)
  | r => digitsVal r

/-- What a driver value denotes. -/
def denotesD : DVal → Lit → Prop
  | .int i, .num t => intVal t = i
  | .float (.finite f), .num t => t = f.write
  | .bool b, .bool b' => b' = b
  | .bytes b, .bytes b' => b' = b
  | .str s, .str s' => s' = s
  | .time t, .str s => s = t.val
  | _, _ => False

/-- What a Go value denotes: pointers stand for what they point to, invalid nullable values for NULL. -/
def denotes : Val → Lit → Prop
  | .nil, .null => True
  | .bool b, .bool b' => b' = b
  | .bytes b, .bytes b' => b' = b
  | .str s, .str s' => s' = s
  | .time t, .str s => s = t.val
  | .int i, .num t => intVal t = i
  | .float (.finite f), .num t => t = f.write
  | .named _ v, l => denotes v l
  | .null none, .null => True
  | .null (some v), l => denotesD v l
  | .valuer (.ok v), l => denotesD v l
  | .ptr v, l => denotes v l
  | _, _ => False

/-- The strings inside a value satisfy `p`. -/
def DVal.strs (p : Str → Prop) : DVal → Prop
  | .str s => p s
  | _ => True
def Val.strs (p : Str → Prop) : Val → Prop
  | .str s => p s
  | .named _ v | .ptr v => Val.strs p v
  | .null (some v) | .valuer (.ok v) => DVal.strs p v
  | _ => True

/-- No NaN or infinity inside. -/
def DVal.finite : DVal → Prop
  | .float .nan | .float (.inf _) => False
  | _ => True
def Val.finite : Val → Prop
  | .float .nan | .float (.inf _) => False
  | .named _ v | .ptr v => Val.finite v
  | .null (some v) | .valuer (.ok v) => DVal.finite v
  | _ => True

/-- No byte string handed over by a `driver.Valuer`. -/
def DVal.isBytes : DVal → Bool
  | .bytes _ => true
  | _ => false
def Val.valuerBytes : Val → Bool
  | .named _ v | .ptr v => Val.valuerBytes v
  | .null (some v) | .valuer (.ok v) => DVal.isBytes v
  | _ => false

/-! ### Query text with placeholders -/

inductive Ref where
  | anon
  | ord (n : Nat)
  | name (x : Str)

inductive Item where
  | text (s : Str)
  | quoted (q : Char) (body : Str)   -- string or delimited identifier, `body` being what it denotes
  | ph (sigil : Char) (r : Ref)

/-- Double every `q`. -/
def double (q : Char) : Str → Str
  | [] => []
  | c :: cs => if c = q then q :: q :: double q cs else c :: double q cs

def close (q : Char) : Char := if q = '[' then ']' else q

def Item.write (d : Dialect) : Item → Str
  | .text s => s
  | .quoted q body => q :: double (close q) body ++ [close q]
  | .ph sg .anon => [sg]
  | .ph sg (.ord n) => sg :: (if d = .sqlserver then ['p'] else []) ++ Nat.toDigits 10 n
  | .ph sg (.name x) => sg :: x

def write (d : Dialect) (is : List Item) : Str := is.flatMap (Item.write d)

/-- Characters that open a string or a delimited identifier. -/
def opens (d : Dialect) (c : Char) : Prop :=
  c = '\'' ∨ c = '"' ∨ (c = '`' ∧ d = .mysql) ∨ (c = '[' ∧ d = .sqlserver)

/-- Characters that start a placeholder. -/
def sigil (d : Dialect) (c : Char) : Prop :=
  match d with
  | .sqlite => c = '?' ∨ c = '$' ∨ c = ':' ∨ c = '@'
  | .postgres => c = '$'
  | .sqlserver => c = '@' ∨ c = '?'
  | _ => c = '?'

/-- A parameter name: ASCII letters, digits and underscores, starting with a letter or underscore.  On SQL Server `@p` and
`@p<digits>` are not names. -/
def NameOk (d : Dialect) (x : Str) : Prop :=
  (∃ c cs, x = c :: cs ∧ (c.isAlpha = true ∨ c = '_')) ∧ (∀ c ∈ x, c.isAlphanum = true ∨ c = '_') ∧
  (d = .sqlserver → ∀ cs, x = 'p' :: cs ∨ x = 'P' :: cs → ∃ c ∈ cs, c.isDigit = false)

/-- The placeholders each dialect has. -/
def PhOk (d : Dialect) (sg : Char) : Ref → Prop
  | .anon => sg = '?' ∧ d ≠ .postgres
  | .ord n => n < 2^63 ∧   -- fits an int
    match d with
    | .sqlite => sg = '?' ∨ sg = '$' ∨ sg = ':' ∨ sg = '@'
    | .postgres => sg = '$'
    | .sqlserver => sg = '@'
    | _ => False
  | .name x => NameOk d x ∧
    match d with
    | .sqlite => sg = '$' ∨ sg = ':' ∨ sg = '@'
    | .sqlserver => sg = '@'
    | _ => False

def Item.Ok (d : Dialect) : Item → Prop
  | .text s => ∀ c ∈ s, ¬ opens d c ∧ ¬ sigil d c
  | .quoted q _ => opens d q
  | .ph sg r => PhOk d sg r

/-- Punctuation and white space. -/
def separator (c : Char) : Prop := c ∈ [',', '(', ')', ';', '=', '<', '>', '+', '-', '*', '/', ':', ' ', '\t', '\n', '\r']

/-- What may follow an item: nothing that would glue to it.  A numbered or named placeholder (and `?` on SQLite) must be
followed by punctuation or white space. -/
def Follows (d : Dialect) (i : Item) (rest : Str) : Prop :=
  match i with
  | .text _ => True
  | .quoted q _ => rest.head? ≠ some (close q)
  | .ph _ r => (r = .anon ∧ d ≠ .sqlite) ∨ ∀ c, rest.head? = some c → separator c ∧ ¬ sigil d c

/-- Every item well-formed and separated from what follows. -/
def ItemsOk (d : Dialect) : List Item → Prop
  | [] => True
  | i :: is => i.Ok d ∧ Follows d i (write d is) ∧ ItemsOk d is

def isNamed (x : Str) : Val → Bool
  | .named n _ => n = x
  | _ => false

/-- The argument a placeholder refers to, `k` anonymous placeholders having come before. -/
def resolve (args : List Val) (k : Nat) : Ref → Option Val
  | .anon => args[k]?
  | .ord n => if n = 0 then none else args[n - 1]?
  | .name x => args.reverse.find? (isNamed x)

/-- How many anonymous placeholders have come before the next item. -/
def bump (k : Nat) : Ref → Nat
  | .anon => k + 1
  | _ => k

/-- The query with every placeholder replaced by the literal of its argument. -/
def interpolate (d : Dialect) (lit : Val → Option Str) (args : List Val) : Nat → List Item → Option Str
  | _, [] => some []
  | k, .ph _ r :: is =>
    (resolve args k r).bind fun v => (lit v).bind fun t =>
      (interpolate d lit args (bump k r) is).map (t ++ ·)
  | k, i :: is => (interpolate d lit args k is).map (i.write d ++ ·)

end Sq.SqlText
