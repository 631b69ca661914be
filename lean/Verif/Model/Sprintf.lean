import Verif.Model.Quote
import Verif.Model.Format
/-
Model of fmt.go:193-518: `Sprintf`, `lookupParam`, `Sprint`.  The query is scanned rune by rune; here one `Char` is one
rune.
-/
namespace Sq

/-- Text produced by `v.Format(time.RFC3339Nano)`; the layout produces no quote. -/
abbrev TimeText := { s : Str // '\'' ∉ s }

/-- The numeral grammar of `strconv.FormatFloat(f, 'g', -1, 64)` for finite `f`: sign, digits, optional fraction, optional
exponent. -/
structure FloatText where
  neg : Bool
  int : List Nat          -- digits, at least one
  frac : List Nat         -- digits after the point; no point if empty
  exp : Option (Bool × List Nat)  -- sign and digits of the exponent
  int_ne : int ≠ []
  int_lt : ∀ d ∈ int, d < 10
  frac_lt : ∀ d ∈ frac, d < 10
  exp_ok : ∀ e, exp = some e → e.2 ≠ [] ∧ ∀ d ∈ e.2, d < 10

/-- A `float64`: finite (with its shortest text), or one of the special values. -/
inductive FloatVal where
  | finite (t : FloatText)
  | nan
  | inf (neg : Bool)

/-- What a `driver.Valuer` may return, as distinguished by fmt.go:471-492; `other` is nil or any other type. -/
inductive DVal where
  | int (i : Int)
  | float (f : FloatVal)
  | bool (b : Bool)
  | bytes (b : List (Fin 256))
  | str (s : Str)
  | time (t : TimeText)
  | other

/-- A Go value given to `Sprint`, as distinguished by its type switch (fmt.go:386-492) and the reflection after it
(493-517). -/
inductive Val where
  | nil
  | bool (b : Bool)
  | bytes (b : List (Fin 256))
  | str (s : Str)
  | time (t : TimeText)
  | int (i : Int)                        -- all signed and unsigned integer types
  | float (f : FloatVal)
  | named (name : Str) (v : Val)         -- sql.NamedArg
  | null (v : Option DVal)               -- sql.NullBool, NullFloat64, NullInt64, NullInt32, NullString, NullTime
  | valuer (r : Res DVal)                -- any other driver.Valuer: what its Value() method does
  | ptr (v : Val)                        -- non-nil pointer (or interface)
  | nilPtr (isValuer : Bool)             -- nil pointer; `isValuer`: its type has a value-receiver Value() method
  | chan
  | func
  | other

/-- `strconv.FormatInt(i, 10)`, `strconv.FormatUint(i, 10)`. -/
def formatInt (i : Int) : Str := if i < 0 then '-' :: Nat.toDigits 10 i.natAbs else Nat.toDigits 10 i.natAbs

def digitsText (ds : List Nat) : Str := ds.map Nat.digitChar

def FloatText.write (t : FloatText) : Str :=
  (if t.neg then ['-'] else []) ++ digitsText t.int ++ (if t.frac = [] then [] else '.' :: digitsText t.frac) ++
  (match t.exp with
    | none => []
    | some (s, ds) => 'e' :: (if s then '-' else '+') :: digitsText ds)

/-- `strconv.FormatFloat(f, 'g', -1, 64)`. -/
def formatFloat : FloatVal → Str
  | .finite t => t.write
  | .nan => "NaN"
  | .inf neg => if neg then "-Inf" else "+Inf"

/-- `hex.EncodeToString`. -/
def hexText (b : List (Fin 256)) : Str := b.flatMap fun x => [Nat.digitChar (x.val / 16), Nat.digitChar (x.val % 16)]

def boolText (b : Bool) : Str := if b then "TRUE" else "FALSE"
def stringText (s : Str) : Str := '\'' :: escapeQuote '\'' s ++ ['\'']

/-- fmt.go:471-492: the literal of a `driver.Valuer`'s value; also (for the types that exist) of a valid `sql.Null...`
(fmt.go:427-466). -/
def sprintDVal : DVal → Res Str
  | .int i => .ok (formatInt i)
  | .float f => .ok (formatFloat f)
  | .bool b => .ok (boolText b)
  | .bytes b => .ok ('x' :: '\'' :: hexText b ++ ['\''])
  | .str s => .ok (stringText s)
  | .time t => .ok ('\'' :: t.val ++ ['\''])
  | .other => .err "unrecognized driver.Valuer type"

/-- fmt.go:385-518 `Sprint`.  `deref` says that we are inside the dereferencing loop (fmt.go:495-500): there a pointer is
followed without asking whether it is a `driver.Valuer`.  A pointer to a type with a value-receiver `Value` method is
itself a `driver.Valuer` (fmt.go:467). -/
def sprint (d : Dialect) : (deref : Bool) → Val → Res Str
  | _, .nil => .ok "NULL"
  | _, .bool b => .ok (boolText b)
  | _, .bytes b =>
    if d = .postgres then .ok ('\'' :: '\\' :: 'x' :: hexText b ++ '\'' :: "::BYTEA".toList)
    else .ok ('x' :: '\'' :: hexText b ++ ['\''])
  | _, .str s => .ok (stringText s)
  | _, .time t => .ok ('\'' :: t.val ++ ['\''])
  | _, .int i => .ok (formatInt i)
  | _, .float f => .ok (formatFloat f)
  | _, .named _ v => sprint d false v
  | _, .null none => .ok "NULL"
  | _, .null (some v) => sprintDVal v
  | _, .valuer r => r.bind sprintDVal
  | false, .ptr (.null none) => sprintDVal .other   -- Value() of an invalid sql.Null... returns nil
  | _, .ptr v => sprint d true v
  | deref, .nilPtr v => if v && !deref then .panic else .err "value is not valid"
  | _, .chan => .err "Go channels cannot be represented in SQL"
  | _, .func => .err "Go functions cannot be represented in SQL"
  | _, .other => .err "could not convert into its SQL representation"

/-- fmt.go:218-224 `nameTerminatingChars`. -/
def nameEnd (c : Char) : Bool :=
  c = ',' || c = '(' || c = ')' || c = ';' || c = '=' || c = '>' || c = '<' || c = '+' || c = '-' || c = '*' || c = '/' ||
  c = '\t' || c = '\n' || c = '\x0b' || c = '\x0c' || c = '\r' || c = ' ' || c = '\u0085' || c = '\u00A0' || c = ':'

/-- fmt.go:263: characters that start a string or identifier. -/
def quoteStart (d : Dialect) (c : Char) : Bool :=
  c = '\'' || c = '"' || (c = '`' && d = .mysql) || (c = '[' && d = .sqlserver)

/-- fmt.go:289-291: characters that start a parameter name. -/
def paramStart (d : Dialect) (c : Char) : Bool :=
  (c = '$' && (d = .sqlite || d = .postgres)) || (c = ':' && d = .sqlite) || (c = '@' && (d = .sqlite || d = .sqlserver))

/-- fmt.go:236-260: the character that closes a string or identifier opened with `q`. -/
def closing (q : Char) : Char := if q = '[' then ']' else q

/-- fmt.go:205-210 and 371: the *last* `sql.NamedArg` with the given name. -/
def namedArg (args : List Val) (name : Str) : Option Val :=
  args.foldl (fun r v => match v with | .named n _ => if n = name then some v else r | _ => r) none

/-- fmt.go:335-383 `lookupParam`; `paramName` is never empty. -/
def lookupParam (d : Dialect) (args : List Val) (paramName : Str) (idx : Nat) : Res Str :=
  match paramName with
  | [] => .panic
  | p :: name =>
    let maybeNum := if p = '@' ∧ d = .sqlserver ∧ (name.head? = some 'p' ∨ name.head? = some 'P') then name.tail else name
    if maybeNum = [] then
      if p ≠ '?' then .err "parameter name missing"
      else match args[idx]? with
        | none => .panic                       -- args[runningArgsIndex], unchecked
        | some v => sprint d false v
    else match atoi maybeNum with
      | some num =>
        if num - 1 < 0 then .err "args index out of bounds"
        else match args[(num - 1).toNat]? with
          | none => .err "args index out of bounds"
          | some v => sprint d false v
      | none =>
        if d = .postgres ∨ d = .mysql then .err "dialect does not support named parameters"
        else match namedArg args name with
          | none => .err "named parameter not provided"
          | some v => sprint d false v

/-- The variables of the loop (fmt.go:211-215). `must` says that the current position is `mustWriteCharAt`. -/
structure FSt where
  must : Bool := false
  quote : Option Char := none
  param : Str := []
  idx : Nat := 0

/-- Prepend what was written to the buffer. -/
def pre (t : Str) (r : Res Str) : Res Str := r.map (t ++ ·)

/-- fmt.go:225-332: the loop over the query and the flush after it. -/
def sprintfGo (d : Dialect) (args : List Val) : FSt → Str → Res Str
  | s, [] =>
    (if s.param ≠ [] then lookupParam d args s.param s.idx else .ok []).bind fun v =>
      if s.quote.isSome then .err "unclosed string or identifier" else .ok v
  | s, c :: cs =>
    if s.must then pre [c] (sprintfGo d args { s with must := false } cs)
    else match s.quote with
      | some q =>
        pre [c] (
          if c = closing q then
            if cs.head? = some (closing q) then sprintfGo d args { s with must := true } cs
            else sprintfGo d args { s with quote := none } cs
          else sprintfGo d args s cs)
      | none =>
        if quoteStart d c then pre [c] (sprintfGo d args { s with quote := some c } cs)
        else if s.param ≠ [] then
          if nameEnd c then
            (lookupParam d args s.param s.idx).bind fun v =>
              pre (v ++ [c]) (sprintfGo d args
                { s with param := [], idx := if s.param = ['?'] then s.idx + 1 else s.idx } cs)
          else sprintfGo d args { s with param := s.param ++ [c] } cs
        else if paramStart d c then sprintfGo d args { s with param := [c] } cs
        else if c = '?' ∧ d ≠ .postgres then
          if d = .sqlite then sprintfGo d args { s with param := [c] } cs
          else match args[s.idx]? with
            | none => .err "too few args provided"
            | some v => (sprint d false v).bind fun t => pre t (sprintfGo d args { s with idx := s.idx + 1 } cs)
        else pre [c] (sprintfGo d args s cs)

/-- fmt.go:193-333 `Sprintf`.  `mustWriteCharAt` starts as 0, the position of the first character. -/
def sprintf (d : Dialect) (query : Str) (args : List Val) : Res Str :=
  if args = [] then .ok query else sprintfGo d args { must := true } query

end Sq
