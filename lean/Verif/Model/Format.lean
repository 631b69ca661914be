import Verif.Model.Machine
import Verif.Model.Tokenize
/-
Model of fmt.go:16-119 (`BufferPrintf`) and sq.go:150-192 (slices).
-/
namespace Sq

/-- `env map[string]interface{}`: nil or some map (identified by a number). -/
abbrev Env := Option Nat

/-- Which variant of the method is being called. `top b`: the caller has set `Toplevel`/`TopLevel` of the
(copied) receiver to `b`; `whereTrue`: insert_query.go:110-112 has put `TRUE` into an empty WHERE;
`cteDef`: the definition of a CTE in a WITH clause rather than a reference to it. -/
inductive Meth where
  | std
  | top (b : Bool)
  | whereTrue
  | cteDef
  deriving DecidableEq

/-- The parameters of `AppendSQL`/`AppendSQLExclude` that are only read. -/
structure Mode where
  d : Dialect
  env : Env := none
  ex : List Str := []
  meth : Meth := .std

/-- What the type switches of the package can observe about an `interface{}` value. -/
inductive Kind where
  | nilv
  | scalar (a : Scalar)
  | slice (id : Nat)
  | namedArg (name : Str) (v : Scalar)
  | field
  | vpred (n : Nat)      -- VariadicPredicate with n predicates
  | table
  | cte (isRec : Bool)
  | query
  | vquery
  | rowvalue
  | app                  -- any other SQLAppender / SQLExcludeAppender
  deriving DecidableEq

/-- A Go interface value as its callers see it: dynamic type, `GetAlias`, `GetName`, the key under which
`BufferPrintf` finds it by name (fmt.go:26-33), and its rendering method.  `act m pn` is
`BufferPrintValue(..., value, pn)` (fmt.go:121-191), which for an appender is its
`AppendSQLExclude`/`AppendSQL`. -/
structure Obj where
  kind : Kind
  alias : Str
  name : Str
  key : Option Str
  act : Mode → Str → W

namespace Kind
/-- implements SQLAppender or SQLExcludeAppender -/
def isAppender : Kind → Bool
  | nilv | scalar _ | slice _ | namedArg _ _ => false
  | _ => true
def isNil : Kind → Bool
  | nilv => true
  | _ => false
/-- implements `Query` -/
def isQuery : Kind → Bool
  | query | vquery => true
  | _ => false
/-- implements `Field` or `Table` -/
def hasName : Kind → Bool
  | field | vpred _ | table | cte _ | rowvalue => true
  | _ => false
/-- the element appended to `args` when the value is not an appender -/
def toArg : Kind → Arg
  | scalar a => .val a
  | namedArg n v => .named n v
  | slice i => .slice i
  | _ => .val .nil
end Kind

/-- sq.go:159-192 `explodeSlice` (one element): appenders are rendered with a nil environment, everything
else (including `sql.NamedArg` and nested slices) is bound as one argument. -/
def explodeElem (m : Mode) (o : Obj) : W :=
  if o.kind.isAppender then o.act { d := m.d, ex := m.ex } []
  else .emit (.bind [] o.kind.toArg)

/-- `", "`-separated sequence. -/
def sepBy (sep : Str) : List W → W
  | [] => .ok
  | [w] => w
  | w :: ws => w ⨟ .wr sep ⨟ sepBy sep ws

/-- sq.go:159-192 `explodeSlice`. -/
def explodeSlice (m : Mode) (os : List Obj) : W := sepBy ", " (os.map (explodeElem m))

/-- Segments of a format string, in order.  `trailing` is a `{` that is the last byte of the format:
`i+1 <= len(format)` holds but `format[i+1]` is out of range, so the code panics (fmt.go:47).
`unclosed` is a `{` without a following `}`: the rest is written verbatim (fmt.go:57-59, 117). -/
inductive Seg where
  | lit (c : Char)
  | hole (body : Str)
  | unclosed (s : Str)
  | trailing
  deriving DecidableEq, Repr

/-- The scanning part of fmt.go:46-61, as a recursion over bytes: `acc = none` outside braces, `some b`
inside a brace group whose body so far is `b` (in order).  `{{` is only an escape outside a group. -/
def parseFmt : Option Str → Str → List Seg
  | none, [] => []
  | none, [c] => if c = '{' then [.trailing] else [.lit c]
  | none, c :: d :: cs =>
    if c = '{' then
      if d = '{' then .lit '{' :: parseFmt none cs
      else if d = '}' then .hole [] :: parseFmt none cs
      else parseFmt (some [d]) cs
    else .lit c :: parseFmt none (d :: cs)
  | some b, [] => [.unclosed ('{' :: b)]
  | some b, c :: cs => if c = '}' then .hole b :: parseFmt none cs else parseFmt (some (b ++ [c])) cs

/-- Decimal digits to a number. -/
def digitsVal : Str → Nat := List.foldl (fun n c => 10 * n + (c.toNat - '0'.toNat)) 0

/-- `strconv.Atoi`: optional sign, at least one digit, only digits, within the 64-bit range. -/
def atoi (s : Str) : Option Int :=
  let (neg, ds) := match s with
    | '-' :: r => (true, r)
    | '+' :: r => (false, r)
    | r => (false, r)
  if ds ≠ [] ∧ ds.all Char.isDigit then
    let n := digitsVal ds
    if neg then if n ≤ 2^63 then some (-(n : Int)) else none
    else if n < 2^63 then some (n : Int) else none
  else none

/-- fmt.go:25-33: index of the *last* value with the given name. -/
def lookupName (vals : List Obj) (name : Str) : Option Obj :=
  vals.foldl (fun r o => if o.key = some name then some o else r) none

/-- fmt.go:67-74: split `{name:modifiers}` at the first `:`. -/
def splitColon : Str → Str × Option Str
  | [] => ([], none)
  | c :: cs => if c = ':' then ([], some cs) else let r := splitColon cs; (c :: r.1, r.2)

/-- fmt.go:101-108: the `nameonly` modifier replaces a field or table by `Literal(GetName())`. -/
def applyNameonly (on : Bool) (o : Obj) (m : Mode) (pn : Str) : W :=
  if on && o.kind.hasName then .wr o.name else o.act m pn

/-- The loop of fmt.go:46-113 over the segments. `idx` is `runningValuesIndex`, `ords` is
`ordinalNames`; on normal exit the ordinals are deleted from `params` (fmt.go:114-116). -/
def printSegs (m : Mode) (vals : List Obj) : (idx : Nat) → (ords : List Str) → List Seg → W
  | _, ords, [] => .emit (.forget ords)
  | idx, ords, .lit c :: r => .wr [c] ⨟ printSegs m vals idx ords r
  | _, ords, .unclosed s :: _ => .emit (.forget ords) ⨟ .wr s
  | _, _, .trailing :: _ => .panic
  | idx, ords, .hole body :: r =>
    let (name, mods) := splitColon body
    W.ofRes (match mods with | none => .ok [] | some s => lexModifiers true s) fun ms =>
      let no := ms.any (fun p => p.1 = "nameonly".toList)
      if name = [] then
        match vals[idx]? with
        | none => .fail "too few values passed in to BufferPrintf"
        | some v => applyNameonly no v m name ⨟ printSegs m vals (idx + 1) ords r
      else
        match atoi name with
        | some num =>
          if num - 1 < 0 then .fail "ordinal parameter is out of bounds"
          else match vals[(num - 1).toNat]? with
            | none => .fail "ordinal parameter is out of bounds"
            | some v => applyNameonly no v m name ⨟ printSegs m vals idx (ords ++ [name]) r
        | none =>
          match lookupName vals name with
          | none => .fail "named parameter not provided"
          | some v => applyNameonly no v m name ⨟ printSegs m vals idx ords r

/-- fmt.go:16-119 `BufferPrintf`. -/
def bprintf (m : Mode) (fmt : Str) (vals : List Obj) : W := printSegs m vals 0 [] (parseFmt none fmt)

end Sq
