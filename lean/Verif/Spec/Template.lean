import Verif.Model.Format
/-
Specification of format strings, independent of the scanner: a template is a list of parts, written out with `{`
doubled in literal text, and a plan says which value each reference stands for.
-/
namespace Sq.Spec

inductive TPart where
  /-- a literal character -/
  | text (c : Char)
  /-- `{}` -/
  | next
  /-- `{name}` or `{3}` -/
  | ref (name : Str)
  deriving DecidableEq, Repr

/-- How a template part is written in a format string. -/
def TPart.write : TPart → Str
  | .text c => if c = '{' then ['{', '{'] else [c]
  | .next => ['{', '}']
  | .ref nm => '{' :: nm ++ ['}']

def write (ts : List TPart) : Str := ts.flatMap TPart.write

/-- A reference name: not empty, does not start with a brace, contains no `}` and no `:`. -/
def RefName (nm : Str) : Prop := nm ≠ [] ∧ nm.head? ≠ some '{' ∧ '}' ∉ nm ∧ ':' ∉ nm

def WellFormed (ts : List TPart) : Prop := ∀ nm, TPart.ref nm ∈ ts → RefName nm

/-- The value a reference stands for: a number is a 1-based position, anything else is the last value of that name. -/
def pickRef {V : Type} (key : V → Option Str) (vals : List V) (nm : Str) : Option V :=
  match atoi nm with
  | some n => if 1 ≤ n then vals[(n - 1).toNat]? else none
  | none => vals.reverse.find? (fun v => key v = some nm)

/-- One step of the output: a character, or a value (told the name it is referred to by). -/
inductive Step (V : Type) where
  | text (c : Char)
  | value (v : V) (name : Str)

/-- What a template with values stands for; `none` if some reference has no value.  `i` is the number of `{}` already
seen. -/
def plan {V : Type} (key : V → Option Str) (vals : List V) : (i : Nat) → List TPart → Option (List (Step V))
  | _, [] => some []
  | i, .text c :: ts => (plan key vals i ts).map (.text c :: ·)
  | i, .next :: ts => do
    let v ← vals[i]?
    let r ← plan key vals (i + 1) ts
    return .value v [] :: r
  | i, .ref nm :: ts => do
    let v ← pickRef key vals nm
    let r ← plan key vals i ts
    return .value v nm :: r

end Sq.Spec
