import Verif.Model.Tokenize
/-
Specification of modifier lists: how they are written, and what balanced braces are.
-/
namespace Sq.Spec

/-- Nesting depth after reading a text starting at depth `n`; `none` if a brace closes nothing. -/
def depth : Nat → Str → Option Nat
  | n, [] => some n
  | n, c :: cs =>
    if c = '{' then depth (n + 1) cs
    else if c = '}' then match n with | 0 => none | n + 1 => depth n cs
    else depth n cs

def Balanced (s : Str) : Prop := depth 0 s = some 0

/-- A modifier: a name, possibly with a value, in braces or bare. -/
structure Modifier where
  name : Str
  value : Option Str
  bare : Bool := false

/-- A word of a modifier list: not empty, no space, brace or equals sign. -/
def Word (s : Str) : Prop := s ≠ [] ∧ ∀ c ∈ s, isSpace c = false ∧ c ≠ '{' ∧ c ≠ '}' ∧ c ≠ '='

/-- A value in braces is balanced; a bare value is not empty and has no space or brace. -/
def Modifier.Ok (m : Modifier) : Prop := Word m.name ∧ ∀ v, m.value = some v →
  if m.bare then v ≠ [] ∧ ∀ c ∈ v, isSpace c = false ∧ c ≠ '{' ∧ c ≠ '}' else Balanced v

def Modifier.write (m : Modifier) : Str :=
  match m.value with
  | none => m.name
  | some v => if m.bare then m.name ++ '=' :: v else m.name ++ '=' :: '{' :: v ++ ['}']

/-- Some white space (at least one character). -/
def Gap (s : Str) : Prop := s ≠ [] ∧ ∀ c ∈ s, trimSpace c = true

/-- A modifier list: modifiers with gaps between them. -/
def writeMods : List (Str × Modifier) → Str
  | [] => []
  | (g, m) :: ms => g ++ m.write ++ writeMods ms

/-- What the tokeniser should return for a modifier: a missing value is the empty string. -/
def Modifier.read (m : Modifier) : Str × Str := (m.name, m.value.getD [])

end Sq.Spec
