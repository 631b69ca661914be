import Verif.Basic
/-
Independent specification of flags as sets of options, and of what a terminal shows.
-/
namespace Spec

/-- The options of a logger. -/
structure LogOptions where
  interpolate : Bool
  verbose : Bool
  caller : Bool
  color : Bool
  time : Bool
  async : Bool
  deriving DecidableEq

def LogOptions.union (a b : LogOptions) : LogOptions :=
  ⟨a.interpolate || b.interpolate, a.verbose || b.verbose, a.caller || b.caller, a.color || b.color, a.time || b.time, a.async || b.async⟩

/-- The options of a flag word: option `i` is bit `i`. -/
def options (flag : Nat) : LogOptions :=
  ⟨flag.testBit 0, flag.testBit 1, flag.testBit 2, flag.testBit 3, flag.testBit 4, flag.testBit 5⟩

/-- What a terminal shows: escape sequences `ESC ... m` only change the colour.  `inEsc`: inside a sequence. -/
def shown (inEsc : Bool) : Str → Str
  | [] => []
  | c :: cs =>
    if inEsc then shown (c ≠ 'm') cs
    else if c = '\x1b' then shown true cs
    else c :: shown false cs

end Spec
