import Verif.Model.Machine
/-
Specification: how a database reads a query text together with its argument list.
-/
namespace Sq.Spec

/-- A query after its placeholders have been replaced by the values bound to them. -/
inductive RPiece where
  | sql (s : Str)
  | val (a : Arg)
  | dangling
  deriving DecidableEq, Repr

def pick (o : Option Arg) : RPiece := match o with | some a => .val a | none => .dangling

/-- The argument a named placeholder refers to. -/
def byName (args : List Arg) (nm : Str) : Option Arg :=
  args.find? (fun a => match a with | .named n _ => n = nm | _ => false)

/-- Replace placeholders: `$n`/`@pn` by the n-th argument (counting from 1), the k-th `?` by the k-th argument
(`next` counts the `?` seen so far), a named placeholder by the named argument of that name. -/
def resolve (args : List Arg) : (next : Nat) → List Piece → List RPiece
  | _, [] => []
  | k, .text s :: ps => .sql s :: resolve args k ps
  | k, .ph n :: ps => pick (if n = 0 then none else args[n - 1]?) :: resolve args k ps
  | k, .anon :: ps => pick args[k]? :: resolve args (k + 1) ps
  | k, .ref nm :: ps => pick (byName args nm) :: resolve args k ps

/-- The dialects whose placeholders carry a number. -/
def numberedDialects : List Dialect := [.postgres, .sqlite, .sqlserver]

/-- How the drivers expect the placeholder of the `k`-th argument (counting from 1). -/
def spelled (d : Dialect) (k : Nat) : Str :=
  if d = .postgres ∨ d = .sqlite then "$".toList ++ (toString k).toList
  else if d = .sqlserver then "@p".toList ++ (toString k).toList
  else "?".toList

/-- How they expect the placeholder of a named argument. -/
def spelledName (d : Dialect) (name : Str) : Str :=
  (if d = .sqlserver then "@".toList else if d = .sqlite then "$".toList else ":".toList) ++ name

end Sq.Spec
