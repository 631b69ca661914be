import Verif.Spec.Scanner
import Verif.Model.Node
/-
What the columns of a query are called, read off its text and off the values it is built from.
-/
namespace Spec
open Sq

/-- Text of a select item that the server gives the output name `x`: `... AS x`, or a possibly qualified column `x`. -/
def ItemNamed (d : Dialect) (text x : Str) : Prop :=
  ∃ before tok, text = before ++ tok ∧ readIdent d tok = some (x, []) ∧
    ((∃ e, before = e ++ " AS ".toList) ∨ before = [] ∨ ∃ q t, before = q ++ ['.'] ∧ readIdent d q = some (t, []))

/-- The name a selected value goes by: its alias, or else its own name. -/
def itemName (f : Node) : Str := if f.alias ≠ [] then f.alias else f.name

/-- A plain reference to a column, not negated, reordered or collated. -/
def IsColumn : Node → Prop
  | .field fi _ neg _ => neg = false ∧ fi.err = none ∧ fi.formats = [] ∧ fi.collation = [] ∧ fi.desc = none ∧ fi.nullsFirst = none
  | _ => False

/-- How PostgreSQL reads one identifier: unquoted letters are folded to lower case. -/
def pgName : Str → Option Str
  | '"' :: cs => match scan '"' cs with
    | some (x, []) => some x
    | _ => none
  | c :: cs => if (c.isAlpha || c == '_') && cs.all (fun c => c.isAlpha || c.isDigit || c == '_') then some ((c :: cs).map Char.toLower) else none
  | [] => none

end Spec
