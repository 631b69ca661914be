import Verif.Spec.Literal
import Verif.Spec.Resolve
import Verif.Model.View
/-
Specification: a rendered query with its arguments put in.
-/
namespace Sq.Inline
open Sq.SqlText

/-- A placeholder as part of a query text. -/
def placeholder (d : Dialect) : Piece → Option Item
  | .text _ => none
  | .ph n => some (.ph (if d = .sqlserver then '@' else '$') (.ord n))
  | .anon => some (.ph '?' .anon)
  | .ref x => some (.ph (match d with | .sqlserver => '@' | .sqlite => '$' | _ => ':') (.name x))

/-- Text without placeholders. -/
def Item.isText : Item → Bool
  | .ph _ _ => false
  | _ => true

/-- What was written, read as ordinary text, quoted text and placeholders: every placeholder is one that was written as such, and the text
between them is made of ordinary and quoted text, every quote being closed. -/
inductive Reads (d : Dialect) : List Piece → List Item → Prop
  | nil : Reads d [] []
  | text (ts : List Str) (js : List Item) {ps is} : ts.flatten = write d js → (∀ j ∈ js, Item.isText j = true) → Reads d ps is →
      Reads d (ts.map .text ++ ps) (js ++ is)
  | ph {p i ps is} : placeholder d p = some i → Reads d ps is → Reads d (p :: ps) (i :: is)

/-- A query whose placeholders have been replaced by values, written out with the literals of the values; `none` if a value has no literal
or a placeholder no value. -/
def written (lit : Arg → Option Str) : List Spec.RPiece → Option Str
  | [] => some []
  | .sql s :: ps => (written lit ps).map (s ++ ·)
  | .val a :: ps => (lit a).bind fun t => (written lit ps).map (t ++ ·)
  | .dangling :: _ => none

/-- What a bound value is: the literal of a value stands for the value itself. -/
def Means : Scalar → Lit → Prop
  | .nil, .null => True
  | .bool b, .bool b' => b' = b
  | .int i, .num t => intVal t = i
  | .str s, .str s' => s' = s
  | .bytes s, .bytes b => b.map (fun x => Char.ofNat x.val) = s
  | _, _ => False

/-- Values the package knows how to bind and to write (not `opaque` ones), byte strings being made of bytes. -/
def Plain : Scalar → Prop
  | .opaque _ => False
  | .bytes s => ∀ c ∈ s, c.toNat < 256
  | _ => True

/-- No two named arguments of the same name. -/
def NamesDiffer (args : List Arg) : Prop :=
  ∀ (i j : Nat) (x : Str) (a b : Scalar), args[i]? = some (.named x a) → args[j]? = some (.named x b) → i = j

end Sq.Inline
