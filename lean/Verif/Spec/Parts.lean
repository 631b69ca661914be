import Verif.Model.Node
import Verif.Spec.Resolve
/-
Specification: the SQL text of a rendering after its placeholders have been replaced by the bound values, and SQL forms,
i.e. fixed text with operands in their places.
-/
namespace Sq.Spec

/-- Split fixed text into characters, so that only what is written matters and not in how many pieces. -/
def RPiece.chars : RPiece → List RPiece
  | .sql s => s.map fun c => .sql [c]
  | p => [p]

/-- Rendering a value on its own, in the way its user renders it (environment, excluded qualifiers, method called). -/
def renderAt (m : Mode) (n : Node) : Rendered :=
  let w := ren n m []
  let s := exec m.d w.code {}
  { query := bufString m.d s.out, args := s.args, params := s.params, pieces := s.out, status := w.st }

/-- What a value means when rendered on its own: its SQL with every placeholder replaced by the value bound to it. -/
def sqlAt (m : Mode) (n : Node) : List RPiece :=
  (resolve (renderAt m n).args 0 (renderAt m n).pieces).flatMap RPiece.chars

/-- The same for `ToSQL`. -/
def sqlOf (d : Dialect) (n : Node) : List RPiece :=
  (resolve (toSQL d n).args 0 (toSQL d n).pieces).flatMap RPiece.chars

/-- Fixed text, a bound value, an operand, or an operand rendered in a particular way. -/
inductive Part where
  | text (s : Str)
  | value (a : Arg)
  | operand (n : Node)
  | placed (n : Node) (m : Mode)

/-- The operands of a form, left to right. -/
def operands (ps : List Part) : List Node :=
  ps.filterMap fun | .operand n => some n | .placed n _ => some n | _ => none

/-- The SQL of a form, every operand standing for what it means on its own. -/
def Part.sql (d : Dialect) : Part → List RPiece
  | .text s => s.map fun c => .sql [c]
  | .value a => [.val a]
  | .operand n => sqlOf d n
  | .placed n m => sqlAt m n

end Sq.Spec
