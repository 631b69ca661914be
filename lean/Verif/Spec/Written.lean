import Verif.Spec.Clauses
import Verif.Spec.Expr
/-
Specification: writing a form part by part into a buffer that already holds something.  Unlike `Part.sql` (Spec/Parts), which gives each
operand the meaning it has when rendered alone, this also covers operands that share parameters with one another or with what was
written before.
-/
namespace Sq.Spec

/-- What a caller of `AppendSQL` or `AppendSQLExclude` passes in and gets back: the text in the buffer, the values bound so far, and the
positions of the named parameters among them. -/
structure Written where
  text : Str
  args : List Arg
  params : Params

def written (d : Dialect) (s : St) : Written := { text := bufString d s.out, args := s.args, params := s.params }

/-- Calling the rendering method of a value on a buffer. -/
def appendSQL (m : Mode) (n : Node) (s : St) : St := exec m.d (ren n m []).code s

/-- How the call ended. -/
def appendStatus (m : Mode) (n : Node) : Status := (ren n m []).st

/-- One part: text is written as it is; a value is bound, as a value without a name; an operand is rendered by its own method, on the
buffer as it is then. -/
def Part.append (d : Dialect) (s : St) : Part → St
  | .text t => { s with out := s.out ++ [.text t] }
  | .value a => { s with out := s.out ++ [if numbered d then .ph (s.args.length + 1) else .anon], args := s.args ++ [a] }
  | .operand n => appendSQL { d := d } n s
  | .placed n m => appendSQL m n s

/-- The parts one after another. -/
def appendParts (d : Dialect) (ps : List Part) (s : St) : St := ps.foldl (Part.append d) s

/-- An operand can be rendered. -/
def Part.renders (d : Dialect) : Part → Prop
  | .operand n => appendStatus { d := d } n = .ok
  | .placed n m => appendStatus m n = .ok
  | _ => True

end Sq.Spec
