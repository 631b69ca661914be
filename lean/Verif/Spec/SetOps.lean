import Verif.Basic
/-
How a set-operation expression is read.  Databases disagree on the relative precedence of UNION, INTERSECT and EXCEPT, so
the reader accepts a chain without parentheses only if all its operators are the same; then every database groups it the
same way.
-/
namespace Spec

inductive STok (α : Type) where
  | atom (a : α)
  | op (o : Str)
  | lp
  | rp

/-- One query, or a chain `e1 o e2 o e3 ...` of two or more. -/
inductive SExp (α : Type) where
  | atom (a : α)
  | chain (o : Str) (es : List (SExp α))

variable {α : Type}

mutual
/-- `query := prim [op chain]` -/
def readQuery : Nat → List (STok α) → Option (SExp α × List (STok α))
  | 0, _ => none
  | k + 1, ts =>
    match readOperand k ts with
    | some (e, .op o :: r) =>
      match readChain k o r with
      | some (es, r') => some (.chain o (e :: es), r')
      | none => none
    | x => x
/-- the operands after the first; a different operator at this level makes the text ambiguous -/
def readChain : Nat → Str → List (STok α) → Option (List (SExp α) × List (STok α))
  | 0, _, _ => none
  | k + 1, o, ts =>
    match readOperand k ts with
    | some (e, .op o' :: r) =>
      if o' = o then
        match readChain k o r with
        | some (es, r') => some (e :: es, r')
        | none => none
      else none
    | some (e, r) => some ([e], r)
    | none => none
/-- `prim := atom | ( query )` -/
def readOperand : Nat → List (STok α) → Option (SExp α × List (STok α))
  | 0, _ => none
  | _ + 1, .atom a :: r => some (.atom a, r)
  | k + 1, .lp :: r =>
    match readQuery k r with
    | some (e, .rp :: r') => some (e, r')
    | _ => none
  | _ + 1, _ => none
end

def readSetOps (ts : List (STok α)) : Option (SExp α) :=
  match readQuery (3 * ts.length + 3) ts with
  | some (e, []) => some e
  | _ => none

example : readSetOps [.atom 1, .op "U", .lp, .atom 2, .op "I", .atom 3, .rp] =
    some (.chain "U" [.atom 1, .chain "I" [.atom 2, .atom 3]]) := rfl
example : readSetOps [.atom 1, .op "U", .atom 2, .op "I", .atom 3] = none := rfl

end Spec
