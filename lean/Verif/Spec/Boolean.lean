import Verif.Basic
/-
How SQL reads a boolean expression: NOT binds tighter than AND, AND tighter than OR, parentheses group.
Atoms are opaque.
-/
namespace Spec

inductive BTok (α : Type) where
  | atom (a : α)
  | and
  | or
  | not
  | lp
  | rp

inductive BExp (α : Type) where
  | atom (a : α)
  | not (e : BExp α)
  | and (e f : BExp α)
  | or (e f : BExp α)

variable {α : Type}

mutual
/-- `expr := conj [OR expr]` (first argument: recursion bound) -/
def readOr : Nat → List (BTok α) → Option (BExp α × List (BTok α))
  | 0, _ => none
  | k + 1, ts =>
    match readAnd k ts with
    | some (e, .or :: r) =>
      match readOr k r with
      | some (f, r') => some (.or e f, r')
      | none => none
    | x => x
/-- `conj := neg [AND conj]` -/
def readAnd : Nat → List (BTok α) → Option (BExp α × List (BTok α))
  | 0, _ => none
  | k + 1, ts =>
    match readNot k ts with
    | some (e, .and :: r) =>
      match readAnd k r with
      | some (f, r') => some (.and e f, r')
      | none => none
    | x => x
/-- `neg := NOT neg | prim` -/
def readNot : Nat → List (BTok α) → Option (BExp α × List (BTok α))
  | 0, _ => none
  | k + 1, .not :: r =>
    match readNot k r with
    | some (e, r') => some (.not e, r')
    | none => none
  | k + 1, ts => readPrim k ts
/-- `prim := atom | ( expr )` -/
def readPrim : Nat → List (BTok α) → Option (BExp α × List (BTok α))
  | 0, _ => none
  | _ + 1, .atom a :: r => some (.atom a, r)
  | k + 1, .lp :: r =>
    match readOr k r with
    | some (e, .rp :: r') => some (e, r')
    | _ => none
  | _ + 1, _ => none
end

/-- Read a whole token sequence. -/
def readBool (ts : List (BTok α)) : Option (BExp α) :=
  match readOr (4 * ts.length + 4) ts with
  | some (e, []) => some e
  | _ => none

/-- `a AND (b AND (c ...))`, `a OR (b OR ...)`; nothing for no operands. -/
def BExp.join (op : BExp α → BExp α → BExp α) : List (BExp α) → Option (BExp α)
  | [] => none
  | [e] => some e
  | e :: es => (BExp.join op es).map (op e)

example : readBool [.not, .atom 1, .and, .atom 2, .or, .atom 3] =
    some (BExp.or (.and (.not (.atom 1)) (.atom 2)) (.atom 3)) := rfl
example : readBool [.not, .lp, .atom 1, .and, .atom 2, .rp] = some (BExp.not (.and (.atom 1) (.atom 2))) := rfl

end Spec
