import Verif.Model.Expr
import Verif.Spec.Parts
/-
Specification for the expression functions: the SQL each call stands for.
-/
namespace Sq.Spec

/-- An operand that is a query stands in parentheses. -/
def bracketed (n : Node) : List Part :=
  if n.kind = .query ∨ n.kind = .vquery then [.text "(", .operand n, .text ")"] else [.operand n]

/-- Window function calls: name, arguments, window. -/
def over (name : Str) (args : List Part) (w : Node) : List Part :=
  .text (name ++ "(".toList) :: args ++ [.text ") OVER ", .operand w]

def arms (cs : List (Node × Node)) : List Part :=
  cs.flatMap fun c => [.text " WHEN ", .operand c.1, .text " THEN ", .operand c.2]

def otherwise (e : Node) : List Part :=
  (match e with | .nil => [] | e => [.text " ELSE ", .operand e]) ++ [.text " END"]

/-- The SQL a call stands for. -/
def form : Call → List Part
  | .eq a b => bracketed a ++ [.text " = "] ++ bracketed b
  | .ne a b => bracketed a ++ [.text " <> "] ++ bracketed b
  | .gt a b => bracketed a ++ [.text " > "] ++ bracketed b
  | .ge a b => bracketed a ++ [.text " >= "] ++ bracketed b
  | .lt a b => bracketed a ++ [.text " < "] ++ bracketed b
  | .le a b => bracketed a ++ [.text " <= "] ++ bracketed b
  -- a row value brings its own parentheses
  | .in_ a (.rowValue vs) => [.operand a, .text " IN ", .operand (.rowValue vs)]
  | .in_ a b => [.operand a, .text " IN (", .operand b, .text ")"]
  | .isNull f => [.operand f, .text " IS NULL"]
  | .isNotNull f => [.operand f, .text " IS NOT NULL"]
  | .exists_ q => [.text "EXISTS (", .operand q, .text ")"]
  | .notExists q => [.text "NOT EXISTS (", .operand q, .text ")"]
  | .like f v => [.operand f, .text " LIKE ", .operand v]
  | .ilike f v => [.operand f, .text " ILIKE ", .operand v]
  | .count f => [.text "COUNT(", .operand f, .text ")"]
  | .countAll => [.text "COUNT(*)"]
  | .sum f => [.text "SUM(", .operand f, .text ")"]
  | .avg f => [.text "AVG(", .operand f, .text ")"]
  | .min f => [.text "MIN(", .operand f, .text ")"]
  | .max f => [.text "MAX(", .operand f, .text ")"]
  | .countOver f w => over "COUNT" [.operand f] w
  | .countAllOver w => over "COUNT" [.text "*"] w
  | .sumOver f w => over "SUM" [.operand f] w
  | .avgOver f w => over "AVG" [.operand f] w
  | .minOver f w => over "MIN" [.operand f] w
  | .maxOver f w => over "MAX" [.operand f] w
  | .rowNumberOver w => over "ROW_NUMBER" [] w
  | .rankOver w => over "RANK" [] w
  | .denseRankOver w => over "DENSE_RANK" [] w
  | .percentRankOver w => over "PERCENT_RANK" [] w
  | .cumeDistOver w => over "CUME_DIST" [] w
  | .leadOver f o x w => over "LEAD" [.operand f, .text ", ", .operand o, .text ", ", .operand x] w
  | .lagOver f o x w => over "LAG" [.operand f, .text ", ", .operand o, .text ", ", .operand x] w
  | .ntileOver n w => over "NTILE" [.operand n] w
  | .firstValueOver f w => over "FIRST_VALUE" [.operand f] w
  | .lastValueOver f w => over "LAST_VALUE" [.operand f] w
  | .nthValueOver f n w => over "NTH_VALUE" [.operand f, .text ", ", .operand n] w
  | .assign l r => [.operand l, .text " = "] ++ bracketed r
  | .caseWhen c cs e => .text "CASE" :: arms (c :: cs) ++ otherwise e
  | .caseOf f c cs e => [.text "CASE ", .operand f] ++ arms (c :: cs) ++ otherwise e

end Sq.Spec
