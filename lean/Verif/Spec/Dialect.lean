import Verif.Model.Node
/-
Two queries that differ in nothing but the dialects their parts were built for: `plain` forgets, at every depth, for which dialect a query was
built.
-/
namespace Spec.Dial
open Sq

mutual
def plain : Node → Node
  | .slice id xs => .slice id (plainL xs)
  | .param n v => .param n (plain v)
  | .field fi raw neg vals => .field fi raw neg (plainL vals)
  | .value v a => .value (plain v) a
  | .cpred a f ng vals => .cpred a f ng (plainL vals)
  | .vpred t a o ng ps => .vpred t a o ng (plainL ps)
  | .predCases a cs fb => .predCases a (plainP cs) (plain fb)
  | .simpleCases a e cs fb => .simpleCases a (plain e) (plainP cs) (plain fb)
  | .window part order frame => .window (plainL part) (plainL order) frame
  | .rowValue vs => .rowValue (plainL vs)
  | .rowValues rows => .rowValues (plainLL rows)
  | .assign l r => .assign (plain l) (plain r)
  | .assigns as => .assigns (plainP as)
  | .fields fs => .fields (plainL fs)
  | .table s n a hk hp => .table s n a hk (fun env => plain (hp env))
  | .customTable f vals => .customTable f (plainL vals)
  | .join jt t o => .join jt (plain t) (plain o)
  | .cte c q => .cte c (plain q)
  | .subquery st a q => .subquery st a (plain q)
  | .vquery t o qs => .vquery t o (plainL qs)
  | .customQuery _ f vals => .customQuery .other f (plainL vals)
  | .select q ctes fs don fr js wh gb hv ob =>
    .select { q with dialect := .other } (plainL ctes) (plainL fs) (plainL don) (plain fr) (plainL js) (plain wh) (plainL gb) (plain hv) (plainL ob)
  | .insert q ctes into cols rows sets sel cf cp res rp ret =>
    .insert { q with dialect := .other } (plainL ctes) (plain into) (plainL cols) (plainLL rows) (plainP sets) (plain sel) (plainL cf) (plain cp)
      (plainP res) (plain rp) (plainL ret)
  | .update q ctes tb fr js as sets wh ob ret =>
    .update { q with dialect := .other } (plainL ctes) (plain tb) (plain fr) (plainL js) (plainP as) (plainP sets) (plain wh) (plainL ob) (plainL ret)
  | .delete q ctes frs us js wh ob ret =>
    .delete { q with dialect := .other } (plainL ctes) (plainL frs) (plain us) (plainL js) (plain wh) (plainL ob) (plainL ret)
  | .nil => .nil
  | .scalar a => .scalar a
  | .namedArg n v => .namedArg n v
  | .checkedField s a fi => .checkedField s a fi
  | .literal s a => .literal s a
  | .ext k a n act => .ext k a n act
def plainL : List Node → List Node
  | [] => []
  | n :: ns => plain n :: plainL ns
def plainLL : List (List Node) → List (List Node)
  | [] => []
  | r :: rs => plainL r :: plainLL rs
def plainP : List (Node × Node) → List (Node × Node)
  | [] => []
  | (a, b) :: ps => (plain a, plain b) :: plainP ps
end

/-- The same query, up to the dialects its parts were built for. -/
def SameButDialects (n n' : Node) : Prop := plain n = plain n'

end Spec.Dial
