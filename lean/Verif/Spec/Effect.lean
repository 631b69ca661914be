import Verif.Model.Effect
/-
Two query trees that are the same but for a WHERE TRUE in the SELECT of an INSERT.
-/
namespace Sq.Spec.Effect
open Sq Sq.Effect

mutual
/-- The tree with WHERE TRUE in every SELECT that is the source of an INSERT and has no WHERE, at every depth. -/
def filled : Node → Node
  | .slice id xs => .slice id (filledL xs)
  | .param n v => .param n (filled v)
  | .field fi raw neg vals => .field fi raw neg (filledL vals)
  | .value v a => .value (filled v) a
  | .cpred a f ng vals => .cpred a f ng (filledL vals)
  | .vpred t a o ng ps => .vpred t a o ng (filledL ps)
  | .predCases a cs fb => .predCases a (filledP cs) (filled fb)
  | .simpleCases a e cs fb => .simpleCases a (filled e) (filledP cs) (filled fb)
  | .window part order frame => .window (filledL part) (filledL order) frame
  | .rowValue vs => .rowValue (filledL vs)
  | .rowValues rows => .rowValues (filledLL rows)
  | .assign l r => .assign (filled l) (filled r)
  | .assigns as => .assigns (filledP as)
  | .fields fs => .fields (filledL fs)
  | .table s n a hk hp => .table s n a hk (fun env => filled (hp env))
  | .customTable f vals => .customTable f (filledL vals)
  | .join jt t o => .join jt (filled t) (filled o)
  | .cte c q => .cte c (filled q)
  | .subquery st a q => .subquery st a (filled q)
  | .vquery t o qs => .vquery t o (filledL qs)
  | .customQuery d f vals => .customQuery d f (filledL vals)
  | .select q ctes fs don fr js wh gb hv ob =>
    .select q (filledL ctes) (filledL fs) (filledL don) (filled fr) (filledL js) (filled wh) (filledL gb) (filled hv) (filledL ob)
  | .insert q ctes into cols rows sets sel cf cp res rp ret =>
    .insert q (filledL ctes) (filled into) (filledL cols) (filledLL rows) (filledP sets) (fill (filled sel)) (filledL cf) (filled cp)
      (filledP res) (filled rp) (filledL ret)
  | .update q ctes tb fr js as sets wh ob ret =>
    .update q (filledL ctes) (filled tb) (filled fr) (filledL js) (filledP as) (filledP sets) (filled wh) (filledL ob) (filledL ret)
  | .delete q ctes frs us js wh ob ret =>
    .delete q (filledL ctes) (filledL frs) (filled us) (filledL js) (filled wh) (filledL ob) (filledL ret)
  | .nil => .nil
  | .scalar a => .scalar a
  | .namedArg n v => .namedArg n v
  | .checkedField s a fi => .checkedField s a fi
  | .literal s a => .literal s a
  | .ext k a n act => .ext k a n act
def filledL : List Node → List Node
  | [] => []
  | n :: ns => filled n :: filledL ns
def filledLL : List (List Node) → List (List Node)
  | [] => []
  | r :: rs => filledL r :: filledLL rs
def filledP : List (Node × Node) → List (Node × Node)
  | [] => []
  | (a, b) :: ps => (filled a, filled b) :: filledP ps
end

/-- The same tree, but for a WHERE TRUE in sources of INSERTs. -/
def SameButFilled (n n' : Node) : Prop := filled n = filled n'

/-- The SELECT queries of `cells` are used in `q` as sources of INSERTs only: adding WHERE TRUE to some of them is all that can be seen in the
tree of `q`. -/
def OnlySources (cells : Nat → Prop) (q : Query) : Prop :=
  ∀ h h' : Heap, (∀ a, h' a = h a ∨ (cells a ∧ h' a = fill (h a))) → SameButFilled (q.tree h) (q.tree h')

end Sq.Spec.Effect
