import Verif.Model.Fetch
/-
What a row mapper should see: a row is a function from fields to values, and reading a field gives that field's value.
-/
namespace Sq.Fetching.Spec
open Sq.Fetching

/-- What one call of the mapper did. -/
structure Seen (E : Type) where
  ended : Ended
  err : Option Str      -- the error returned to ProcessErr
  closed : Bool         -- row.Close() was called
  trace : List E

/-- The mapper's behaviour on a row in which field `f` has value `val kind f`.  `pr`: `Process` has already been used. -/
def behave {F V E : Type} (val : Kind → F → V) : Prog F V E → (pr cl : Bool) → (err : Option Str) → List E → Seen E
  | .ret, _, cl, err, tr => ⟨.done, err, cl, tr⟩
  | .read kind f k, pr, cl, err, tr => behave val (k (val kind f)) pr cl err tr
  | .effect e k, pr, cl, err, tr => behave val k pr cl err (tr ++ [e])
  | .isActive k, pr, cl, err, tr => behave val (k true) pr cl err tr
  | .process es c e k, pr, cl, err, tr =>
    if pr then behave val k pr cl err tr else behave val k true (cl || c) e (tr ++ es)
  | .close k, pr, _, err, tr => behave val k pr true err tr
  | .panic (some e), _, cl, err, tr => ⟨.panicErr e, err, cl, tr⟩
  | .panic none, _, cl, err, tr => ⟨.crash, err, cl, tr⟩

/-- The reading calls a mapper makes, in order, if every read is answered by `val` and `IsActive` by `active`. -/
def calls {F V E : Type} (val : Kind → F → V) (active : Bool) : Prog F V E → List (Kind × F)
  | .ret => []
  | .read kind f k => (kind, f) :: calls val active (k (val kind f))
  | .effect _ k => calls val active k
  | .isActive k => calls val active (k active)
  | .process _ _ _ k => calls val active k
  | .close k => calls val active k
  | .panic _ => []

/-- The registration pass: every read is answered by the zero value, `Process` does nothing. -/
def register {F V E : Type} (zero : Kind → V) : Prog F V E → (cl : Bool) → List E → Ended × Bool × List E
  | .ret, cl, tr => (.done, cl, tr)
  | .read kind _ k, cl, tr => register zero (k (zero kind)) cl tr
  | .effect e k, cl, tr => register zero k cl (tr ++ [e])
  | .isActive k, cl, tr => register zero (k false) cl tr
  | .process _ _ _ k, cl, tr => register zero k cl tr
  | .close k, _, tr => register zero k true tr
  | .panic (some e), cl, tr => (.panicErr e, cl, tr)
  | .panic none, cl, tr => (.crash, cl, tr)

/-- The mapper over a whole table: row after row until an error or a close.  A row in which some requested value cannot be
converted is `none`. -/
def visit {F V E : Type} (mapper : List E → Prog F V E) :
    List E → Bool → Nat → List (Option (Kind → F → V)) → Nat × LoopEnd × List E
  | tr, _, n, [] => (n, .exhausted, tr)
  | tr, _, n, none :: _ => (n + 1, .err "scan", tr)
  | tr, cl, n, some val :: rest =>
    let s := behave val (mapper tr) false cl none tr
    match s.ended, s.err with
    | .panicErr e, _ => (n + 1, .panicErr e, s.trace)
    | .crash, _ => (n + 1, .crash, s.trace)
    | .done, some e => (n + 1, .err e, s.trace)
    | .done, none => if s.closed then (n + 1, .closedEarly, s.trace) else visit mapper s.trace s.closed (n + 1) rest

/-- `view` is what a mapper reading the fields `D` can see of a raw row. -/
def Shows {F V Raw : Type} (conv : Kind → Raw → Option V) (D : List (Kind × F)) (row : F → Raw) : Option (Kind → F → V) → Prop
  | some val => ∀ kf ∈ D, conv kf.1 (row kf.2) = some (val kf.1 kf.2)
  | none => ∃ kf ∈ D, conv kf.1 (row kf.2) = none

end Sq.Fetching.Spec
