import Verif.Basic
/-
Go's `sort.SearchStrings`, used by field_info.go:71.
-/
namespace Sq

/-- Go string comparison `a < b`: bytewise lexicographic. -/
def strLt : Str → Str → Bool
  | [], [] => false
  | [], _ :: _ => true
  | _ :: _, [] => false
  | a :: as, b :: bs => if a.val < b.val then true else if b.val < a.val then false else strLt as bs

/-- `sort.Search(n, f)` of the Go standard library: binary search with `lo = i`, `hi = j`. -/
def searchLoop (f : Nat → Bool) (i j : Nat) : Nat :=
  if h : i < j then
    let m := (i + j) / 2
    if f m then searchLoop f i m else searchLoop f (m + 1) j
  else i
termination_by j - i
decreasing_by all_goals omega

/-- `sort.SearchStrings(a, x)`: smallest index `i` with `a[i] >= x`, by binary search. -/
def searchStrings (a : List Str) (x : Str) : Nat :=
  searchLoop (fun i => match a[i]? with | some y => !(strLt y x) | none => true) 0 a.length

/-- field_info.go:71-74: `i := SearchStrings(ex, q); i < len(ex) && ex[i] == q`. -/
def isExcluded (ex : List Str) (q : Str) : Bool :=
  match ex[searchStrings ex q]? with
  | some y => y == q
  | none => false

end Sq
