import Verif.Proof.SetOps
import Verif.Model.Examples
import Verif.Model.Dialect
/-
C24: set operations keep their grouping.
-/
namespace Sq
open Spec

theorem vqAppend_mode (m m' : Mode) (hd : m.d = m'.d) (top : Bool) (o : Str) (qs : List Obj) :
    variadicQueryAppend m top o qs = variadicQueryAppend m' top o qs := by
  have h : m.call none [] = m'.call none [] := by simp [Mode.call, hd]
  have h2 : vqOperand m = vqOperand m' := by funext x; unfold vqOperand; rw [h]
  unfold variadicQueryAppend
  rw [h, h2]

/-- **C24 (partial).** For every nesting of set operations (UNION, INTERSECT, EXCEPT and their ALL forms), of any depth and
width, with the outermost one written with or without parentheses: the text is a token sequence in which no two different
operators meet without parentheses between them, and reading it gives exactly the combination that was built.  Missing:
empty groups, and operands with their own WITH, ORDER BY, LIMIT or OFFSET, which the code does not parenthesise (for
those `combination` is `none`; the claim is then false, see below). -/
theorem C24_grouping_partial (top : Bool) (o : Str) (qs : List Node) (e : SExp Node)
    (he : combination (.vquery top o qs) = some e) (m : Mode) (hm : m.meth = .std) :
    ∃ ts, ren (.vquery top o qs) m [] = printSToks m ts ∧ readSetOps ts = some e := by
  have h := combination_fits (m := m) (.vquery top o qs) e he
  simp only [ren_vq]
  rw [show effTop m top = top from by simp [effTop, hm]]
  cases top with
  | true =>
    have h := h.2
    simp only [operandMode, Node.isVQ, if_true, ren_vq] at h
    rw [vqAppend_mode m { m.call none [] with meth := .top true } rfl]
    exact h.read
  | false =>
    have h := h.1.toQ
    simp only [operandMode, Node.isVQ, if_true, ren_vq] at h
    rw [vqAppend_mode m { m.call none [] with meth := .top false } rfl]
    exact h.read

def Ex.sel (s : Str) : Node := .select {} [] [.literal s []] [] .nil [] (Ex.andp []) [] (Ex.andp []) []
/-- `Union(a, Intersect(b, c), Union(d))` -/
def Ex.setop : Node :=
  .vquery true "UNION" [Ex.sel "1", .vquery true "INTERSECT" [Ex.sel "2", Ex.sel "3"], .vquery true "UNION" [Ex.sel "4"]]
example : combination Ex.setop =
    some (.chain "UNION" [.atom (Ex.sel "1"), .chain "INTERSECT" [.atom (Ex.sel "2"), .atom (Ex.sel "3")], .atom (Ex.sel "4")]) := rfl
example : (toSQL .postgres Ex.setop).query =
    "SELECT 1 UNION (SELECT 2 INTERSECT SELECT 3) UNION SELECT 4".toList := by decide +kernel

/-- **C24 (violated).** A LIMIT on the last operand is printed so that it limits the whole combination: `Union(a, b.Limit(5))`
is sent as the same text and arguments as the union of `a` and `b`, limited to 5. -/
theorem C24_operand_limit_violated :
    let a := Ex.sel "1"
    let b : Node := .select {} [] [.literal "2" []] [] .nil [] (Ex.andp []) [] (Ex.andp []) []
    let b5 : Node := .select { limit := some 5 } [] [.literal "2" []] [] .nil [] (Ex.andp []) [] (Ex.andp []) []
    let r1 := toSQL .postgres (.vquery true "UNION" [a, b5])
    let r2 := toSQL .postgres (.customQuery .postgres "{} UNION {} LIMIT {}" [a, b, .scalar (.int 5)])
    r1.query = "SELECT 1 UNION SELECT 2 LIMIT $1".toList ∧ r1.query = r2.query ∧ r1.args = r2.args := by
  decide +kernel

/-- The set operations of SQL and the function that builds each. -/
def Spec.setOperations : List (Str × (List Node → Node)) :=
  [("UNION".toList, Dial.union), ("UNION ALL".toList, Dial.unionAll),
   ("INTERSECT".toList, Dial.intersect), ("INTERSECT ALL".toList, Dial.intersectAll),
   ("EXCEPT".toList, Dial.except), ("EXCEPT ALL".toList, Dial.exceptAll)]

/-- **C24 (partial), by constructor.** `Union`, `UnionAll`, `Intersect`, `IntersectAll`, `Except` and `ExceptAll` of two or more
queries, each a set operation itself or one that needs no parentheses: the text, at the top of a statement, is read as
the operation of that name applied to the operands in the order given.  Missing: the operands left out of
`C24_grouping_partial`. -/
theorem C24_constructors_partial (name : Str) (build : List Node → Node) (hb : (name, build) ∈ Spec.setOperations)
    (q1 q2 : Node) (qs : List Node) (es : List (SExp Node))
    (hes : combinations (q1 :: q2 :: qs) = some es) (hplain : ∀ e ∈ es, SExp.plain e = true)
    (m : Mode) (hm : m.meth = .std) :
    ∃ ts, ren (build (q1 :: q2 :: qs)) m [] = printSToks m ts ∧ readSetOps ts = some (.chain name es) := by
  obtain ⟨e1, e2, es', rfl⟩ : ∃ e1 e2 es', es = e1 :: e2 :: es' := by
    simp only [combinations, Option.bind_eq_some_iff, Option.map_eq_some_iff] at hes
    obtain ⟨e1, _, _, ⟨e2, _, l, _, rfl⟩, rfl⟩ := hes
    exact ⟨e1, e2, l, rfl⟩
  have key : ∀ o : Str, o ≠ [] → combination (.vquery true o (q1 :: q2 :: qs)) = some (.chain o (e1 :: e2 :: es')) := by
    intro o ho
    have hall : (e1 :: e2 :: es').all SExp.plain = true := List.all_eq_true.mpr hplain
    simp only [combination, hes, Option.bind_some, hall, if_true, opName, if_neg ho]
  simp only [Spec.setOperations, List.mem_cons, Prod.mk.injEq, List.not_mem_nil, or_false] at hb
  rcases hb with ⟨rfl, rfl⟩ | ⟨rfl, rfl⟩ | ⟨rfl, rfl⟩ | ⟨rfl, rfl⟩ | ⟨rfl, rfl⟩ | ⟨rfl, rfl⟩ <;>
    exact C24_grouping_partial true _ _ _ (key _ (by decide)) m hm

/-- `ExceptAll(Intersect(a, b), c, d)` is within the theorem. -/
example : ("EXCEPT ALL".toList, Dial.exceptAll) ∈ Spec.setOperations ∧
    combinations [Dial.intersect [Ex.sel "1", Ex.sel "2"], Ex.sel "3", Ex.sel "4"] =
      some [.chain "INTERSECT" [.atom (Ex.sel "1"), .atom (Ex.sel "2")], .atom (Ex.sel "3"), .atom (Ex.sel "4")] :=
  ⟨by simp [Spec.setOperations], rfl⟩
example : (toSQL .postgres (Dial.exceptAll [Dial.intersect [Ex.sel "1", Ex.sel "2"], Ex.sel "3", Ex.sel "4"])).query =
    "(SELECT 1 INTERSECT SELECT 2) EXCEPT ALL SELECT 3 EXCEPT ALL SELECT 4".toList := by decide +kernel

end Sq
