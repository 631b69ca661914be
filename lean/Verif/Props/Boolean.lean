import Verif.Proof.Boolean
import Verif.Model.Examples
/-
C17: the boolean structure of a predicate survives printing.  C18: Not.
-/
namespace Sq
open Spec

/-! ### C17 -/

theorem variadic_mode (m m' : Mode) (hd : m.d = m'.d) (hx : m.ex = m'.ex) (top o ng : Bool) (ps : List Obj) :
    variadicAppend m top o ng ps = variadicAppend m' top o ng ps := by
  have h : m.call none m.ex = m'.call none m'.ex := by simp [Mode.call, hd, hx]
  have h2 : operand m = operand m' := by funext x; unfold operand; rw [h]
  unfold variadicAppend
  split
  · rfl
  · rw [h]
  · rw [h2]

/-- **C17 (partial), clause position.** A predicate group in WHERE, HAVING or ON (where the code sets `Toplevel`): the text
written is a token sequence which SQL's precedence rules read as exactly the expression that was built with And, Or and
Not, at any depth and width.  Missing: empty groups (`meaning` is `none`) and negated groups in a position where the code
omits the parentheses (`Grouped true`), for which the claim is false (see below). -/
theorem C17_clause_reads_back_partial (p : Node) (hp : p.isGroup = true) (e : BExp Node) (he : meaning p = some e)
    (hg : Grouped true p) (m : Mode) :
    ∃ ts, ren p { m with meth := .top true } [] = printToks m ts ∧ readBool ts = some e := by
  obtain ⟨t, a, o, ng, ps, rfl⟩ : ∃ t a o ng ps, p = .vpred t a o ng ps := by
    cases p <;> simp [Node.isGroup] at hp
    exact ⟨_, _, _, _, _, rfl⟩
  have h := (grouped_top (m := m) _ e he hp hg).read
  rw [ren_group _ _ _ _ _ _ (by simp)] at h ⊢
  rw [variadic_mode { m with meth := .top true } (Mode.mk m.d none m.ex (.top true)) rfl rfl]
  exact h

/-- **C17 (partial), operand position.** A predicate printed as an operand (of another group, of a format string, in a
field list): what is written is read as that expression, and stays one operand when NOT is put before it or AND/OR is put
after or before it.  Missing: as above; nested groups must come from And/Or (`Toplevel` not set by hand). -/
theorem C17_operand_reads_back_partial (p : Node) (e : BExp Node) (he : meaning p = some e)
    (ht : ∀ t a o n qs, p = .vpred t a o n qs → t = false) (hg : Grouped false p) (m : Mode) :
    ∃ ts, ren p (m.call none m.ex) [] = printToks m ts ∧ readBool ts = some e ∧ readBool (.not :: ts) = some (.not e) ∧
      ∀ q, readBool (ts ++ [.and, .atom q]) = some (.and e (.atom q)) ∧
        readBool (.atom q :: .and :: ts) = some (.and (.atom q) e) ∧
        readBool (ts ++ [.or, .atom q]) = some (.or e (.atom q)) ∧
        readBool (.atom q :: .or :: ts) = some (.or (.atom q) e) := by
  obtain ⟨ts, hw, h⟩ := grouped_operand (m := m) p e he ht hg
  have hn : ∀ k rest, 4 * ts.length + 1 ≤ k → readNot k (ts ++ rest) = some (e, rest) := h
  have hn0 : ∀ k, 4 * ts.length + 1 ≤ k → readNot k ts = some (e, []) := fun k hk => by simpa using hn k [] hk
  refine ⟨ts, hw, ?_, ?_, fun q => ⟨?_, ?_, ?_, ?_⟩⟩
  · unfold readBool
    rw [show 4 * ts.length + 4 = (4 * ts.length + 2) + 1 + 1 from rfl]
    simp only [readOr, readAnd]
    rw [hn0 _ (by omega)]
  · unfold readBool
    rw [show 4 * (BTok.not :: ts).length + 4 = (4 * ts.length + 5) + 1 + 1 + 1 from by simp; omega]
    simp only [readOr, readAnd, readNot]
    rw [hn0 _ (by omega)]
  · unfold readBool
    rw [show 4 * (ts ++ [BTok.and, .atom q]).length + 4 = (4 * ts.length + 6) + 1 + 1 + 1 + 1 + 1 + 1 from by simp; omega]
    simp only [readOr, readAnd]
    rw [hn _ _ (by omega)]
    simp [readNot, readPrim]
  · unfold readBool
    rw [show 4 * (BTok.atom q :: BTok.and :: ts).length + 4 = (4 * ts.length + 8) + 1 + 1 + 1 + 1 from by simp; omega]
    simp only [readOr, readAnd, readNot, readPrim]
    rw [hn0 _ (by omega)]
  · unfold readBool
    rw [show 4 * (ts ++ [BTok.or, .atom q]).length + 4 = (4 * ts.length + 6) + 1 + 1 + 1 + 1 + 1 + 1 from by simp; omega]
    simp only [readOr, readAnd]
    rw [hn _ _ (by omega)]
    simp [readNot, readPrim]
  · unfold readBool
    rw [show 4 * (BTok.atom q :: BTok.or :: ts).length + 4 = (4 * ts.length + 8) + 1 + 1 + 1 + 1 from by simp; omega]
    simp only [readOr, readAnd, readNot, readPrim]
    rw [hn0 _ (by omega)]

/-- `And(a, Or(b, Not(And(c, d))))`: the hypotheses are met in clause position. -/
def Ex.nested : Node :=
  let a := Ex.eqInt (Ex.col "u" "a") 1
  Ex.andp [a, Ex.orp [Ex.eqInt (Ex.col "u" "b") 2,
    .vpred false [] false true [Ex.eqInt (Ex.col "u" "c") 3, Ex.eqInt (Ex.col "u" "d") 4]]]
example : Grouped true Ex.nested ∧ (meaning Ex.nested).isSome = true := by
  simp [Ex.nested, Ex.andp, Ex.orp, Ex.eqInt, Grouped, GroupedOps, GroupedAll, meaning, meanings, BExp.join]
example : (toSQL .postgres (.select {} [] [.literal "1" []] [] Ex.users [] Ex.nested [] (Ex.andp []) [])).query =
    "SELECT 1 FROM users AS u WHERE u.a = $1 AND (u.b = $2 OR NOT (u.c = $3 AND u.d = $4))".toList := by decide +kernel

/-- **C17 (violated).** `Where(Not(Or(a, b)))`-style conditions: a negated group in clause position is written without
parentheses, so `NOT (a OR b)` becomes `NOT a OR b`, which SQL reads as `(NOT a) OR b`. -/
theorem C17_negated_clause_violated (a b : Node) (ha : a ≠ .nil) (hb : b ≠ .nil) (m : Mode) :
    let p : Node := .vpred false [] true true [a, b]
    ∃ ts, ren p { m with meth := .top true } [] = printToks m ts ∧
      readBool ts = some (.or (.not (.atom a)) (.atom b)) := by
  refine ⟨[.not, .atom a, .or, .atom b], ?_, rfl⟩
  have e : ∀ n : Node, n ≠ .nil → operand { m with meth := .top true } (mkPV n (ren n) (hookOf n)).toObj =
      ren n (m.call none m.ex) [] := fun n hn => operand_eq n hn _
  rw [ren_group _ _ _ _ _ _ (by simp)]
  simp only [objs, List.map_cons, List.map_nil, variadicAppend, sepBy, effTop, printToks, seqAll, printTok, seq_okW,
    when_true, when_false, ok_seq, Bool.not_true, if_true]
  rw [e a ha, e b hb]

/-- The witness as SQL text: the condition "neither a nor b" is sent as `NOT a OR b`. -/
theorem C17_negated_where_text_violated :
    (toSQL .postgres (.select {} [] [.literal "1" []] [] Ex.users []
      (.vpred false [] true true [.literal "a" [], .literal "b" []]) [] (Ex.andp []) [])).query =
    "SELECT 1 FROM users AS u WHERE NOT a OR b".toList := by decide +kernel

/-- A sole operand that is a negated group is affected too, at any depth. -/
theorem C17_sole_operand_violated :
    (toSQL .postgres (.vpred false [] false false
      [.vpred false [] true true [.literal "a" [], .literal "b" []]])).query = "(NOT a OR b)".toList := by decide +kernel

/-! ### C18 -/

/-- `Not()` of BooleanField (boolean_field.go:39-42), CustomPredicate (predicate.go:41-44) and VariadicPredicate
(predicate.go:116-119).  Other nodes are not predicates of the package. -/
def notOf : Node → Node
  | .field fi raw neg vs => .field fi raw (!neg) vs
  | .cpred a f neg vs => .cpred a f (!neg) vs
  | .vpred t a o neg ps => .vpred t a o (!neg) ps
  | n => n

/-- the predicates of the package -/
def isPredicate : Node → Bool
  | .field _ _ _ _ | .cpred _ _ _ _ | .vpred _ _ _ _ _ => true
  | _ => false

/-- SQL's three-valued logic: `none` is NULL. -/
def k3not : Option Bool → Option Bool
  | some b => some (!b)
  | none => none
def k3and : Option Bool → Option Bool → Option Bool
  | some false, _ | _, some false => some false
  | some true, x => x
  | none, _ => none
def k3or (a b : Option Bool) : Option Bool := k3not (k3and (k3not a) (k3not b))

/-- Truth value of an expression. -/
def truth (v : Node → Option Bool) : BExp Node → Option Bool
  | .atom n => v n
  | .not e => k3not (truth v e)
  | .and e f => k3and (truth v e) (truth v f)
  | .or e f => k3or (truth v e) (truth v f)

theorem k3not_not (x : Option Bool) : k3not (k3not x) = x := by cases x <;> simp [k3not]

/-- **C18.** `Not(Not(p))` is `p`: it renders exactly as `p` in every position and dialect. -/
theorem C18_not_not (p : Node) (m : Mode) (pn : Str) : ren (notOf (notOf p)) m pn = ren p m pn := by
  cases p <;> simp [notOf]

/-- **C18.** `Not(p)` stands for the negation of `p` in three-valued logic, for every valuation of the atoms; in
particular it is never built as `p` itself with a NOT lost or doubled. -/
theorem C18_not_negates (p : Node) (hp : isPredicate p = true) (v : Node → Option Bool) :
    (meaning (notOf p)).map (truth v) = ((meaning p).map (truth v)).map k3not := by
  have key : ∀ (e : BExp Node) (neg : Bool),
      truth v (if (!neg) = true then .not e else e) = k3not (truth v (if neg = true then .not e else e)) := by
    intro e neg
    cases neg <;> simp [truth, k3not_not]
  cases p <;> simp [isPredicate] at hp
  case field fi raw neg vs => simp only [notOf, meaning, Option.map_some, key]
  case cpred a f neg vs => simp only [notOf, meaning, Option.map_some, key]
  case vpred t a o neg ps =>
    simp only [notOf, meaning]
    cases hm : meanings ps with
    | none => simp
    | some es =>
      simp only [Option.bind_some, Option.map_map]
      cases BExp.join (if o = true then .or else .and) es with
      | none => simp
      | some e => simp only [Option.map_some, Function.comp, key]

/-- **C18 (partial).** As printed: in operand position `Not(p)` is read by SQL as an expression whose truth value is the
negation of that of `p`.  (In clause position the printing of a negated group is wrong: C17.) -/
theorem C18_not_printed_partial (p : Node) (hp : isPredicate p = true) (e : BExp Node) (he : meaning p = some e)
    (ht : ∀ t a o n qs, p = .vpred t a o n qs → t = false) (hg : Grouped false p) (m : Mode) :
    ∃ ts e', ren (notOf p) (m.call none m.ex) [] = printToks m ts ∧ readBool ts = some e' ∧
      ∀ v, truth v e' = k3not (truth v e) := by
  have hneg := fun v => C18_not_negates p hp v
  obtain ⟨e', he'⟩ : ∃ e', meaning (notOf p) = some e' := by
    have := hneg (fun _ => none)
    rw [he] at this
    cases h : meaning (notOf p) with
    | none => rw [h] at this; simp at this
    | some x => exact ⟨x, rfl⟩
  have ht' : ∀ t a o n qs, notOf p = .vpred t a o n qs → t = false := by
    intro t a o n qs h
    cases p <;> simp [notOf] at h
    obtain ⟨rfl, rfl, rfl, rfl, rfl⟩ := h
    exact ht _ _ _ _ _ rfl
  have hg' : Grouped false (notOf p) := by
    have aux : ∀ ps ng, GroupedOps false ng ps → GroupedOps false (!ng) ps := by
      intro ps ng h
      match ps, h with
      | [], _ => simp [GroupedOps]
      | [x], h => simp only [GroupedOps] at h ⊢; simpa using h.2
      | x :: y :: zs, h => simp only [GroupedOps] at h ⊢; simpa using h.2
    cases p <;> simp only [isPredicate, Bool.false_eq_true] at hp
    case field => simp [notOf, Grouped]
    case cpred => simp [notOf, Grouped]
    case vpred => simp only [notOf, Grouped] at hg ⊢; exact aux _ _ hg
  obtain ⟨ts, h1, h2, _⟩ := C17_operand_reads_back_partial (notOf p) e' he' ht' hg' m
  refine ⟨ts, e', h1, h2, fun v => ?_⟩
  have := hneg v
  rw [he, he'] at this
  simpa using this

example : isPredicate Ex.nested = true ∧ isPredicate (notOf Ex.nested) = true := by decide

end Sq
