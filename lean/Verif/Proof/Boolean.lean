import Verif.Spec.Boolean
import Verif.Proof.Seq
import Verif.Proof.Tree
/-
Printing and reading boolean expressions.
-/
namespace Sq
open Spec

/-- What is written for a token; an atom is a predicate that is not an And/Or group, rendered on its own. -/
def printTok (m : Mode) : BTok Node → W
  | .atom n => ren n (m.call none m.ex) []
  | .and => .wr " AND "
  | .or => .wr " OR "
  | .not => .wr "NOT "
  | .lp => .wr "("
  | .rp => .wr ")"

def printToks (m : Mode) (ts : List (BTok Node)) : W := seqAll (ts.map (printTok m))

theorem printToks_append (m : Mode) (a b : List (BTok Node)) :
    printToks m (a ++ b) = printToks m a ⨟ printToks m b := by
  simp [printToks, seqAll_append]

theorem printToks_cons (m : Mode) (t : BTok Node) (b : List (BTok Node)) :
    printToks m (t :: b) = printTok m t ⨟ printToks m b := rfl

/-- `w` prints tokens that are read as one operand `e`. -/
def Fits (m : Mode) (w : W) (e : BExp Node) : Prop :=
  ∃ ts, w = printToks m ts ∧ ∀ k rest, 4 * ts.length + 1 ≤ k → readNot k (ts ++ rest) = some (e, rest)

def notAnd : List (BTok Node) → Prop
  | .and :: _ => False
  | _ => True
def notOr : List (BTok Node) → Prop
  | .or :: _ => False
  | _ => True

/-- ... as a conjunction. -/
def FitsAnd (m : Mode) (w : W) (e : BExp Node) : Prop :=
  ∃ ts, w = printToks m ts ∧ ∀ k rest, notAnd rest → 4 * ts.length + 2 ≤ k → readAnd k (ts ++ rest) = some (e, rest)

/-- ... as a whole expression. -/
def FitsOr (m : Mode) (w : W) (e : BExp Node) : Prop :=
  ∃ ts, w = printToks m ts ∧
    ∀ k rest, notAnd rest → notOr rest → 4 * ts.length + 3 ≤ k → readOr k (ts ++ rest) = some (e, rest)

/-- Pointwise relation between two lists. -/
inductive All2 {α β : Type} (R : α → β → Prop) : List α → List β → Prop where
  | nil : All2 R [] []
  | cons {a b as bs} (h : R a b) (t : All2 R as bs) : All2 R (a :: as) (b :: bs)

variable {m : Mode}

theorem fits_atom (n : Node) : Fits m (ren n (m.call none m.ex) []) (.atom n) := by
  refine ⟨[.atom n], by simp [printToks, seqAll, printTok], ?_⟩
  intro k rest hk
  match k, hk with
  | k + 2, _ => simp [readNot, readPrim]

theorem fits_not {w : W} {e : BExp Node} (h : Fits m w e) : Fits m (.wr "NOT " ⨟ w) (.not e) := by
  obtain ⟨ts, rfl, h⟩ := h
  refine ⟨.not :: ts, rfl, ?_⟩
  intro k rest hk
  match k, hk with
  | k + 1, hk =>
    simp only [List.cons_append, readNot]
    rw [h k rest (by simp at hk; omega)]

theorem fits_paren {w : W} {e : BExp Node} (h : FitsOr m w e) : Fits m (.wr "(" ⨟ w ⨟ .wr ")") e := by
  obtain ⟨ts, rfl, h⟩ := h
  refine ⟨.lp :: (ts ++ [.rp]), ?_, ?_⟩
  · rw [printToks_cons, printToks_append]; simp [printToks, seqAll, printTok]
  · intro k rest hk
    match k, hk with
    | k + 2, hk =>
      simp only [List.cons_append, List.append_assoc, List.nil_append, readNot, readPrim]
      rw [h k (.rp :: rest) trivial trivial (by simp at hk; omega)]

theorem Fits.toAnd {w : W} {e : BExp Node} (h : Fits m w e) : FitsAnd m w e := by
  obtain ⟨ts, rfl, h⟩ := h
  refine ⟨ts, rfl, ?_⟩
  intro k rest hr hk
  match k, hk with
  | k + 1, hk =>
    simp only [readAnd]
    rw [h k rest (by omega)]
    match rest, hr with
    | [], _ => rfl
    | .atom _ :: _, _ | .or :: _, _ | .not :: _, _ | .lp :: _, _ | .rp :: _, _ => rfl

theorem FitsAnd.toOr {w : W} {e : BExp Node} (h : FitsAnd m w e) : FitsOr m w e := by
  obtain ⟨ts, rfl, h⟩ := h
  refine ⟨ts, rfl, ?_⟩
  intro k rest ha hr hk
  match k, hk with
  | k + 1, hk =>
    simp only [readOr]
    rw [h k rest ha (by omega)]
    match rest, hr with
    | [], _ => rfl
    | .atom _ :: _, _ | .and :: _, _ | .not :: _, _ | .lp :: _, _ | .rp :: _, _ => rfl

theorem fits_ands (ws : List W) (es : List (BExp Node)) (h : All2 (Fits m) ws es) (e : BExp Node)
    (he : BExp.join .and es = some e) : FitsAnd m (sepBy " AND " ws) e := by
  induction h generalizing e with
  | nil => simp [BExp.join] at he
  | cons hw ht ih =>
    cases ht with
    | nil =>
      simp [BExp.join] at he; subst he
      exact hw.toAnd
    | cons hw2 ht2 =>
      rename_i w e1 w2 e2 ws es
      simp only [BExp.join, Option.map_eq_some_iff] at he
      obtain ⟨f, hf, rfl⟩ := he
      obtain ⟨ts2, h2, r2⟩ := ih f hf
      obtain ⟨ts1, rfl, r1⟩ := hw
      refine ⟨ts1 ++ .and :: ts2, ?_, ?_⟩
      · rw [printToks_append, printToks_cons, ← h2]; rfl
      · intro k rest hr hk
        match k, hk with
        | k + 1, hk =>
          simp only [readAnd, List.append_assoc, List.cons_append]
          simp only [List.length_append, List.length_cons] at hk
          rw [r1 k _ (by omega)]
          simp only
          rw [r2 k rest hr (by omega)]

theorem fits_ors (ws : List W) (es : List (BExp Node)) (h : All2 (Fits m) ws es) (e : BExp Node)
    (he : BExp.join .or es = some e) : FitsOr m (sepBy " OR " ws) e := by
  induction h generalizing e with
  | nil => simp [BExp.join] at he
  | cons hw ht ih =>
    cases ht with
    | nil =>
      simp [BExp.join] at he; subst he
      exact hw.toAnd.toOr
    | cons hw2 ht2 =>
      rename_i w e1 w2 e2 ws es
      simp only [BExp.join, Option.map_eq_some_iff] at he
      obtain ⟨f, hf, rfl⟩ := he
      obtain ⟨ts2, h2, r2⟩ := ih f hf
      obtain ⟨ts1, rfl, r1⟩ := hw.toAnd
      refine ⟨ts1 ++ .or :: ts2, ?_, ?_⟩
      · rw [printToks_append, printToks_cons, ← h2]; rfl
      · intro k rest ha hr hk
        match k, hk with
        | k + 1, hk =>
          simp only [readOr, List.append_assoc, List.cons_append]
          simp only [List.length_append, List.length_cons] at hk
          rw [r1 k (.or :: (ts2 ++ rest)) trivial (by omega)]
          simp only
          rw [r2 k rest ha hr (by omega)]

/-- A whole expression is read back. -/
theorem FitsOr.read {w : W} {e : BExp Node} (h : FitsOr m w e) :
    ∃ ts, w = printToks m ts ∧ readBool ts = some e := by
  obtain ⟨ts, rfl, h⟩ := h
  refine ⟨ts, rfl, ?_⟩
  have := h (4 * ts.length + 4) [] trivial trivial (by omega)
  simp only [List.append_nil] at this
  simp [readBool, this]

/-! ### The expression that was built -/

/-- the node is an And/Or group (VariadicPredicate) -/
def Node.isGroup : Node → Bool
  | .vpred _ _ _ _ _ => true
  | _ => false

mutual
/-- The boolean expression a predicate stands for; nothing when it contains an empty group. -/
def meaning : Node → Option (BExp Node)
  | .vpred _ _ isOr neg ps =>
    (meanings ps).bind fun es => (BExp.join (if isOr then .or else .and) es).map fun e => if neg then .not e else e
  | .cpred a f neg vs => some (if neg then .not (.atom (.cpred a f false vs)) else .atom (.cpred a f false vs))
  | .field fi raw neg vs => some (if neg then .not (.atom (.field fi raw false vs)) else .atom (.field fi raw false vs))
  | n => some (.atom n)
def meanings : List Node → Option (List (BExp Node))
  | [] => some []
  | p :: ps => (meaning p).bind fun e => (meanings ps).map (e :: ·)
end

mutual
/-- No negated group stands where the code omits the parentheses (`top`), and operands were built with And/Or/Not. -/
def Grouped : Bool → Node → Prop
  | top, .vpred _ _ _ neg ps => GroupedOps top neg ps
  | _, n => n ≠ .nil
def GroupedOps : Bool → Bool → List Node → Prop
  | _, _, [] => True
  | top, neg, [p] => (p.isGroup = true → top = true → neg = false) ∧ Grouped true p
  | top, neg, p :: q :: ps => (top = true → neg = false) ∧ GroupedAll (p :: q :: ps)
def GroupedAll : List Node → Prop
  | [] => True
  | p :: ps => (∀ t a o n qs, p = .vpred t a o n qs → t = false) ∧ Grouped false p ∧ GroupedAll ps
end


theorem ren_group (t : Bool) (a : Str) (o ng : Bool) (ps : List Node) (mm : Mode) (hm : mm.meth ≠ .whereTrue) (pn : Str) :
    ren (.vpred t a o ng ps) mm pn = variadicAppend mm (effTop mm t) o ng ((objs ps).map PV.toObj) := by
  simp only [ren, hm, false_and, if_false]

/-- The body of a group, between the parentheses. -/
theorem fits_join (o : Bool) (ws : List W) (es : List (BExp Node)) (h : All2 (Fits m) ws es) (e : BExp Node)
    (he : BExp.join (if o then .or else .and) es = some e) : FitsOr m (sepBy (if o then " OR " else " AND ") ws) e := by
  cases o with
  | true => exact fits_ors ws es h e he
  | false => exact (fits_ands ws es h e he).toOr

theorem FitsOr.neg {w : W} {e : BExp Node} {ng : Bool} (hn : ng = false) (h : FitsOr m w e) :
    FitsOr m (.when ng (.wr "NOT ") ⨟ w) (if ng then .not e else e) := by
  subst hn; simpa using h

theorem Fits.neg {w : W} {e : BExp Node} (ng : Bool) (h : Fits m w e) :
    Fits m (.when ng (.wr "NOT ") ⨟ w) (if ng then .not e else e) := by
  cases ng with
  | true => simpa using fits_not h
  | false => simpa using h

theorem operand_eq (n : Node) (hn : n ≠ .nil) (mm : Mode) :
    operand mm (obj n).toObj = ren n (mm.call none mm.ex) [] := by
  have h : (obj n).kind.isNil = false := by
    cases h : (obj n).kind.isNil with
    | false => rfl
    | true => exact absurd ((Node.kind_isNil n).1 h) hn
  unfold operand
  rw [if_neg (by simp [h])]
  rfl

theorem group_kind (n : Node) (hg : n.isGroup = false) (hn : n ≠ .nil) : ∀ k, (obj n).kind ≠ .vpred k ∧ (obj n).kind ≠ .nilv := by
  intro k
  cases n <;> simp_all [Node.isGroup, obj, mkPV, Node.kind]
  rename_i kk _ _ _
  cases kk <;> simp [ExtKind.kind]

/-- A predicate that is not a group fits as an operand. -/
theorem fits_leaf (n : Node) (hg : n.isGroup = false) (e : BExp Node) (he : meaning n = some e) :
    Fits m (ren n (m.call none m.ex) []) e := by
  cases n
  case vpred => simp [Node.isGroup] at hg
  case cpred a f ng vs =>
    simp only [meaning, Option.some.injEq] at he
    subst he
    have := fits_atom (m := m) (.cpred a f false vs)
    have := this.neg ng
    simpa [ren, customPredAppend] using this
  case field fi raw ng vs =>
    simp only [meaning, Option.some.injEq] at he
    subst he
    have := fits_atom (m := m) (.field fi raw false vs)
    have := this.neg ng
    simpa [ren] using this
  all_goals
    simp only [meaning, Option.some.injEq] at he
    subst he
    exact fits_atom _

/-- The mode in which the operands of a group are rendered. -/
theorem call_call (mm : Mode) : (mm.call none mm.ex).call none (mm.call none mm.ex).ex = mm.call none mm.ex := rfl

mutual
theorem grouped_operand : (p : Node) → (e : BExp Node) → meaning p = some e →
    (∀ t a o n qs, p = .vpred t a o n qs → t = false) → Grouped false p →
    Fits m (ren p (m.call none m.ex) []) e
  | .vpred t a o ng ps, e, he, ht, hg => by
    have ht := ht t a o ng ps rfl
    subst ht
    rw [ren_group _ _ _ _ _ _ (by simp [Mode.call])]
    simp only [meaning, Option.bind_eq_some_iff, Option.map_eq_some_iff] at he
    obtain ⟨es, hes, e', he', rfl⟩ := he
    simp only [Grouped] at hg
    exact (grouped_ops ps es hes o ng e' he').1 hg
  | .nil, e, he, _, hg => by simp [Grouped] at hg
  | .scalar _, e, he, _, _ | .slice _ _, e, he, _, _ | .namedArg _ _, e, he, _, _ | .param _ _, e, he, _, _
  | .field _ _ _ _, e, he, _, _ | .checkedField _ _ _, e, he, _, _ | .literal _ _, e, he, _, _ | .value _ _, e, he, _, _
  | .cpred _ _ _ _, e, he, _, _ | .predCases _ _ _, e, he, _, _ | .simpleCases _ _ _ _, e, he, _, _
  | .window _ _ _, e, he, _, _ | .rowValue _, e, he, _, _ | .rowValues _, e, he, _, _ | .assign _ _, e, he, _, _
  | .assigns _, e, he, _, _ | .fields _, e, he, _, _ | .table _ _ _ _ _, e, he, _, _ | .customTable _ _, e, he, _, _
  | .join _ _ _, e, he, _, _ | .cte _ _, e, he, _, _ | .subquery _ _ _, e, he, _, _ | .vquery _ _ _, e, he, _, _
  | .customQuery _ _ _, e, he, _, _ | .select _ _ _ _ _ _ _ _ _ _, e, he, _, _
  | .insert _ _ _ _ _ _ _ _ _ _ _ _, e, he, _, _ | .update _ _ _ _ _ _ _ _ _ _, e, he, _, _
  | .delete _ _ _ _ _ _ _ _, e, he, _, _ | .ext _ _ _ _, e, he, _, _ => fits_leaf _ rfl e he

theorem grouped_top : (p : Node) → (e : BExp Node) → meaning p = some e → p.isGroup = true → Grouped true p →
    FitsOr m (ren p { m.call none m.ex with meth := .top true } []) e
  | .vpred t a o ng ps, e, he, _, hg => by
    rw [ren_group _ _ _ _ _ _ (by simp)]
    simp only [meaning, Option.bind_eq_some_iff, Option.map_eq_some_iff] at he
    obtain ⟨es, hes, e', he', rfl⟩ := he
    simp only [Grouped] at hg
    exact (grouped_ops ps es hes o ng e' he').2 hg
  | .nil, e, he, hg, _ | .scalar _, e, he, hg, _ | .slice _ _, e, he, hg, _ | .namedArg _ _, e, he, hg, _ | .param _ _, e, he, hg, _
  | .field _ _ _ _, e, he, hg, _ | .checkedField _ _ _, e, he, hg, _ | .literal _ _, e, he, hg, _ | .value _ _, e, he, hg, _
  | .cpred _ _ _ _, e, he, hg, _ | .predCases _ _ _, e, he, hg, _ | .simpleCases _ _ _ _, e, he, hg, _
  | .window _ _ _, e, he, hg, _ | .rowValue _, e, he, hg, _ | .rowValues _, e, he, hg, _ | .assign _ _, e, he, hg, _
  | .assigns _, e, he, hg, _ | .fields _, e, he, hg, _ | .table _ _ _ _ _, e, he, hg, _ | .customTable _ _, e, he, hg, _
  | .join _ _ _, e, he, hg, _ | .cte _ _, e, he, hg, _ | .subquery _ _ _, e, he, hg, _ | .vquery _ _ _, e, he, hg, _
  | .customQuery _ _ _, e, he, hg, _ | .select _ _ _ _ _ _ _ _ _ _, e, he, hg, _
  | .insert _ _ _ _ _ _ _ _ _ _ _ _, e, he, hg, _ | .update _ _ _ _ _ _ _ _ _ _, e, he, hg, _
  | .delete _ _ _ _ _ _ _ _, e, he, hg, _ | .ext _ _ _ _, e, he, hg, _ => nomatch hg

theorem grouped_ops : (ps : List Node) → (es : List (BExp Node)) → meanings ps = some es → (o ng : Bool) →
    (e : BExp Node) → BExp.join (if o then .or else .and) es = some e →
    (GroupedOps false ng ps →
      Fits m (variadicAppend (m.call none m.ex) false o ng ((objs ps).map PV.toObj)) (if ng then .not e else e)) ∧
    (GroupedOps true ng ps →
      FitsOr m (variadicAppend { m.call none m.ex with meth := .top true } true o ng ((objs ps).map PV.toObj))
        (if ng then .not e else e))
  | [], es, hes, o, ng, e, he => by
    simp [meanings] at hes; subst hes; simp [BExp.join] at he
  | [p], es, hes, o, ng, e, he => by
    simp only [meanings, Option.bind_eq_some_iff, Option.map_eq_some_iff, Option.some.injEq] at hes
    obtain ⟨e1, he1, l, rfl, rfl⟩ := hes
    simp only [BExp.join, Option.some.injEq] at he
    subst he
    cases hgp : p.isGroup with
    | true =>
      obtain ⟨t, a, o', ng', ps', rfl⟩ : ∃ t a o' ng' ps', p = .vpred t a o' ng' ps' := by
        cases p <;> simp [Node.isGroup] at hgp
        exact ⟨_, _, _, _, _, rfl⟩
      have ih := grouped_top (.vpred t a o' ng' ps') e1 he1 rfl
      simp only [objs, List.map_cons, List.map_nil, variadicAppend, mkPV, Node.kind, GroupedOps]
      refine ⟨fun h => ?_, fun h => ?_⟩
      · exact (fits_paren (ih h.2)).neg ng
      · have := (ih h.2).neg (ng := ng) (h.1 rfl trivial)
        simp only [Bool.not_true, when_false, ok_seq, seq_okW]
        exact this
    | false =>
      simp only [GroupedOps]
      have hleaf := fits_leaf (m := m) p hgp e1 he1
      have key : ∀ top (mm : Mode), mm.d = m.d → mm.ex = m.ex → p ≠ .nil →
          variadicAppend mm top o ng ((objs [p]).map PV.toObj) = (.when ng (.wr "NOT ") ⨟ ren p (m.call none m.ex) []) := by
        intro top mm hd hx hp
        have hk := group_kind p hgp hp
        have hmm : mm.call none mm.ex = m.call none m.ex := by simp [Mode.call, hd, hx]
        simp only [objs, List.map_cons, List.map_nil, variadicAppend, hmm]
        show W.seq _ (match (obj p).kind with | .nilv => _ | .vpred _ => _ | _ => _) = _
        split
        · rename_i hk'; exact absurd hk' (hk 0).2
        · rename_i n hk'; exact absurd hk' (hk n).1
        · rfl
      have hnil : Grouped true p → p ≠ .nil := by
        intro h hp; subst hp; simp [Grouped] at h
      refine ⟨fun h => ?_, fun h => ?_⟩
      · rw [key _ (m.call none m.ex) rfl rfl (hnil h.2)]
        exact hleaf.neg ng
      · rw [key _ { m.call none m.ex with meth := .top true } rfl rfl (hnil h.2)]
        exact (hleaf.neg ng).toAnd.toOr
  | p :: q :: ps, es, hes, o, ng, e, he => by
    have hall : GroupedAll (p :: q :: ps) → FitsOr m (sepBy (if o then " OR " else " AND ")
        (((objs (p :: q :: ps)).map PV.toObj).map (operand (m.call none m.ex)))) e :=
      fun h => fits_join o _ es (grouped_all (p :: q :: ps) es hes h) e he
    simp only [GroupedOps]
    have hv : ∀ (mm : Mode) top, mm.d = m.d → mm.ex = m.ex →
        variadicAppend mm top o ng ((objs (p :: q :: ps)).map PV.toObj) =
        (.when ng (.wr "NOT ") ⨟ .when (!top) (.wr "(") ⨟ sepBy (if o then " OR " else " AND ")
          (((objs (p :: q :: ps)).map PV.toObj).map (operand (m.call none m.ex))) ⨟ .when (!top) (.wr ")")) := by
      intro mm top hd hx
      have : operand mm = operand (m.call none m.ex) := by
        funext x; unfold operand; rw [show mm.call none mm.ex = (m.call none m.ex).call none (m.call none m.ex).ex from by rw [call_call]; unfold Mode.call; rw [hd, hx]]
      rw [← this]; rfl
    refine ⟨fun h => ?_, fun h => ?_⟩
    · rw [hv (m.call none m.ex) _ rfl rfl]
      exact (fits_paren (hall h.2)).neg ng
    · rw [hv { m.call none m.ex with meth := .top true } _ rfl rfl]
      have := (hall h.2).neg (ng := ng) (h.1 trivial)
      simp only [Bool.not_true, when_false, ok_seq, seq_okW]
      exact this

theorem grouped_all : (ps : List Node) → (es : List (BExp Node)) → meanings ps = some es → GroupedAll ps →
    All2 (Fits m) (((objs ps).map PV.toObj).map (operand (m.call none m.ex))) es
  | [], es, hes, _ => by
    simp [meanings] at hes; subst hes; exact .nil
  | p :: ps, es, hes, hg => by
    simp only [meanings, Option.bind_eq_some_iff, Option.map_eq_some_iff] at hes
    obtain ⟨e1, he1, es', hes', rfl⟩ := hes
    simp only [GroupedAll] at hg
    refine .cons ?_ (grouped_all ps es' hes' hg.2.2)
    have hn : p ≠ .nil := by
      intro hp; subst hp; simp [Grouped] at hg
    have := operand_eq p hn (m.call none m.ex)
    rw [show operand (m.call none m.ex) (mkPV p (ren p) (hookOf p)).toObj = _ from this]
    exact grouped_operand p e1 he1 hg.1 hg.2.1
end

end Sq
