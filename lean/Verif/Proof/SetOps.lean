import Verif.Spec.SetOps
import Verif.Proof.Seq
import Verif.Proof.Boolean
namespace Sq
open Spec

/-- What is written for a token. -/
def printSTok (m : Mode) : STok Node → W
  | .atom n => ren n (m.call none []) []
  | .op o => .wr (" ".toList ++ o ++ " ".toList)
  | .lp => .wr "("
  | .rp => .wr ")"

def printSToks (m : Mode) (ts : List (STok Node)) : W := seqAll (ts.map (printSTok m))

theorem printSToks_append (m : Mode) (a b : List (STok Node)) :
    printSToks m (a ++ b) = printSToks m a ⨟ printSToks m b := by
  simp [printSToks, seqAll_append]

theorem printSToks_cons (m : Mode) (t : STok Node) (b : List (STok Node)) :
    printSToks m (t :: b) = printSTok m t ⨟ printSToks m b := rfl

/-- `ts` is read as one operand. -/
def FitsS (m : Mode) (w : W) (e : SExp Node) : Prop :=
  ∃ ts, w = printSToks m ts ∧ ∀ k rest, 3 * ts.length + 1 ≤ k → readOperand k (ts ++ rest) = some (e, rest)

def notOp : List (STok Node) → Prop
  | .op _ :: _ => False
  | _ => True

/-- ... as a whole query. -/
def FitsQ (m : Mode) (w : W) (e : SExp Node) : Prop :=
  ∃ ts, w = printSToks m ts ∧ ∀ k rest, notOp rest → 3 * ts.length + 2 ≤ k → readQuery k (ts ++ rest) = some (e, rest)

variable {m : Mode}

theorem fitsS_atom (n : Node) : FitsS m (ren n (m.call none []) []) (.atom n) := by
  refine ⟨[.atom n], by simp [printSToks, seqAll, printSTok], ?_⟩
  intro k rest hk
  match k, hk with
  | k + 1, _ => simp [readOperand]

theorem FitsS.toQ {w : W} {e : SExp Node} (h : FitsS m w e) : FitsQ m w e := by
  obtain ⟨ts, rfl, h⟩ := h
  refine ⟨ts, rfl, ?_⟩
  intro k rest hr hk
  match k, hk with
  | k + 1, hk =>
    simp only [readQuery]
    rw [h k rest (by omega)]
    match rest, hr with
    | [], _ => rfl
    | .atom _ :: _, _ | .lp :: _, _ | .rp :: _, _ => rfl

theorem fitsS_paren {w : W} {e : SExp Node} (h : FitsQ m w e) : FitsS m (.wr "(" ⨟ w ⨟ .wr ")") e := by
  obtain ⟨ts, rfl, h⟩ := h
  refine ⟨.lp :: (ts ++ [.rp]), ?_, ?_⟩
  · rw [printSToks_cons, printSToks_append]; simp [printSToks, seqAll, printSTok]
  · intro k rest hk
    match k, hk with
    | k + 1, hk =>
      simp only [List.cons_append, List.append_assoc, List.nil_append, readOperand]
      rw [h k (.rp :: rest) trivial (by simp at hk; omega)]

theorem fits_chain (o : Str) (ws : List W) (es : List (SExp Node)) (h : All2 (FitsS m) ws es) (hne : ws ≠ []) :
    ∃ ts, sepBy (" ".toList ++ o ++ " ".toList) ws = printSToks m ts ∧
      ∀ k rest, notOp rest → 3 * ts.length + 2 ≤ k → readChain k o (ts ++ rest) = some (es, rest) := by
  induction h with
  | nil => exact absurd rfl hne
  | cons hw ht ih =>
    cases ht with
    | nil =>
      obtain ⟨ts, rfl, h⟩ := hw
      refine ⟨ts, rfl, ?_⟩
      intro k rest hr hk
      match k, hk with
      | k + 1, hk =>
        simp only [readChain]
        rw [h k rest (by omega)]
        match rest, hr with
        | [], _ => rfl
        | .atom _ :: _, _ | .lp :: _, _ | .rp :: _, _ => rfl
    | cons hw2 ht2 =>
      obtain ⟨ts2, h2, r2⟩ := ih (by simp)
      obtain ⟨ts1, rfl, r1⟩ := hw
      refine ⟨ts1 ++ .op o :: ts2, ?_, ?_⟩
      · rw [printSToks_append, printSToks_cons, ← h2]; rfl
      · intro k rest hr hk
        match k, hk with
        | k + 1, hk =>
          simp only [readChain, List.append_assoc, List.cons_append]
          simp only [List.length_append, List.length_cons] at hk
          rw [r1 k _ (by omega)]
          simp only [if_true]
          rw [r2 k rest hr (by omega)]

theorem fits_group (o : Str) (w : W) (e : SExp Node) (ws : List W) (es : List (SExp Node)) (hw : FitsS m w e)
    (h : All2 (FitsS m) ws es) (hne : ws ≠ []) :
    FitsQ m (sepBy (" ".toList ++ o ++ " ".toList) (w :: ws)) (.chain o (e :: es)) := by
  obtain ⟨ts2, h2, r2⟩ := fits_chain o ws es h hne
  obtain ⟨ts1, rfl, r1⟩ := hw
  cases ws with
  | nil => exact absurd rfl hne
  | cons w2 ws =>
    refine ⟨ts1 ++ .op o :: ts2, ?_, ?_⟩
    · rw [printSToks_append, printSToks_cons, ← h2]; rfl
    · intro k rest hr hk
      match k, hk with
      | k + 1, hk =>
        simp only [readQuery, List.append_assoc, List.cons_append]
        simp only [List.length_append, List.length_cons] at hk
        rw [r1 k _ (by omega)]
        simp only
        rw [r2 k rest hr (by omega)]

theorem FitsQ.read {w : W} {e : SExp Node} (h : FitsQ m w e) :
    ∃ ts, w = printSToks m ts ∧ readSetOps ts = some e := by
  obtain ⟨ts, rfl, h⟩ := h
  refine ⟨ts, rfl, ?_⟩
  have := h (3 * ts.length + 3) [] trivial (by omega)
  simp only [List.append_nil] at this
  simp [readSetOps, this]

/-! ### The combination that was built -/

/-- A query that may stand as an operand without parentheses: a SELECT with its own WITH, ORDER BY, LIMIT or OFFSET may
not, nor may INSERT, UPDATE and DELETE. -/
def plainOperand : Node → Bool
  | .select q ctes _ _ _ _ _ _ _ ob =>
    ctes.isEmpty && ob.isEmpty && q.limit.isNone && q.offset.isNone
  | .insert _ _ _ _ _ _ _ _ _ _ _ _ | .update _ _ _ _ _ _ _ _ _ _ | .delete _ _ _ _ _ _ _ _ | .nil => false
  | _ => true

def SExp.plain : SExp Node → Bool
  | .atom n => plainOperand n
  | .chain _ _ => true

def opName (o : Str) : Str := if o = [] then "UNION".toList else o

mutual
/-- The combination a query stands for: a group of one query is that query; nothing for an empty group or an operand
that SQL does not allow without parentheses. -/
def combination : Node → Option (SExp Node)
  | .vquery _ o qs =>
    (combinations qs).bind fun es => match es with
      | [] => none
      | [e] => some e
      | es => if es.all SExp.plain then some (.chain (opName o) es) else none
  | .nil => none
  | n => some (.atom n)
def combinations : List Node → Option (List (SExp Node))
  | [] => some []
  | q :: qs => (combination q).bind fun e => (combinations qs).map (e :: ·)
end

/-- the node is a VariadicQuery -/
def Node.isVQ : Node → Bool
  | .vquery _ _ _ => true
  | _ => false

theorem ren_vq (t : Bool) (o : Str) (qs : List Node) (mm : Mode) (pn : Str) :
    ren (.vquery t o qs) mm pn = variadicQueryAppend mm (effTop mm t) o ((objs qs).map PV.toObj) := by
  simp only [ren]

theorem vq_kind (n : Node) (hg : n.isVQ = false) (hn : n ≠ .nil) : (obj n).kind ≠ .vquery ∧ (obj n).kind ≠ .nilv := by
  cases n <;> simp_all [Node.isVQ, obj, mkPV, Node.kind]
  rename_i kk _ _ _
  cases kk <;> simp [ExtKind.kind]

theorem combination_leaf (n : Node) (hv : n.isVQ = false) (e : SExp Node) (he : combination n = some e) :
    e = .atom n ∧ n ≠ .nil := by
  cases n <;> simp_all [combination, Node.isVQ]

/-- How an operand is rendered, by kind. -/
def operandMode (m : Mode) (b : Bool) (n : Node) : Mode :=
  if n.isVQ then { m.call none [] with meth := .top b } else m.call none []

theorem vqOperand_eq (mm : Mode) (hd : mm.d = m.d) (n : Node) (e : SExp Node) (he : combination n = some e) :
    vqOperand mm (obj n).toObj = ren n (operandMode m false n) [] := by
  have hc : mm.call none [] = m.call none [] := by simp [Mode.call, hd]
  unfold vqOperand operandMode
  cases hv : n.isVQ with
  | true =>
    obtain ⟨t, o, qs, rfl⟩ : ∃ t o qs, n = .vquery t o qs := by
      cases n <;> simp [Node.isVQ] at hv
      exact ⟨_, _, _, rfl⟩
    rw [hc]; rfl
  | false =>
    have hk := vq_kind n hv (combination_leaf n hv e he).2
    show (match (obj n).kind with | .nilv => _ | .vquery => _ | _ => _) = _
    split
    · rename_i hk'; exact absurd hk' hk.2
    · rename_i hk'; exact absurd hk' hk.1
    · rw [hc]; rfl

mutual
theorem combination_fits : (p : Node) → (e : SExp Node) → combination p = some e →
    FitsS m (ren p (operandMode m false p) []) e ∧ FitsQ m (ren p (operandMode m true p) []) e
  | .vquery t o qs, e, he => by
    simp only [operandMode, Node.isVQ, if_true]
    simp only [ren_vq]
    simp only [combination, Option.bind_eq_some_iff] at he
    obtain ⟨es, hes, he⟩ := he
    match qs, hes with
    | [], hes =>
      simp only [combinations, Option.some.injEq] at hes
      subst hes
      simp at he
    | [q], hes =>
      simp only [combinations, Option.bind_eq_some_iff, Option.map_eq_some_iff, Option.some.injEq] at hes
      obtain ⟨e1, he1, l, rfl, rfl⟩ := hes
      simp only [Option.some.injEq] at he
      subst he
      have ih := combination_fits q e1 he1
      have key : ∀ b, variadicQueryAppend { m.call none [] with meth := .top b } b o ((objs [q]).map PV.toObj) =
          ren q (operandMode m b q) [] := by
        intro b
        simp only [objs, List.map_cons, List.map_nil, variadicQueryAppend]
        unfold operandMode
        cases hv : q.isVQ with
        | true =>
          obtain ⟨t', o', qs', rfl⟩ : ∃ t o qs, q = .vquery t o qs := by
            cases q <;> simp [Node.isVQ] at hv
            exact ⟨_, _, _, rfl⟩
          rfl
        | false =>
          have hk := vq_kind q hv (combination_leaf q hv e1 he1).2
          show (match (obj q).kind with | .nilv => _ | .vquery => _ | _ => _) = _
          split
          · rename_i hk'; exact absurd hk' hk.2
          · rename_i hk'; exact absurd hk' hk.1
          · rfl
      exact ⟨by rw [show effTop { m.call none [] with meth := .top false } t = false from rfl, key]; exact ih.1,
        by rw [show effTop { m.call none [] with meth := .top true } t = true from rfl, key]; exact ih.2⟩
    | q1 :: q2 :: qs, hes =>
      have hes' := hes
      simp only [combinations, Option.bind_eq_some_iff, Option.map_eq_some_iff] at hes'
      obtain ⟨e1, he1, l, ⟨e2, he2, l2, hl2, rfl⟩, rfl⟩ := hes'
      simp only at he
      split at he
      · simp only [Option.some.injEq] at he
        subst he
        have hq1 := combination_fits q1 e1 he1
        have hrest := combinations_fit (q2 :: qs) (e2 :: l2) (by
          simp only [combinations, Option.bind_eq_some_iff, Option.map_eq_some_iff]
          exact ⟨e2, he2, l2, hl2, rfl⟩)
        have hbody : ∀ mm : Mode, mm.d = m.d → FitsQ m (sepBy (" ".toList ++ opName o ++ " ".toList)
            (((objs (q1 :: q2 :: qs)).map PV.toObj).map (vqOperand mm))) (.chain (opName o) (e1 :: e2 :: l2)) := by
          intro mm hd
          have h1 := vqOperand_eq mm hd q1 e1 he1
          refine fits_group (opName o) _ e1 _ (e2 :: l2) ?_ (hrest mm hd) (by simp [objs])
          have : vqOperand mm (mkPV q1 (ren q1) (hookOf q1)).toObj = _ := h1
          rw [this]
          exact hq1.1
        refine ⟨fitsS_paren (hbody { m.call none [] with meth := .top false } rfl), ?_⟩
        have := hbody { m.call none [] with meth := .top true } rfl
        have e2 : variadicQueryAppend { m.call none [] with meth := .top true } true o
            ((objs (q1 :: q2 :: qs)).map PV.toObj) = (.when (!true) (.wr "(") ⨟
            sepBy (" ".toList ++ opName o ++ " ".toList) (((objs (q1 :: q2 :: qs)).map PV.toObj).map
              (vqOperand { m.call none [] with meth := .top true })) ⨟ .when (!true) (.wr ")")) := rfl
        rw [show effTop { m.call none [] with meth := .top true } t = true from rfl, e2]
        simp only [Bool.not_true, when_false, ok_seq, seq_okW]
        exact this
      · simp at he
  | .nil, e, he => by simp [combination] at he
  | .scalar _, e, he | .slice _ _, e, he | .namedArg _ _, e, he | .param _ _, e, he
  | .field _ _ _ _, e, he | .checkedField _ _ _, e, he | .literal _ _, e, he | .value _ _, e, he
  | .cpred _ _ _ _, e, he | .predCases _ _ _, e, he | .simpleCases _ _ _ _, e, he
  | .window _ _ _, e, he | .rowValue _, e, he | .rowValues _, e, he | .assign _ _, e, he
  | .assigns _, e, he | .fields _, e, he | .table _ _ _ _ _, e, he | .customTable _ _, e, he
  | .join _ _ _, e, he | .cte _ _, e, he | .subquery _ _ _, e, he | .vpred _ _ _ _ _, e, he
  | .customQuery _ _ _, e, he | .select _ _ _ _ _ _ _ _ _ _, e, he
  | .insert _ _ _ _ _ _ _ _ _ _ _ _, e, he | .update _ _ _ _ _ _ _ _ _ _, e, he
  | .delete _ _ _ _ _ _ _ _, e, he | .ext _ _ _ _, e, he => by
    have := (combination_leaf _ rfl e he).1
    subst this
    exact ⟨fitsS_atom _, (fitsS_atom _).toQ⟩

theorem combinations_fit : (qs : List Node) → (es : List (SExp Node)) → combinations qs = some es →
    ∀ mm : Mode, mm.d = m.d → All2 (FitsS m) (((objs qs).map PV.toObj).map (vqOperand mm)) es
  | [], es, hes => by
    simp [combinations] at hes; subst hes
    intro mm _
    exact .nil
  | q :: qs, es, hes => by
    simp only [combinations, Option.bind_eq_some_iff, Option.map_eq_some_iff] at hes
    obtain ⟨e1, he1, es', hes', rfl⟩ := hes
    intro mm hd
    refine .cons ?_ (combinations_fit qs es' hes' mm hd)
    have : vqOperand mm (mkPV q (ren q) (hookOf q)).toObj = _ := vqOperand_eq mm hd q e1 he1
    rw [this]
    exact (combination_fits q e1 he1).1
end

end Sq
