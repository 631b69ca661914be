import Verif.Spec.Expr
import Verif.Spec.Scanner
import Verif.Proof.Parts
/-
C54: comparison, membership, aggregate, window, CASE and assignment functions write their operands where SQL expects them.
-/
namespace Sq.Exprs
open Sq Sq.Spec

theorem follows_pred (d : Dialect) (fmt : String) (ss : List Str) (vs : List Node)
    (hf : fmt.toList = write (holes ss)) (hl : ss.length - 1 ≤ vs.length) :
    Follows d (ren (predicatef fmt vs) { d := d } []) (weave { d := d } ss vs) := by
  have := Follows.seq (Follows.done (d := d)) (follows_format { d := d } fmt.toList ss vs hf hl)
  simpa [predicatef, ren, customPredAppend, W.when, Mode.std] using this

theorem chooses_default (d : Dialect) (f : Str) : chooseFormat d [("default".toList, f)] = some f := by
  have h : ∀ t : Str, (match (if t = t then some f else none) with
      | none => none
      | some dflt => match (if t = d.nm then some f else none) with
        | some f => some f
        | none => some dflt) = some f := by
    intro t
    rw [if_pos rfl]
    by_cases e : t = d.nm
    · rw [if_pos e]
    · rw [if_neg e]
  exact h "default".toList

theorem follows_field (d : Dialect) (fmt : String) (ss : List Str) (vs : List Node)
    (hf : fmt.toList = write (holes ss)) (hl : ss.length - 1 ≤ vs.length) :
    Follows d (ren (fieldf fmt vs) { d := d } []) (weave { d := d } ss vs) := by
  have := Follows.seq (Follows.done (d := d)) (Follows.seq (follows_format { d := d } fmt.toList ss vs hf hl) (Follows.text []))
  unfold fieldf
  rw [ren]
  simp only [W.when, Bool.false_eq_true, if_false, fieldInfoAppend]
  rw [chooses_default]
  simpa [Mode.call, fieldSuffix] using this

/-! ### The forms -/

/-- Where the operands of a form stand. -/
def skel (ps : List Part) : List (Option Str) := ps.map fun | .text s => some s | _ => none

/-- Only texts and plain operands. -/
def Plain (ps : List Part) : Prop := ∀ p ∈ ps, (∃ s, p = .text s) ∨ (∃ n, p = .operand n)

/-- The texts between the operands. -/
def texts : List (Option Str) → List Str
  | [] => [[]]
  | some s :: t => match texts t with | [] => [s] | x :: xs => (s ++ x) :: xs
  | none :: t => [] :: texts t

theorem texts_ne (k : List (Option Str)) : texts k ≠ [] := by
  match k with
  | [] => simp [texts]
  | some s :: t => simp only [texts]; split <;> simp
  | none :: t => simp [texts]

theorem texts_length (ps : List Part) (hp : Plain ps) : (texts (skel ps)).length - 1 = (operands ps).length := by
  induction ps with
  | nil => rfl
  | cons p ps ih =>
    have := texts_ne (skel ps)
    have ih := ih (fun q hq => hp q (by simp [hq]))
    have hp := hp p (by simp)
    cases p with
    | value a => simp at hp
    | placed n m => simp at hp
    | text s =>
      clear hp
      simp only [skel, List.map_cons, texts, operands, List.filterMap_cons] at *
      split <;> simp_all
    | operand n =>
      clear hp
      simp only [skel, List.map_cons, texts, operands, List.filterMap_cons, List.length_cons] at *
      cases h : texts (List.map _ ps) with
      | nil => exact absurd h this
      | cons a l => rw [h] at ih; simp at *; omega

theorem weave_texts (d : Dialect) (ps : List Part) (hp : Plain ps) :
    weave { d := d } (texts (skel ps)) (operands ps) = ps.flatMap (cut d) := by
  induction ps with
  | nil => rfl
  | cons p ps ih =>
    have := texts_ne (skel ps)
    have ih := ih (fun q hq => hp q (by simp [hq]))
    have hp := hp p (by simp)
    cases p with
    | value a => simp at hp
    | placed n m => simp at hp
    | text s =>
      clear hp
      simp only [skel, List.map_cons, texts, operands, List.filterMap_cons, List.flatMap_cons, cut] at *
      rw [← ih]
      split
      · contradiction
      · rename_i x xs h
        rw [h]
        cases xs with
        | nil => simp [weave]
        | cons y ys => cases List.filterMap _ ps <;> simp [weave]
    | operand n =>
      clear hp
      simp only [skel, List.map_cons, texts, operands, List.filterMap_cons, List.flatMap_cons, cut] at *
      rw [← ih]
      cases h : texts (List.map _ ps) with
      | nil => exact absurd h this
      | cons a l => simp [weave]

theorem pred_form (d : Dialect) (fmt : String) (vs : List Node) (ps : List Part) (hp : Plain ps) (hv : vs = operands ps)
    (hf : fmt.toList = write (holes (texts (skel ps)))) :
    Follows d (ren (predicatef fmt vs) { d := d } []) (ps.flatMap (cut d)) := by
  rw [← weave_texts d ps hp, ← hv]
  exact follows_pred d fmt _ vs hf (by rw [texts_length ps hp, hv]; exact Nat.le_refl _)

theorem field_form (d : Dialect) (fmt : String) (vs : List Node) (ps : List Part) (hp : Plain ps) (hv : vs = operands ps)
    (hf : fmt.toList = write (holes (texts (skel ps)))) :
    Follows d (ren (fieldf fmt vs) { d := d } []) (ps.flatMap (cut d)) := by
  rw [← weave_texts d ps hp, ← hv]
  exact follows_field d fmt _ vs hf (by rw [texts_length ps hp, hv]; exact Nat.le_refl _)

theorem query_kind (n : Node) : n.kind.isQuery = true ↔ (n.kind = .query ∨ n.kind = .vquery) := by
  cases n.kind <;> simp [Kind.isQuery]

/-- The format of a comparison, with or without parentheses. -/
def cmpFormat (op : String) : Bool → Bool → String
  | false, false => "{} " ++ op ++ " {}"
  | false, true => "{} " ++ op ++ " ({})"
  | true, false => "({}) " ++ op ++ " {}"
  | true, true => "({}) " ++ op ++ " ({})"

def cmpSkel (p q : Bool) (op : String) : List (Option Str) :=
  (if p then [some "(".toList, none, some ")".toList] else [none]) ++ [some op.toList] ++ (if q then [some "(".toList, none, some ")".toList] else [none])

theorem cmp_eq (a b : Node) (op : String) :
    cmp a b op = predicatef (cmpFormat op a.kind.isQuery b.kind.isQuery) [a, b] := by
  unfold cmp
  cases a.kind.isQuery <;> cases b.kind.isQuery <;> rfl

theorem cmp_form (d : Dialect) (a b : Node) (op sep : String)
    (h : ∀ p q, (cmpFormat op p q).toList = write (holes (texts (cmpSkel p q sep)))) :
    Follows d (ren (cmp a b op) { d := d } []) ((bracketed a ++ [Part.text sep.toList] ++ bracketed b).flatMap (cut d)) := by
  rw [cmp_eq]
  have ha := query_kind a
  have hb := query_kind b
  apply pred_form
  · by_cases ka : a.kind.isQuery = true <;> by_cases kb : b.kind.isQuery = true <;>
      simp [Plain, bracketed, ← ha, ← hb, ka, kb]
  · by_cases ka : a.kind.isQuery = true <;> by_cases kb : b.kind.isQuery = true <;>
      simp [bracketed, operands, ← ha, ← hb, ka, kb]
  · rw [h]
    congr 3
    by_cases ka : a.kind.isQuery = true <;> by_cases kb : b.kind.isQuery = true <;>
      simp [bracketed, cmpSkel, skel, ← ha, ← hb, ka, kb]

theorem follows_text (d : Dialect) (s : String) : Follows d (.wr s.toList) ([Part.text s.toList].flatMap (cut d)) := by
  simpa [cut] using Follows.text (d := d) s.toList

theorem follows_operand (d : Dialect) (n : Node) : Follows d (ren n { d := d } []) ([Part.operand n].flatMap (cut d)) := by
  simpa [cut] using Follows.operand (d := d) n { d := d } rfl

theorem Follows.seqs {d : Dialect} {a b : W} {ps qs : List Part} (ha : Follows d a (ps.flatMap (cut d)))
    (hb : Follows d b (qs.flatMap (cut d))) : Follows d (a ⨟ b) ((ps ++ qs).flatMap (cut d)) := by
  rw [List.flatMap_append]; exact .seq ha hb

theorem assign_form (d : Dialect) (l r : Node) :
    Follows d (ren (.assign l r) { d := d } []) (([Part.operand l, .text " = "] ++ bracketed r).flatMap (cut d)) := by
  have hr := query_kind r
  rw [ren]
  simp only [Mode.std, assignAppend, Mode.call, mkPV]
  refine Follows.seqs (ps := [.operand l]) (follows_operand d l) (Follows.seqs (ps := [.text " = "]) (follows_text d " = ") ?_)
  by_cases k : r.kind.isQuery = true
  · simp only [k, if_true]
    rw [bracketed, if_pos (hr.1 k)]
    exact Follows.seqs (ps := [.text "("]) (follows_text d "(") (Follows.seqs (ps := [.operand r]) (follows_operand d r) (follows_text d ")"))
  · simp only [k, if_false, Bool.false_eq_true]
    rw [bracketed, if_neg (mt hr.2 k)]
    exact follows_operand d r

theorem arms_form (d : Dialect) (cs : List (Node × Node)) :
    Follows d (seqAll ((pairs cs).map (caseArm { d := d }))) ((arms cs).flatMap (cut d)) := by
  induction cs with
  | nil => exact .done
  | cons c cs ih =>
    simp only [pairs, List.map_cons, seqAll, caseArm, mkPV]
    refine Follows.seqs (ps := [.text " WHEN ", .operand c.1, .text " THEN ", .operand c.2]) ?_ ih
    exact Follows.seqs (ps := [.text " WHEN "]) (follows_text d " WHEN ") (Follows.seqs (ps := [.operand c.1]) (follows_operand d c.1) (Follows.seqs (ps := [.text " THEN "]) (follows_text d " THEN ") (follows_operand d c.2)))

theorem otherwise_form (d : Dialect) (e : Node) :
    Follows d (elseEnd { d := d } (mkPV e (ren e) (hookOf e)).toObj) ((otherwise e).flatMap (cut d)) := by
  unfold elseEnd otherwise
  refine Follows.seqs ?_ (follows_text d " END")
  by_cases h : e = .nil
  · subst h; exact .done
  · have h1 : e.kind.isNil = false := by
      cases hk : e.kind.isNil with
      | false => rfl
      | true => exact absurd ((Node.kind_isNil e).1 hk) h
    have h2 : (match e with | .nil => [] | e => [Part.text " ELSE ", .operand e]) = [.text " ELSE ", .operand e] := by
      cases e <;> first | rfl | contradiction
    simp only [mkPV, h1, Bool.not_false, W.when, if_true]
    exact Follows.seqs (ps := [.text " ELSE "]) (follows_text d " ELSE ") (follows_operand d e)

/-- Plain forms render their operands as `ToSQL` does. -/
theorem plain_modes (d : Dialect) (ps : List Part) (hp : ∀ p ∈ ps, ∀ n m, p ≠ .placed n m) :
    ∀ o ∈ cops (ps.flatMap (cut d)), o.2 = { d := d } := by
  induction ps with
  | nil => simp [cops]
  | cons p ps ih =>
    intro o ho
    rw [List.flatMap_cons, cops_append, List.mem_append] at ho
    rcases ho with ho | ho
    · cases p with
      | text s => simp [cut, cops_char] at ho
      | value a => simp [cut, cops] at ho
      | operand n => simp [cut, cops] at ho; rw [ho]
      | placed n m => exact absurd rfl (hp (.placed n m) (by simp) n m)
    · exact ih (fun q hq => hp q (by simp [hq])) o ho

theorem call_modes (d : Dialect) (c : Call) : ∀ o ∈ cops ((form c).flatMap (cut d)), o.2 = { d := d } := by
  apply plain_modes
  intro p hp n m e
  subst e
  have hb : ∀ k : Node, Part.placed n m ∉ bracketed k := by
    intro k; unfold bracketed; split <;> simp
  have ha : ∀ cs, Part.placed n m ∉ arms cs := by
    intro cs; simp [arms]
  have ho : ∀ e, Part.placed n m ∉ otherwise e := by
    intro e; unfold otherwise; split <;> simp
  cases c <;> simp [form, over, hb, ha, ho] at hp
  rename_i a b
  cases b <;> simp [form] at hp

theorem call_form (d : Dialect) (c : Call) : Follows d (ren c.node { d := d } []) ((form c).flatMap (cut d)) := by
  cases c with
  | eq a b => exact cmp_form d a b "=" " = " (by decide +kernel)
  | ne a b => exact cmp_form d a b "<>" " <> " (by decide +kernel)
  | gt a b => exact cmp_form d a b ">" " > " (by decide +kernel)
  | ge a b => exact cmp_form d a b ">=" " >= " (by decide +kernel)
  | lt a b => exact cmp_form d a b "<" " < " (by decide +kernel)
  | le a b => exact cmp_form d a b "<=" " <= " (by decide +kernel)
  | in_ a b =>
    by_cases h : b.kind = .rowvalue
    · have hb : ∃ vs, b = .rowValue vs := by
        cases b <;> simp [Node.kind] at h <;> try exact ⟨_, rfl⟩
        rename_i k _ _ _
        cases k <;> simp [ExtKind.kind] at h
      obtain ⟨vs, rfl⟩ := hb
      simp only [Call.node, if_pos h, form]
      exact pred_form d _ _ _ (by simp [Plain, form]) rfl (by simp only [skel, List.map]; decide +kernel)
    · have hb : form (.in_ a b) = [.operand a, .text " IN (", .operand b, .text ")"] := by
        cases b <;> first | rfl | (simp [Node.kind] at h)
      rw [hb]
      simp only [Call.node, if_neg h]
      exact pred_form d _ _ _ (by simp [Plain, form]) rfl (by simp only [skel, List.map]; decide +kernel)
  | isNull f | isNotNull f | exists_ f | notExists f | like f v | ilike f v =>
    exact pred_form d _ _ _ (by simp [Plain, form]) rfl (by simp only [skel, form, List.map]; decide +kernel)
  | assign l r => exact assign_form d l r
  | caseWhen c cs e =>
    simp only [Call.node, ren, predCasesAppend, Mode.std]
    rw [if_neg (by simp [pairs])]
    exact Follows.seqs (ps := [.text "CASE"]) (follows_text d "CASE") (Follows.seqs (ps := []) (.done) (Follows.seqs (ps := arms (c :: cs)) (arms_form d (c :: cs)) (otherwise_form d e)))
  | caseOf f c cs e =>
    simp only [Call.node, ren, simpleCasesAppend, Mode.std]
    rw [if_neg (by simp [pairs])]
    have := Follows.seqs (ps := [.text "CASE "]) (follows_text d "CASE ") (Follows.seqs (ps := []) (.done) (Follows.seqs (ps := [.operand f]) (follows_operand d f) (Follows.seqs (ps := arms (c :: cs)) (arms_form d (c :: cs)) (otherwise_form d e))))
    simpa [form, mkPV] using this
  | _ => exact field_form d _ _ _ (by simp [Plain, form, over]) rfl (by simp only [skel, form, over, List.map, List.cons_append, List.append_nil, List.nil_append]; decide +kernel)

/-- **C54 (partial).** Every call of a comparison, membership, NULL test, EXISTS, LIKE, aggregate, window, CASE or
assignment function renders as the SQL form it is named after: the operands stand in their places, each meaning what it
means when rendered alone, with the same values bound, and nothing else is written.  `N n` are the parameter names operand
`n` uses.  Missing: operands that share a parameter name (the rebinding rules C09, C10 apply to those) and sql.NamedArg on SQLite
and SQL Server (C10); and what `C54_nesting_violated`, `C54_empty_in_violated`, `C54_slice_violated` and
`C54_case_query_violated` show about operands that would need brackets. -/
theorem C54_forms_partial (d : Dialect) (c : Call) (N : Node → Str → Prop)
    (hok : ∀ n ∈ operands (form c), (toSQL d n).status = .ok)
    (hN : ∀ n ∈ operands (form c), n.All (UsesNames d (N n)) ∧ n.All (NoNamed d))
    (hd : (operands (form c)).Pairwise fun a b => ∀ x, N a x → ¬ N b x) :
    (toSQL d c.node).status = .ok ∧ sqlOf d c.node = (form c).flatMap (Part.sql d) := by
  have hm := (call_form d c).means (m := { d := d }) N ?_ hN hd
  · exact hm
  · intro o ho
    have hc := call_modes d c o ho
    have := hok o.1 (by rw [← cops_cut d]; exact List.mem_map.2 ⟨o, ho, rfl⟩)
    rw [hc]
    exact this

/-- A call with a query operand, bound values and a named parameter. -/
def exCall : Call :=
  .caseWhen (Ex.eqInt (Ex.col "u" "id") 1, .scalar (.int 7)) [(Call.node (.in_ (Ex.col "u" "id") Ex.q1), Ex.q1)] (.param "x" (.scalar (.int 9)))

theorem no_ordinals (N : Str → Prop) (f : Str) (h : ∀ b, Seg.hole b ∈ parseFmt none f → b = []) : OrdinalsIn N f := by
  intro b hb ha
  rw [h b hb] at ha
  exact absurd ha (by decide)

/-- The hypotheses hold of it. -/
theorem C54_applies (d : Dialect) : sqlOf d exCall.node = (form exCall).flatMap (Part.sql d) := by
  refine (C54_forms_partial d exCall (fun n x => match n with | .param y _ => x = y | _ => False) ?_ ?_ ?_).2
  · intro n hn
    simp [exCall, form, operands, arms, otherwise] at hn
    rcases hn with rfl | rfl | rfl | rfl | rfl <;> cases d <;> decide +kernel
  · intro n hn
    have f1 : ∀ N, OrdinalsIn N "{} = {}".toList := fun N => no_ordinals N _ (by
      intro b hb
      rw [show parseFmt none "{} = {}".toList = [.hole [], .lit ' ', .lit '=', .lit ' ', .hole []] by decide] at hb
      simpa using hb)
    have f2 : ∀ N, OrdinalsIn N "{} IN ({})".toList := fun N => no_ordinals N _ (by
      intro b hb
      rw [show parseFmt none "{} IN ({})".toList =
        [.hole [], .lit ' ', .lit 'I', .lit 'N', .lit ' ', .lit '(', .hole [], .lit ')'] by decide] at hb
      simpa using hb)
    simp at f1 f2
    simp [exCall, form, operands, arms, otherwise] at hn
    rcases hn with rfl | rfl | rfl | rfl | rfl <;>
      simp [Ex.eqInt, Ex.q1, Ex.col, Ex.users, Ex.andp, Ex.orp, Node.All, AllL, UsesNames, NoNamed, Call.node, predicatef, f1, f2, Node.kind]
  · simp [exCall, form, operands, arms, otherwise, Ex.eqInt, Call.node, Ex.q1, predicatef, Node.kind]

/-- **C54, nesting (violated).** A predicate compared with a value is not put in brackets: `Eq(a, Eq(b, c))` and
`Eq(Eq(a, b), c)` are written alike. -/
theorem C54_nesting_violated (d : Dialect) : let a := Ex.col "u" "a"; let b := Ex.col "u" "b"; let c := Ex.col "u" "c"
    (toSQL d (Call.node (.eq a (Call.node (.eq b c))))).query = (toSQL d (Call.node (.eq (Call.node (.eq a b)) c))).query ∧
    (toSQL d (Call.node (.eq a (Call.node (.eq b c))))).query = "u.a = u.b = u.c".toList := by
  cases d <;> decide +kernel

/-- **C54, empty list (violated).** `In(f, slice)` with an empty slice writes `IN ()`, which PostgreSQL, MySQL and SQL Server reject. -/
theorem C54_empty_in_violated (d : Dialect) (id : Nat) :
    (toSQL d (Call.node (.in_ (Ex.col "u" "a") (.slice id [])))).query = "u.a IN ()".toList := by
  cases d <;> rfl

/-- **C54, lists (violated).** A slice compared with `Eq` writes its items without brackets. -/
theorem C54_slice_violated :
    (toSQL .postgres (Call.node (.eq (Ex.col "u" "a") (.slice 0 [.scalar (.int 1), .scalar (.int 2)])))).query = "u.a = $1, $2".toList := by
  decide +kernel

/-- **C54, queries in CASE (violated).** Unlike comparisons and assignments, CASE does not put a query in brackets. -/
theorem C54_case_query_violated :
    (toSQL .postgres (Call.node (.caseWhen (Ex.eqInt (Ex.col "u" "id") 1, .customQuery .postgres "SELECT 1".toList []) [] .nil))).query =
      "CASE WHEN u.id = $1 THEN SELECT 1 END".toList := by
  decide +kernel

/-- **C54, assignments from the conflicting row (partial).** `AssignExcluded`, `AssignAlias`, `AssignSelf`, `AssignValues` name the
column, quoted when it needs quoting, on both sides.  Missing: names that need quoting, see `C54_assign_quote_violated`. -/
theorem C54_assign_partial (d : Dialect) (name alias : Str) (hn : quoteIdentifier d name = name) (ha : quoteIdentifier d alias = alias) :
    (toSQL d (assignExcluded name)).query = quoteIdentifier d name ++ " = EXCLUDED.".toList ++ quoteIdentifier d name ∧
    (toSQL d (assignAlias name alias)).query = quoteIdentifier d name ++ " = ".toList ++ quoteIdentifier d alias ++ ".".toList ++ quoteIdentifier d name ∧
    (toSQL d (assignSelf name)).query = quoteIdentifier d name ++ " = ".toList ++ quoteIdentifier d name ∧
    (toSQL d (assignValues name)).query = quoteIdentifier d name ++ " = VALUES(".toList ++ quoteIdentifier d name ++ ")".toList := by
  rw [hn, ha]
  simp [toSQL, assignExcluded, assignAlias, assignSelf, assignValues, ren, assignAppend, mkPV, Node.kind, Kind.isQuery, W.seq, W.wr, exec, exec1, bufString, Piece.str]

/-- **C54, assignments (violated).** The names are never quoted: of a column called `order by` the server reads another name. -/
theorem C54_assign_quote_violated (d : Dialect) :
    (toSQL d (assignSelf "order by".toList)).query = "order by = order by".toList ∧
    _root_.Spec.readIdent d (toSQL d (assignSelf "order by".toList)).query = some ("order".toList, " by = order by".toList) := by
  cases d <;> decide +kernel

end Sq.Exprs
