import Verif.Proof.SubstTree
import Verif.Proof.Names
import Verif.Props.Binding
/-
C09: named parameters can be rebound through the returned params map.
C42: the SQL text does not depend on the bound values.
-/
namespace Sq
open Spec

/-! ### C42 -/

theorem exec_sub (σ : Sub) (hp : ∀ x, σ.par x = none) (d : Dialect) (is : List Instr) (s : St) :
    exec d (is.map σ.instr) { s with args := s.args.map σ.arg } =
      { exec d is s with args := (exec d is s).args.map σ.arg } := by
  induction is generalizing s with
  | nil => rfl
  | cons i is ih =>
    simp only [List.map_cons, exec_cons]
    rw [← ih]
    congr 1
    cases i <;> simp only [Sub.instr, exec1, List.length_map]
    case bind pn v =>
      split
      · split <;> simp
      · simp
    case named x v => split <;> simp [Sub.arg, List.map_set]
    case param x v =>
      rw [hp x]
      split
      · split <;> simp [List.map_set]
      · simp

/-- Value substitution that leaves LIMIT/OFFSET values and nil alone as far as types go, and rebinds nothing. -/
structure ValueChange where
  val : Scalar → Scalar
  lim : Int → Int
  nil_eq : val .nil = .nil
  lim_eq : ∀ i, val (.int i) = .int (lim i)

def ValueChange.sub (c : ValueChange) : Sub := { val := c.val, lim := c.lim, par := fun _ => none, nil_eq := c.nil_eq, lim_eq := c.lim_eq }

/-- The same tree with every plain value `v` in it (at any depth, LIMIT and OFFSET included) replaced by `c.val v`. -/
def ValueChange.node (c : ValueChange) (n : Node) : Node := c.sub.node n

/-- The value an argument carries, changed. -/
def ValueChange.arg (c : ValueChange) (a : Arg) : Arg := c.sub.arg a

/-- **C42.** Changing the values in a tree changes the argument list, value by value, and nothing else: the SQL
text, the params map and success or failure are the same. -/
theorem C42_text_independent_of_values (c : ValueChange) (d : Dialect) (n : Node) :
    (toSQL d (c.node n)).query = (toSQL d n).query ∧
    (toSQL d (c.node n)).args = (toSQL d n).args.map c.arg ∧
    (toSQL d (c.node n)).params = (toSQL d n).params ∧
    (toSQL d (c.node n)).status = (toSQL d n).status := by
  have h := exec_sub c.sub (fun _ => rfl) d (ren n { d := d } []).code {}
  have e : ren (c.node n) { d := d } [] = c.sub.w (ren n { d := d } []) := Sub.ren_node c.sub n _ _
  simp only [toSQL, e, Sub.w]
  have h0 : ({ args := ([] : List Arg).map c.sub.arg } : St) = {} := rfl
  simp only [List.map_nil] at h
  rw [h]
  exact ⟨rfl, rfl, rfl, trivial⟩

/-- Two trees of the same shape (images of one tree under two value changes) have the same SQL text. -/
theorem C42_same_shape_same_text (c₁ c₂ : ValueChange) (d : Dialect) (n : Node) :
    (toSQL d (c₁.node n)).query = (toSQL d (c₂.node n)).query := by
  rw [(C42_text_independent_of_values c₁ d n).1, (C42_text_independent_of_values c₂ d n).1]

/-- Example: every integer 1 becomes a (hostile) string; `q1` is a SELECT with WHERE and LIMIT. -/
def Ex.hostile : ValueChange where
  val s := match s with | .int i => .int (i + 1) | .str _ => .str "'; DROP TABLE users; --" | s => s
  lim i := i + 1
  nil_eq := rfl
  lim_eq _ := rfl

example : (toSQL .postgres (Ex.hostile.node Ex.q1)).args ≠ (toSQL .postgres Ex.q1).args ∧
    (toSQL .postgres Ex.q1).args.length = 4 := by decide +kernel

/-! ### C09 -/

/-- New value `a` for the named parameter `x`, nothing else. -/
def Sub.rebind (x : Str) (a : Scalar) : Sub where
  val := id
  lim := id
  par y := if y = x then some a else none
  nil_eq := rfl
  lim_eq _ := rfl

/-- The tree in which every named parameter `x` that holds a plain value (not an expression or slice) holds `a`. -/
def rebind (x : Str) (a : Scalar) (n : Node) : Node := (Sub.rebind x a).node n

/-- what `rebind` does to a named parameter … -/
theorem rebind_param (x : Str) (a v : Scalar) : rebind x a (.param x (.scalar v)) = .param x (.scalar a) := by
  simp [rebind, Sub.node, Sub.rebind, Sub.argLike, Node.kind, Kind.isAppender]
/-- … and to other values -/
theorem rebind_other (x y : Str) (a v : Scalar) (h : y ≠ x) :
    rebind x a (.param y (.scalar v)) = .param y (.scalar v) ∧ rebind x a (.scalar v) = .scalar v := by
  simp [rebind, Sub.node, Sub.rebind, Sub.argLike, Node.kind, Kind.isAppender, h]

theorem Sub.rebind_arg (x : Str) (a : Scalar) (b : Arg) : (Sub.rebind x a).arg b = b := by cases b <;> rfl

/-- The effect does not touch parameter `x` except through a named parameter. -/
def LeavesAlone (x : Str) : Instr → Prop
  | .bind pn _ => pn ≠ x
  | .named n _ => n ≠ x
  | .forget ns => x ∉ ns
  | _ => True

/-- `x` is used by named parameters only: no sql.NamedArg is called `x`, and no user-defined appender uses `x`
in another way. -/
def OnlyParam (d : Dialect) (x : Str) : Node → Prop
  | .namedArg n _ => n ≠ x
  | .ext _ _ _ act => ∀ m : Mode, m.d = d → ∀ i ∈ (act m).code, LeavesAlone x i
  | _ => True

theorem leavesAlone_ren {d : Dialect} {x : Str} (hx : x ≠ []) (ha : atoi x = none) (n : Node)
    (h : n.All (OnlyParam d x)) (m : Mode) (hm : m.d = d) (pn : Str) (hp : pn ≠ x) :
    ∀ i ∈ (ren n m pn).code, LeavesAlone x i := by
  have S : Sites (fun w => ∀ i ∈ w.code, LeavesAlone x i) d (fun y => y ≠ x) :=
    sites_forall (Q := LeavesAlone x) hx.symm (by simp [LeavesAlone])
      (by intro ns hns hmem; exact hns x hmem rfl) (by intro pn a h; exact h)
  refine ren_ind S n (h.mono ?_) m hm pn hp
  intro n hn
  have tr : ∀ fmt, OrdinalsIn (fun y => y ≠ x) fmt := by
    intro fmt body _ h e; rw [e, ha] at h; simp at h
  cases n <;> simp only [OnlyParam, NodeOk] at hn ⊢
  case namedArg a v =>
    intro m hm i hi
    unfold namedArgAppend at hi
    repeat' split at hi
    · simp [W.fail] at hi
    · simp [W.fail] at hi
    · simp [W.fail] at hi
    · simp [W.emit] at hi; subst hi; exact hn
  case param => intro v i hi; simp [W.emit] at hi; subst hi; trivial
  case field => intro p hp; exact fmtOk_forall _ (tr _)
  case checkedField => intro p hp; exact fmtOk_forall _ (tr _)
  case cpred => exact fmtOk_forall _ (tr _)
  case customTable => exact fmtOk_forall _ (tr _)
  case customQuery => exact fmtOk_forall _ (tr _)
  case window => intro a ha; exact forall_ignoreErr a ha
  case insert => intro _ _ _ _; simp [W.panic]
  case update => intro _ _ _ _; simp [W.panic]
  case delete => intro _ _ _; simp [W.panic]
  case ext => exact hn

/-- `s'` is `s` with `a` at the positions of parameter `x`. -/
structure Rebound (x : Str) (a : Scalar) (s s' : St) : Prop where
  out : s'.out = s.out
  params : s'.params = s.params
  len : s'.args.length = s.args.length
  at_ : ∀ i, i < s.args.length → s'.args[i]? = if i ∈ s.params x then some (.val a) else s.args[i]?

/-- positions of `x` belong to `x` alone -/
def Own (x : Str) (s : St) : Prop := ∀ y, y ≠ x → ∀ i ∈ s.params y, i ∉ s.params x

theorem own_step {d : Dialect} {x : Str} {i : Instr} {s : St} (hi : LeavesAlone x i) (hr : InRange s) (ho : Own x s) :
    Own x (exec1 d i s) := by
  have fresh : ∀ y, s.args.length ∉ s.params y := fun y hy => Nat.lt_irrefl _ (hr.params y _ hy)
  have set_new : ∀ pn, Own x { s with params := s.params.set pn [s.args.length] } := by
    intro pn y hy j hj
    simp only [Params.set] at hj ⊢
    split at hj
    · rename_i e; subst e
      rw [if_neg (Ne.symm hy)]
      simp at hj; subst hj; exact fresh x
    · split
      · simp; intro e; subst e; exact fresh y hj
      · exact ho y hy j hj
  cases i with
  | text t => exact ho
  | bind pn v =>
    simp only [exec1]
    split
    · split
      · exact ho
      · intro y hy j hj
        dsimp only at hj ⊢
        split at hj
        · rename_i hnil; rw [if_pos hnil]; exact ho y hy j hj
        · rename_i hnil; rw [if_neg hnil]; exact set_new pn y hy j hj
    · exact ho
  | named n v =>
    simp only [exec1]
    split
    · exact ho
    · exact set_new n
  | param n v =>
    simp only [exec1]
    split
    · split
      · exact ho
      · exact set_new n
    · intro y hy j hj
      simp only [Params.set] at hj ⊢
      split at hj
      · rename_i e; subst e
        rw [if_neg (Ne.symm hy)]
        rcases List.mem_append.1 hj with hj | hj
        · exact ho y hy j hj
        · simp at hj; subst hj; exact fresh x
      · split
        · rename_i e; subst e
          intro hm
          rcases List.mem_append.1 hm with hm | hm
          · exact ho y hy j hj hm
          · simp at hm; subst hm; exact fresh y hj
        · exact ho y hy j hj
  | forget ns =>
    intro y hy j hj
    simp only [exec1, Params.erase] at hj ⊢
    split at hj
    · simp at hj
    · split
      · simp
      · exact ho y hy j hj

theorem getElem?_snoc_lt {α} {l : List α} {b : α} {i : Nat} (h : i < l.length) : (l ++ [b])[i]? = l[i]? := by
  rw [List.getElem?_append_left h]

theorem rebound_step {d : Dialect} {x : Str} {a : Scalar} {i : Instr} {s s' : St} (hi : LeavesAlone x i)
    (hr : InRange s) (ho : Own x s) (h : Rebound x a s s') :
    Rebound x a (exec1 d i s) (exec1 d ((Sub.rebind x a).instr i) s') := by
  obtain ⟨h1, h2, h3, h4⟩ := h
  obtain ⟨out', args', params'⟩ := s'
  obtain ⟨out, args, params⟩ := s
  simp only at h1 h2 h3 h4
  subst h1; subst h2
  have fresh : ∀ y, args.length ∉ params' y := fun y hy => Nat.lt_irrefl _ (hr.params y _ hy)
  -- appending an argument that does not belong to `x`
  have app : ∀ (b : Arg) (p : Params) o, p x = params' x →
      Rebound x a { out := o, args := args ++ [b], params := p } { out := o, args := args' ++ [b], params := p } := by
    intro b p o hp
    refine ⟨rfl, rfl, by simp [h3], ?_⟩
    intro i hi'
    simp only [hp]
    rcases Nat.lt_or_ge i args.length with hlt | hge
    · rw [getElem?_snoc_lt hlt, getElem?_snoc_lt (by omega)]; exact h4 i hlt
    · have : i = args.length := by simp at hi'; omega
      subst this
      rw [if_neg (fresh x)]
      simp [← h3]
  -- appending the new value for `x`
  have appx : ∀ (b : Arg) (p : Params) o, (∀ i, i ∈ p x ↔ i = args.length ∨ i ∈ params' x) →
      Rebound x a { out := o, args := args ++ [b], params := p } { out := o, args := args' ++ [.val a], params := p } := by
    intro b p o hp
    refine ⟨rfl, rfl, by simp [h3], ?_⟩
    intro i hi'
    simp only [hp]
    rcases Nat.lt_or_ge i args.length with hlt | hge
    · rw [getElem?_snoc_lt hlt, getElem?_snoc_lt (by omega), h4 i hlt]
      have : i ≠ args.length := by omega
      simp [this]
    · have : i = args.length := by simp at hi'; omega
      subst this
      simp [← h3]
  -- overwriting a position that does not belong to `x`
  have set_ : ∀ (k : Nat) (b : Arg) o, k ∉ params' x → k < args.length →
      Rebound x a { out := o, args := args.set k b, params := params' }
        { out := o, args := args'.set k b, params := params' } := by
    intro k b o hk hlt
    refine ⟨rfl, rfl, by simp [h3], ?_⟩
    intro i hi'
    simp only [List.length_set] at hi'
    by_cases e : i = k
    · subst e; simp [hk, h3, hi']
    · rw [List.getElem?_set_ne (Ne.symm e), List.getElem?_set_ne (Ne.symm e)]; exact h4 i hi'
  cases i with
  | text t => exact ⟨rfl, rfl, h3, h4⟩
  | forget ns =>
    refine ⟨rfl, rfl, h3, ?_⟩
    intro i hi'
    have e : (exec1 d (.forget ns) { out := out', args := args, params := params' }).params x = params' x := by
      simp only [exec1, Params.erase]
      rw [if_neg (show x ∉ ns from hi)]
    simp only [e]
    exact h4 i hi'
  | bind pn v =>
    have hpn : pn ≠ x := hi
    simp only [Sub.instr, Sub.rebind_arg, exec1, h3]
    split
    · split
      · exact ⟨rfl, rfl, h3, h4⟩
      · refine app v _ _ ?_
        split
        · rfl
        · simp [Params.set, Ne.symm hpn]
    · exact app v _ _ rfl
  | named n v =>
    have hn : n ≠ x := hi
    simp only [Sub.instr, exec1, h3, Sub.rebind, id]
    split
    · rename_i k _ hk
      have hmem : k ∈ params' n := by rw [hk]; simp
      exact set_ k _ _ (ho n hn k hmem) (hr.params n k hmem)
    · exact app _ _ _ (by simp [Params.set, Ne.symm hn])
  | param n v =>
    by_cases e : n = x
    · subst e
      have e1 : (Sub.rebind n a).par n = some a := by simp [Sub.rebind]
      simp only [Sub.instr, exec1, h3, e1]
      split
      · split
        · rename_i k ks hk
          have hmem : k ∈ params' n := by rw [hk]; simp
          have hlt := hr.params n k hmem
          refine ⟨rfl, rfl, by simp [h3], ?_⟩
          intro i hi'
          simp only [List.length_set] at hi'
          by_cases e : i = k
          · subst e; simp [hmem, h3, hi']
          · rw [List.getElem?_set_ne (Ne.symm e), List.getElem?_set_ne (Ne.symm e)]; exact h4 i hi'
        · rename_i hk
          refine appx v _ _ ?_
          intro i; simp [Params.set, hk]
      · refine appx v _ _ ?_
        intro i; simp [Params.set, or_comm]
    · have e1 : (Sub.rebind x a).par n = none := by simp [Sub.rebind, e]
      simp only [Sub.instr, exec1, h3, e1, Sub.rebind_arg]
      split
      · split
        · rename_i k _ hk
          have hmem : k ∈ params' n := by rw [hk]; simp
          exact set_ k _ _ (ho n e k hmem) (hr.params n k hmem)
        · exact app v _ _ (by simp [Params.set, Ne.symm e])
      · exact app v _ _ (by simp [Params.set, Ne.symm e])

theorem rebound_exec {d : Dialect} {x : Str} {a : Scalar} (is : List Instr) (h : ∀ i ∈ is, LeavesAlone x i) (s s' : St)
    (hr : InRange s) (ho : Own x s) (hs : Rebound x a s s') :
    Rebound x a (exec d is s) (exec d (is.map (Sub.rebind x a).instr) s') := by
  induction is generalizing s s' with
  | nil => exact hs
  | cons i is ih =>
    simp only [List.map_cons, exec_cons]
    have hi := h i (by simp)
    exact ih (fun j hj => h j (List.mem_cons_of_mem _ hj)) _ _ (inRange_step d i s hr) (own_step hi hr ho)
      (rebound_step hi hr ho hs)

/-- **C09.** Let `x` be a non-numeric parameter name used in the tree by named parameters only.  Rendering the tree
with `a` as the value of `x` everywhere gives the same SQL text, params map and status as rendering the original tree,
and its arguments are exactly the original arguments with `a` put at the positions listed in `params[x]`. -/
theorem C09_rebind_through_params (d : Dialect) (n : Node) (x : Str) (a : Scalar) (hx : x ≠ []) (hnum : atoi x = none)
    (h : n.All (OnlyParam d x)) :
    (toSQL d (rebind x a n)).query = (toSQL d n).query ∧
    (toSQL d (rebind x a n)).params = (toSQL d n).params ∧
    (toSQL d (rebind x a n)).status = (toSQL d n).status ∧
    (toSQL d (rebind x a n)).args =
      (toSQL d n).args.mapIdx (fun i b => if i ∈ (toSQL d n).params x then .val a else b) := by
  have hl := leavesAlone_ren hx hnum n h { d := d } rfl [] hx.symm
  have e : ren (rebind x a n) { d := d } [] = (Sub.rebind x a).w (ren n { d := d } []) := Sub.ren_node _ n _ _
  have R := rebound_exec (d := d) (a := a) (ren n { d := d } []).code hl {} {} inRange_init
    (by intro y _ i hi; simp at hi) ⟨rfl, rfl, rfl, by simp⟩
  simp only [toSQL, e, Sub.w]
  refine ⟨by rw [R.out], R.params, trivial, ?_⟩
  apply List.ext_getElem?
  intro i
  rw [List.getElem?_mapIdx]
  by_cases hi : i < (exec d (ren n { d := d } []).code {}).args.length
  · rw [R.at_ i hi, List.getElem?_eq_getElem hi]
    simp only [Option.map_some]
    split <;> simp_all
  · rw [List.getElem?_eq_none (by rw [R.len]; omega), List.getElem?_eq_none (by omega)]
    rfl

/-- `x = Param("id", 7) OR y = Param("id", 7)` next to an ordinary value. -/
def Ex.twice : Node := .cpred [] "{} = {} OR {} = {} OR {} = {}" false
  [Ex.col "t" "a", .param "id" (.scalar (.int 7)), Ex.col "t" "b", .scalar (.int 1), Ex.col "t" "c", .param "id" (.scalar (.int 7))]

example : Ex.twice.All (OnlyParam .postgres "id") ∧ atoi "id".toList = none ∧
    (toSQL .postgres Ex.twice).params "id" = [0] ∧ (toSQL .mysql Ex.twice).params "id" = [0, 2] ∧
    (toSQL .mysql (rebind "id" (.int 9) Ex.twice)).args = [.val (.int 9), .val (.int 1), .val (.int 9)] := by
  refine ⟨?_, by decide +kernel, by decide +kernel, by decide +kernel, by decide +kernel⟩
  simp [Ex.twice, Ex.col, Node.All, AllL, OnlyParam]

/-- **C09 (numeric names, violated).** A parameter called like an ordinal shares its position with that ordinal: in
`Fieldf("{1}, {2}", 10, Param("1", 20))` the value 10 is overwritten by 20, so rebinding "1" changes both. -/
theorem C09_numeric_name_violated :
    (toSQL .postgres (.cpred [] "{1}, {2}" false [.scalar (.int 10), .param "1" (.scalar (.int 20))])).args =
      [.val (.int 20)] := by decide +kernel

end Sq
