import Verif.Props.Format
import Mathlib.Data.Finset.Card
import Mathlib.Data.Finset.Insert
import Mathlib.Data.Finset.Dedup
/-
C11 and C13 for the text and arguments a caller gets back.
-/
namespace Sq
open Spec

/-! ### C11: text -/

/-- Texts and values, alternating: `s₀ t₁ s₁ t₂ …`. -/
def weave : List Str → List Str → Str
  | [], _ => []
  | [s], _ => s
  | s :: ss, [] => s ++ weave ss []
  | s :: ss, t :: ts => s ++ t ++ weave ss ts

/-- `w` succeeds and writes exactly the text `s`. -/
def Writes (w : W) (s : Str) : Prop :=
  w.st = .ok ∧ ∃ ps : List Str, w.code = ps.map .text ∧ ps.flatten = s

theorem Writes.wr (s : Str) : Writes (.wr s) s := ⟨rfl, [s], rfl, by simp⟩
theorem Writes.ok : Writes .ok [] := ⟨rfl, [], rfl, rfl⟩
theorem Writes.seq {a b : W} {s t : Str} (ha : Writes a s) (hb : Writes b t) : Writes (a ⨟ b) (s ++ t) := by
  obtain ⟨h1, p, h2, h3⟩ := ha
  obtain ⟨h4, q, h5, h6⟩ := hb
  unfold W.seq
  rw [h1]
  exact ⟨h4, p ++ q, by simp [h2, h5], by simp [h3, h6]⟩

theorem writes_chars (s : Str) : Writes (seqAll (s.map fun c => W.wr [c])) s := by
  induction s with
  | nil => exact Writes.ok
  | cons c s ih => exact (Writes.wr [c]).seq ih

theorem writes_interleave (ss ts : List Str) : Writes (interleave ss (ts.map W.wr)) (weave ss ts) := by
  fun_induction weave ss ts with
  | case1 => simp only [interleave]; exact Writes.ok
  | case2 s ts => simp only [interleave]; exact writes_chars s
  | case3 s ss hne ih =>
    cases ss with
    | nil => exact absurd rfl hne
    | cons s' ss => simp only [interleave, List.map_nil]; exact (writes_chars s).seq ih
  | case4 s ss t ts hne ih =>
    cases ss with
    | nil => exact absurd rfl hne
    | cons s' ss =>
      simp only [interleave, List.map_cons]
      rw [List.append_assoc]
      exact (writes_chars s).seq ((Writes.wr t).seq ih)

theorem exec_texts (d : Dialect) (ps : List Str) (s : St) :
    exec d (ps.map .text) s = { s with out := s.out ++ ps.map .text } := by
  induction ps generalizing s with
  | nil => simp
  | cons p ps ih => simp [exec1, ih]

/-- **C11, end to end.** `Queryf(format, Literal(t₁), …, Literal(t_k))` for a format with literal texts `s₀ … s_j`, `j ≤ k`
(`{` doubled): the query text is `s₀ t₁ s₁ t₂ …`, for any texts whatsoever, and no argument is bound. -/
theorem C11_text (d : Dialect) (ss ts : List Str) (h : ss.length - 1 ≤ ts.length) :
    let r := toSQL d (.customQuery d (write (holes ss)) (ts.map fun t => .literal t []))
    r.query = weave ss ts ∧ r.args = [] ∧ r.status = .ok := by
  intro r
  have hv : (objs (ts.map fun t => Node.literal t [])).map PV.toObj =
      ts.map (fun t => (obj (.literal t [])).toObj) := by simp [objs_eq, Function.comp_def]
  have e : ren (.customQuery d (write (holes ss)) (ts.map fun t => .literal t [])) { d := d } [] =
      interleave ss (ts.map W.wr) ⨟ .emit (.forget []) := by
    simp only [ren]
    rw [hv, C11_sequential _ _ _ (by simpa using h)]
    congr 2
    simp [Function.comp_def, obj, mkPV, ren]
  obtain ⟨h1, p, h2, h3⟩ := writes_interleave ss ts
  have hw : (interleave ss (ts.map W.wr) ⨟ .emit (.forget [])) = { code := p.map .text ++ [.forget []], st := .ok } := by
    unfold W.seq; rw [h1]; simp [h2, W.emit]
  have hr : r = toSQL d (.customQuery d (write (holes ss)) (ts.map fun t => .literal t [])) := rfl
  rw [hr]
  simp only [toSQL, e, hw, exec_append, exec_texts, exec_cons, exec_nil, exec1]
  refine ⟨?_, trivial, trivial⟩
  simp only [List.nil_append, bufString, List.map_map]
  rw [← h3]
  congr 1
  simp [Function.comp_def, Piece.str]

/-- `a{b`, `{}`, `c`, `{}`, `` with the values `X`, `{}`: braces in values are not interpreted. -/
example : write (holes ["a{b", "c", ""]) = "a{{b{}c{}".toList ∧
    weave ["a{b", "c", ""] ["X", "{}"] = "a{bXc{}".toList := by decide

/-! ### C13: values -/

/-- The name a code instruction binds a value to. -/
def Consistent (env : Str → Option Arg) : Instr → Prop
  | .text _ => True
  | .bind pn a => pn = [] ∨ env pn = some a
  | .param n a => n ≠ [] ∧ env n = some a
  | _ => False

structure EnvInv (env : Str → Option Arg) (s : St) : Prop where
  range : InRange s
  ref : ∀ nm, Piece.ref nm ∉ s.out
  anon : anonCount s.out = 0
  env : ∀ y k, k ∈ s.params y → s.args[k]? = env y

theorem consistent_step {env : Str → Option Arg} {d : Dialect} (hd : numbered d = true) {i : Instr} {s : St}
    (hc : Consistent env i) (h : EnvInv env s) :
    EnvInv env (exec1 d i s) ∧
    resolve (exec1 d i s).args 0 (exec1 d i s).out = resolve s.args 0 s.out ++ i.denote := by
  have hr' := inRange_step d i s h.range
  have ha' := no_anon_exec d hd [i] s h.anon
  rw [exec_cons, exec_nil] at ha'
  have hkeep : ∀ v, resolve (s.args ++ [v]) 0 s.out = resolve s.args 0 s.out := fun v =>
    resolve_args_append _ _ _ _ h.range.ph h.ref (by have := h.anon; omega)
  have fresh : ∀ y, s.args.length ∉ s.params y := fun y hy => Nat.lt_irrefl _ (h.range.params y _ hy)
  have keepenv : ∀ v y k, k ∈ s.params y → (s.args ++ [v])[k]? = env y := by
    intro v y k hk
    rw [List.getElem?_append_left (h.range.params y k hk)]; exact h.env y k hk
  have setenv : ∀ n a, env n = some a → ∀ y k, k ∈ s.params.set n [s.args.length] y → (s.args ++ [a])[k]? = env y := by
    intro n a hn y k hk
    simp only [Params.set] at hk
    split at hk
    · rename_i e; subst e
      simp at hk; subst hk; simp [hn]
    · exact keepenv a y k hk
  have noop : ∀ (n : Str) (a : Arg) k l, s.params n = k :: l → env n = some a → s.args.set k a = s.args := by
    intro n a k l hk hn
    have hm : k ∈ s.params n := by rw [hk]; simp
    have := h.env n k hm
    rw [hn] at this
    apply List.ext_getElem?
    intro j
    by_cases e : k = j
    · subst e; rw [List.getElem?_set_self (h.range.params n k hm), this]
    · rw [List.getElem?_set_ne e]
  cases i with
  | forget ns => exact absurd hc (by simp [Consistent])
  | named n v => exact absurd hc (by simp [Consistent])
  | text t =>
    refine ⟨⟨hr', by simpa [exec1] using h.ref, ha', h.env⟩, ?_⟩
    simp [exec1, resolve_append, resolve, Instr.denote]
  | bind pn a =>
    simp only [exec1, hd, if_true] at hr' ha' ⊢
    split
    · rename_i k l hk
      rw [hk] at hr' ha'
      have hpn : pn ≠ [] := by intro e; simp [e] at hk
      rw [if_neg hpn] at hk
      have hn : env pn = some a := by rcases hc with hc | hc; exact absurd hc hpn; exact hc
      have hm : k ∈ s.params pn := by rw [hk]; simp
      refine ⟨⟨hr', by simpa using h.ref, ha', h.env⟩, ?_⟩
      have := h.env pn k hm
      simp [resolve_append, resolve, Instr.denote, Spec.pick, this, hn]
    · rename_i hk
      rw [hk] at hr' ha'
      refine ⟨⟨hr', by simpa using h.ref, ha', ?_⟩, ?_⟩
      · intro y k hk'
        dsimp only at hk' ⊢
        split at hk'
        · exact keepenv a y k hk'
        · rename_i hpn
          exact setenv pn a (by rcases hc with hc | hc; exact absurd hc hpn; exact hc) y k hk'
      · simp [resolve_append, resolve, Instr.denote, Spec.pick, hkeep]
  | param n a =>
    obtain ⟨hn0, hn⟩ := hc
    simp only [exec1, hd, if_true] at hr' ha' ⊢
    split
    · rename_i k l hk
      rw [hk] at hr' ha'
      have hm : k ∈ s.params n := by rw [hk]; simp
      dsimp only at hr' ha'
      rw [noop n a k l hk hn] at hr' ⊢
      refine ⟨⟨hr', by simpa using h.ref, ha', h.env⟩, ?_⟩
      have := h.env n k hm
      simp [resolve_append, resolve, Instr.denote, Spec.pick, this, hn]
    · rename_i hk
      rw [hk] at hr' ha'
      refine ⟨⟨hr', by simpa using h.ref, ha', setenv n a hn⟩, ?_⟩
      simp [resolve_append, resolve, Instr.denote, Spec.pick, hkeep]

theorem consistent_exec {env : Str → Option Arg} {d : Dialect} (hd : numbered d = true) (is : List Instr) (s : St)
    (hc : ∀ i ∈ is, Consistent env i) (h : EnvInv env s) :
    EnvInv env (exec d is s) ∧
    resolve (exec d is s).args 0 (exec d is s).out = resolve s.args 0 s.out ++ is.flatMap Instr.denote := by
  induction is generalizing s with
  | nil => simp [h]
  | cons i is ih =>
    have st := consistent_step hd (hc i (by simp)) h
    have := ih (exec1 d i s) (fun j hj => hc j (List.mem_cons_of_mem _ hj)) st.1
    simp [this, st.2]

/-- a name under which an instruction binds, if any -/
def Instr.bindName : Instr → Option Str
  | .bind pn _ => if pn = [] then none else some pn
  | .param n _ => some n
  | _ => none
def Instr.isAnonBind : Instr → Bool
  | .bind [] _ => true
  | _ => false

/-- Sharing: consistent code binds one argument per unnamed value and one per distinct name. -/
theorem sharing_exec {env : Str → Option Arg} {d : Dialect} (hd : numbered d = true) (is : List Instr)
    (hc : ∀ i ∈ is, Consistent env i) :
    (exec d is {}).args.length = is.countP Instr.isAnonBind + (is.filterMap Instr.bindName).toFinset.card ∧
    ∀ y, (exec d is {}).params y ≠ [] ↔ y ∈ is.filterMap Instr.bindName := by
  induction is using List.reverseRecOn with
  | nil => simp
  | append_singleton is i ih =>
    obtain ⟨ih1, ih2⟩ := ih (fun j hj => hc j (by simp [hj]))
    have hci := hc i (by simp)
    rw [exec_append, exec_cons, exec_nil]
    have newname : ∀ n, n ∉ is.filterMap Instr.bindName →
        ((is.filterMap Instr.bindName ++ [n]).toFinset).card = (is.filterMap Instr.bindName).toFinset.card + 1 := by
      intro n hn
      rw [List.toFinset_append]
      simp only [List.toFinset_cons, List.toFinset_nil]
      rw [Finset.union_comm, insert_empty_eq, ← Finset.insert_eq, Finset.card_insert_of_notMem (by simpa using hn)]
    have oldname : ∀ n, n ∈ is.filterMap Instr.bindName →
        ((is.filterMap Instr.bindName ++ [n]).toFinset).card = (is.filterMap Instr.bindName).toFinset.card := by
      intro n hn
      rw [List.toFinset_append]
      simp only [List.toFinset_cons, List.toFinset_nil]
      rw [Finset.union_comm, insert_empty_eq, ← Finset.insert_eq, Finset.insert_eq_of_mem (by simpa using hn)]
    have set_iff : ∀ n, ∀ y, (((exec d is {}).params.set n [(exec d is {}).args.length]) y ≠ [] ↔
        y ∈ is.filterMap Instr.bindName ++ [n]) := by
      intro n y
      simp only [Params.set]
      by_cases e : y = n
      · simp [e]
      · rw [if_neg e, ih2 y]; simp only [List.mem_append, List.mem_singleton, e, or_false]
    have keep_iff : ∀ n, n ∈ is.filterMap Instr.bindName → ∀ y, ((exec d is {}).params y ≠ [] ↔
        y ∈ is.filterMap Instr.bindName ++ [n]) := by
      intro n hn y
      rw [ih2 y, List.mem_append, List.mem_singleton]
      exact ⟨Or.inl, fun h => h.elim id (fun e => e ▸ hn)⟩
    rw [List.filterMap_append, List.countP_append]
    cases i with
    | forget ns => exact absurd hci (by simp [Consistent])
    | named n v => exact absurd hci (by simp [Consistent])
    | text t =>
      have e1 : [Instr.text t].filterMap Instr.bindName = [] := rfl
      have e2 : [Instr.text t].countP Instr.isAnonBind = 0 := rfl
      rw [e1, e2, List.append_nil]
      exact ⟨ih1, ih2⟩
    | bind pn a =>
      by_cases hpn : pn = []
      · subst hpn
        simp only [exec1, hd, if_true, List.filterMap_cons, List.filterMap_nil, Instr.bindName, List.append_nil]
        refine ⟨by simp [ih1, Instr.isAnonBind]; omega, ih2⟩
      · have e1 : [Instr.bind pn a].filterMap Instr.bindName = [pn] := by simp [Instr.bindName, hpn]
        have e2 : [Instr.bind pn a].countP Instr.isAnonBind = 0 := by
          cases pn with
          | nil => exact absurd rfl hpn
          | cons => simp [Instr.isAnonBind]
        rw [e1, e2]
        simp only [exec1, hd, if_true, hpn, if_false]
        split
        · rename_i k l hk
          have hmem : pn ∈ is.filterMap Instr.bindName := (ih2 pn).1 (by rw [hk]; simp)
          exact ⟨by rw [oldname pn hmem]; simpa using ih1, keep_iff pn hmem⟩
        · rename_i hk
          have hmem : pn ∉ is.filterMap Instr.bindName := fun hm => (ih2 pn).2 hm hk
          refine ⟨by rw [newname pn hmem]; simp [ih1]; omega, set_iff pn⟩
    | param n a =>
      have e1 : [Instr.param n a].filterMap Instr.bindName = [n] := by simp [Instr.bindName]
      have e2 : [Instr.param n a].countP Instr.isAnonBind = 0 := by simp [Instr.isAnonBind]
      rw [e1, e2]
      simp only [exec1, hd, if_true]
      split
      · rename_i k l hk
        have hmem : n ∈ is.filterMap Instr.bindName := (ih2 n).1 (by rw [hk]; simp)
        exact ⟨by rw [oldname n hmem]; simpa using ih1, keep_iff n hmem⟩
      · rename_i hk
        have hmem : n ∉ is.filterMap Instr.bindName := fun hm => (ih2 n).2 hm hk
        refine ⟨by rw [newname n hmem]; simp [ih1]; omega, set_iff n⟩

/-! #### Formats over plain values and named parameters -/

/-- A value passed to a format string: a plain value, or a named parameter holding a plain value. -/
inductive FVal where
  | plain (a : Scalar)
  | named (x : Str) (a : Scalar)

def FVal.node : FVal → Node
  | .plain a => .scalar a
  | .named x a => .param x (.scalar a)
def FVal.key : FVal → Option Str
  | .plain _ => none
  | .named x _ => some x
def FVal.val : FVal → Scalar
  | .plain a => a
  | .named _ a => a

/-- Named parameters have non-empty, non-numeric names, and each name is used by one value. -/
structure GoodVals (vals : List FVal) : Prop where
  nonempty : ∀ x a, FVal.named x a ∈ vals → x ≠ [] ∧ atoi x = none
  unique : ∀ (i j : Nat) (x : Str) (a b : Scalar), vals[i]? = some (FVal.named x a) → vals[j]? = some (FVal.named x b) → i = j

theorem FVal.obj_key (v : FVal) : (obj v.node).key = v.key := by cases v <;> rfl
theorem FVal.obj_act (v : FVal) (hv : ∀ x a, v = .named x a → x ≠ []) (m : Mode) (pn : Str) :
    (obj v.node).act m pn = .emit (match v with | .plain a => .bind pn (.val a) | .named x a => .param x (.val a)) := by
  cases v with
  | plain a => rfl
  | named x a =>
    show paramAppend m x _ = _
    simp [paramAppend, hv x a rfl, mkPV, FVal.node, Node.kind, Kind.isAppender, Kind.toArg]

def Spec.Step.mapV {V U : Type} (f : V → U) : Step V → Step U
  | .text c => .text c
  | .value v nm => .value (f v) nm

theorem plan_map {V U : Type} (f : V → U) (kV : V → Option Str) (kU : U → Option Str) (hk : ∀ v, kU (f v) = kV v)
    (vals : List V) (i : Nat) (ts : List TPart) :
    plan kU (vals.map f) i ts = (plan kV vals i ts).map
      (List.map (Step.mapV f)) := by
  have hp : ∀ nm, pickRef kU (vals.map f) nm = (pickRef kV vals nm).map f := by
    intro nm
    unfold pickRef
    split
    · split <;> simp
    · rw [← List.map_reverse, List.find?_map]
      simp [Function.comp_def, hk]
  induction ts generalizing i with
  | nil => simp [plan]
  | cons t ts ih =>
    cases t with
    | text c => simp [plan, ih, Function.comp_def, Step.mapV]
    | next =>
      simp only [plan, ih, List.getElem?_map]
      cases vals[i]? <;> simp
      cases plan kV vals (i + 1) ts <;> simp [Step.mapV]
    | ref nm =>
      simp only [plan, ih, hp]
      cases pickRef kV vals nm <;> simp
      cases plan kV vals i ts <;> simp [Step.mapV]

/-- Every value in a plan is the value its name stands for, or is referred to without a name. -/
theorem plan_mem {V : Type} (key : V → Option Str) (vals : List V) (i : Nat) (ts : List TPart) (ps : List (Step V))
    (h : plan key vals i ts = some ps) (v : V) (nm : Str) (hv : Step.value v nm ∈ ps) :
    v ∈ vals ∧ (nm = [] ∨ pickRef key vals nm = some v) := by
  induction ts generalizing i ps with
  | nil => simp [plan] at h; subst h; simp at hv
  | cons t ts ih =>
    cases t with
    | text c =>
      simp [plan] at h
      obtain ⟨qs, hq, rfl⟩ := h
      simp at hv
      exact ih i qs hq hv
    | next =>
      simp only [plan] at h
      cases hv' : vals[i]? with
      | none => simp [hv'] at h
      | some u =>
        cases hq : plan key vals (i + 1) ts with
        | none => simp [hv', hq] at h
        | some qs =>
          simp [hv', hq] at h
          subst h
          rcases List.mem_cons.1 hv with hv | hv
          · simp at hv; obtain ⟨rfl, rfl⟩ := hv
            exact ⟨List.mem_of_getElem? hv', Or.inl rfl⟩
          · exact ih (i + 1) qs hq hv
    | ref x =>
      simp only [plan] at h
      cases hv' : pickRef key vals x with
      | none => simp [hv'] at h
      | some u =>
        cases hq : plan key vals i ts with
        | none => simp [hv', hq] at h
        | some qs =>
          simp [hv', hq] at h
          subst h
          rcases List.mem_cons.1 hv with hv | hv
          · simp at hv; obtain ⟨rfl, rfl⟩ := hv
            refine ⟨?_, Or.inr hv'⟩
            unfold pickRef at hv'
            split at hv'
            · split at hv'
              · exact List.mem_of_getElem? hv'
              · simp at hv'
            · have := List.mem_of_find?_eq_some hv'; simpa using this
          · exact ih i qs hq hv

/-- A plan step over plain values, as the database should read it. -/
def Spec.Step.read : Step FVal → RPiece
  | .text c => .sql [c]
  | .value v _ => .val (.val v.val)

/-- The name a value is bound under: its own name if it has one, otherwise the name it was referred to by. -/
def Spec.Step.name : Step FVal → Str
  | .text _ => []
  | .value (.plain _) nm => nm
  | .value (.named x _) _ => x

/-- The names under which values are bound, and the number of values bound without a name. -/
def sharedNames (ps : List (Step FVal)) : Finset Str := (ps.filterMap fun p => if p.name = [] then none else some p.name).toFinset
def unnamed (ps : List (Step FVal)) : Nat := ps.countP fun p => match p with | .value _ _ => p.name = [] | _ => false

def stepInstr : Step FVal → Instr
  | .text c => .text [c]
  | .value (.plain a) nm => .bind nm (.val a)
  | .value (.named x a) _ => .param x (.val a)

theorem seqAll_emit (is : List Instr) : seqAll (is.map W.emit) = { code := is, st := .ok } := by
  induction is with
  | nil => rfl
  | cons i is ih => simp [seqAll, ih, W.seq, W.emit]

/-- **C13.** A format over plain values and named parameters, on a dialect with numbered placeholders: if every reference
has a value, the result is a success, the query with its placeholders replaced by the bound arguments reads exactly as the
template with every reference replaced by the value it stands for, and the number of arguments is one per unnamed value
plus one per distinct name — repeated references share an argument. -/
theorem C13_values (d : Dialect) (hd : d ∈ numberedDialects) (ts : List TPart) (hw : WellFormed ts) (vals : List FVal)
    (hg : GoodVals vals) (ps : List (Step FVal)) (hp : plan FVal.key vals 0 ts = some ps) :
    let r := toSQL d (.customQuery d (write ts) (vals.map FVal.node))
    r.status = .ok ∧ resolve r.args 0 r.pieces = ps.map Step.read ∧
    r.args.length = unnamed ps + (sharedNames ps).card := by
  have hd : numbered d = true := by revert hd; cases d <;> decide
  intro r
  have hobjs : (objs (vals.map FVal.node)).map PV.toObj = vals.map (fun v => (obj v.node).toObj) := by
    simp [objs_eq, Function.comp_def]
  have hplan := plan_map (fun v : FVal => (obj v.node).toObj) FVal.key Obj.key (fun v => v.obj_key) vals 0 ts
  rw [hp, Option.map_some] at hplan
  have hcode : ren (.customQuery d (write ts) (vals.map FVal.node)) { d := d } [] =
      { code := ps.map stepInstr ++ [.forget (ordinalsOf ts)], st := .ok } := by
    simp only [ren]
    rw [hobjs, (C13_references _ _ ts hw).1 _ hplan, List.map_map]
    have : ps.map (Step.run (Mode.call { d := d } none []) ∘ Step.mapV (fun v : FVal => (obj v.node).toObj)) = (ps.map stepInstr).map W.emit := by
      rw [List.map_map]
      apply List.map_congr_left
      intro s hs
      cases s with
      | text c => rfl
      | value v nm =>
        have hv := (plan_mem _ _ _ _ _ hp v nm hs).1
        simp only [Function.comp_def, Step.mapV, Step.run]
        rw [FVal.obj_act v (fun x a e => (hg.nonempty x a (e ▸ hv)).1)]
        cases v <;> rfl
    have hm : ({ d := d : Mode}.call none []) = { d := d } := rfl
    rw [show (Mode.call { d := d } (Mode.env { d := d }) []) = Mode.call { d := d } none [] from rfl, this, seqAll_emit]
    simp [W.seq, W.emit]
  -- the environment
  let env : Str → Option Arg := fun y => (pickRef FVal.key vals y).map (fun v => .val v.val)
  have hcons : ∀ i ∈ ps.map stepInstr, Consistent env i := by
    intro i hi
    obtain ⟨s, hs, rfl⟩ := List.mem_map.1 hi
    cases s with
    | text c => trivial
    | value v nm =>
      obtain ⟨hv, hpick⟩ := plan_mem _ _ _ _ _ hp v nm hs
      cases v with
      | plain a =>
        rcases hpick with h | h
        · exact Or.inl h
        · exact Or.inr (by simp [env, h, FVal.val])
      | named x a =>
        obtain ⟨hx, hnum⟩ := hg.nonempty x a hv
        refine ⟨hx, ?_⟩
        have hf : pickRef FVal.key vals x = some (.named x a) := by
          unfold pickRef
          rw [hnum]
          cases hfi : vals.reverse.find? (fun v => v.key = some x) with
          | none =>
            have := List.find?_eq_none.1 hfi (.named x a) (by simpa using hv)
            simp [FVal.key] at this
          | some u =>
            have h1 := List.find?_some hfi
            have h2 := List.mem_of_find?_eq_some hfi
            cases u with
            | plain b => simp [FVal.key] at h1
            | named y b =>
              simp [FVal.key] at h1; subst h1
              simp at h2
              obtain ⟨i, hi⟩ := List.mem_iff_getElem?.1 hv
              obtain ⟨j, hj⟩ := List.mem_iff_getElem?.1 h2
              have e := hg.unique i j y a b hi hj
              subst e; rw [hi] at hj; exact hj.symm
        simp [env, hf, FVal.val]
  have hr : r = toSQL d (.customQuery d (write ts) (vals.map FVal.node)) := rfl
  rw [hr]
  simp only [toSQL, hcode, exec_append, exec_cons, exec_nil, exec1]
  have hex := consistent_exec hd (ps.map stepInstr) {} hcons
    ⟨inRange_init, by simp, by simp [anonCount], by simp⟩
  have hsh := (sharing_exec hd (ps.map stepInstr) hcons).1
  refine ⟨trivial, ?_, ?_⟩
  · rw [hex.2]
    simp only [resolve, List.nil_append]
    clear hp hplan hcode hcons hex hsh hr r
    induction ps with
    | nil => rfl
    | cons p ps ih =>
      rw [List.map_cons, List.flatMap_cons, ih, List.map_cons]
      cases p with
      | text c => rfl
      | value v nm => cases v <;> rfl
  · rw [hsh]
    have hne : ∀ x a nm, Step.value (.named x a) nm ∈ ps → x ≠ [] :=
      fun x a nm hs => (hg.nonempty x a ((plan_mem _ _ _ _ _ hp _ nm hs).1)).1
    congr 1
    · rw [unnamed, List.countP_map]
      apply List.countP_congr
      intro s hs
      cases s with
      | text c => simp [stepInstr, Instr.isAnonBind]
      | value v nm =>
        cases v with
        | plain a => cases nm <;> simp [stepInstr, Instr.isAnonBind, Step.name]
        | named x a => simp [stepInstr, Instr.isAnonBind, Step.name, hne x a nm hs]
    · rw [sharedNames, List.filterMap_map]
      congr 2
      apply List.filterMap_congr
      intro s hs
      cases s with
      | text c => rfl
      | value v nm =>
        cases v with
        | plain a => rfl
        | named x a => simp [stepInstr, Instr.bindName, Step.name, hne x a nm hs]

/-- The hypotheses are met by `"{1}, {}, {id}, {1}, {id}"` with the values `10, Param("id", 20)`. -/
def Ex.tmpl : List TPart := [.ref "1", .text ',', .next, .text ',', .ref "id", .text ',', .ref "1", .text ',', .ref "id"]
def Ex.fvals : List FVal := [.plain (.int 10), .named "id" (.int 20)]

example : WellFormed Ex.tmpl ∧ GoodVals Ex.fvals ∧ (plan FVal.key Ex.fvals 0 Ex.tmpl).isSome = true ∧
    (toSQL .postgres (.customQuery .postgres (write Ex.tmpl) (Ex.fvals.map FVal.node))).query =
      "$1,$2,$3,$1,$3".toList ∧
    (toSQL .postgres (.customQuery .postgres (write Ex.tmpl) (Ex.fvals.map FVal.node))).args =
      [.val (.int 10), .val (.int 10), .val (.int 20)] := by
  refine ⟨?_, ⟨?_, ?_⟩, by decide +kernel, by decide +kernel, by decide +kernel⟩
  · intro nm h
    simp [Ex.tmpl] at h
    rcases h with rfl | rfl | rfl | rfl <;> (unfold RefName; decide)
  · intro x a h
    simp [Ex.fvals] at h
    obtain ⟨rfl, rfl⟩ := h
    decide
  · intro i j x a b hi hj
    have : ∀ k y c, Ex.fvals[k]? = some (.named y c) → k = 1 := by
      intro k y c hk
      match k, hk with
      | 0, hk => simp [Ex.fvals] at hk
      | 1, _ => rfl
      | k + 2, hk => simp [Ex.fvals] at hk
    rw [this i x a hi, this j x b hj]

end Sq
