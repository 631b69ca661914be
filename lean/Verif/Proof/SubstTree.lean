import Verif.Proof.Subst
namespace Sq
namespace Sub
variable (σ : Sub)

theorem argLike_alias (n : Node) (h : argLike n = true) : n.alias = [] ∧ n.name = [] := by
  cases n <;> simp_all [argLike, Node.kind, Kind.isAppender, Node.alias, Node.name]
  rename_i k _ _ _
  cases k <;> simp_all [ExtKind.kind]

theorem nodes_length (ns : List Node) : (σ.nodes ns).length = ns.length := by
  induction ns with
  | nil => simp [nodes]
  | cons n ns ih => simp [nodes, ih]

theorem node_kind : (n : Node) → (σ.node n).kind = σ.kind n.kind
  | .nil | .scalar _ | .slice _ _ | .namedArg _ _ | .field _ _ _ _ | .checkedField _ _ _ | .literal _ _ | .value _ _
  | .cpred _ _ _ _ | .predCases _ _ _ | .simpleCases _ _ _ _ | .window _ _ _ | .rowValue _ | .rowValues _
  | .assign _ _ | .assigns _ | .fields _ | .table _ _ _ _ _ | .customTable _ _ | .join _ _ _ | .cte _ _
  | .subquery _ _ _ | .vquery _ _ _ | .customQuery _ _ _ | .select _ _ _ _ _ _ _ _ _ _
  | .insert _ _ _ _ _ _ _ _ _ _ _ _ | .update _ _ _ _ _ _ _ _ _ _ | .delete _ _ _ _ _ _ _ _ => by
    simp [node, Node.kind, kind]
  | .ext k _ _ _ => by simp [node, Node.kind]; cases k <;> rfl
  | .param n v => by
    simp only [node]
    split
    · cases σ.par n <;> simp [Node.kind, kind]
    · simp [Node.kind, kind]
  | .vpred _ _ _ _ ps => by
    simp [node, Node.kind, kind, nodes_length σ ps]

theorem node_alias_name : (n : Node) → (σ.node n).alias = n.alias ∧ (σ.node n).name = n.name
  | .nil | .scalar _ | .slice _ _ | .namedArg _ _ | .field _ _ _ _ | .checkedField _ _ _ | .literal _ _
  | .cpred _ _ _ _ | .predCases _ _ _ | .simpleCases _ _ _ _ | .window _ _ _ | .rowValue _ | .rowValues _
  | .assign _ _ | .assigns _ | .fields _ | .table _ _ _ _ _ | .customTable _ _ | .join _ _ _ | .cte _ _
  | .subquery _ _ _ | .vquery _ _ _ | .customQuery _ _ _ | .select _ _ _ _ _ _ _ _ _ _ | .ext _ _ _ _
  | .insert _ _ _ _ _ _ _ _ _ _ _ _ | .update _ _ _ _ _ _ _ _ _ _ | .delete _ _ _ _ _ _ _ _
  | .vpred _ _ _ _ _ => by
    simp [node, Node.alias, Node.name]
  | .value v a => by
    have := node_alias_name v
    simp [node, Node.alias, Node.name, this]
  | .param n v => by
    have ih := node_alias_name v
    simp only [node]
    split
    · rename_i h
      have := argLike_alias v h
      cases σ.par n <;> simp [Node.alias, Node.name, ih, this]
    · simp [Node.alias, Node.name, ih]

theorem node_key : (n : Node) → (σ.node n).key = n.key
  | .param n v => by
    simp only [node]
    split
    · cases σ.par n <;> rfl
    · rfl
  | .nil | .scalar _ | .slice _ _ | .namedArg _ _ | .field _ _ _ _ | .checkedField _ _ _ | .literal _ _ | .value _ _
  | .cpred _ _ _ _ | .predCases _ _ _ | .simpleCases _ _ _ _ | .window _ _ _ | .rowValue _ | .rowValues _
  | .assign _ _ | .assigns _ | .fields _ | .table _ _ _ _ _ | .customTable _ _ | .join _ _ _ | .cte _ _
  | .subquery _ _ _ | .vquery _ _ _ | .customQuery _ _ _ | .select _ _ _ _ _ _ _ _ _ _ | .ext _ _ _ _
  | .insert _ _ _ _ _ _ _ _ _ _ _ _ | .update _ _ _ _ _ _ _ _ _ _ | .delete _ _ _ _ _ _ _ _
  | .vpred _ _ _ _ _ => by
    simp [node, Node.key]

theorem param_argLike (m : Mode) (n : Str) (v : Obj) (h : v.kind.isAppender = false) (h2 : ∀ i, v.kind ≠ .slice i) :
    paramAppend m n v = if n = [] then .fail "Param name cannot be empty" else .emit (.param n v.kind.toArg) := by
  unfold paramAppend
  split
  · rfl
  · rw [h]
    split
    · rename_i hf; exact absurd hf (by decide)
    · split
      · rename_i hk; exact absurd hk (h2 _)
      · rfl

theorem argLike_iff (n : Node) : argLike n = true ↔ n.kind.isAppender = false ∧ ∀ i, n.kind ≠ .slice i := by
  unfold argLike
  cases n.kind <;> simp [Kind.isAppender]

theorem not_argLike (n : Node) (h : ¬ argLike n = true) : n.kind.isAppender = true ∨ ∃ i, n.kind = .slice i := by
  rw [argLike_iff] at h
  by_cases h1 : n.kind.isAppender = true
  · exact Or.inl h1
  · right
    refine Classical.byContradiction fun h2 => h ⟨by simpa using h1, fun i hi => h2 ⟨i, hi⟩⟩

/-- Rendering and hooks of the changed tree. -/
def Comm (n : Node) : Prop :=
  (∀ m pn, ren (σ.node n) m pn = σ.w (ren n m pn)) ∧ (∀ env, hookOf (σ.node n) env = σ.hook (hookOf n env))

variable {σ}
theorem Comm.pv {n : Node} (h : σ.Comm n) : mkPV (σ.node n) (ren (σ.node n)) (hookOf (σ.node n)) =
    σ.pv (mkPV n (ren n) (hookOf n)) := by
  have h1 := node_kind σ n
  have h2 := node_alias_name σ n
  have h3 := node_key σ n
  have h4 : ren (σ.node n) = fun m pn => σ.w (ren n m pn) := by funext m pn; exact h.1 m pn
  have h5 : hookOf (σ.node n) = fun env => σ.hook (hookOf n env) := by funext env; exact h.2 env
  simp only [mkPV, Sub.pv, Sub.obj, h1, h2.1, h2.2, h3, h4, h5]

theorem objs_comm {ns : List Node} (h : ∀ n ∈ ns, σ.Comm n) : objs (σ.nodes ns) = (objs ns).map σ.pv := by
  induction ns with
  | nil => simp [nodes, objs]
  | cons n ns ih =>
    simp only [nodes, objs, List.map_cons]
    rw [(h n (by simp)).pv, ih (fun x hx => h x (List.mem_cons_of_mem _ hx))]

theorem objs_comm' {ns : List Node} (h : ∀ n ∈ ns, σ.Comm n) :
    (objs (σ.nodes ns)).map PV.toObj = ((objs ns).map PV.toObj).map σ.obj := by
  rw [objs_comm h]; simp [Function.comp_def]

theorem objss_comm {rs : List (List Node)} (h : ∀ r ∈ rs, ∀ n ∈ r, σ.Comm n) :
    objss (σ.nodess rs) = (objss rs).map (List.map σ.obj) := by
  induction rs with
  | nil => simp [nodess, objss]
  | cons r rs ih =>
    simp only [nodess, objss, List.map_cons]
    rw [objs_comm' (h r (by simp)), ih (fun x hx => h x (List.mem_cons_of_mem _ hx))]

theorem pairs_comm {ps : List (Node × Node)} (h : ∀ p ∈ ps, σ.Comm p.1 ∧ σ.Comm p.2) :
    pairs (σ.pairsN ps) = (pairs ps).map σ.pair := by
  induction ps with
  | nil => simp [pairsN, pairs]
  | cons p ps ih =>
    obtain ⟨a, b⟩ := p
    have hab := h (a, b) (by simp)
    simp only [pairsN, pairs, List.map_cons]
    rw [hab.1.pv, hab.2.pv, ih (fun x hx => h x (List.mem_cons_of_mem _ hx))]
    rfl

variable (σ)

mutual
theorem comm : (n : Node) → σ.Comm n
  | .nil => ⟨fun m pn => by simp only [node, ren, w_emit, instr, arg, σ.nil_eq], fun env => by simp [node, hookOf, hook]⟩
  | .scalar a => ⟨fun m pn => by simp only [node, ren, w_emit, instr, arg], fun env => by simp [node, hookOf, hook]⟩
  | .slice id xs => by
    have i := comms xs
    exact ⟨fun m pn => by simp only [node, ren]; rw [objs_comm' i, explodeSlice_sub], fun env => by simp [node, hookOf, hook]⟩
  | .namedArg n v =>
    ⟨fun m pn => by simp only [node, ren, namedArgAppend, w_ite, w_fail, w_emit, instr], fun env => by simp [node, hookOf, hook]⟩
  | .param n v => by
    have i := comm v
    refine ⟨fun m pn => ?_, fun env => ?_⟩
    · simp only [node]
      by_cases ha : argLike v = true
      · rw [if_pos ha]
        cases hp : σ.par n with
        | none =>
          simp only [ren]
          rw [i.pv, pv_toObj, param_sub σ m n _ (Or.inr (Or.inr hp))]
        | some a =>
          simp only [ren]
          have ha := (argLike_iff v).1 ha
          rw [param_argLike m n (mkPV (.scalar a) _ _).toObj rfl (fun i hi => Kind.noConfusion hi),
            param_argLike m n (mkPV v _ _).toObj ha.1 ha.2]
          simp only [w_ite, w_fail, w_emit, instr, hp]
          rfl
      · rw [if_neg ha]
        simp only [ren]
        rw [i.pv, pv_toObj, param_sub]
        rcases not_argLike v ha with h | h
        · exact Or.inl h
        · exact Or.inr (Or.inl h)
    · simp only [node]
      split
      · cases σ.par n <;> simp [hookOf, hook]
      · simp [hookOf, hook]
  | .field fi raw neg vals => by
    have i := comms vals
    exact ⟨fun m pn => by simp only [node, ren, w_seq, w_when, w_wr]; rw [objs_comm' i, fieldInfo_sub],
      fun env => by simp [node, hookOf, hook]⟩
  | .checkedField s av fi => ⟨fun m pn => by simp only [node, ren]; exact checkedField_sub σ _ _ _ _, fun env => by simp [node, hookOf, hook]⟩
  | .literal s a => ⟨fun m pn => by simp only [node, ren, w_wr], fun env => by simp [node, hookOf, hook]⟩
  | .value v a => by
    have i := comm v
    exact ⟨fun m pn => by simp only [node, ren]; exact i.1 _ _, fun env => by simp [node, hookOf, hook]⟩
  | .cpred a f ng vals => by
    have i := comms vals
    exact ⟨fun m pn => by simp only [node, ren]; rw [objs_comm' i, customPred_sub], fun env => by simp [node, hookOf, hook]⟩
  | .vpred t a o ng ps => by
    have i := comms ps
    refine ⟨fun m pn => ?_, fun env => by simp [node, hookOf, hook]⟩
    simp only [node, ren, nodes_length, w_ite]
    rw [objs_comm' i, variadic_sub]
    have : [truePred].map σ.obj = [truePred] := by
      simp only [List.map_cons, List.map_nil, List.cons.injEq, and_true]
      simp only [truePred, obj, kind, Obj.mk.injEq, true_and]
      funext m pn
      exact (customPred_sub σ m.std false _ []).symm
    rw [← variadic_sub σ m true o ng [truePred], this]
  | .predCases a cs fb => by
    have i1 := commPs cs
    have i2 := comm fb
    exact ⟨fun m pn => by simp only [node, ren]; rw [pairs_comm i1, i2.pv, pv_toObj, predCases_sub], fun env => by simp [node, hookOf, hook]⟩
  | .simpleCases a e cs fb => by
    have i0 := comm e
    have i1 := commPs cs
    have i2 := comm fb
    exact ⟨fun m pn => by simp only [node, ren]; rw [pairs_comm i1, i2.pv, i0.pv, pv_toObj, pv_toObj, simpleCases_sub],
      fun env => by simp [node, hookOf, hook]⟩
  | .window part order frame => by
    have i1 := comms part
    have i2 := comms order
    exact ⟨fun m pn => by simp only [node, ren]; rw [objs_comm' i1, objs_comm' i2, window_sub], fun env => by simp [node, hookOf, hook]⟩
  | .rowValue vs => by
    have i := comms vs
    exact ⟨fun m pn => by simp only [node, ren]; rw [objs_comm' i, rowValue_sub], fun env => by simp [node, hookOf, hook]⟩
  | .rowValues rows => by
    have i := commss rows
    exact ⟨fun m pn => by simp only [node, ren]; rw [objss_comm i, rowValues_sub], fun env => by simp [node, hookOf, hook]⟩
  | .assign l r => by
    have i1 := comm l
    have i2 := comm r
    exact ⟨fun m pn => by simp only [node, ren]; rw [i1.pv, i2.pv, pv_toObj, pv_toObj, assign_sub], fun env => by simp [node, hookOf, hook]⟩
  | .assigns as => by
    have i := commPs as
    exact ⟨fun m pn => by simp only [node, ren]; rw [pairs_comm i, assigns_sub], fun env => by simp [node, hookOf, hook]⟩
  | .fields fs => by
    have i := comms fs
    exact ⟨fun m pn => by simp only [node, ren]; rw [objs_comm' i, fields_sub], fun env => by simp [node, hookOf, hook]⟩
  | .table s n a hk hp => by
    have i : ∀ env, σ.Comm (hp env) := fun env => comm (hp env)
    refine ⟨fun m pn => by simp only [node, ren, tableAppend, w_wr], fun env => ?_⟩
    simp only [node, hookOf]
    cases hk env with
    | none => rfl
    | err e => rfl
    | pred =>
      simp only [hook, obj]
      have h1 := node_kind σ (hp env)
      have h2 := node_alias_name σ (hp env)
      have h3 := node_key σ (hp env)
      have h4 : ren (σ.node (hp env)) = fun m pn => σ.w (ren (hp env) m pn) := by funext m pn; exact (i env).1 m pn
      simp only [h1, h2.1, h2.2, h3, h4]
  | .customTable f vals => by
    have i := comms vals
    exact ⟨fun m pn => by simp only [node, ren]; rw [objs_comm' i, bprintf_sub], fun env => by simp [node, hookOf, hook]⟩
  | .join jt t o => by
    have i1 := comm t
    have i2 := comm o
    exact ⟨fun m pn => by simp only [node, ren]; rw [i1.pv, i2.pv, pv_toObj, pv_toObj, join_sub],
      fun env => by simp only [node, hookOf]; exact i1.2 env⟩
  | .cte c q => by
    have i := comm q
    exact ⟨fun m pn => by simp only [node, ren, w_ite]; rw [i.pv, pv_toObj, cteDef_sub, cteRef_sub], fun env => by simp [node, hookOf, hook]⟩
  | .subquery st a q => by
    have i := comm q
    exact ⟨fun m pn => by simp only [node, ren]; rw [i.pv, pv_toObj, subquery_sub], fun env => by simp [node, hookOf, hook]⟩
  | .vquery t o qs => by
    have i := comms qs
    exact ⟨fun m pn => by simp only [node, ren]; rw [objs_comm' i, variadicQuery_sub], fun env => by simp [node, hookOf, hook]⟩
  | .customQuery dd f vals => by
    have i := comms vals
    exact ⟨fun m pn => by simp only [node, ren]; rw [objs_comm' i, bprintf_sub], fun env => by simp [node, hookOf, hook]⟩
  | .select q ctes fs don fr js wh gb hv ob => by
    have i1 := comms ctes
    have i2 := comms fs
    have i3 := comms don
    have i4 := comm fr
    have i5 := comms js
    have i6 := comm wh
    have i7 := comms gb
    have i8 := comm hv
    have i9 := comms ob
    refine ⟨fun m pn => ?_, fun env => by simp [node, hookOf, hook]⟩
    simp only [node, ren]
    rw [objs_comm' i1, objs_comm' i2, objs_comm' i3, i4.pv, objs_comm i5, i6.pv, objs_comm' i7, i8.pv, objs_comm' i9,
      pv_toObj, pv_toObj, select_sub]
  | .insert q ctes into cols rows sets sel cf cp res rp ret => by
    have i1 := comms ctes
    have i2 := comm into
    have i3 := comms cols
    have i4 := commss rows
    have i5 := commPs sets
    have i6 := comm sel
    have i7 := comms cf
    have i8 := comm cp
    have i9 := commPs res
    have i10 := comm rp
    have i11 := comms ret
    refine ⟨fun m pn => ?_, fun env => by simp [node, hookOf, hook]⟩
    simp only [node, ren]
    rw [objs_comm' i1, i2.pv, objs_comm' i3, objss_comm i4, pairs_comm i5, i6.pv, objs_comm' i7, i8.pv, pairs_comm i9,
      i10.pv, objs_comm' i11, pv_toObj, pv_toObj, pv_toObj, pv_toObj, insert_sub]
  | .update q ctes tb fr js as sets wh ob ret => by
    have i1 := comms ctes
    have i2 := comm tb
    have i3 := comm fr
    have i4 := comms js
    have i5 := commPs as
    have i6 := commPs sets
    have i7 := comm wh
    have i8 := comms ob
    have i9 := comms ret
    refine ⟨fun m pn => ?_, fun env => by simp [node, hookOf, hook]⟩
    simp only [node, ren]
    rw [objs_comm' i1, i2.pv, i3.pv, objs_comm i4, pairs_comm i5, pairs_comm i6, i7.pv, objs_comm' i8, objs_comm' i9,
      pv_toObj, update_sub]
  | .delete q ctes frs us js wh ob ret => by
    have i1 := comms ctes
    have i2 := comms frs
    have i3 := comm us
    have i4 := comms js
    have i5 := comm wh
    have i6 := comms ob
    have i7 := comms ret
    refine ⟨fun m pn => ?_, fun env => by simp [node, hookOf, hook]⟩
    simp only [node, ren]
    rw [objs_comm' i1, objs_comm i2, i3.pv, objs_comm' i4, i5.pv, objs_comm' i6, objs_comm' i7, pv_toObj, pv_toObj,
      delete_sub]
  | .ext k a n act => ⟨fun m pn => by simp only [node, ren], fun env => by simp [node, hookOf, hook]⟩

theorem comms : (ns : List Node) → ∀ n ∈ ns, σ.Comm n
  | [] => by intro n hn; simp at hn
  | n :: ns => by
    have i1 := comm n
    have i2 := comms ns
    intro x hx
    rcases List.mem_cons.1 hx with rfl | hx
    · exact i1
    · exact i2 x hx

theorem commss : (rs : List (List Node)) → ∀ r ∈ rs, ∀ n ∈ r, σ.Comm n
  | [] => by intro n hn; simp at hn
  | r :: rs => by
    have i1 := comms r
    have i2 := commss rs
    intro x hx
    rcases List.mem_cons.1 hx with rfl | hx
    · exact i1
    · exact i2 x hx

theorem commPs : (ps : List (Node × Node)) → ∀ p ∈ ps, σ.Comm p.1 ∧ σ.Comm p.2
  | [] => by intro n hn; simp at hn
  | (a, b) :: ps => by
    have i1 := comm a
    have i2 := comm b
    have i3 := commPs ps
    intro x hx
    rcases List.mem_cons.1 hx with rfl | hx
    · exact ⟨i1, i2⟩
    · exact i3 x hx
end

/-- Rendering commutes with changing values. -/
theorem ren_node (n : Node) (m : Mode) (pn : Str) : ren (σ.node n) m pn = σ.w (ren n m pn) := (comm σ n).1 m pn

end Sub
end Sq
