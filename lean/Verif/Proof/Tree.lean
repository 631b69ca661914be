import Verif.Proof.Closure
/-
Hereditary conditions on nodes and the induction theorem over nodes.
-/
namespace Sq

mutual
/-- `p` holds of the node and of everything it contains, including the predicates its tables may inject. -/
def Node.All (p : Node → Prop) : Node → Prop
  | .nil => p .nil
  | .scalar a => p (.scalar a)
  | .slice id xs => p (.slice id xs) ∧ AllL p xs
  | .namedArg n v => p (.namedArg n v)
  | .param n v => p (.param n v) ∧ v.All p
  | .field fi raw neg vals => p (.field fi raw neg vals) ∧ AllL p vals
  | .checkedField s a fi => p (.checkedField s a fi)
  | .literal s a => p (.literal s a)
  | .value v a => p (.value v a) ∧ v.All p
  | .cpred a f ng vals => p (.cpred a f ng vals) ∧ AllL p vals
  | .vpred t a o ng ps => p (.vpred t a o ng ps) ∧ AllL p ps
  | .predCases a cs fb => p (.predCases a cs fb) ∧ AllP p cs ∧ fb.All p
  | .simpleCases a e cs fb => p (.simpleCases a e cs fb) ∧ e.All p ∧ AllP p cs ∧ fb.All p
  | .window part order frame => p (.window part order frame) ∧ AllL p part ∧ AllL p order
  | .rowValue vs => p (.rowValue vs) ∧ AllL p vs
  | .rowValues rows => p (.rowValues rows) ∧ AllLL p rows
  | .assign l r => p (.assign l r) ∧ l.All p ∧ r.All p
  | .assigns as => p (.assigns as) ∧ AllP p as
  | .fields fs => p (.fields fs) ∧ AllL p fs
  | .table s n a hk hp => p (.table s n a hk hp) ∧ ∀ env, (hp env).All p
  | .customTable f vals => p (.customTable f vals) ∧ AllL p vals
  | .join jt t o => p (.join jt t o) ∧ t.All p ∧ o.All p
  | .cte c q => p (.cte c q) ∧ q.All p
  | .subquery st a q => p (.subquery st a q) ∧ q.All p
  | .vquery t o qs => p (.vquery t o qs) ∧ AllL p qs
  | .customQuery dd f vals => p (.customQuery dd f vals) ∧ AllL p vals
  | .select q ctes fs don fr js wh gb hv ob =>
    p (.select q ctes fs don fr js wh gb hv ob) ∧ AllL p ctes ∧ AllL p fs ∧ AllL p don ∧ fr.All p ∧ AllL p js ∧
      wh.All p ∧ AllL p gb ∧ hv.All p ∧ AllL p ob
  | .insert q ctes into cols rows sets sel cf cp res rp ret =>
    p (.insert q ctes into cols rows sets sel cf cp res rp ret) ∧ AllL p ctes ∧ into.All p ∧ AllL p cols ∧
      AllLL p rows ∧ AllP p sets ∧ sel.All p ∧ AllL p cf ∧ cp.All p ∧ AllP p res ∧ rp.All p ∧ AllL p ret
  | .update q ctes tb fr js as sets wh ob ret =>
    p (.update q ctes tb fr js as sets wh ob ret) ∧ AllL p ctes ∧ tb.All p ∧ fr.All p ∧ AllL p js ∧ AllP p as ∧
      AllP p sets ∧ wh.All p ∧ AllL p ob ∧ AllL p ret
  | .delete q ctes frs us js wh ob ret =>
    p (.delete q ctes frs us js wh ob ret) ∧ AllL p ctes ∧ AllL p frs ∧ us.All p ∧ AllL p js ∧ wh.All p ∧
      AllL p ob ∧ AllL p ret
  | .ext k a n act => p (.ext k a n act)

def AllL (p : Node → Prop) : List Node → Prop
  | [] => True
  | n :: ns => n.All p ∧ AllL p ns

def AllLL (p : Node → Prop) : List (List Node) → Prop
  | [] => True
  | r :: rs => AllL p r ∧ AllLL p rs

def AllP (p : Node → Prop) : List (Node × Node) → Prop
  | [] => True
  | (a, b) :: ps => a.All p ∧ b.All p ∧ AllP p ps
end

/-- The condition at one node under which its own (non-recursive) effects satisfy `P`. -/
def NodeOk (P : W → Prop) (d : Dialect) (N : Str → Prop) : Node → Prop
  | .namedArg n v => ∀ m : Mode, m.d = d → P (namedArgAppend m n v)
  | .param n _ => ∀ a, P (.emit (.param n a))
  | .field fi _ _ _ => ∀ p ∈ fi.formats, FmtOk P N p.2
  | .checkedField _ _ fi => ∀ p ∈ fi.formats, FmtOk P N p.2
  | .cpred _ fmt _ _ => FmtOk P N fmt
  | .customTable fmt _ => FmtOk P N fmt
  | .customQuery _ fmt _ => FmtOk P N fmt
  | .window _ _ _ => ∀ a, P a → P a.ignoreErr
  | .insert q _ _ _ _ sets _ _ _ _ _ _ => q.hasMapper = true → ∀ p ∈ sets, p.1 = .nil → P .panic
  | .update q _ _ _ _ _ sets _ _ _ => q.hasMapper = true → ∀ p ∈ sets, p.1 = .nil → P .panic
  | .delete _ _ froms _ _ _ _ _ => ∀ t ∈ froms, t = .nil → P .panic
  | .ext _ _ _ act => ∀ m, m.d = d → P (act m)
  | _ => True

section
variable {P : W → Prop} {d : Dialect} {N : Str → Prop}

theorem objs_eq (ns : List Node) : objs ns = ns.map obj := by
  induction ns with
  | nil => simp [objs]
  | cons n ns ih => simp [objs, ih, obj]

theorem pairs_eq (ps : List (Node × Node)) : pairs ps = ps.map (fun p => ((obj p.1).toObj, (obj p.2).toObj)) := by
  induction ps with
  | nil => simp [pairs]
  | cons p ps ih => obtain ⟨a, b⟩ := p; simp [pairs, ih, obj]

theorem objss_eq (rs : List (List Node)) : objss rs = rs.map (fun r => r.map (fun n => (obj n).toObj)) := by
  induction rs with
  | nil => simp [objss]
  | cons r rs ih => simp [objss, ih, objs_eq]

theorem Node.kind_isNil (n : Node) : n.kind.isNil = true ↔ n = .nil := by
  cases n <;> simp [Node.kind, Kind.isNil]
  rename_i k _ _ _
  cases k <;> simp [ExtKind.kind]

/-- The interface value of the node is good, and so are the predicates it may inject. -/
def GoodNode (P : W → Prop) (d : Dialect) (N : Str → Prop) (n : Node) : Prop :=
  Good P d N (obj n).toObj ∧ GoodHook P d N (obj n).hook

def GoodNodes (P : W → Prop) (d : Dialect) (N : Str → Prop) (ns : List Node) : Prop := ∀ n ∈ ns, GoodNode P d N n

theorem GoodNodes.objs {ns : List Node} (h : GoodNodes P d N ns) :
    ∀ o ∈ (Sq.objs ns).map PV.toObj, Good P d N o := by
  intro o ho
  simp [objs_eq] at ho
  obtain ⟨n, hn, rfl⟩ := ho
  exact (h n hn).1

theorem GoodNodes.pvs {ns : List Node} (h : GoodNodes P d N ns) :
    ∀ t ∈ Sq.objs ns, Good P d N t.toObj ∧ GoodHook P d N t.hook := by
  intro o ho
  simp [objs_eq] at ho
  obtain ⟨n, hn, rfl⟩ := ho
  exact h n hn

theorem goodPairs {ps : List (Node × Node)} (h : ∀ p ∈ ps, GoodNode P d N p.1 ∧ GoodNode P d N p.2) :
    ∀ p ∈ pairs ps, Good P d N p.1 ∧ Good P d N p.2 := by
  intro o ho
  simp only [pairs_eq, List.mem_map] at ho
  obtain ⟨p, hp, rfl⟩ := ho
  exact ⟨(h p hp).1.1, (h p hp).2.1⟩

theorem goodRows {rs : List (List Node)} (h : ∀ r ∈ rs, GoodNodes P d N r) :
    ∀ r ∈ objss rs, ∀ o ∈ r, Good P d N o := by
  intro r hr o ho
  simp only [objss_eq, List.mem_map] at hr
  obtain ⟨r', hr', rfl⟩ := hr
  obtain ⟨n, hn, rfl⟩ := List.mem_map.1 ho
  exact (h r' hr' n hn).1

theorem pairs_nil_panic {ps : List (Node × Node)} (h : ∀ p ∈ ps, p.1 = .nil → P .panic) :
    ∀ p ∈ pairs ps, p.1.kind.isNil = true → P .panic := by
  intro o ho hn
  simp only [pairs_eq, List.mem_map] at ho
  obtain ⟨p, hp, rfl⟩ := ho
  exact h p hp ((Node.kind_isNil _).1 hn)

theorem goodHook_none : GoodHook P d N (fun _ => HookRes.none) := by
  intro env o h; cases h

theorem truePred_good (C : Sites P d N) : Good P d N truePred := by
  intro m pn hm hp
  refine customPred_closed C m.std (by exact hm) false _ [] (by intro o ho; cases ho) ?_
  intro s hs
  have hp : parseFmt none "TRUE".toList = [.lit 'T', .lit 'R', .lit 'U', .lit 'E'] := by decide
  rw [hp] at hs; simp at hs
  rcases hs with rfl | rfl | rfl | rfl <;> trivial

theorem param_closed (C : Sites P d N) (m : Mode) (hm : m.d = d) (n : Str) (v : Obj) (hv : Good P d N v)
    (h : ∀ a, P (.emit (.param n a))) : P (paramAppend m n v) := by
  unfold paramAppend
  split
  · exact C.fail _
  split
  · exact hv _ _ hm (fun _ => C.nilName)
  · split
    · exact hv _ _ hm (fun _ => C.nilName)
    · exact h _

mutual
theorem goodNode (C : Sites P d N) : (n : Node) → n.All (NodeOk P d N) → GoodNode P d N n
  | .nil, h => ⟨fun m pn hm hp => by simpa [obj, mkPV, ren] using C.bind _ _ (hp rfl), by simpa [obj, mkPV, hookOf] using goodHook_none⟩
  | .scalar a, h => ⟨fun m pn hm hp => by simpa [obj, mkPV, ren] using C.bind _ _ (hp rfl), by simpa [obj, mkPV, hookOf] using goodHook_none⟩
  | .slice id xs, h => by
    simp only [Node.All] at h
    have i := goodNodes C xs h.2
    exact ⟨fun m pn hm hp => by simpa [obj, mkPV, ren] using explodeSlice_closed C m hm _ i.objs, by simpa [obj, mkPV, hookOf] using goodHook_none⟩
  | .namedArg n v, h => by
    simp only [Node.All, NodeOk] at h
    exact ⟨fun m pn hm hp => by simpa [obj, mkPV, ren] using h m hm, by simpa [obj, mkPV, hookOf] using goodHook_none⟩
  | .param n v, h => by
    simp only [Node.All, NodeOk] at h
    have i := goodNode C v h.2
    refine ⟨fun m pn hm hp => ?_, by simpa [obj, mkPV, hookOf] using goodHook_none⟩
    simp only [obj, mkPV, ren]
    exact param_closed C m hm n _ i.1 h.1
  | .field fi raw neg vals, h => by
    simp only [Node.All, NodeOk] at h
    have i := goodNodes C vals h.2
    refine ⟨fun m pn hm hp => ?_, by simpa [obj, mkPV, hookOf] using goodHook_none⟩
    simp only [obj, mkPV, ren]
    refine C.seq _ _ (C.when _ (C.wr _)) (fieldInfoAppend_closed C _ ?_ _ _ i.objs h.1)
    split <;> exact hm
  | .checkedField sub avail fi, h => by
    simp only [Node.All, NodeOk] at h
    refine ⟨fun m pn hm hp => ?_, by simpa [obj, mkPV, hookOf] using goodHook_none⟩
    simp only [obj, mkPV, ren, checkedFieldAppend]
    split
    · exact C.fail _
    split
    · exact C.fail _
    exact fieldInfoAppend_closed C _ (by exact hm) _ _ (by simp) h
  | .literal s a, h => ⟨fun m pn hm hp => by simpa [obj, mkPV, ren] using C.wr _, by simpa [obj, mkPV, hookOf] using goodHook_none⟩
  | .value v a, h => by
    simp only [Node.All, NodeOk] at h
    have i := goodNode C v h.2
    refine ⟨fun m pn hm hp => ?_, by simpa [obj, mkPV, hookOf] using goodHook_none⟩
    simp only [obj, mkPV, ren]
    exact i.1 _ _ hm (fun _ => C.nilName)
  | .cpred a fmt neg vals, h => by
    simp only [Node.All, NodeOk] at h
    have i := goodNodes C vals h.2
    refine ⟨fun m pn hm hp => ?_, by simpa [obj, mkPV, hookOf] using goodHook_none⟩
    simp only [obj, mkPV, ren]
    exact customPred_closed C _ (by exact hm) _ _ _ i.objs h.1
  | .vpred top a isOr neg ps, h => by
    simp only [Node.All, NodeOk] at h
    have i := goodNodes C ps h.2
    refine ⟨fun m pn hm hp => ?_, by simpa [obj, mkPV, hookOf] using goodHook_none⟩
    simp only [obj, mkPV, ren]
    split
    · refine variadicAppend_closed C _ hm _ _ _ _ ?_
      intro o ho; simp at ho; subst ho; exact truePred_good C
    · exact variadicAppend_closed C _ hm _ _ _ _ i.objs
  | .predCases a cs fb, h => by
    simp only [Node.All, NodeOk] at h
    have i1 := goodPairsN C cs h.2.1
    have i2 := goodNode C fb h.2.2
    refine ⟨fun m pn hm hp => ?_, by simpa [obj, mkPV, hookOf] using goodHook_none⟩
    simp only [obj, mkPV, ren]
    exact predCases_closed C _ (by exact hm) _ _ (goodPairs i1) i2.1
  | .simpleCases a e cs fb, h => by
    simp only [Node.All, NodeOk] at h
    have i0 := goodNode C e h.2.1
    have i1 := goodPairsN C cs h.2.2.1
    have i2 := goodNode C fb h.2.2.2
    refine ⟨fun m pn hm hp => ?_, by simpa [obj, mkPV, hookOf] using goodHook_none⟩
    simp only [obj, mkPV, ren]
    exact simpleCases_closed C _ (by exact hm) _ _ _ i0.1 (goodPairs i1) i2.1
  | .window part order frame, h => by
    simp only [Node.All, NodeOk] at h
    have i1 := goodNodes C part h.2.1
    have i2 := goodNodes C order h.2.2
    refine ⟨fun m pn hm hp => ?_, by simpa [obj, mkPV, hookOf] using goodHook_none⟩
    simp only [obj, mkPV, ren]
    exact window_closed C _ (by exact hm) _ _ _ h.1 i1.objs i2.objs
  | .rowValue vs, h => by
    simp only [Node.All, NodeOk] at h
    have i := goodNodes C vs h.2
    refine ⟨fun m pn hm hp => ?_, by simpa [obj, mkPV, hookOf] using goodHook_none⟩
    simp only [obj, mkPV, ren]
    exact rowValue_closed C _ (by exact hm) _ i.objs
  | .rowValues rows, h => by
    simp only [Node.All, NodeOk] at h
    have i := goodNodess C rows h.2
    refine ⟨fun m pn hm hp => ?_, by simpa [obj, mkPV, hookOf] using goodHook_none⟩
    simp only [obj, mkPV, ren]
    exact rowValues_closed C _ (by exact hm) _ (goodRows i)
  | .assign l r, h => by
    simp only [Node.All, NodeOk] at h
    have i1 := goodNode C l h.2.1
    have i2 := goodNode C r h.2.2
    refine ⟨fun m pn hm hp => ?_, by simpa [obj, mkPV, hookOf] using goodHook_none⟩
    simp only [obj, mkPV, ren]
    exact assign_closed C _ (by exact hm) _ _ i1.1 i2.1
  | .assigns as, h => by
    simp only [Node.All, NodeOk] at h
    have i := goodPairsN C as h.2
    refine ⟨fun m pn hm hp => ?_, by simpa [obj, mkPV, hookOf] using goodHook_none⟩
    simp only [obj, mkPV, ren]
    exact assigns_closed C _ (by exact hm) _ (goodPairs i)
  | .fields fs, h => by
    simp only [Node.All, NodeOk] at h
    have i := goodNodes C fs h.2
    refine ⟨fun m pn hm hp => ?_, by simpa [obj, mkPV, hookOf] using goodHook_none⟩
    simp only [obj, mkPV, ren]
    exact fieldsAppend_closed C _ (by exact hm) _ i.objs
  | .table s n a hk hp, h => by
    simp only [Node.All, NodeOk] at h
    have i : ∀ env, GoodNode P d N (hp env) := fun env => goodNode C (hp env) (h.2 env)
    refine ⟨fun m pn hm hp => ?_, ?_⟩
    · simp only [obj, mkPV, ren]
      exact C.wr _
    · intro env o ho
      simp only [obj, mkPV, hookOf] at ho
      split at ho
      · simp at ho
      · simp at ho
      · simp at ho; subst ho
        exact (i env).1
  | .customTable fmt vals, h => by
    simp only [Node.All, NodeOk] at h
    have i := goodNodes C vals h.2
    refine ⟨fun m pn hm hp => ?_, by simpa [obj, mkPV, hookOf] using goodHook_none⟩
    simp only [obj, mkPV, ren]
    exact bprintf_closed C.toClosed _ (by exact hm) _ _ i.objs h.1
  | .join jt t o, h => by
    simp only [Node.All, NodeOk] at h
    have i1 := goodNode C t h.2.1
    have i2 := goodNode C o h.2.2
    refine ⟨fun m pn hm hp => ?_, ?_⟩
    · simp only [obj, mkPV, ren]
      exact join_closed C _ (by exact hm) _ _ _ i1.1 i2.1
    · intro env o ho
      simp only [obj, mkPV, hookOf] at ho
      exact i1.2 env o ho
  | .cte c q, h => by
    simp only [Node.All, NodeOk] at h
    have i := goodNode C q h.2
    refine ⟨fun m pn hm hp => ?_, by simpa [obj, mkPV, hookOf] using goodHook_none⟩
    simp only [obj, mkPV, ren]
    split
    · exact cteDef_closed C _ (by exact hm) _ _ i.1
    · exact cteRef_closed C.toClosed _
  | .subquery st a q, h => by
    simp only [Node.All, NodeOk] at h
    have i := goodNode C q h.2
    refine ⟨fun m pn hm hp => ?_, by simpa [obj, mkPV, hookOf] using goodHook_none⟩
    simp only [obj, mkPV, ren]
    exact subquery_closed C _ (by exact hm) _ _ _ i.1
  | .vquery t o qs, h => by
    simp only [Node.All, NodeOk] at h
    have i := goodNodes C qs h.2
    refine ⟨fun m pn hm hp => ?_, by simpa [obj, mkPV, hookOf] using goodHook_none⟩
    simp only [obj, mkPV, ren]
    exact variadicQuery_closed C _ (by exact hm) _ _ _ i.objs
  | .customQuery dd fmt vals, h => by
    simp only [Node.All, NodeOk] at h
    have i := goodNodes C vals h.2
    refine ⟨fun m pn hm hp => ?_, by simpa [obj, mkPV, hookOf] using goodHook_none⟩
    simp only [obj, mkPV, ren]
    exact bprintf_closed C.toClosed _ (by exact hm) _ _ i.objs h.1
  | .select q ctes fs don fr js wh gb hv ob, h => by
    simp only [Node.All, NodeOk] at h
    obtain ⟨_, h1, h2, h3, h4, h5, h6, h7, h8, h9⟩ := h
    have i1 := goodNodes C ctes h1
    have i2 := goodNodes C fs h2
    have i3 := goodNodes C don h3
    have i4 := goodNode C fr h4
    have i5 := goodNodes C js h5
    have i6 := goodNode C wh h6
    have i7 := goodNodes C gb h7
    have i8 := goodNode C hv h8
    have i9 := goodNodes C ob h9
    refine ⟨fun m pn hm hp => ?_, by simpa [obj, mkPV, hookOf] using goodHook_none⟩
    simp only [obj, mkPV, ren]
    exact select_closed C _ (by exact hm) _ _ _ _ _ _ _ _ _ _ i1.objs i2.objs i3.objs i4 i5.pvs i6.1 i7.objs i8.1 i9.objs
  | .insert q ctes into cols rows sets sel cf cp res rp ret, h => by
    simp only [Node.All, NodeOk] at h
    obtain ⟨h0, h1, h2, h3, h4, h5, h6, h7, h8, h9, h10, h11⟩ := h
    have i1 := goodNodes C ctes h1
    have i2 := goodNode C into h2
    have i3 := goodNodes C cols h3
    have i4 := goodNodess C rows h4
    have i5 := goodPairsN C sets h5
    have i6 := goodNode C sel h6
    have i7 := goodNodes C cf h7
    have i8 := goodNode C cp h8
    have i9 := goodPairsN C res h9
    have i10 := goodNode C rp h10
    have i11 := goodNodes C ret h11
    refine ⟨fun m pn hm hp => ?_, by simpa [obj, mkPV, hookOf] using goodHook_none⟩
    simp only [obj, mkPV, ren]
    exact insert_closed C _ (by exact hm) _ _ _ _ _ _ _ _ _ _ _ _ i1.objs i2.1 i3.objs (goodRows i4) (goodPairs i5)
      i6.1 i7.objs i8.1 (goodPairs i9) i10.1 i11.objs (fun hmap => pairs_nil_panic (h0 hmap))
  | .update q ctes tb fr js as sets wh ob ret, h => by
    simp only [Node.All, NodeOk] at h
    obtain ⟨h0, h1, h2, h3, h4, h5, h6, h7, h8, h9⟩ := h
    have i1 := goodNodes C ctes h1
    have i2 := goodNode C tb h2
    have i3 := goodNode C fr h3
    have i4 := goodNodes C js h4
    have i5 := goodPairsN C as h5
    have i6 := goodPairsN C sets h6
    have i7 := goodNode C wh h7
    have i8 := goodNodes C ob h8
    have i9 := goodNodes C ret h9
    refine ⟨fun m pn hm hp => ?_, by simpa [obj, mkPV, hookOf] using goodHook_none⟩
    simp only [obj, mkPV, ren]
    exact update_closed C _ (by exact hm) _ _ _ _ _ _ _ _ _ _ i1.objs i2.1 i3.1 (fun j hj => (i4.pvs j hj).1)
      (goodPairs i5) (goodPairs i6) i7.1 i8.objs i9.objs (fun hmap => pairs_nil_panic (h0 hmap))
  | .delete q ctes frs us js wh ob ret, h => by
    simp only [Node.All, NodeOk] at h
    obtain ⟨h0, h1, h2, h3, h4, h5, h6, h7⟩ := h
    have i1 := goodNodes C ctes h1
    have i2 := goodNodes C frs h2
    have i3 := goodNode C us h3
    have i4 := goodNodes C js h4
    have i5 := goodNode C wh h5
    have i6 := goodNodes C ob h6
    have i7 := goodNodes C ret h7
    refine ⟨fun m pn hm hp => ?_, by simpa [obj, mkPV, hookOf] using goodHook_none⟩
    simp only [obj, mkPV, ren]
    refine delete_closed C _ (by exact hm) _ _ _ _ _ _ _ _ i1.objs i2.pvs i3.1 i4.objs i5.1 i6.objs i7.objs ?_
    intro t ht hn
    simp only [objs_eq, List.mem_map] at ht
    obtain ⟨n, hn', rfl⟩ := ht
    exact h0 n hn' ((Node.kind_isNil _).1 hn)
  | .ext k a n act, h => by
    simp only [Node.All, NodeOk] at h
    refine ⟨fun m pn hm hp => ?_, by simpa [obj, mkPV, hookOf] using goodHook_none⟩
    simp only [obj, mkPV, ren]
    exact h _ hm

theorem goodNodes (C : Sites P d N) : (ns : List Node) → AllL (NodeOk P d N) ns → GoodNodes P d N ns
  | [], _ => by intro n hn; simp at hn
  | n :: ns, h => by
    simp only [AllL] at h
    have i1 := goodNode C n h.1
    have i2 := goodNodes C ns h.2
    intro x hx
    rcases List.mem_cons.1 hx with rfl | hx
    · exact i1
    · exact i2 x hx

theorem goodNodess (C : Sites P d N) : (rs : List (List Node)) → AllLL (NodeOk P d N) rs → ∀ r ∈ rs, GoodNodes P d N r
  | [], _ => by intro n hn; simp at hn
  | r :: rs, h => by
    simp only [AllLL] at h
    have i1 := goodNodes C r h.1
    have i2 := goodNodess C rs h.2
    intro x hx
    rcases List.mem_cons.1 hx with rfl | hx
    · exact i1
    · exact i2 x hx

theorem goodPairsN (C : Sites P d N) : (ps : List (Node × Node)) → AllP (NodeOk P d N) ps →
    ∀ p ∈ ps, GoodNode P d N p.1 ∧ GoodNode P d N p.2
  | [], _ => by intro n hn; simp at hn
  | (a, b) :: ps, h => by
    simp only [AllP] at h
    have i1 := goodNode C a h.1
    have i2 := goodNode C b h.2.1
    have i3 := goodPairsN C ps h.2.2
    intro x hx
    rcases List.mem_cons.1 hx with rfl | hx
    · exact ⟨i1, i2⟩
    · exact i3 x hx
end

/-- The induction principle: a property of rendering results closed under the combinators and true at every
node's own effects is true of the whole rendering. -/
theorem ren_ind (C : Sites P d N) (n : Node) (h : n.All (NodeOk P d N)) (m : Mode) (hm : m.d = d) (pn : Str)
    (hp : N pn) : P (ren n m pn) := (goodNode C n h).1 m pn hm (fun _ => hp)

end

mutual
theorem Node.All.mono {p q : Node → Prop} (hpq : ∀ n, p n → q n) : (n : Node) → n.All p → n.All q
  | .nil, h | .scalar _, h | .namedArg _ _, h | .checkedField _ _ _, h | .literal _ _, h | .ext _ _ _ _, h => by
    simp only [Node.All] at h ⊢; exact hpq _ h
  | .slice _ xs, h => by simp only [Node.All] at h ⊢; exact ⟨hpq _ h.1, AllL.mono hpq xs h.2⟩
  | .param _ v, h => by simp only [Node.All] at h ⊢; exact ⟨hpq _ h.1, Node.All.mono hpq v h.2⟩
  | .field _ _ _ xs, h => by simp only [Node.All] at h ⊢; exact ⟨hpq _ h.1, AllL.mono hpq xs h.2⟩
  | .value v _, h => by simp only [Node.All] at h ⊢; exact ⟨hpq _ h.1, Node.All.mono hpq v h.2⟩
  | .cpred _ _ _ xs, h => by simp only [Node.All] at h ⊢; exact ⟨hpq _ h.1, AllL.mono hpq xs h.2⟩
  | .vpred _ _ _ _ xs, h => by simp only [Node.All] at h ⊢; exact ⟨hpq _ h.1, AllL.mono hpq xs h.2⟩
  | .predCases _ cs fb, h => by
    simp only [Node.All] at h ⊢; exact ⟨hpq _ h.1, AllP.mono hpq cs h.2.1, Node.All.mono hpq fb h.2.2⟩
  | .simpleCases _ e cs fb, h => by
    simp only [Node.All] at h ⊢
    exact ⟨hpq _ h.1, Node.All.mono hpq e h.2.1, AllP.mono hpq cs h.2.2.1, Node.All.mono hpq fb h.2.2.2⟩
  | .window a b _, h => by simp only [Node.All] at h ⊢; exact ⟨hpq _ h.1, AllL.mono hpq a h.2.1, AllL.mono hpq b h.2.2⟩
  | .rowValue xs, h => by simp only [Node.All] at h ⊢; exact ⟨hpq _ h.1, AllL.mono hpq xs h.2⟩
  | .rowValues xs, h => by simp only [Node.All] at h ⊢; exact ⟨hpq _ h.1, AllLL.mono hpq xs h.2⟩
  | .assign a b, h => by simp only [Node.All] at h ⊢; exact ⟨hpq _ h.1, Node.All.mono hpq a h.2.1, Node.All.mono hpq b h.2.2⟩
  | .assigns xs, h => by simp only [Node.All] at h ⊢; exact ⟨hpq _ h.1, AllP.mono hpq xs h.2⟩
  | .fields xs, h => by simp only [Node.All] at h ⊢; exact ⟨hpq _ h.1, AllL.mono hpq xs h.2⟩
  | .table _ _ _ _ hp, h => by
    simp only [Node.All] at h ⊢; exact ⟨hpq _ h.1, fun env => Node.All.mono hpq (hp env) (h.2 env)⟩
  | .customTable _ xs, h => by simp only [Node.All] at h ⊢; exact ⟨hpq _ h.1, AllL.mono hpq xs h.2⟩
  | .join _ a b, h => by simp only [Node.All] at h ⊢; exact ⟨hpq _ h.1, Node.All.mono hpq a h.2.1, Node.All.mono hpq b h.2.2⟩
  | .cte _ v, h => by simp only [Node.All] at h ⊢; exact ⟨hpq _ h.1, Node.All.mono hpq v h.2⟩
  | .subquery _ _ v, h => by simp only [Node.All] at h ⊢; exact ⟨hpq _ h.1, Node.All.mono hpq v h.2⟩
  | .vquery _ _ xs, h => by simp only [Node.All] at h ⊢; exact ⟨hpq _ h.1, AllL.mono hpq xs h.2⟩
  | .customQuery _ _ xs, h => by simp only [Node.All] at h ⊢; exact ⟨hpq _ h.1, AllL.mono hpq xs h.2⟩
  | .select _ ctes fs don fr js wh gb hv ob, h => by
    simp only [Node.All] at h ⊢
    obtain ⟨h0, h1, h2, h3, h4, h5, h6, h7, h8, h9⟩ := h
    exact ⟨hpq _ h0, AllL.mono hpq _ h1, AllL.mono hpq _ h2, AllL.mono hpq _ h3, Node.All.mono hpq _ h4,
      AllL.mono hpq _ h5, Node.All.mono hpq _ h6, AllL.mono hpq _ h7, Node.All.mono hpq _ h8, AllL.mono hpq _ h9⟩
  | .insert _ ctes into cols rows sets sel cf cp res rp ret, h => by
    simp only [Node.All] at h ⊢
    obtain ⟨h0, h1, h2, h3, h4, h5, h6, h7, h8, h9, h10, h11⟩ := h
    exact ⟨hpq _ h0, AllL.mono hpq _ h1, Node.All.mono hpq _ h2, AllL.mono hpq _ h3, AllLL.mono hpq _ h4,
      AllP.mono hpq _ h5, Node.All.mono hpq _ h6, AllL.mono hpq _ h7, Node.All.mono hpq _ h8, AllP.mono hpq _ h9,
      Node.All.mono hpq _ h10, AllL.mono hpq _ h11⟩
  | .update _ ctes tb fr js as sets wh ob ret, h => by
    simp only [Node.All] at h ⊢
    obtain ⟨h0, h1, h2, h3, h4, h5, h6, h7, h8, h9⟩ := h
    exact ⟨hpq _ h0, AllL.mono hpq _ h1, Node.All.mono hpq _ h2, Node.All.mono hpq _ h3, AllL.mono hpq _ h4,
      AllP.mono hpq _ h5, AllP.mono hpq _ h6, Node.All.mono hpq _ h7, AllL.mono hpq _ h8, AllL.mono hpq _ h9⟩
  | .delete _ ctes frs us js wh ob ret, h => by
    simp only [Node.All] at h ⊢
    obtain ⟨h0, h1, h2, h3, h4, h5, h6, h7⟩ := h
    exact ⟨hpq _ h0, AllL.mono hpq _ h1, AllL.mono hpq _ h2, Node.All.mono hpq _ h3, AllL.mono hpq _ h4,
      Node.All.mono hpq _ h5, AllL.mono hpq _ h6, AllL.mono hpq _ h7⟩

theorem AllL.mono {p q : Node → Prop} (hpq : ∀ n, p n → q n) : (ns : List Node) → AllL p ns → AllL q ns
  | [], _ => by simp [AllL]
  | n :: ns, h => by simp only [AllL] at h ⊢; exact ⟨Node.All.mono hpq n h.1, AllL.mono hpq ns h.2⟩

theorem AllLL.mono {p q : Node → Prop} (hpq : ∀ n, p n → q n) : (rs : List (List Node)) → AllLL p rs → AllLL q rs
  | [], _ => by simp [AllLL]
  | r :: rs, h => by simp only [AllLL] at h ⊢; exact ⟨AllL.mono hpq r h.1, AllLL.mono hpq rs h.2⟩

theorem AllP.mono {p q : Node → Prop} (hpq : ∀ n, p n → q n) : (ps : List (Node × Node)) → AllP p ps → AllP q ps
  | [], _ => by simp [AllP]
  | (a, b) :: ps, h => by
    simp only [AllP] at h ⊢
    exact ⟨Node.All.mono hpq a h.1, Node.All.mono hpq b h.2.1, AllP.mono hpq ps h.2.2⟩
end

end Sq
