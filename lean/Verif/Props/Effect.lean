import Verif.Spec.Effect
import Verif.Proof.Pin
import Verif.Proof.Seq
import Verif.Model.Examples
/-
C77: asking for the SQL of a query does not change it.
-/
namespace Sq.Repeat
open Sq Sq.Effect Sq.Spec.Effect Sq.Pin

theorem filledL_length : (ns : List Node) → (filledL ns).length = ns.length
  | [] => rfl
  | _ :: ns => by simp only [filledL, List.length_cons, filledL_length ns]

theorem fill_kind (n : Node) : (fill n).kind = n.kind := by
  unfold fill
  split <;> rfl

theorem filled_kind (n : Node) : (filled n).kind = n.kind := by
  cases n <;> simp only [filled, Node.kind, filledL_length]

theorem filled_key (n : Node) : (filled n).key = n.key := by
  cases n <;> simp only [filled, Node.key]

mutual
theorem filled_alias : (n : Node) → (filled n).alias = n.alias
  | .param _ v => by simp only [filled, Node.alias, filled_alias v]
  | .value v _ => by simp only [filled, Node.alias, filled_alias v]
  | .slice .. | .field .. | .cpred .. | .vpred .. | .predCases .. | .simpleCases .. | .window .. | .rowValue .. | .rowValues .. | .assign ..
  | .assigns .. | .fields .. | .table .. | .customTable .. | .join .. | .cte .. | .subquery .. | .vquery .. | .customQuery .. | .select ..
  | .insert .. | .update .. | .delete .. | .nil | .scalar _ | .namedArg .. | .checkedField .. | .literal .. | .ext .. => by
    simp only [filled, Node.alias]
end

mutual
theorem filled_name : (n : Node) → (filled n).name = n.name
  | .param _ v => by simp only [filled, Node.name, filled_name v]
  | .slice .. | .field .. | .value .. | .cpred .. | .vpred .. | .predCases .. | .simpleCases .. | .window .. | .rowValue .. | .rowValues ..
  | .assign .. | .assigns .. | .fields .. | .table .. | .customTable .. | .join .. | .cte .. | .subquery .. | .vquery .. | .customQuery ..
  | .select .. | .insert .. | .update .. | .delete .. | .nil | .scalar _ | .namedArg .. | .checkedField .. | .literal .. | .ext .. => by
    simp only [filled, Node.name]
end

/-- Same rendering and hooks on SQLite. -/
structure Same (n' n : Node) : Prop where
  ren : ∀ m pn, m.d = .sqlite → ren n' m pn = ren n m pn
  hook : ∀ env, pinHook .sqlite (hookOf n' env) = pinHook .sqlite (hookOf n env)



theorem pin_same {n : Node} (h : Same (filled n) n) :
    pin .sqlite (mkPV (filled n) (ren (filled n)) (hookOf (filled n))).toObj = pin .sqlite (mkPV n (ren n) (hookOf n)).toObj := by
  unfold pin mkPV
  simp only [filled_kind, filled_alias, filled_name, filled_key]
  congr 1
  funext m pn
  by_cases hm : m.d = .sqlite
  · rw [if_pos hm, if_pos hm, h.ren m pn hm]
  · rw [if_neg hm, if_neg hm]

theorem pinPV_same {n : Node} (h : Same (filled n) n) :
    pinPV .sqlite (mkPV (filled n) (ren (filled n)) (hookOf (filled n))) = pinPV .sqlite (mkPV n (ren n) (hookOf n)) := by
  unfold pinPV
  have h1 := pin_same h
  have h2 : (fun env => pinHook .sqlite ((mkPV (filled n) (ren (filled n)) (hookOf (filled n))).hook env)) =
      fun env => pinHook .sqlite ((mkPV n (ren n) (hookOf n)).hook env) := funext h.hook
  show PV.mk (pin .sqlite (mkPV (filled n) (ren (filled n)) (hookOf (filled n))).toObj)
      (fun env => pinHook .sqlite ((mkPV (filled n) (ren (filled n)) (hookOf (filled n))).hook env)) =
    PV.mk (pin .sqlite (mkPV n (ren n) (hookOf n)).toObj) (fun env => pinHook .sqlite ((mkPV n (ren n) (hookOf n)).hook env))
  rw [h1, h2]

/-- The WHERE that rendering fills in is the WHERE that it would write anyway. -/
theorem withTrue_empty (t : Bool) (a : Str) (o ng : Bool) (hk : Env → HookRes) :
    withTrue (mkPV (.vpred t a o ng []) (ren (.vpred t a o ng [])) hk).toObj =
      (mkPV (.vpred t a o ng [truePredicate]) (ren (.vpred t a o ng [truePredicate])) (hookOf (.vpred t a o ng [truePredicate]))).toObj := by
  unfold withTrue mkPV
  simp only [Node.kind, Node.alias, Node.name, Node.key, List.length_cons, List.length_nil]
  congr 1
  funext m pn
  rw [ren, ren, if_pos ⟨rfl, rfl⟩, if_neg (by simp)]
  simp only [objs, List.map_cons, List.map_nil, variadicAppend]
  rfl

theorem ren_fill (n : Node) (m : Mode) (pn : Str) (hm : m.meth = .whereTrue) : ren (fill n) m pn = ren n m pn := by
  unfold fill
  split
  · rename_i q ctes fs don fr js t a o ng gb hv ob
    rw [ren, ren]
    unfold selectAppend
    dsimp only
    have h1 : ¬ (m.meth = .whereTrue ∧
        (mkPV (.vpred t a o ng [truePredicate]) (ren (.vpred t a o ng [truePredicate])) (hookOf (.vpred t a o ng [truePredicate]))).toObj.npreds = 0) := by
      simp [mkPV, Node.kind, Obj.npreds]
    have h2 : m.meth = .whereTrue ∧ (mkPV (.vpred t a o ng []) (ren (.vpred t a o ng [])) (hookOf (.vpred t a o ng []))).toObj.npreds = 0 :=
      ⟨hm, by simp [mkPV, Node.kind, Obj.npreds]⟩
    rw [if_neg h1, if_pos h2, withTrue_empty]
  · rfl

/-- Only the way the source renders with WHERE TRUE matters. -/
theorem insertAppend_source (m : Mode) (hm : m.d = .sqlite) (q : InsMeta) (ctes : List Obj) (into : Obj) (cols : List Obj) (rows : List (List Obj))
    (sets : List (Obj × Obj)) (sel sel' : Obj) (cf : List Obj) (cp : Obj) (res : List (Obj × Obj)) (rp : Obj) (ret : List Obj)
    (hk : sel'.kind = sel.kind) (ha : ∀ m : Mode, m.d = .sqlite → m.meth = .whereTrue → sel'.act m [] = sel.act m []) :
    insertAppend m q ctes into cols rows sets sel' cf cp res rp ret = insertAppend m q ctes into cols rows sets sel cf cp res rp ret := by
  unfold insertAppend
  dsimp only
  rw [hk, ha { d := m.d, env := effEnv m.env q.env, ex := [], meth := if m.d = .sqlite then .whereTrue else .std } hm (if_pos hm)]

mutual
theorem same_filled : (n : Node) → Same (filled n) n
  | .nil | .scalar _ | .namedArg _ _ | .checkedField _ _ _ | .literal _ _ | .ext _ _ _ _ => by
    simp only [filled]
    exact ⟨fun _ _ _ => rfl, fun _ => rfl⟩
  | .slice _ xs => by
    have h := objs_filled xs
    refine ⟨fun m pn hm => ?_, fun env => by simp only [filled, hookOf]⟩
    simp only [filled, ren]
    refine (explodeSlice_pin hm _).symm.trans ?_; rw [h]; exact explodeSlice_pin hm _
  | .field fi raw neg xs => by
    have h := objs_filled xs
    refine ⟨fun m pn hm => ?_, fun env => by simp only [filled, hookOf]⟩
    simp only [filled, ren]
    have hmm : (if raw then m.std else m.call none m.ex).d = .sqlite := by split <;> exact hm
    refine congrArg _ ?_
    refine (fieldInfoAppend_pin hmm _ _).symm.trans ?_; rw [h]; exact fieldInfoAppend_pin hmm _ _
  | .cpred _ _ _ xs => by
    have h := objs_filled xs
    refine ⟨fun m pn hm => ?_, fun env => by simp only [filled, hookOf]⟩
    simp only [filled, ren]
    have hmm : m.std.d = .sqlite := hm
    refine (customPredAppend_pin hmm _ _ _).symm.trans ?_; rw [h]; exact customPredAppend_pin hmm _ _ _
  | .rowValue xs => by
    have h := objs_filled xs
    refine ⟨fun m pn hm => ?_, fun env => by simp only [filled, hookOf]⟩
    simp only [filled, ren]
    have hmm : m.std.d = .sqlite := hm
    refine (rowValueAppend_pin hmm _).symm.trans ?_; rw [h]; exact rowValueAppend_pin hmm _
  | .fields xs => by
    have h := objs_filled xs
    refine ⟨fun m pn hm => ?_, fun env => by simp only [filled, hookOf]⟩
    simp only [filled, ren]
    have hmm : m.std.d = .sqlite := hm
    refine (fieldsAppend_pin hmm _).symm.trans ?_; rw [h]; exact fieldsAppend_pin hmm _
  | .customTable _ xs => by
    have h := objs_filled xs
    refine ⟨fun m pn hm => ?_, fun env => by simp only [filled, hookOf]⟩
    simp only [filled, ren]
    have hmm : (m.call m.env []).d = .sqlite := hm
    refine (bprintf_pin hmm _ _).symm.trans ?_; rw [h]; exact bprintf_pin hmm _ _
  | .customQuery _ _ xs => by
    have h := objs_filled xs
    refine ⟨fun m pn hm => ?_, fun env => by simp only [filled, hookOf]⟩
    simp only [filled, ren]
    have hmm : (m.call m.env []).d = .sqlite := hm
    refine (bprintf_pin hmm _ _).symm.trans ?_; rw [h]; exact bprintf_pin hmm _ _
  | .vquery _ _ xs => by
    have h := objs_filled xs
    refine ⟨fun m pn hm => ?_, fun env => by simp only [filled, hookOf]⟩
    simp only [filled, ren]
    refine (variadicQueryAppend_pin hm _ _ _).symm.trans ?_; rw [h]; exact variadicQueryAppend_pin hm _ _ _
  | .vpred t _ o ng xs => by
    have h := objs_filled xs
    refine ⟨fun m pn hm => ?_, fun env => by simp only [filled, hookOf]⟩
    simp only [filled, ren, filledL_length]
    split
    · rfl
    · refine (variadicAppend_pin hm _ _ _ _).symm.trans ?_; rw [h]; exact variadicAppend_pin hm _ _ _ _
  | .param _ v => by
    have h := pin_same (same_filled v)
    refine ⟨fun m pn hm => ?_, fun env => by simp only [filled, hookOf]⟩
    simp only [filled, ren]
    refine (paramAppend_pin hm _ _).symm.trans ?_; rw [h]; exact paramAppend_pin hm _ _
  | .value v _ => by
    have h := same_filled v
    refine ⟨fun m pn hm => ?_, fun env => by simp only [filled, hookOf]⟩
    simp only [filled, ren]
    exact h.ren _ _ hm
  | .cte c v => by
    have h := pin_same (same_filled v)
    refine ⟨fun m pn hm => ?_, fun env => by simp only [filled, hookOf]⟩
    simp only [filled, ren]
    split
    · refine (cteDefAppend_pin hm _ _).symm.trans ?_; rw [h]; exact cteDefAppend_pin hm _ _
    · rfl
  | .subquery _ _ v => by
    have h := pin_same (same_filled v)
    refine ⟨fun m pn hm => ?_, fun env => by simp only [filled, hookOf]⟩
    simp only [filled, ren]
    refine (subqueryAppend_pin hm _ _ _).symm.trans ?_; rw [h]; exact subqueryAppend_pin hm _ _ _
  | .predCases _ cs fb => by
    have h := pin_same (same_filled fb)
    have hc := pairs_filled cs
    refine ⟨fun m pn hm => ?_, fun env => by simp only [filled, hookOf]⟩
    simp only [filled, ren]
    have hmm : m.std.d = .sqlite := hm
    refine (predCasesAppend_pin hmm _ _).symm.trans ?_; rw [h, hc]; exact predCasesAppend_pin hmm _ _
  | .simpleCases _ e cs fb => by
    have h := pin_same (same_filled fb)
    have he := pin_same (same_filled e)
    have hc := pairs_filled cs
    refine ⟨fun m pn hm => ?_, fun env => by simp only [filled, hookOf]⟩
    simp only [filled, ren]
    have hmm : m.std.d = .sqlite := hm
    refine (simpleCasesAppend_pin hmm _ _ _).symm.trans ?_; rw [h, he, hc]; exact simpleCasesAppend_pin hmm _ _ _
  | .window a b _ => by
    have ha := objs_filled a
    have hb := objs_filled b
    refine ⟨fun m pn hm => ?_, fun env => by simp only [filled, hookOf]⟩
    simp only [filled, ren]
    have hmm : m.std.d = .sqlite := hm
    refine (windowAppend_pin hmm _ _ _).symm.trans ?_; rw [ha, hb]; exact windowAppend_pin hmm _ _ _
  | .rowValues rows => by
    have h := objss_filled rows
    refine ⟨fun m pn hm => ?_, fun env => by simp only [filled, hookOf]⟩
    simp only [filled, ren]
    have hmm : m.std.d = .sqlite := hm
    refine (rowValuesAppend_pin hmm _).symm.trans ?_; rw [h]; exact rowValuesAppend_pin hmm _
  | .assign l r => by
    have hl := pin_same (same_filled l)
    have hr := pin_same (same_filled r)
    refine ⟨fun m pn hm => ?_, fun env => by simp only [filled, hookOf]⟩
    simp only [filled, ren]
    have hmm : m.std.d = .sqlite := hm
    refine (assignAppend_pin hmm _ _).symm.trans ?_; rw [hl, hr]; exact assignAppend_pin hmm _ _
  | .join _ l r => by
    have hl := pin_same (same_filled l)
    have hr := pin_same (same_filled r)
    refine ⟨fun m pn hm => ?_, fun env => by simp only [filled, hookOf]; exact (same_filled l).hook env⟩
    simp only [filled, ren]
    refine (joinAppend_pin hm _ _ _).symm.trans ?_; rw [hl, hr]; exact joinAppend_pin hm _ _ _
  | .assigns as => by
    have h := pairs_filled as
    refine ⟨fun m pn hm => ?_, fun env => by simp only [filled, hookOf]⟩
    simp only [filled, ren]
    have hmm : m.std.d = .sqlite := hm
    refine (assignsAppend_pin hmm _).symm.trans ?_; rw [h]; exact assignsAppend_pin hmm _
  | .table _ _ _ hk hp => by
    refine ⟨fun m pn hm => by simp only [filled, ren], fun env => ?_⟩
    have h := pin_same (same_filled (hp env))
    simp only [filled, hookOf]
    cases hk env with
    | none => rfl
    | err e => rfl
    | pred => exact congrArg HookRes.pred h
  | .select q ctes fs don fr js wh gb hv ob => by
    have h1 := objs_filled ctes
    have h2 := objs_filled fs
    have h3 := objs_filled don
    have h4 := pinPV_same (same_filled fr)
    have h5 := pvs_filled js
    have h6 := pin_same (same_filled wh)
    have h7 := objs_filled gb
    have h8 := pin_same (same_filled hv)
    have h9 := objs_filled ob
    refine ⟨fun m pn hm => ?_, fun env => by simp only [filled, hookOf]⟩
    simp only [filled, ren]
    refine (selectAppend_pin hm _ _ _ _ _ _ _ _ _ _).symm.trans ?_
    rw [h1, h2, h3, h4, h5, h6, h7, h8, h9]
    exact selectAppend_pin hm _ _ _ _ _ _ _ _ _ _
  | .insert q ctes into cols rows sets sel cf cp res rp ret => by
    have h1 := objs_filled ctes
    have h2 := pin_same (same_filled into)
    have h3 := objs_filled cols
    have h4 := objss_filled rows
    have h5 := pairs_filled sets
    have h6 := same_filled sel
    have h7 := objs_filled cf
    have h8 := pin_same (same_filled cp)
    have h9 := pairs_filled res
    have h10 := pin_same (same_filled rp)
    have h11 := objs_filled ret
    refine ⟨fun m pn hm => ?_, fun env => by simp only [filled, hookOf]⟩
    simp only [filled, ren]
    refine (insertAppend_source m hm q _ _ _ _ _ (mkPV (filled sel) (Sq.ren (filled sel)) (hookOf (filled sel))).toObj _ _ _ _ _ _
      ?_ fun m _ hw => ?_).trans ?_
    · exact fill_kind _
    · exact ren_fill _ _ _ hw
    refine (insertAppend_pin hm _ _ _ _ _ _ _ _ _ _ _ _).symm.trans ?_
    rw [h1, h2, h3, h4, h5, pin_same h6, h7, h8, h9, h10, h11]
    exact insertAppend_pin hm _ _ _ _ _ _ _ _ _ _ _ _
  | .update q ctes tb fr js as sets wh ob ret => by
    have h1 := objs_filled ctes
    have h2 := pinPV_same (same_filled tb)
    have h3 := pinPV_same (same_filled fr)
    have h4 := pvs_filled js
    have h5 := pairs_filled as
    have h6 := pairs_filled sets
    have h7 := pin_same (same_filled wh)
    have h8 := objs_filled ob
    have h9 := objs_filled ret
    refine ⟨fun m pn hm => ?_, fun env => by simp only [filled, hookOf]⟩
    simp only [filled, ren]
    refine (updateAppend_pin hm _ _ _ _ _ _ _ _ _ _).symm.trans ?_
    rw [h1, h2, h3, h4, h5, h6, h7, h8, h9]
    exact updateAppend_pin hm _ _ _ _ _ _ _ _ _ _
  | .delete q ctes frs us js wh ob ret => by
    have h1 := objs_filled ctes
    have h2 := pvs_filled frs
    have h3 := pin_same (same_filled us)
    have h4 := objs_filled js
    have h5 := pin_same (same_filled wh)
    have h6 := objs_filled ob
    have h7 := objs_filled ret
    refine ⟨fun m pn hm => ?_, fun env => by simp only [filled, hookOf]⟩
    simp only [filled, ren]
    refine (deleteAppend_pin hm _ _ _ _ _ _ _ _).symm.trans ?_
    rw [h1, h2, h3, h4, h5, h6, h7]
    exact deleteAppend_pin hm _ _ _ _ _ _ _ _
theorem pvs_filled : (ns : List Node) → (objs (filledL ns)).map (pinPV .sqlite) = (objs ns).map (pinPV .sqlite)
  | [] => by simp only [filledL]
  | n :: ns => by
    have h := pinPV_same (same_filled n)
    simp only [filledL, objs, List.map_cons, h, pvs_filled ns]
theorem objs_filled : (ns : List Node) → ((objs (filledL ns)).map PV.toObj).map (pin .sqlite) = ((objs ns).map PV.toObj).map (pin .sqlite)
  | [] => by simp only [filledL]
  | n :: ns => by
    have h := pin_same (same_filled n)
    have ih := objs_filled ns
    simp only [filledL, objs, List.map_cons, ih]
    exact congrArg (· :: _) h
theorem objss_filled : (rs : List (List Node)) → (objss (filledLL rs)).map (List.map (pin .sqlite)) = (objss rs).map (List.map (pin .sqlite))
  | [] => by simp only [filledLL]
  | r :: rs => by simp only [filledLL, objss, List.map_cons, objs_filled r, objss_filled rs]
theorem pairs_filled : (ps : List (Node × Node)) → (pairs (filledP ps)).map (pinPair .sqlite) = (pairs ps).map (pinPair .sqlite)
  | [] => by simp only [filledP]
  | (a, b) :: ps => by
    have ha := pin_same (same_filled a)
    have hb := pin_same (same_filled b)
    have ih := pairs_filled ps
    simp only [filledP, pairs, List.map_cons, ih]
    refine congrArg (· :: _) ?_
    exact Prod.ext ha hb
end

theorem toSQL_filled (n : Node) : toSQL .sqlite (filled n) = toSQL .sqlite n := by
  unfold toSQL
  rw [(same_filled n).ren _ _ rfl]

/-- Trees that differ in nothing but a WHERE TRUE in the sources of INSERTs are written alike on SQLite. -/
theorem toSQL_sameButFilled {n n' : Node} (h : SameButFilled n n') : toSQL .sqlite n = toSQL .sqlite n' := by
  rw [← toSQL_filled n, ← toSQL_filled n', h]

/-! ### Sequences of calls -/

theorem fill_fill (n : Node) : fill (fill n) = fill n := by
  cases n with
  | select q ctes fs don fr js wh gb hv ob =>
    cases wh with
    | vpred t a o ng ps => cases ps <;> rfl
    | _ => rfl
  | _ => rfl

theorem fill_filled_fill (n : Node) : fill (filled (fill n)) = fill (filled n) := by
  cases n with
  | select q ctes fs don fr js wh gb hv ob =>
    cases wh with
    | vpred t a o ng ps => cases ps <;> simp [fill, filled, filledL, truePredicate]
    | _ => rfl
  | _ => rfl

/-- The SELECT queries that some call of the sequence may write to. -/
def Written (cs : List (Dialect × Query × Rendered)) (a : Nat) : Prop := ∃ c ∈ cs, c.1 = .sqlite ∧ a ∈ c.2.1.sources

/-- `h1` is `h`, with some of `cells` filled. -/
def Filled (cells : Nat → Prop) (h h1 : Heap) : Prop := ∀ a, h1 a = h a ∨ (cells a ∧ h1 a = fill (h a))

theorem Filled.step {cells : Nat → Prop} {d : Dialect} {q : Query} {h h1 h2 : Heap} (hf : Filled cells h h1) (hw : Writes d q h1 h2)
    (hc : d = .sqlite → ∀ a ∈ q.sources, cells a) : Filled cells h h2 := by
  intro a
  rcases hw a with e | ⟨hd, hs, e⟩
  · rw [e]; exact hf a
  · have ha := hc hd a hs
    rcases hf a with e' | ⟨_, e'⟩
    · exact Or.inr ⟨ha, by rw [e, e']⟩
    · exact Or.inr ⟨ha, by rw [e, e', fill_fill]⟩

theorem run_results {cells : Nat → Prop} {h0 h h' : Heap} {cs : List (Dialect × Query × Rendered)} (hr : Run h cs h') (hf : Filled cells h0 h)
    (hc : ∀ a, Written cs a → cells a) (hq : ∀ c ∈ cs, OnlySources cells c.2.1) :
    ∀ c ∈ cs, c.1 = .sqlite → c.2.2 = toSQL .sqlite (c.2.1.tree h0) := by
  induction hr with
  | done => intro c hm; cases hm
  | call d q hw hrun ih =>
    intro c hm hd
    rcases List.mem_cons.1 hm with rfl | hm
    · cases hd
      exact (toSQL_sameButFilled (hq _ (List.mem_cons_self ..) _ _ hf)).symm
    · refine ih (hf.step hw fun hd a ha => hc a ⟨_, List.mem_cons_self .., hd, ha⟩) (fun a ⟨c, hcm, hx⟩ => hc a ⟨c, List.mem_cons_of_mem _ hcm, hx⟩)
        (fun c hcm => hq c (List.mem_cons_of_mem _ hcm)) c hm hd

/-- C77: in any sequence of ToSQL calls, with whatever queries and dialects, every call for SQLite gives what it would have given at the very
start, provided that the SELECT queries that are sources of INSERTs are not used in any other way. -/
theorem C77_repeatable_partial {h h' : Heap} {cs : List (Dialect × Query × Rendered)} (hr : Run h cs h')
    (hq : ∀ c ∈ cs, OnlySources (Written cs) c.2.1) :
    ∀ c ∈ cs, c.1 = .sqlite → c.2.2 = toSQL .sqlite (c.2.1.tree h) :=
  run_results hr (fun _ => Or.inl rfl) (fun _ ha => ha) hq

/-- C77: calls for other dialects change nothing, so that in a sequence of them each gives what it would have given at the start. -/
theorem C77_other_dialects {h h' : Heap} {cs : List (Dialect × Query × Rendered)} (hr : Run h cs h') (hd : ∀ c ∈ cs, c.1 ≠ .sqlite) :
    h' = h ∧ ∀ c ∈ cs, c.2.2 = toSQL c.1 (c.2.1.tree h) := by
  induction hr with
  | done => exact ⟨rfl, fun c hm => by cases hm⟩
  | @call h h1 h2 cs d q hw hrun ih =>
    have e : h1 = h := funext fun a => (hw a).resolve_right fun x => hd _ (List.mem_cons_self ..) x.1
    subst e
    have ⟨e, hres⟩ := ih fun c hm => hd c (List.mem_cons_of_mem _ hm)
    refine ⟨e, fun c hm => ?_⟩
    rcases List.mem_cons.1 hm with rfl | hm
    · rfl
    · exact hres c hm

/-- C77: queries without an INSERT ... SELECT change nothing in any dialect. -/
theorem C77_no_insert_select {h h' : Heap} {cs : List (Dialect × Query × Rendered)} (hr : Run h cs h') (hs : ∀ c ∈ cs, c.2.1.sources = []) :
    h' = h ∧ ∀ c ∈ cs, c.2.2 = toSQL c.1 (c.2.1.tree h) := by
  induction hr with
  | done => exact ⟨rfl, fun c hm => by cases hm⟩
  | @call h h1 h2 cs d q hw hrun ih =>
    have e : h1 = h := funext fun a => (hw a).resolve_right fun x => by
      have h0 : q.sources = [] := hs _ (List.mem_cons_self ..)
      rw [h0] at x
      exact absurd x.2.1 (List.not_mem_nil)
    subst e
    have ⟨e, hres⟩ := ih fun c hm => hs c (List.mem_cons_of_mem _ hm)
    refine ⟨e, fun c hm => ?_⟩
    rcases List.mem_cons.1 hm with rfl | hm
    · rfl
    · exact hres c hm

/-- C77: whatever is called, a SELECT query can change in one way only: from no WHERE to WHERE TRUE. -/
theorem C77_writes {h h' : Heap} {cs : List (Dialect × Query × Rendered)} (hr : Run h cs h') : Filled (Written cs) h h' := by
  suffices ∀ h0, Filled (Written cs) h0 h → Filled (Written cs) h0 h' from this h fun _ => Or.inl rfl
  have key : ∀ (cells : Nat → Prop) {h h' cs}, Run h cs h' → (∀ a, Written cs a → cells a) → ∀ h0, Filled cells h0 h → Filled cells h0 h' := by
    intro cells h h' cs hr
    induction hr with
    | done => exact fun _ _ hf => hf
    | call d q hw hrun ih =>
      intro hc h0 hf
      exact ih (fun a ⟨c, hcm, hx⟩ => hc a ⟨c, List.mem_cons_of_mem _ hcm, hx⟩) h0
        (hf.step hw fun hd a ha => hc a ⟨_, List.mem_cons_self .., hd, ha⟩)
  exact key _ hr fun _ ha => ha

/-! ### Which queries meet the hypothesis -/

theorem onlySources_const (cells : Nat → Prop) (n : Node) (src : List Nat) : OnlySources cells ⟨fun _ => n, src⟩ := fun _ _ _ => rfl

/-- An INSERT of a SELECT, alone or anywhere in a query that is built around it. -/
theorem onlySources_insert (cells : Nat → Prop) (a : Nat) (q : InsMeta) (ctes : List Node) (into : Node) (cols : List Node) (rows : List (List Node))
    (sets : List (Node × Node)) (cf : List Node) (cp : Node) (res : List (Node × Node)) (rp : Node) (ret : List Node) :
    OnlySources cells ⟨fun h => .insert q ctes into cols rows sets (h a) cf cp res rp ret, [a]⟩ := by
  intro h h' hh
  show filled _ = filled _
  simp only [filled]
  rcases hh a with e | ⟨_, e⟩
  · rw [e]
  · rw [e, fill_filled_fill]

theorem onlySources_cte (cells : Nat → Prop) (c : CteMeta) (q : Query) (h : OnlySources cells q) : OnlySources cells ⟨fun h => .cte c (q.tree h), q.sources⟩ := by
  intro h1 h2 hh
  have := h h1 h2 hh
  simp only [SameButFilled] at this ⊢
  simp only [filled, this]

/-! ### A run -/

open Sq.Ex

/-- `SELECT u.id FROM users AS u` -/
def sel : Node := .select {} [] [col "u" "id"] [] users [] (andp []) [] (andp []) []
def dst : Node := .table [] "old" "" noHook (fun _ => .nil)
/-- `INSERT INTO old (id) SELECT u.id FROM users AS u` -/
def copy : Query := ⟨fun h => .insert {} [] dst [col "old" "id"] [] [] (h 0) [] (andp []) [] (andp []) [], [0]⟩
/-- The SELECT alone. -/
def alone : Query := ⟨fun h => h 0, []⟩
def heap0 : Heap := fun _ => sel
def heap1 : Heap := fun a => if a = 0 then fill sel else sel

theorem copy_writes : Writes .sqlite copy heap0 heap1 := by
  intro a
  by_cases h : a = 0
  · exact Or.inr ⟨rfl, by simp [copy, h], by simp [heap1, heap0, h]⟩
  · exact Or.inl (by simp [heap1, heap0, h])

theorem copy_writes2 : Writes .sqlite copy heap1 heap1 := fun _ => Or.inl rfl

/-- Twice the same INSERT: the hypothesis of C77_repeatable_partial is met, the SELECT changes, the text does not. -/
theorem C77_example : (∃ r1 r2, Run heap0 [(.sqlite, copy, r1), (.sqlite, copy, r2)] heap1 ∧
      (∀ c ∈ [(Dialect.sqlite, copy, r1), (.sqlite, copy, r2)], OnlySources (Written [(.sqlite, copy, r1), (.sqlite, copy, r2)]) c.2.1) ∧ r1 = r2) ∧
    heap1 0 ≠ heap0 0 ∧
    (toSQL .sqlite (copy.tree heap0)).query = "INSERT INTO old (id) SELECT u.id FROM users AS u WHERE TRUE".toList := by
  refine ⟨?_, ?_, ?_⟩
  · have hr : Run heap0 [(.sqlite, copy, toSQL .sqlite (copy.tree heap0)), (.sqlite, copy, toSQL .sqlite (copy.tree heap1))] heap1 :=
      .call _ _ copy_writes (.call _ _ copy_writes2 (.done _))
    have hs : ∀ cells, OnlySources cells copy := fun cells => onlySources_insert cells 0 _ _ _ _ _ _ _ _ _ _ _
    refine ⟨_, _, hr, ?_, ?_⟩
    · intro c hc
      simp only [List.mem_cons, List.not_mem_nil, or_false] at hc
      rcases hc with rfl | rfl <;> exact hs _
    · exact (C77_repeatable_partial hr (fun c hc => by
        simp only [List.mem_cons, List.not_mem_nil, or_false] at hc
        rcases hc with rfl | rfl <;> exact hs _) _ (List.mem_cons_of_mem _ (List.mem_cons_self ..)) rfl).symm
  · intro h
    have h : fill sel = sel := h
    simp [fill, sel, andp] at h
  · decide +kernel

/-- C77 is false when the SELECT is also used on its own: after the INSERT was rendered it is written with WHERE TRUE. -/
theorem C77_shared_select_violated :
    ∃ r1, Run heap0 [(.sqlite, copy, r1), (.sqlite, alone, toSQL .sqlite (alone.tree heap1))] heap1 ∧
      (toSQL .sqlite (alone.tree heap0)).query = "SELECT u.id FROM users AS u".toList ∧
      (toSQL .sqlite (alone.tree heap1)).query = "SELECT u.id FROM users AS u WHERE TRUE".toList :=
  ⟨_, .call _ _ copy_writes (.call _ _ (fun _ => Or.inl rfl) (.done _)), by decide +kernel, by decide +kernel⟩

/-- C77 is false when the INSERT is rendered for another dialect after it was rendered for SQLite. -/
theorem C77_other_dialect_violated :
    ∃ r1, Run heap0 [(.sqlite, copy, r1), (.postgres, copy, toSQL .postgres (copy.tree heap1))] heap1 ∧
      (toSQL .postgres (copy.tree heap0)).query = "INSERT INTO old (id) SELECT u.id FROM users AS u".toList ∧
      (toSQL .postgres (copy.tree heap1)).query = "INSERT INTO old (id) SELECT u.id FROM users AS u WHERE TRUE".toList :=
  ⟨_, .call _ _ copy_writes (.call _ _ (fun _ => Or.inl rfl) (.done _)), by decide +kernel, by decide +kernel⟩

end Sq.Repeat
