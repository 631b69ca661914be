import Verif.Model.Node
/-
Rendering in one dialect depends only on how the parts render in that dialect: every rendering function gives the same result when
its parts are replaced by parts that do nothing in other dialects (`pin`).
-/
namespace Sq.Pin
open Sq

/-- The value, as far as dialect `D` is concerned. -/
def pin (D : Dialect) (o : Obj) : Obj := { o with act := fun m pn => if m.d = D then o.act m pn else .ok }

def pinHook (D : Dialect) : HookRes → HookRes
  | .none => .none
  | .err e => .err e
  | .pred o => .pred (pin D o)

def pinPV (D : Dialect) (o : PV) : PV := { pin D o.toObj with hook := fun env => pinHook D (o.hook env) }

def pinPair (D : Dialect) (p : Obj × Obj) : Obj × Obj := (pin D p.1, pin D p.2)

variable {D : Dialect} {m : Mode}

@[simp] theorem pin_kind (o : Obj) : (pin D o).kind = o.kind := rfl
@[simp] theorem pin_alias (o : Obj) : (pin D o).alias = o.alias := rfl
@[simp] theorem pin_name (o : Obj) : (pin D o).name = o.name := rfl
@[simp] theorem pin_key (o : Obj) : (pin D o).key = o.key := rfl
@[simp] theorem pin_npreds (o : Obj) : (pin D o).npreds = o.npreds := rfl
@[simp] theorem pinPV_toObj (o : PV) : (pinPV D o).toObj = pin D o.toObj := rfl
@[simp] theorem pinPV_hook (o : PV) (env : Env) : (pinPV D o).hook env = pinHook D (o.hook env) := rfl
@[simp] theorem pinPair_fst (p : Obj × Obj) : (pinPair D p).1 = pin D p.1 := rfl
@[simp] theorem pinPair_snd (p : Obj × Obj) : (pinPair D p).2 = pin D p.2 := rfl
theorem pin_act (o : Obj) (m : Mode) (pn : Str) (h : m.d = D) : (pin D o).act m pn = o.act m pn := if_pos h

theorem toObj_pin (os : List PV) : (os.map (pinPV D)).map PV.toObj = (os.map PV.toObj).map (pin D) := by
  rw [List.map_map, List.map_map]; rfl

theorem map_eq_nil (f : α → β) (l : List α) : (l.map f = []) = (l = []) := by
  cases l <;> simp

/-! ### Formats -/

theorem lookupName_pin (vals : List Obj) (name : Str) : lookupName (vals.map (pin D)) name = (lookupName vals name).map (pin D) := by
  unfold lookupName
  have : ∀ (l : List Obj) (r : Option Obj), (l.map (pin D)).foldl (fun r o => if o.key = some name then some o else r) (r.map (pin D)) =
      (l.foldl (fun r o => if o.key = some name then some o else r) r).map (pin D) := by
    intro l
    induction l with
    | nil => intro r; rfl
    | cons a l ih =>
      intro r
      rw [List.map_cons, List.foldl_cons, List.foldl_cons, pin_key]
      split
      · exact ih (some a)
      · exact ih r
  exact this vals none

theorem applyNameonly_pin (h : m.d = D) (on : Bool) (o : Obj) (pn : Str) : applyNameonly on (pin D o) m pn = applyNameonly on o m pn := by
  unfold applyNameonly
  rw [pin_kind, pin_name, pin_act o m pn h]

theorem printSegs_pin (h : m.d = D) (vals : List Obj) (segs : List Seg) (idx : Nat) (ords : List Str) :
    printSegs m (vals.map (pin D)) idx ords segs = printSegs m vals idx ords segs := by
  induction segs generalizing idx ords with
  | nil => rfl
  | cons sg segs ih =>
    cases sg with
    | lit c => simp only [printSegs, ih]
    | unclosed s => rfl
    | trailing => rfl
    | hole body =>
      simp only [printSegs, ih, lookupName_pin, List.getElem?_map]
      congr 1
      funext ms
      split
      · cases vals[idx]? with
        | none => rfl
        | some v => simp only [Option.map_some, applyNameonly_pin h]
      · cases atoi (splitColon body).1 with
        | some num =>
          dsimp only
          split
          · rfl
          · cases vals[(num - 1).toNat]? with
            | none => rfl
            | some v => simp only [Option.map_some, applyNameonly_pin h]
        | none =>
          dsimp only
          cases lookupName vals (splitColon body).1 with
          | none => rfl
          | some v => simp only [Option.map_some, applyNameonly_pin h]

theorem bprintf_pin (h : m.d = D) (fmt : Str) (vals : List Obj) : bprintf m fmt (vals.map (pin D)) = bprintf m fmt vals :=
  printSegs_pin h vals _ 0 []

/-! ### Lists of parts -/

/-- A part used for its text only. -/
theorem map_act_pin (f : Obj → W) (g : Obj → W) (h : ∀ o, f (pin D o) = g o) (os : List Obj) : (os.map (pin D)).map f = os.map g := by
  rw [List.map_map]
  exact List.map_congr_left fun o _ => h o

theorem explodeSlice_pin (h : m.d = D) (os : List Obj) : explodeSlice m (os.map (pin D)) = explodeSlice m os := by
  unfold explodeSlice
  rw [map_act_pin _ (explodeElem m) fun o => ?_]
  unfold explodeElem
  rw [pin_kind, pin_act o { d := m.d, ex := m.ex } _ h]

theorem fieldsAppend_pin (h : m.d = D) (os : List Obj) : fieldsAppend m (os.map (pin D)) = fieldsAppend m os := by
  unfold fieldsAppend
  rw [map_act_pin _ _ fun o => pin_act o _ _ h]

theorem aliasFieldsAppend_pin (h : m.d = D) (os : List Obj) : aliasFieldsAppend m (os.map (pin D)) = aliasFieldsAppend m os := by
  unfold aliasFieldsAppend
  rw [map_act_pin _ (aliasField m) fun o => ?_]
  unfold aliasField
  rw [pin_kind, pin_alias, pin_act o _ _ h, pin_act o (m.call none m.ex) _ h]

theorem fieldInfoAppend_pin (h : m.d = D) (fi : FInfo) (os : List Obj) : fieldInfoAppend m fi (os.map (pin D)) = fieldInfoAppend m fi os := by
  unfold fieldInfoAppend
  simp only [bprintf_pin h]

theorem customPredAppend_pin (h : m.d = D) (neg : Bool) (fmt : Str) (os : List Obj) :
    customPredAppend m neg fmt (os.map (pin D)) = customPredAppend m neg fmt os := by
  unfold customPredAppend
  rw [bprintf_pin h]

theorem variadicAppend_pin (h : m.d = D) (top isOr neg : Bool) (os : List Obj) :
    variadicAppend m top isOr neg (os.map (pin D)) = variadicAppend m top isOr neg os := by
  have hop : ∀ o, operand m (pin D o) = operand m o := fun o => by
    unfold operand
    rw [pin_kind, pin_act o (m.call none m.ex) _ h]
  match os with
  | [] => rfl
  | [p] =>
    simp only [List.map_cons, List.map_nil, variadicAppend, pin_kind]
    rw [pin_act p (m.call none m.ex) _ h, pin_act p { m.call none m.ex with meth := .top true } _ h]
  | a :: b :: os =>
    simp only [List.map_cons, variadicAppend, hop, map_act_pin _ (operand m) hop]

theorem pairs_pin (f g : Obj × Obj → W) (h : ∀ p, f (pinPair D p) = g p) (ps : List (Obj × Obj)) : (ps.map (pinPair D)).map f = ps.map g := by
  rw [List.map_map]
  exact List.map_congr_left fun p _ => h p

theorem caseArm_pin (h : m.d = D) (p : Obj × Obj) : caseArm m (pinPair D p) = caseArm m p := by
  unfold caseArm
  rw [pinPair_fst, pinPair_snd, pin_act _ m _ h, pin_act _ m _ h]

theorem elseEnd_pin (h : m.d = D) (o : Obj) : elseEnd m (pin D o) = elseEnd m o := by
  unfold elseEnd
  rw [pin_kind, pin_act o m _ h]

theorem predCasesAppend_pin (h : m.d = D) (cs : List (Obj × Obj)) (fb : Obj) :
    predCasesAppend m (cs.map (pinPair D)) (pin D fb) = predCasesAppend m cs fb := by
  unfold predCasesAppend
  simp only [map_eq_nil, pairs_pin _ _ (caseArm_pin h), elseEnd_pin h]

theorem simpleCasesAppend_pin (h : m.d = D) (e : Obj) (cs : List (Obj × Obj)) (fb : Obj) :
    simpleCasesAppend m (pin D e) (cs.map (pinPair D)) (pin D fb) = simpleCasesAppend m e cs fb := by
  unfold simpleCasesAppend
  simp only [map_eq_nil, pairs_pin _ _ (caseArm_pin h), elseEnd_pin h, pin_act e m _ h]

theorem windowAppend_pin (h : m.d = D) (a b : List Obj) (f : Str) : windowAppend m (a.map (pin D)) (b.map (pin D)) f = windowAppend m a b f := by
  unfold windowAppend
  simp only [ne_eq, map_eq_nil, fieldsAppend_pin (m := m.call none []) h]

theorem rowValueAppend_pin (h : m.d = D) (os : List Obj) : rowValueAppend m (os.map (pin D)) = rowValueAppend m os := by
  unfold rowValueAppend
  rw [map_act_pin _ _ fun o => pin_act o _ _ h]

theorem rowValuesAppend_pin (h : m.d = D) (rs : List (List Obj)) : rowValuesAppend m (rs.map (List.map (pin D))) = rowValuesAppend m rs := by
  unfold rowValuesAppend
  rw [List.map_map]
  congr 1
  exact List.map_congr_left fun o _ => rowValueAppend_pin (m := m.call none []) h o

theorem assignAppend_pin (h : m.d = D) (l r : Obj) : assignAppend m (pin D l) (pin D r) = assignAppend m l r := by
  unfold assignAppend
  rw [pin_kind, pin_act l (m.call none m.ex) _ h, pin_act r m _ h]

theorem assignsAppend_pin (h : m.d = D) (as : List (Obj × Obj)) : assignsAppend m (as.map (pinPair D)) = assignsAppend m as := by
  unfold assignsAppend
  rw [pairs_pin _ _ fun p => by rw [pinPair_fst, pinPair_snd, assignAppend_pin (m := m.call none m.ex) h]]

theorem joinAppend_pin (h : m.d = D) (jt : Str) (t on : Obj) : joinAppend m jt (pin D t) (pin D on) = joinAppend m jt t on := by
  unfold joinAppend
  rw [pin_npreds, pin_kind, pin_alias, pin_act t (m.call none []) _ h, pin_act on { m.call none [] with meth := .top true } _ h]

theorem joinsAppend_pin (h : m.d = D) (os : List Obj) : joinsAppend m (os.map (pin D)) = joinsAppend m os := by
  unfold joinsAppend
  rw [map_act_pin _ _ fun o => pin_act o (m.call none []) _ h]

theorem cteDefAppend_pin (h : m.d = D) (c : CteMeta) (q : Obj) : cteDefAppend m c (pin D q) = cteDefAppend m c q := by
  unfold cteDefAppend
  rw [pin_kind, pin_act q (m.call none []) _ h, pin_act q { m.call none [] with meth := .top true } _ h]

theorem ctesAppend_pin (h : m.d = D) (os : List Obj) : ctesAppend m (os.map (pin D)) = ctesAppend m os := by
  unfold ctesAppend
  rw [map_act_pin _ _ fun o => pin_act o { m.call none [] with meth := .cteDef } _ h, List.any_map]
  rfl

theorem subqueryAppend_pin (h : m.d = D) (st : Option Str) (a : Str) (q : Obj) : subqueryAppend m st a (pin D q) = subqueryAppend m st a q := by
  unfold subqueryAppend
  rw [pin_act q (m.call none []) _ h]

theorem variadicQueryAppend_pin (h : m.d = D) (top : Bool) (op : Str) (os : List Obj) :
    variadicQueryAppend m top op (os.map (pin D)) = variadicQueryAppend m top op os := by
  have hop : ∀ o, vqOperand m (pin D o) = vqOperand m o := fun o => by
    unfold vqOperand
    rw [pin_kind, pin_act o (m.call none []) _ h, pin_act o { m.call none [] with meth := .top false } _ h]
  match os with
  | [] => rfl
  | [p] =>
    simp only [List.map_cons, List.map_nil, variadicQueryAppend, pin_kind]
    rw [pin_act p (m.call none []) _ h, pin_act p { m.call none [] with meth := .top top } _ h]
  | a :: b :: os =>
    simp only [List.map_cons, variadicQueryAppend, hop, map_act_pin _ (vqOperand m) hop]

theorem paramAppend_pin (h : m.d = D) (n : Str) (v : Obj) : paramAppend m n (pin D v) = paramAppend m n v := by
  unfold paramAppend
  rw [pin_kind, pin_act v (m.call none m.ex) _ h]

/-! ### Hooks and statements -/

theorem collectHooks_pin (env : Env) (ts : List PV) : collectHooks env (ts.map (pinPV D)) = (collectHooks env ts).map (List.map (pin D)) := by
  induction ts with
  | nil => rfl
  | cons t ts ih =>
    simp only [List.map_cons, collectHooks, pinPV_hook, ih]
    cases t.hook env with
    | none => rfl
    | err e => rfl
    | pred o =>
      simp only [pinHook]
      cases collectHooks env ts <;> rfl

theorem ofRes_map {α β : Type} (r : Res α) (g : α → β) (f : β → W) : W.ofRes (r.map g) f = W.ofRes r fun a => f (g a) := by
  cases r <;> rfl

theorem predClause_pin (h : m.d = D) (kw : Str) (p : Obj) : predClause m kw (pin D p) = predClause m kw p := by
  unfold predClause
  rw [pin_npreds, pin_act p { m with meth := .top true } _ h]

theorem whereWithHooks_pin (h : m.d = D) (hooks : List Obj) (own : Obj) :
    whereWithHooks m (hooks.map (pin D)) (pin D own) = whereWithHooks m hooks own := by
  unfold whereWithHooks
  have : hooks.map (pin D) ++ [pin D own] = (hooks ++ [own]).map (pin D) := by simp
  simp only [ne_eq, map_eq_nil, this, variadicAppend_pin h, predClause_pin h]

theorem tableRef_pin (h : m.d = D) (t : Obj) : tableRef m (pin D t) = tableRef m t := by
  unfold tableRef
  rw [pin_act t m _ h, pin_alias]

theorem returningAppend_pin (h : m.d = D) (fs : List Obj) : returningAppend m (fs.map (pin D)) = returningAppend m fs := by
  unfold returningAppend
  simp only [ne_eq, map_eq_nil, aliasFieldsAppend_pin h]

theorem withTrue_pin (o : Obj) : withTrue (pin D o) = pin D (withTrue o) := by
  unfold withTrue pin
  rfl

theorem selectAppend_pin (h : m.d = D) (q : SelMeta) (ctes fields dOn : List Obj) (from_ : PV) (joins : List PV) (where_ : Obj)
    (groupBy : List Obj) (having : Obj) (orderBy : List Obj) :
    selectAppend m q (ctes.map (pin D)) (fields.map (pin D)) (dOn.map (pin D)) (pinPV D from_) (joins.map (pinPV D)) (pin D where_)
      (groupBy.map (pin D)) (pin D having) (orderBy.map (pin D)) = selectAppend m q ctes fields dOn from_ joins where_ groupBy having orderBy := by
  unfold selectAppend
  have hm : ({ d := m.d, env := effEnv m.env q.env, ex := [] } : Mode).d = D := h
  have hl : pinPV D from_ :: joins.map (pinPV D) = (from_ :: joins).map (pinPV D) := rfl
  have hw : (if m.meth = .whereTrue ∧ (pin D where_).npreds = 0 then withTrue (pin D where_) else pin D where_) =
      pin D (if m.meth = .whereTrue ∧ where_.npreds = 0 then withTrue where_ else where_) := by
    rw [pin_npreds]
    split
    · exact withTrue_pin _
    · rfl
  dsimp only
  rw [hw]
  simp only [ne_eq, map_eq_nil, clause, ctesAppend_pin hm, fieldsAppend_pin hm, aliasFieldsAppend_pin hm, pinPV_toObj, pin_kind, tableRef_pin hm, toObj_pin,
    joinsAppend_pin hm, hl, collectHooks_pin, ofRes_map, whereWithHooks_pin hm, predClause_pin hm]
  congr

theorem insertConflict_pin (h : m.d = D) (ex : List Str) (q : InsMeta) (cf : List Obj) (cp : Obj) (res : List (Obj × Obj)) (rp : Obj) :
    insertConflict m ex q (cf.map (pin D)) (pin D cp) (res.map (pinPair D)) (pin D rp) = insertConflict m ex q cf cp res rp := by
  unfold insertConflict
  simp only [ne_eq, map_eq_nil, fieldsAppend_pin (m := { m with ex := ex }) h, pin_kind, pin_act cp { m with ex := ex, meth := .top true } _ h,
    assignsAppend_pin (m := { m with ex := ex }) h, assignsAppend_pin (m := { m with env := none, ex := ex }) h, predClause_pin h]

theorem any_nil_pin (ps : List (Obj × Obj)) : (ps.map (pinPair D)).any (fun p => p.1.kind.isNil) = ps.any fun p => p.1.kind.isNil := by
  rw [List.any_map]; rfl

/-- The state of the column mapper, pinned. -/
def pinCol (D : Dialect) (c : Col Obj Obj) : Col Obj Obj :=
  { rowStarted := c.rowStarted, rowEnded := c.rowEnded, firstField := c.firstField, insertColumns := c.insertColumns.map (pin D)
    rowValues := c.rowValues.map (List.map (pin D)) }

theorem appendLast_pin (v : Obj) : (rs : List (List Obj)) →
    appendLast (pin D v) (rs.map (List.map (pin D))) = (appendLast v rs).map (List.map (pin D))
  | [] => rfl
  | [r] => by simp [appendLast]
  | r :: r' :: rs => by
    have := appendLast_pin v (r' :: rs)
    simp only [List.map_cons, appendLast] at this ⊢
    rw [this]

theorem set_pin (c : Col Obj Obj) (f v : Obj) : (pinCol D c).set (fun o => o.name) (pin D f) (pin D v) = pinCol D (c.set (fun o => o.name) f v) := by
  unfold Col.set
  by_cases h1 : c.rowStarted = false
  · simp [pinCol, h1]
  · by_cases h2 : f.name = c.firstField
    · simp [pinCol, h1, h2]
    · by_cases h3 : c.rowEnded = true <;> simp [pinCol, h1, h2, h3, appendLast_pin]

theorem columnInsert_pin (sets : List (Obj × Obj)) : columnInsert (fun o : Obj => o.name) (sets.map (pinPair D)) =
    ((columnInsert (fun o : Obj => o.name) sets).1.map (pin D), (columnInsert (fun o : Obj => o.name) sets).2.map (List.map (pin D))) := by
  have : ∀ (l : List (Obj × Obj)) (c : Col Obj Obj), (l.map (pinPair D)).foldl (fun c p => c.set (fun o => o.name) p.1 p.2) (pinCol D c) =
      pinCol D (l.foldl (fun c p => c.set (fun o => o.name) p.1 p.2) c) := by
    intro l
    induction l with
    | nil => intro c; rfl
    | cons a l ih =>
      intro c
      rw [List.map_cons, List.foldl_cons, List.foldl_cons, pinPair_fst, pinPair_snd, set_pin, ih]
  unfold columnInsert
  have h0 := this sets {}
  rw [show pinCol D {} = {} from rfl] at h0
  dsimp only
  rw [h0]
  rfl

theorem columnUpdate_pin (sets : List (Obj × Obj)) : columnUpdate (sets.map (pinPair D)) = (columnUpdate sets).map (pinPair D) := by
  have : ∀ (l r : List (Obj × Obj)), (l.map (pinPair D)).foldl (fun as p => as ++ [p]) (r.map (pinPair D)) =
      (l.foldl (fun as p => as ++ [p]) r).map (pinPair D) := by
    intro l
    induction l with
    | nil => intro r; rfl
    | cons a l ih =>
      intro r
      rw [List.map_cons, List.foldl_cons, List.foldl_cons, ← ih]
      congr 1
      simp
  exact this sets []

theorem insertColumnsRows_pin (q : InsMeta) (cols : List Obj) (rows : List (List Obj)) (sets : List (Obj × Obj)) :
    insertColumnsRows q (cols.map (pin D)) (rows.map (List.map (pin D))) (sets.map (pinPair D)) =
      (insertColumnsRows q cols rows sets).map fun p => (p.1.map (pin D), p.2.map (List.map (pin D))) := by
  unfold insertColumnsRows
  rw [any_nil_pin, columnInsert_pin]
  split
  · split
    · rfl
    · cases q.mapErr <;> rfl
  · rfl

theorem updateAssignments_pin (q : ModMeta) (as sets : List (Obj × Obj)) :
    updateAssignments q (as.map (pinPair D)) (sets.map (pinPair D)) = (updateAssignments q as sets).map (List.map (pinPair D)) := by
  unfold updateAssignments
  rw [any_nil_pin, columnUpdate_pin]
  split
  · split
    · rfl
    · cases q.mapErr <;> rfl
  · rfl

theorem qualifierOf_pin (t : Obj) : qualifierOf (pin D t) = qualifierOf t := rfl

theorem insertAppend_pin (h : m.d = D) (q : InsMeta) (ctes : List Obj) (into : Obj) (cols : List Obj) (rows : List (List Obj)) (sets : List (Obj × Obj))
    (sel : Obj) (cf : List Obj) (cp : Obj) (res : List (Obj × Obj)) (rp : Obj) (ret : List Obj) :
    insertAppend m q (ctes.map (pin D)) (pin D into) (cols.map (pin D)) (rows.map (List.map (pin D))) (sets.map (pinPair D)) (pin D sel)
      (cf.map (pin D)) (pin D cp) (res.map (pinPair D)) (pin D rp) (ret.map (pin D)) =
    insertAppend m q ctes into cols rows sets sel cf cp res rp ret := by
  unfold insertAppend
  have hm : ({ d := m.d, env := effEnv m.env q.env, ex := [] } : Mode).d = D := h
  dsimp only
  rw [insertColumnsRows_pin, ofRes_map]
  congr 1
  funext ⟨columns, rows⟩
  simp only [ne_eq, map_eq_nil, ctesAppend_pin hm, pin_kind, pin_alias, pin_act into _ _ hm, qualifierOf_pin,
    fieldsAppend_pin (m := { d := m.d, env := effEnv m.env q.env, ex := qualifierOf into }) h, rowValuesAppend_pin hm,
    pin_act sel { d := m.d, env := effEnv m.env q.env, ex := [], meth := if m.d = .sqlite then .whereTrue else .std } _ h,
    insertConflict_pin hm, returningAppend_pin hm]
  congr

theorem updateAppend_pin (h : m.d = D) (q : ModMeta) (ctes : List Obj) (table from_ : PV) (joins : List PV) (as sets : List (Obj × Obj)) (where_ : Obj)
    (orderBy ret : List Obj) :
    updateAppend m q (ctes.map (pin D)) (pinPV D table) (pinPV D from_) (joins.map (pinPV D)) (as.map (pinPair D)) (sets.map (pinPair D)) (pin D where_)
      (orderBy.map (pin D)) (ret.map (pin D)) = updateAppend m q ctes table from_ joins as sets where_ orderBy ret := by
  unfold updateAppend
  have hm : ({ d := m.d, env := effEnv m.env q.env, ex := [] } : Mode).d = D := h
  have hl : pinPV D table :: pinPV D from_ :: joins.map (pinPV D) = (table :: from_ :: joins).map (pinPV D) := rfl
  dsimp only
  rw [updateAssignments_pin, ofRes_map]
  congr 1
  funext assigns
  simp only [ne_eq, map_eq_nil, ctesAppend_pin hm, pin_kind, pinPV_toObj, tableRef_pin hm, qualifierOf_pin,
    assignsAppend_pin (m := { d := m.d, env := effEnv m.env q.env, ex := qualifierOf table.toObj }) h, assignsAppend_pin hm, toObj_pin,
    joinsAppend_pin hm, hl, collectHooks_pin, ofRes_map, predClause_pin hm, fieldsAppend_pin hm, returningAppend_pin hm]
  congr

theorem deleteAppend_pin (h : m.d = D) (q : ModMeta) (ctes : List Obj) (froms : List PV) (using_ : Obj) (joins : List Obj) (where_ : Obj)
    (orderBy ret : List Obj) :
    deleteAppend m q (ctes.map (pin D)) (froms.map (pinPV D)) (pin D using_) (joins.map (pin D)) (pin D where_) (orderBy.map (pin D)) (ret.map (pin D)) =
      deleteAppend m q ctes froms using_ joins where_ orderBy ret := by
  unfold deleteAppend
  have hm : ({ d := m.d, env := effEnv m.env q.env, ex := [] } : Mode).d = D := h
  dsimp only
  simp only [ne_eq, map_eq_nil, ctesAppend_pin hm, pin_kind, pinPV_toObj, tableRef_pin hm, joinsAppend_pin hm, collectHooks_pin, ofRes_map,
    whereWithHooks_pin hm, fieldsAppend_pin hm, returningAppend_pin hm]
  cases froms with
  | nil => congr
  | cons f fs =>
    simp only [List.map_cons, List.map_map, Function.comp_def, pinPV_toObj, pin_kind, pin_alias, pin_name, tableRef_pin hm]
    congr

end Sq.Pin
