import Verif.Proof.Tree
/-
Changing the *values* in a tree (and rebinding named parameters) changes the bound values in the effects
and nothing else: rendering commutes with substitution.
-/
namespace Sq

/-- A type-preserving change of plain values (`val`, which acts on LIMIT/OFFSET through `lim`) together with new
values for some named parameters (`par`). -/
structure Sub where
  val : Scalar → Scalar
  lim : Int → Int
  par : Str → Option Scalar
  nil_eq : val .nil = .nil
  lim_eq : ∀ i, val (.int i) = .int (lim i)

namespace Sub

def arg (σ : Sub) : Arg → Arg
  | .val s => .val (σ.val s)
  | .named n s => .named n (σ.val s)
  | .slice i => .slice i

def instr (σ : Sub) : Instr → Instr
  | .text s => .text s
  | .bind pn a => .bind pn (σ.arg a)
  | .named n v => .named n (σ.val v)
  | .param n a => .param n (match σ.par n with | some v => .val v | none => σ.arg a)
  | .forget ns => .forget ns

def w (σ : Sub) (x : W) : W := { code := x.code.map σ.instr, st := x.st }

def kind (σ : Sub) : Kind → Kind
  | .scalar a => .scalar (σ.val a)
  | .namedArg n v => .namedArg n (σ.val v)
  | k => k

def obj (σ : Sub) (o : Obj) : Obj := { o with kind := σ.kind o.kind, act := fun m pn => σ.w (o.act m pn) }
def hook (σ : Sub) : HookRes → HookRes
  | .pred o => .pred (σ.obj o)
  | r => r
def pv (σ : Sub) (o : PV) : PV := { σ.obj o.toObj with hook := fun env => σ.hook (o.hook env) }
def pair (σ : Sub) (p : Obj × Obj) : Obj × Obj := (σ.obj p.1, σ.obj p.2)

/-- a plain value (not an appender, not a slice), which a named parameter binds as one argument -/
def argLike (n : Node) : Bool := !n.kind.isAppender && (match n.kind with | .slice _ => false | _ => true)

def selMeta (σ : Sub) (q : SelMeta) : SelMeta := { q with limit := q.limit.map σ.lim, offset := q.offset.map σ.lim }
def modMeta (σ : Sub) (q : ModMeta) : ModMeta := { q with limit := q.limit.map σ.lim, offset := q.offset.map σ.lim }

mutual
/-- The same tree with changed values. -/
def node (σ : Sub) : Node → Node
  | .nil => .nil
  | .scalar a => .scalar (σ.val a)
  | .slice id xs => .slice id (nodes σ xs)
  | .namedArg n v => .namedArg n (σ.val v)
  | .param n v =>
    if argLike v then match σ.par n with
      | some a => .param n (.scalar a)
      | none => .param n (node σ v)
    else .param n (node σ v)
  | .field fi raw neg vals => .field fi raw neg (nodes σ vals)
  | .checkedField s a fi => .checkedField s a fi
  | .literal s a => .literal s a
  | .value v a => .value (node σ v) a
  | .cpred a f ng vals => .cpred a f ng (nodes σ vals)
  | .vpred t a o ng ps => .vpred t a o ng (nodes σ ps)
  | .predCases a cs fb => .predCases a (pairsN σ cs) (node σ fb)
  | .simpleCases a e cs fb => .simpleCases a (node σ e) (pairsN σ cs) (node σ fb)
  | .window part order frame => .window (nodes σ part) (nodes σ order) frame
  | .rowValue vs => .rowValue (nodes σ vs)
  | .rowValues rows => .rowValues (nodess σ rows)
  | .assign l r => .assign (node σ l) (node σ r)
  | .assigns as => .assigns (pairsN σ as)
  | .fields fs => .fields (nodes σ fs)
  | .table s n a hk hp => .table s n a hk (fun env => node σ (hp env))
  | .customTable f vals => .customTable f (nodes σ vals)
  | .join jt t o => .join jt (node σ t) (node σ o)
  | .cte c q => .cte c (node σ q)
  | .subquery st a q => .subquery st a (node σ q)
  | .vquery t o qs => .vquery t o (nodes σ qs)
  | .customQuery dd f vals => .customQuery dd f (nodes σ vals)
  | .select q ctes fs don fr js wh gb hv ob =>
    .select (σ.selMeta q) (nodes σ ctes) (nodes σ fs) (nodes σ don) (node σ fr) (nodes σ js) (node σ wh) (nodes σ gb)
      (node σ hv) (nodes σ ob)
  | .insert q ctes into cols rows sets sel cf cp res rp ret =>
    .insert q (nodes σ ctes) (node σ into) (nodes σ cols) (nodess σ rows) (pairsN σ sets) (node σ sel) (nodes σ cf)
      (node σ cp) (pairsN σ res) (node σ rp) (nodes σ ret)
  | .update q ctes tb fr js as sets wh ob ret =>
    .update (σ.modMeta q) (nodes σ ctes) (node σ tb) (node σ fr) (nodes σ js) (pairsN σ as) (pairsN σ sets) (node σ wh)
      (nodes σ ob) (nodes σ ret)
  | .delete q ctes frs us js wh ob ret =>
    .delete (σ.modMeta q) (nodes σ ctes) (nodes σ frs) (node σ us) (nodes σ js) (node σ wh) (nodes σ ob) (nodes σ ret)
  | .ext k a n act => .ext k a n (fun m => σ.w (act m))

def nodes (σ : Sub) : List Node → List Node
  | [] => []
  | n :: ns => node σ n :: nodes σ ns

def nodess (σ : Sub) : List (List Node) → List (List Node)
  | [] => []
  | r :: rs => nodes σ r :: nodess σ rs

def pairsN (σ : Sub) : List (Node × Node) → List (Node × Node)
  | [] => []
  | (a, b) :: ps => (node σ a, node σ b) :: pairsN σ ps
end

variable (σ : Sub)

@[simp] theorem w_ok : σ.w .ok = .ok := rfl
@[simp] theorem w_wr (s : Str) : σ.w (.wr s) = .wr s := rfl
@[simp] theorem w_fail (e : Str) : σ.w (.fail e) = .fail e := rfl
@[simp] theorem w_panic : σ.w .panic = .panic := rfl
@[simp] theorem w_hang : σ.w .hang = .hang := rfl
@[simp] theorem w_emit (i : Instr) : σ.w (.emit i) = .emit (σ.instr i) := rfl
@[simp] theorem w_seq (a b : W) : σ.w (a ⨟ b) = σ.w a ⨟ σ.w b := by
  unfold W.seq w; cases h : a.st <;> simp [h]
@[simp] theorem w_ignoreErr (a : W) : σ.w a.ignoreErr = (σ.w a).ignoreErr := by
  unfold W.ignoreErr w; cases h : a.st <;> simp [h]
@[simp] theorem w_when (c : Bool) (a : W) : σ.w (.when c a) = .when c (σ.w a) := by
  cases c <;> simp [W.when]
@[simp] theorem w_ofRes {α : Type} (r : Res α) (f : α → W) : σ.w (.ofRes r f) = .ofRes r (fun a => σ.w (f a)) := by
  cases r <;> simp [W.ofRes]
@[simp] theorem w_ite (c : Prop) [Decidable c] (a b : W) : σ.w (if c then a else b) = if c then σ.w a else σ.w b := by
  split <;> rfl

theorem w_sepBy (sep : Str) (ws : List W) : σ.w (sepBy sep ws) = sepBy sep (ws.map σ.w) := by
  induction ws with
  | nil => rfl
  | cons a ws ih =>
    cases ws with
    | nil => rfl
    | cons b ws => simp [sepBy] at ih ⊢; rw [ih]
theorem w_seqAll (ws : List W) : σ.w (seqAll ws) = seqAll (ws.map σ.w) := by
  induction ws with
  | nil => rfl
  | cons a ws ih => simp [seqAll, ih]

@[simp] theorem obj_alias (o : Obj) : (σ.obj o).alias = o.alias := rfl
@[simp] theorem obj_name (o : Obj) : (σ.obj o).name = o.name := rfl
@[simp] theorem obj_key (o : Obj) : (σ.obj o).key = o.key := rfl
@[simp] theorem obj_act (o : Obj) (m : Mode) (pn : Str) : (σ.obj o).act m pn = σ.w (o.act m pn) := rfl
@[simp] theorem obj_kind (o : Obj) : (σ.obj o).kind = σ.kind o.kind := rfl
@[simp] theorem kind_isNil (k : Kind) : (σ.kind k).isNil = k.isNil := by cases k <;> rfl
@[simp] theorem kind_isAppender (k : Kind) : (σ.kind k).isAppender = k.isAppender := by cases k <;> rfl
@[simp] theorem kind_isQuery (k : Kind) : (σ.kind k).isQuery = k.isQuery := by cases k <;> rfl
@[simp] theorem kind_hasName (k : Kind) : (σ.kind k).hasName = k.hasName := by cases k <;> rfl
@[simp] theorem kind_toArg (k : Kind) : (σ.kind k).toArg = σ.arg k.toArg := by
  cases k <;> simp [kind, Kind.toArg, arg, σ.nil_eq]
@[simp] theorem obj_npreds (o : Obj) : (σ.obj o).npreds = o.npreds := by
  simp only [Obj.npreds, obj_kind]; cases o.kind <;> rfl
@[simp] theorem pv_toObj (o : PV) : (σ.pv o).toObj = σ.obj o.toObj := rfl
@[simp] theorem pv_hook (o : PV) (env : Env) : (σ.pv o).hook env = σ.hook (o.hook env) := rfl
@[simp] theorem isRecCte_obj (o : Obj) : isRecCte (σ.obj o) = isRecCte o := by
  simp only [isRecCte, obj_kind]; cases o.kind <;> rfl

macro "sub_simp" "[" ls:Lean.Parser.Tactic.simpLemma,* "]" : tactic =>
  `(tactic| simp only [w_ok, w_wr, w_fail, w_panic, w_hang, w_emit, w_seq, w_ignoreErr, w_when, w_ofRes, w_ite, obj_alias,
    obj_name, obj_key, obj_act, obj_kind, kind_isNil, kind_isAppender, kind_isQuery, kind_hasName, kind_toArg, obj_npreds,
    pv_toObj, pv_hook, isRecCte_obj, List.map_cons, List.map_nil, List.map_map, Function.comp_def, ne_eq,
    List.map_eq_nil_iff, List.any_map, $ls,*])

theorem explodeElem_sub (m : Mode) (o : Obj) : explodeElem m (σ.obj o) = σ.w (explodeElem m o) := by
  sub_simp [explodeElem, instr]

theorem explodeSlice_sub (m : Mode) (os : List Obj) :
    explodeSlice m (os.map σ.obj) = σ.w (explodeSlice m os) := by
  sub_simp [explodeSlice, w_sepBy, Function.comp_def, explodeElem_sub]

theorem lookupName_sub (vals : List Obj) (nm : Str) :
    lookupName (vals.map σ.obj) nm = (lookupName vals nm).map σ.obj := by
  unfold lookupName
  have : ∀ (l : List Obj) (r : Option Obj),
      (l.map σ.obj).foldl (fun r o => if o.key = some nm then some o else r) (r.map σ.obj) =
        (l.foldl (fun r o => if o.key = some nm then some o else r) r).map σ.obj := by
    intro l
    induction l with
    | nil => intro r; rfl
    | cons a l ih =>
      intro r
      simp only [List.map_cons, List.foldl_cons, obj_key]
      rw [← ih]
      by_cases h : a.key = some nm <;> simp [h]
  exact this vals none

theorem applyNameonly_sub (on : Bool) (o : Obj) (m : Mode) (pn : Str) :
    applyNameonly on (σ.obj o) m pn = σ.w (applyNameonly on o m pn) := by
  sub_simp [applyNameonly]

theorem printSegs_sub (m : Mode) (vals : List Obj) (idx : Nat) (ords : List Str) (segs : List Seg) :
    printSegs m (vals.map σ.obj) idx ords segs = σ.w (printSegs m vals idx ords segs) := by
  induction segs generalizing idx ords with
  | nil => sub_simp [printSegs, instr]
  | cons sg segs ih =>
    cases sg with
    | lit c => sub_simp [printSegs, ih]
    | unclosed s => sub_simp [printSegs, instr]
    | trailing => sub_simp [printSegs]
    | hole body =>
      simp only [printSegs, w_ofRes]
      congr 1
      funext ms
      simp only [w_ite]
      split
      · simp only [List.getElem?_map]
        cases vals[idx]? <;> sub_simp [applyNameonly_sub, ih, Option.map_none, Option.map_some]
      · cases atoi (splitColon body).1 with
        | none =>
          simp only [lookupName_sub]
          cases lookupName vals (splitColon body).1 <;> sub_simp [applyNameonly_sub, ih, Option.map_none, Option.map_some]
        | some num =>
          simp only [w_ite]
          split
          · simp
          · simp only [List.getElem?_map]
            cases vals[(num - 1).toNat]? <;> sub_simp [applyNameonly_sub, ih, Option.map_none, Option.map_some]

theorem bprintf_sub (m : Mode) (fmt : Str) (vals : List Obj) :
    bprintf m fmt (vals.map σ.obj) = σ.w (bprintf m fmt vals) := printSegs_sub σ m vals 0 [] _

theorem fieldInfo_sub (m : Mode) (fi : FInfo) (vals : List Obj) :
    fieldInfoAppend m fi (vals.map σ.obj) = σ.w (fieldInfoAppend m fi vals) := by
  unfold fieldInfoAppend
  cases fi.err <;> sub_simp []
  split
  · cases chooseFormat m.d fi.formats <;> sub_simp [bprintf_sub]
  · simp

theorem fields_sub (m : Mode) (fs : List Obj) : fieldsAppend m (fs.map σ.obj) = σ.w (fieldsAppend m fs) := by
  sub_simp [fieldsAppend, w_sepBy, Function.comp_def]

theorem asAlias_sub (d : Dialect) (a : Str) : σ.w (asAlias d a) = asAlias d a := by
  sub_simp [asAlias]

theorem aliasFields_sub (m : Mode) (fs : List Obj) :
    aliasFieldsAppend m (fs.map σ.obj) = σ.w (aliasFieldsAppend m fs) := by
  sub_simp [aliasFieldsAppend, w_sepBy, Function.comp_def, aliasField, asAlias_sub]

theorem customPred_sub (m : Mode) (neg : Bool) (fmt : Str) (vals : List Obj) :
    customPredAppend m neg fmt (vals.map σ.obj) = σ.w (customPredAppend m neg fmt vals) := by
  sub_simp [customPredAppend, bprintf_sub]

theorem operand_sub (m : Mode) (p : Obj) : operand m (σ.obj p) = σ.w (operand m p) := by
  sub_simp [operand]

theorem variadic_sub (m : Mode) (top isOr neg : Bool) (ps : List Obj) :
    variadicAppend m top isOr neg (ps.map σ.obj) = σ.w (variadicAppend m top isOr neg ps) := by
  match ps with
  | [] => sub_simp [variadicAppend]
  | [p] =>
    simp only [variadicAppend, List.map_cons, List.map_nil, w_seq, w_when, w_wr, obj_kind]
    congr 1
    cases p.kind <;> sub_simp [kind]
  | p :: q :: ps => sub_simp [variadicAppend, w_sepBy, Function.comp_def, operand_sub]

theorem caseArm_sub (m : Mode) (p : Obj × Obj) : caseArm m (σ.pair p) = σ.w (caseArm m p) := by
  sub_simp [caseArm, pair]

theorem elseEnd_sub (m : Mode) (o : Obj) : elseEnd m (σ.obj o) = σ.w (elseEnd m o) := by
  sub_simp [elseEnd]

theorem predCases_sub (m : Mode) (cs : List (Obj × Obj)) (fb : Obj) :
    predCasesAppend m (cs.map σ.pair) (σ.obj fb) = σ.w (predCasesAppend m cs fb) := by
  sub_simp [predCasesAppend, w_seqAll, Function.comp_def, caseArm_sub, elseEnd_sub]

theorem simpleCases_sub (m : Mode) (e : Obj) (cs : List (Obj × Obj)) (fb : Obj) :
    simpleCasesAppend m (σ.obj e) (cs.map σ.pair) (σ.obj fb) = σ.w (simpleCasesAppend m e cs fb) := by
  sub_simp [simpleCasesAppend, w_seqAll, Function.comp_def, caseArm_sub, elseEnd_sub]

theorem window_sub (m : Mode) (a b : List Obj) (f : Str) :
    windowAppend m (a.map σ.obj) (b.map σ.obj) f = σ.w (windowAppend m a b f) := by
  sub_simp [windowAppend, fields_sub]

theorem rowValue_sub (m : Mode) (vs : List Obj) : rowValueAppend m (vs.map σ.obj) = σ.w (rowValueAppend m vs) := by
  sub_simp [rowValueAppend, w_sepBy, Function.comp_def]

theorem rowValues_sub (m : Mode) (rows : List (List Obj)) :
    rowValuesAppend m (rows.map (List.map σ.obj)) = σ.w (rowValuesAppend m rows) := by
  sub_simp [rowValuesAppend, w_sepBy, Function.comp_def, rowValue_sub]

theorem assign_sub (m : Mode) (l r : Obj) : assignAppend m (σ.obj l) (σ.obj r) = σ.w (assignAppend m l r) := by
  sub_simp [assignAppend]

theorem assigns_sub (m : Mode) (as : List (Obj × Obj)) :
    assignsAppend m (as.map σ.pair) = σ.w (assignsAppend m as) := by
  sub_simp [assignsAppend, w_sepBy, Function.comp_def, pair, assign_sub]

theorem join_sub (m : Mode) (jt : Str) (t o : Obj) :
    joinAppend m jt (σ.obj t) (σ.obj o) = σ.w (joinAppend m jt t o) := by
  sub_simp [joinAppend, asAlias_sub]

theorem joins_sub (m : Mode) (js : List Obj) : joinsAppend m (js.map σ.obj) = σ.w (joinsAppend m js) := by
  sub_simp [joinsAppend, w_sepBy, Function.comp_def]

theorem cteRef_sub (c : CteMeta) : σ.w (cteRefAppend c) = cteRefAppend c := by
  unfold cteRefAppend; cases c.sticky <;> sub_simp []

theorem cteDef_sub (m : Mode) (c : CteMeta) (q : Obj) :
    cteDefAppend m c (σ.obj q) = σ.w (cteDefAppend m c q) := by
  unfold cteDefAppend
  cases c.sticky with
  | some e => simp
  | none =>
    simp only [w_ite, w_fail, w_seq, w_wr, w_when, obj_kind]
    split
    · rfl
    · congr 1; congr 1; congr 1; congr 1
      · cases m.d <;> first | (cases c.materialized with
          | none => simp
          | some b => cases b <;> simp) | simp
      · congr 1; congr 1
        cases q.kind <;> sub_simp [kind]

theorem ctes_sub (m : Mode) (cs : List Obj) : ctesAppend m (cs.map σ.obj) = σ.w (ctesAppend m cs) := by
  sub_simp [ctesAppend, w_sepBy, Function.comp_def]

theorem subquery_sub (m : Mode) (st : Option Str) (a : Str) (q : Obj) :
    subqueryAppend m st a (σ.obj q) = σ.w (subqueryAppend m st a q) := by
  unfold subqueryAppend; cases st <;> sub_simp []

theorem checkedField_sub (m : Mode) (s : Bool) (av : List Str) (fi : FInfo) :
    checkedFieldAppend m s av fi = σ.w (checkedFieldAppend m s av fi) := by
  have := fieldInfo_sub σ (m.call none m.ex) fi []
  simp at this
  sub_simp [checkedFieldAppend, ← this]

theorem vqOperand_sub (m : Mode) (q : Obj) : vqOperand m (σ.obj q) = σ.w (vqOperand m q) := by
  simp only [vqOperand, obj_kind]
  cases q.kind <;> sub_simp [kind]

theorem variadicQuery_sub (m : Mode) (top : Bool) (op : Str) (qs : List Obj) :
    variadicQueryAppend m top op (qs.map σ.obj) = σ.w (variadicQueryAppend m top op qs) := by
  match qs with
  | [] => sub_simp [variadicQueryAppend]
  | [q] =>
    simp only [variadicQueryAppend, List.map_cons, List.map_nil, obj_kind]
    cases q.kind <;> sub_simp [kind]
  | p :: q :: ps => sub_simp [variadicQueryAppend, w_sepBy, Function.comp_def, vqOperand_sub]

theorem limit_sub (m : Mode) (kw : Str) (n : Option Int) :
    limitAppend m kw (n.map σ.lim) = σ.w (limitAppend m kw n) := by
  cases n with
  | none => rfl
  | some i =>
    simp only [limitAppend, Option.map_some]
    rw [← bprintf_sub]
    congr 1
    sub_simp [obj, kind, instr, arg, σ.lim_eq]

theorem collectHooks_sub (env : Env) (ts : List PV) :
    collectHooks env (ts.map σ.pv) = (collectHooks env ts).map (List.map σ.obj) := by
  induction ts with
  | nil => sub_simp [collectHooks, Res.map]
  | cons t ts ih =>
    simp only [List.map_cons, collectHooks, pv_hook, ih]
    cases t.hook env with
    | none => sub_simp [hook]
    | err e => sub_simp [hook, Res.map]
    | pred o => cases collectHooks env ts <;> sub_simp [hook, Res.map]

theorem ofRes_map {α β : Type} (r : Res α) (g : α → β) (f : β → W) :
    W.ofRes (r.map g) f = W.ofRes r (fun a => f (g a)) := by cases r <;> rfl

theorem predClause_sub (m : Mode) (kw : Str) (p : Obj) : predClause m kw (σ.obj p) = σ.w (predClause m kw p) := by
  sub_simp [predClause]

theorem whereWithHooks_sub (m : Mode) (hooks : List Obj) (own : Obj) :
    whereWithHooks m (hooks.map σ.obj) (σ.obj own) = σ.w (whereWithHooks m hooks own) := by
  have := variadic_sub σ m true false false (hooks ++ [own])
  simp at this
  sub_simp [whereWithHooks, predClause_sub, this]

theorem tableRef_sub (m : Mode) (t : Obj) : tableRef m (σ.obj t) = σ.w (tableRef m t) := by
  sub_simp [tableRef, asAlias_sub]

theorem withTrue_sub (o : Obj) : withTrue (σ.obj o) = σ.obj (withTrue o) := rfl

theorem select_sub (m : Mode) (q : SelMeta) (ctes fields don : List Obj) (from_ : PV) (joins : List PV) (wh : Obj)
    (gb : List Obj) (hv : Obj) (ob : List Obj) :
    selectAppend m (σ.selMeta q) (ctes.map σ.obj) (fields.map σ.obj) (don.map σ.obj) (σ.pv from_) (joins.map σ.pv)
      (σ.obj wh) (gb.map σ.obj) (σ.obj hv) (ob.map σ.obj) =
    σ.w (selectAppend m q ctes fields don from_ joins wh gb hv ob) := by
  unfold selectAppend
  simp only [selMeta, w_seq, w_when, w_wr, w_ite, w_fail, w_ofRes, ctes_sub, fields_sub, aliasFields_sub, clause,
    predClause_sub, limit_sub, pv_toObj, tableRef_sub, obj_kind, kind_isNil, obj_npreds, withTrue_sub]
  have hj : (joins.map σ.pv).map PV.toObj = (joins.map PV.toObj).map σ.obj := by sub_simp [Function.comp_def]
  have hh : collectHooks (effEnv m.env q.env) (σ.pv from_ :: joins.map σ.pv) =
      (collectHooks (effEnv m.env q.env) (from_ :: joins)).map (List.map σ.obj) := collectHooks_sub σ _ (from_ :: joins)
  rw [hj, joins_sub, hh, ofRes_map]
  simp only [ne_eq, List.map_eq_nil_iff]
  simp only [← apply_ite σ.obj, whereWithHooks_sub]

theorem conflict_sub (m : Mode) (ex : List Str) (q : InsMeta) (cf : List Obj) (cp : Obj) (res : List (Obj × Obj)) (rp : Obj) :
    insertConflict m ex q (cf.map σ.obj) (σ.obj cp) (res.map σ.pair) (σ.obj rp) =
      σ.w (insertConflict m ex q cf cp res rp) := by
  unfold insertConflict
  cases m.d <;> sub_simp [fields_sub, assigns_sub, predClause_sub]

theorem returning_sub (m : Mode) (fs : List Obj) : returningAppend m (fs.map σ.obj) = σ.w (returningAppend m fs) := by
  sub_simp [returningAppend, aliasFields_sub]

theorem columnInsert_sub (calls : List (Obj × Obj)) :
    columnInsert (fun o : Obj => o.name) (calls.map σ.pair) =
      ((columnInsert (fun o : Obj => o.name) calls).1.map σ.obj,
       (columnInsert (fun o : Obj => o.name) calls).2.map (List.map σ.obj)) := by
  have happ : ∀ (v : Obj) (rows : List (List Obj)),
      appendLast (σ.obj v) (rows.map (List.map σ.obj)) = (appendLast v rows).map (List.map σ.obj) := by
    intro v rows
    induction rows with
    | nil => sub_simp [appendLast]
    | cons r rs ih => cases rs <;> simp_all [appendLast]
  let T : Col Obj Obj → Col Obj Obj := fun c =>
    { c with insertColumns := c.insertColumns.map σ.obj, rowValues := c.rowValues.map (List.map σ.obj) }
  have step : ∀ (c : Col Obj Obj) (p : Obj × Obj),
      (T c).set (fun o : Obj => o.name) (σ.pair p).1 (σ.pair p).2 = T (c.set (fun o : Obj => o.name) p.1 p.2) := by
    intro c p
    by_cases h1 : c.rowStarted = false
    · simp [Col.set, T, pair, h1]
    · by_cases h2 : p.1.name = c.firstField
      · simp [Col.set, T, pair, h1, h2]
      · by_cases h3 : c.rowEnded = true <;> simp [Col.set, T, pair, h1, h2, h3, happ]
  have key : ∀ (calls : List (Obj × Obj)) (c : Col Obj Obj),
      (calls.map σ.pair).foldl (fun c p => c.set (fun o : Obj => o.name) p.1 p.2) (T c) =
        T (calls.foldl (fun c p => c.set (fun o : Obj => o.name) p.1 p.2) c) := by
    intro calls
    induction calls with
    | nil => intro c; rfl
    | cons p ps ih => intro c; simp only [List.map_cons, List.foldl_cons, step, ih]
  have := key calls {}
  have h0 : T {} = {} := rfl
  rw [h0] at this
  simp only [columnInsert, this, T]

theorem insertCR_sub (q : InsMeta) (cols : List Obj) (rows : List (List Obj)) (sets : List (Obj × Obj)) :
    insertColumnsRows q (cols.map σ.obj) (rows.map (List.map σ.obj)) (sets.map σ.pair) =
      (insertColumnsRows q cols rows sets).map (fun p => (p.1.map σ.obj, p.2.map (List.map σ.obj))) := by
  unfold insertColumnsRows
  have : (sets.map σ.pair).any (fun p => p.1.kind.isNil) = sets.any (fun p => p.1.kind.isNil) := by
    sub_simp [Function.comp_def, pair]
  rw [this]
  split
  · split
    · rfl
    · cases q.mapErr <;> sub_simp [Res.map, columnInsert_sub]
  · sub_simp [Res.map]

theorem insert_sub (m : Mode) (q : InsMeta) (ctes : List Obj) (into : Obj) (cols : List Obj) (rows : List (List Obj))
    (sets : List (Obj × Obj)) (sel : Obj) (cf : List Obj) (cp : Obj) (res : List (Obj × Obj)) (rp : Obj) (ret : List Obj) :
    insertAppend m q (ctes.map σ.obj) (σ.obj into) (cols.map σ.obj) (rows.map (List.map σ.obj)) (sets.map σ.pair)
      (σ.obj sel) (cf.map σ.obj) (σ.obj cp) (res.map σ.pair) (σ.obj rp) (ret.map σ.obj) =
    σ.w (insertAppend m q ctes into cols rows sets sel cf cp res rp ret) := by
  unfold insertAppend
  simp only [insertCR_sub, ofRes_map, w_ofRes]
  congr 1
  funext p
  sub_simp [ctes_sub, fields_sub, rowValues_sub, conflict_sub, returning_sub, qualifierOf]
  rfl

theorem updateAs_sub (q : ModMeta) (as sets : List (Obj × Obj)) :
    updateAssignments (σ.modMeta q) (as.map σ.pair) (sets.map σ.pair) =
      (updateAssignments q as sets).map (List.map σ.pair) := by
  unfold updateAssignments
  have : (sets.map σ.pair).any (fun p => p.1.kind.isNil) = sets.any (fun p => p.1.kind.isNil) := by
    sub_simp [Function.comp_def, pair]
  rw [this]
  simp only [modMeta, columnUpdate_eq]
  split
  · split
    · rfl
    · cases q.mapErr <;> sub_simp [Res.map]
  · sub_simp [Res.map]

theorem update_sub (m : Mode) (q : ModMeta) (ctes : List Obj) (tb fr : PV) (js : List PV) (as sets : List (Obj × Obj))
    (wh : Obj) (ob ret : List Obj) :
    updateAppend m (σ.modMeta q) (ctes.map σ.obj) (σ.pv tb) (σ.pv fr) (js.map σ.pv) (as.map σ.pair) (sets.map σ.pair)
      (σ.obj wh) (ob.map σ.obj) (ret.map σ.obj) =
    σ.w (updateAppend m q ctes tb fr js as sets wh ob ret) := by
  unfold updateAppend
  simp only [updateAs_sub, ofRes_map, w_ofRes]
  congr 1
  funext p
  have hj : (js.map σ.pv).map PV.toObj = (js.map PV.toObj).map σ.obj := by sub_simp [Function.comp_def]
  have hh : ∀ e, collectHooks e (σ.pv tb :: σ.pv fr :: js.map σ.pv) =
      (collectHooks e (tb :: fr :: js)).map (List.map σ.obj) := fun e => collectHooks_sub σ e (tb :: fr :: js)
  rw [hj, joins_sub, hh, ofRes_map]
  sub_simp [ctes_sub, fields_sub, assigns_sub, predClause_sub, limit_sub, returning_sub, qualifierOf, tableRef_sub, modMeta, Option.isSome_map]
  rfl

theorem delete_sub (m : Mode) (q : ModMeta) (ctes : List Obj) (frs : List PV) (us : Obj) (js : List Obj)
    (wh : Obj) (ob ret : List Obj) :
    deleteAppend m (σ.modMeta q) (ctes.map σ.obj) (frs.map σ.pv) (σ.obj us) (js.map σ.obj) (σ.obj wh) (ob.map σ.obj)
      (ret.map σ.obj) =
    σ.w (deleteAppend m q ctes frs us js wh ob ret) := by
  unfold deleteAppend
  simp only [collectHooks_sub, ofRes_map, w_ofRes]
  simp only [w_seq, ctes_sub, fields_sub, predClause_sub, limit_sub, returning_sub, tableRef_sub, modMeta, w_when,
    w_wr, w_ite, w_fail, joins_sub, whereWithHooks_sub, obj_kind, kind_isNil, ne_eq, List.map_eq_nil_iff,
    Option.isSome_map, w_ofRes]
  congr 1; congr 1; congr 1
  cases frs with
  | nil => simp
  | cons f fs =>
    sub_simp [w_sepBy, Function.comp_def, tableRef_sub]
    rfl

theorem param_sub (m : Mode) (n : Str) (v : Obj) (h : v.kind.isAppender = true ∨ (∃ i, v.kind = .slice i) ∨ σ.par n = none) :
    paramAppend m n (σ.obj v) = σ.w (paramAppend m n v) := by
  unfold paramAppend
  simp only [w_ite, w_fail, obj_kind, kind_isAppender, obj_act]
  split
  · rfl
  · split
    · rfl
    · rename_i hna
      rcases h with h | ⟨i, h⟩ | h
      · contradiction
      · sub_simp [h, kind]
      · cases hk : v.kind <;> sub_simp [kind, Kind.toArg, instr, h, arg, σ.nil_eq]

end Sub

end Sq
