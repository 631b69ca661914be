import Verif.Props.Boolean
import Verif.Props.Errors
/-
C19, C20: row-level predicates supplied by tables (`PredicateHook`).
-/
namespace Sq
open _root_.Spec

/-! ### What the tables ask for -/

/-- The predicate a table (or the table of a join) supplies in an environment: `none` if it supplies nothing. -/
def suppliedBy : Node → Env → Option Node
  | .table _ _ _ hk hp, env => match hk env with | .pred => some (hp env) | _ => none
  | .join _ tbl _, env => suppliedBy tbl env
  | _, _ => none

/-- The predicates supplied by a list of tables and joins, in order. -/
def supplied (env : Env) (ts : List Node) : List Node := ts.filterMap (suppliedBy · env)

/-- The same table (or join) without its hook. -/
def unhooked : Node → Node
  | .table s n a _ _ => .table s n a (fun _ => .none) (fun _ => .nil)
  | .join jt tbl on => .join jt (unhooked tbl) on
  | n => n

/-! ### Lemmas -/

theorem unhooked_obj : (n : Node) → (obj (unhooked n)).toObj = (obj n).toObj
  | .table _ _ _ _ _ => rfl
  | .join jt tbl on => by
    have ih := unhooked_obj tbl
    show Obj.mk _ _ _ _ (ren (.join jt (unhooked tbl) on)) = Obj.mk _ _ _ _ (ren (.join jt tbl on))
    congr 1
    funext m pn
    simp only [ren]
    rw [show (mkPV (unhooked tbl) (ren (unhooked tbl)) (hookOf (unhooked tbl))).toObj = _ from ih]
    rfl
  | .nil | .scalar _ | .slice _ _ | .namedArg _ _ | .param _ _ | .field _ _ _ _ | .checkedField _ _ _ | .literal _ _
  | .value _ _ | .cpred _ _ _ _ | .vpred _ _ _ _ _ | .predCases _ _ _ | .simpleCases _ _ _ _ | .window _ _ _
  | .rowValue _ | .rowValues _ | .assign _ _ | .assigns _ | .fields _ | .customTable _ _ | .cte _ _ | .subquery _ _ _
  | .vquery _ _ _ | .customQuery _ _ _ | .select _ _ _ _ _ _ _ _ _ _ | .insert _ _ _ _ _ _ _ _ _ _ _ _
  | .update _ _ _ _ _ _ _ _ _ _ | .delete _ _ _ _ _ _ _ _ | .ext _ _ _ _ => rfl

theorem unhooked_hook : (n : Node) → (env : Env) → hookOf (unhooked n) env = .none
  | .table _ _ _ _ _, env => by simp [unhooked, hookOf]
  | .join jt tbl on, env => by
    simp only [unhooked, hookOf]
    exact unhooked_hook tbl env
  | .nil, _ | .scalar _, _ | .slice _ _, _ | .namedArg _ _, _ | .param _ _, _ | .field _ _ _ _, _ | .checkedField _ _ _, _
  | .literal _ _, _ | .value _ _, _ | .cpred _ _ _ _, _ | .vpred _ _ _ _ _, _ | .predCases _ _ _, _
  | .simpleCases _ _ _ _, _ | .window _ _ _, _ | .rowValue _, _ | .rowValues _, _ | .assign _ _, _ | .assigns _, _
  | .fields _, _ | .customTable _ _, _ | .cte _ _, _ | .subquery _ _ _, _ | .vquery _ _ _, _ | .customQuery _ _ _, _
  | .select _ _ _ _ _ _ _ _ _ _, _ | .insert _ _ _ _ _ _ _ _ _ _ _ _, _ | .update _ _ _ _ _ _ _ _ _ _, _
  | .delete _ _ _ _ _ _ _ _, _ | .ext _ _ _ _, _ => by simp [unhooked, hookOf]

theorem hook_cases : (n : Node) → (env : Env) → ¬ HookFails n env →
    (suppliedBy n env = none ∧ hookOf n env = .none) ∨
    (∃ p, suppliedBy n env = some p ∧ hookOf n env = .pred (obj p).toObj)
  | .table s nm a hk hp, env, h => by
    simp only [suppliedBy, hookOf]
    cases hh : hk env with
    | none => left; simp
    | err e => exact absurd ⟨e, hh⟩ h
    | pred => right; exact ⟨hp env, rfl, rfl⟩
  | .join jt tbl on, env, h => by
    simp only [suppliedBy, hookOf]
    exact hook_cases tbl env h
  | .nil, _, _ | .scalar _, _, _ | .slice _ _, _, _ | .namedArg _ _, _, _ | .param _ _, _, _ | .field _ _ _ _, _, _
  | .checkedField _ _ _, _, _ | .literal _ _, _, _ | .value _ _, _, _ | .cpred _ _ _ _, _, _ | .vpred _ _ _ _ _, _, _
  | .predCases _ _ _, _, _ | .simpleCases _ _ _ _, _, _ | .window _ _ _, _, _ | .rowValue _, _, _ | .rowValues _, _, _
  | .assign _ _, _, _ | .assigns _, _, _ | .fields _, _, _ | .customTable _ _, _, _ | .cte _ _, _, _
  | .subquery _ _ _, _, _ | .vquery _ _ _, _, _ | .customQuery _ _ _, _, _ | .select _ _ _ _ _ _ _ _ _ _, _, _
  | .insert _ _ _ _ _ _ _ _ _ _ _ _, _, _ | .update _ _ _ _ _ _ _ _ _ _, _, _ | .delete _ _ _ _ _ _ _ _, _, _
  | .ext _ _ _ _, _, _ => by left; simp [suppliedBy, hookOf]

theorem collect_supplied (env : Env) (ts : List Node) (h : ∀ t ∈ ts, ¬ HookFails t env) :
    collectHooks env (objs ts) = .ok ((objs (supplied env ts)).map PV.toObj) := by
  induction ts with
  | nil => simp [objs, collectHooks, supplied]
  | cons t ts ih =>
    have ih := ih (fun x hx => h x (by simp [hx]))
    simp only [objs, collectHooks]
    show (match hookOf t env with | .err e => _ | .none => _ | .pred o => _) = _
    rcases hook_cases t env (h t (by simp)) with ⟨h1, h2⟩ | ⟨p, h1, h2⟩
    · rw [h2]
      simp only
      rw [ih]
      simp [supplied, h1]
    · rw [h2]
      simp only
      rw [ih]
      simp only [Res.map_ok, supplied, List.filterMap_cons, h1, objs, List.map_cons]
      rfl

theorem collect_unhooked (env : Env) (ts : List Node) : collectHooks env (objs (ts.map unhooked)) = .ok [] := by
  induction ts with
  | nil => simp [objs, collectHooks]
  | cons t ts ih =>
    simp only [List.map_cons, objs, collectHooks]
    show (match hookOf (unhooked t) env with | .err e => _ | .none => _ | .pred o => _) = _
    rw [unhooked_hook]
    exact ih

theorem map_unhooked_obj (ts : List Node) : (objs (ts.map unhooked)).map PV.toObj = (objs ts).map PV.toObj := by
  induction ts with
  | nil => rfl
  | cons t ts ih =>
    simp only [List.map_cons, objs, ih]
    congr 1
    exact unhooked_obj t

/-- `And(ps...)` -/
def andOf (ps : List Node) : Node := .vpred false [] false false ps

theorem andOf_clause (m : Mode) (hs : List Node) (own : Node) :
    predClause m " WHERE " (obj (andOf (hs ++ [own]))).toObj =
      (.wr " WHERE " ⨟ variadicAppend m true false false ((objs hs).map PV.toObj ++ [(obj own).toObj])) := by
  have hn : (obj (andOf (hs ++ [own]))).toObj.npreds > 0 := by
    show (hs ++ [own]).length > 0
    simp
  unfold predClause
  rw [decide_eq_true hn, when_true]
  congr 1
  show ren (andOf (hs ++ [own])) { m with meth := .top true } [] = _
  unfold andOf
  rw [ren_group _ _ _ _ _ _ (by simp)]
  rw [variadic_mode { m with meth := .top true } m rfl rfl]
  congr 1
  rw [objs_eq, objs_eq]
  simp

/-! ### C19 -/

/-- **C19 (partial).** A SELECT whose FROM and JOIN tables supply predicates (and whose own WHERE is `wh`) renders exactly as
the same SELECT over tables without hooks and with the WHERE condition `And(supplied predicates..., wh)`.  This holds in
every dialect, for any number of tables and any environment in which no hook fails (a failing hook fails the query:
C21_select_hook_error).  Missing: see C19_empty_where_violated for an empty own WHERE. -/
theorem C19_select_filtered_partial (q : SelMeta) (ctes fields don : List Node) (from_ : Node) (joins : List Node)
    (wh : Node) (gb : List Node) (hv : Node) (ob : List Node) (m : Mode) (hm : m.meth ≠ .whereTrue)
    (hok : ∀ t ∈ from_ :: joins, ¬ HookFails t (effEnv m.env q.env))
    (hne : supplied (effEnv m.env q.env) (from_ :: joins) ≠ []) :
    ren (.select q ctes fields don from_ joins wh gb hv ob) m [] =
    ren (.select q ctes fields don (unhooked from_) (joins.map unhooked)
      (andOf (supplied (effEnv m.env q.env) (from_ :: joins) ++ [wh])) gb hv ob) m [] := by
  have h1 := collect_supplied (effEnv m.env q.env) (from_ :: joins) hok
  have h2 := collect_unhooked (effEnv m.env q.env) (from_ :: joins)
  simp only [ren, selectAppend, hm, false_and, if_false]
  rw [map_unhooked_obj]
  have hf : (mkPV (unhooked from_) (ren (unhooked from_)) (hookOf (unhooked from_))).toObj = (obj from_).toObj :=
    unhooked_obj from_
  have hj : (objs (joins.map unhooked) ≠ []) = (objs joins ≠ []) := by
    rw [objs_eq, objs_eq]; simp
  simp only [hf, hj]
  have e1 : mkPV from_ (ren from_) (hookOf from_) :: objs joins = objs (from_ :: joins) := rfl
  have e2 : mkPV (unhooked from_) (ren (unhooked from_)) (hookOf (unhooked from_)) :: objs (joins.map unhooked) =
      objs ((from_ :: joins).map unhooked) := rfl
  rw [e1, e2, h1, h2]
  simp only [W.ofRes]
  have hh : (objs (supplied (effEnv m.env q.env) (from_ :: joins))).map PV.toObj ≠ [] := by
    rw [objs_eq]; simpa using hne
  have hw : ∀ mm : Mode, whereWithHooks mm ((objs (supplied (effEnv m.env q.env) (from_ :: joins))).map PV.toObj)
      (mkPV wh (ren wh) (hookOf wh)).toObj =
      whereWithHooks mm [] (obj (andOf (supplied (effEnv m.env q.env) (from_ :: joins) ++ [wh]))).toObj := by
    intro mm
    unfold whereWithHooks
    rw [if_pos hh, if_neg (by simp), andOf_clause]
    rfl
  rw [hw]
  rfl

/-- **C19 (partial), as read by the database.** The WHERE condition of that SELECT reads as the conjunction of the supplied
predicates and the query's own condition; the own condition is parenthesised, so no OR inside it can escape the hook. -/
theorem C19_where_is_conjunction_partial (preds : List Node) (wh : Node) (hp : preds ≠ []) (e : BExp Node) (es : List (BExp Node))
    (he : meaning wh = some e) (hes : meanings preds = some es) (hg : GroupedAll (preds ++ [wh])) (m : Mode) :
    ∃ ts c, ren (andOf (preds ++ [wh])) { m with meth := .top true } [] = printToks m ts ∧ readBool ts = some c ∧
      BExp.join .and (es ++ [e]) = some c := by
  have hms : meanings (preds ++ [wh]) = some (es ++ [e]) := by
    clear hg hp
    induction preds generalizing es with
    | nil => simp [meanings] at hes; subst hes; simp [meanings, he]
    | cons p ps ih =>
      simp only [meanings, Option.bind_eq_some_iff, Option.map_eq_some_iff] at hes
      obtain ⟨e1, he1, es', hes', rfl⟩ := hes
      simp only [List.cons_append, meanings, he1, Option.bind_some, ih es' hes', Option.map_some]
  obtain ⟨c, hc⟩ : ∃ c, BExp.join .and (es ++ [e]) = some c := by
    clear hes hms
    induction es with
    | nil => exact ⟨e, rfl⟩
    | cons x xs ih =>
      obtain ⟨c, hc⟩ := ih
      cases h : xs ++ [e] with
      | nil => simp at h
      | cons y ys =>
        rw [h] at hc
        exact ⟨.and x c, by rw [List.cons_append, h, BExp.join, hc]; rfl; simp⟩
  have hgr : Grouped true (andOf (preds ++ [wh])) := by
    simp only [andOf, Grouped]
    match preds, hp with
    | [p], _ => simp only [List.cons_append, List.nil_append, GroupedOps]; exact ⟨fun _ => trivial, hg⟩
    | p :: p2 :: ps, _ => simp only [List.cons_append, GroupedOps]; exact ⟨fun _ => trivial, hg⟩
  have hmean : meaning (andOf (preds ++ [wh])) = some c := by
    simp [andOf, meaning, hms, hc]
  obtain ⟨ts, h1, h2⟩ := C17_clause_reads_back_partial _ rfl c hmean hgr m
  exact ⟨ts, c, h1, h2, hc⟩

/-- A table with a tenant predicate, joined with a plain one; own condition with OR. -/
def Ex.tenantSel (wh : Node) : Node :=
  .select { env := some 1 } [] [.literal "1" []] [] Ex.guarded [.join "JOIN" Ex.users (Ex.andp [.literal "t" []])] wh []
    (Ex.andp []) []
example : supplied (some 1) [Ex.guarded, .join "JOIN" Ex.users (Ex.andp [.literal "t" []])] =
    [Ex.eqInt (Ex.col "accounts" "tenant") 7] := rfl
example : (toSQL .postgres (Ex.tenantSel (Ex.orp [.literal "a" [], .literal "b" []]))).query =
    "SELECT 1 FROM accounts JOIN users AS u ON t WHERE accounts.tenant = $1 AND (a OR b)".toList := by decide +kernel
example : GroupedAll ([Ex.eqInt (Ex.col "accounts" "tenant") 7] ++ [Ex.orp [.literal "a" [], .literal "b" []]]) := by
  simp [Ex.eqInt, Ex.orp, GroupedAll, Grouped, GroupedOps]

/-- **C19 (violated).** With a hook and no own WHERE, the clause ends in a dangling AND. -/
theorem C19_empty_where_violated :
    (toSQL .postgres (Ex.tenantSel (Ex.andp []))).query =
      "SELECT 1 FROM accounts JOIN users AS u ON t WHERE accounts.tenant = $1 AND ".toList ∧
    (toSQL .postgres (Ex.tenantSel (Ex.andp []))).status = .ok := by decide +kernel

/-- **C19 (violated).** A sub-query does not receive the environment: the tenant filter is not applied inside it, and a
table that supplies nothing without an environment is read unfiltered. -/
theorem C19_subquery_env_violated :
    let t : Node := .table [] "accounts" [] (fun env => match env with | none => .none | some _ => .pred)
      (fun _ => .literal "tenant = 7" [])
    let sub : Node := .select {} [] [.literal "1" []] [] t [] (Ex.andp [.literal "a" []]) [] (Ex.andp []) []
    (toSQL .postgres (.select { env := some 1 } [] [.literal "1" []] [] (.subquery none "s" sub) [] (Ex.andp []) []
      (Ex.andp []) [])).query = "SELECT 1 FROM (SELECT 1 FROM accounts WHERE a) AS s".toList := by decide +kernel

/-! ### C20 -/

/-- **C20 (violated, in general).** UPDATE never applies the predicates its tables supply: it renders exactly as the UPDATE over
tables without hooks, whatever the predicates are. -/
theorem C20_update_ignores_predicates_violated (q : ModMeta) (ctes : List Node) (table from_ : Node) (joins : List Node)
    (as sets : List (Node × Node)) (wh : Node) (ob ret : List Node) (m : Mode)
    (hok : ∀ t ∈ table :: from_ :: joins, ¬ HookFails t (effEnv m.env q.env)) :
    ren (.update q ctes table from_ joins as sets wh ob ret) m [] =
    ren (.update q ctes (unhooked table) (unhooked from_) (joins.map unhooked) as sets wh ob ret) m [] := by
  have h1 := collect_supplied (effEnv m.env q.env) (table :: from_ :: joins) hok
  have h2 := collect_unhooked (effEnv m.env q.env) (table :: from_ :: joins)
  simp only [ren, updateAppend]
  rw [map_unhooked_obj]
  have hf : ∀ n : Node, (mkPV (unhooked n) (ren (unhooked n)) (hookOf (unhooked n))).toObj = (obj n).toObj := unhooked_obj
  have hj : (objs (joins.map unhooked) ≠ []) = (objs joins ≠ []) := by
    rw [objs_eq, objs_eq]; simp
  simp only [hf, hj]
  have e1 : mkPV table (ren table) (hookOf table) :: mkPV from_ (ren from_) (hookOf from_) :: objs joins =
      objs (table :: from_ :: joins) := rfl
  have e2 : mkPV (unhooked table) (ren (unhooked table)) (hookOf (unhooked table)) ::
      mkPV (unhooked from_) (ren (unhooked from_)) (hookOf (unhooked from_)) :: objs (joins.map unhooked) =
      objs ((table :: from_ :: joins).map unhooked) := rfl
  rw [e1, e2, h1, h2]
  rfl

/-- The consequence as SQL: the tenant filter is missing. -/
theorem C20_update_unfiltered_violated :
    (toSQL .postgres (.update { env := some 1 } [] Ex.guarded .nil [] [(Ex.col "accounts" "x", .scalar (.int 1))] []
      (Ex.andp []) [] [])).query = "UPDATE accounts SET x = $1".toList := by decide +kernel

/-- **C20 (partial), DELETE.** The predicates supplied by the FROM tables of a DELETE restrict it: it renders as the DELETE over
tables without hooks with the WHERE condition `And(supplied predicates..., wh)`.  Missing: USING and JOIN tables, whose
predicates are ignored (next theorem), and an empty own WHERE, as for SELECT. -/
theorem C20_delete_filtered_partial (q : ModMeta) (ctes froms : List Node) (us : Node) (joins : List Node) (wh : Node)
    (ob ret : List Node) (m : Mode) (hok : ∀ t ∈ froms, ¬ HookFails t (effEnv m.env q.env))
    (hne : supplied (effEnv m.env q.env) froms ≠ []) :
    ren (.delete q ctes froms us joins wh ob ret) m [] =
    ren (.delete q ctes (froms.map unhooked) us joins (andOf (supplied (effEnv m.env q.env) froms ++ [wh])) ob ret) m [] := by
  have h1 := collect_supplied (effEnv m.env q.env) froms hok
  have h2 := collect_unhooked (effEnv m.env q.env) froms
  have hh : (objs (supplied (effEnv m.env q.env) froms)).map PV.toObj ≠ [] := by
    rw [objs_eq]; simpa using hne
  have hw : ∀ mm : Mode, whereWithHooks mm ((objs (supplied (effEnv m.env q.env) froms)).map PV.toObj)
      (mkPV wh (ren wh) (hookOf wh)).toObj =
      whereWithHooks mm [] (obj (andOf (supplied (effEnv m.env q.env) froms ++ [wh]))).toObj := by
    intro mm
    unfold whereWithHooks
    rw [if_pos hh, if_neg (by simp), andOf_clause]
    rfl
  simp only [ren, deleteAppend]
  rw [h1, h2]
  simp only [W.ofRes]
  rw [hw]
  cases froms with
  | nil => rfl
  | cons f fs =>
    have hf : ∀ n : Node, (mkPV (unhooked n) (ren (unhooked n)) (hookOf (unhooked n))).toObj = (obj n).toObj := unhooked_obj
    have hl : ∀ (g : Obj → W), (objs ((f :: fs).map unhooked)).map (fun t : PV => g t.toObj) = (objs (f :: fs)).map (fun t : PV => g t.toObj) := by
      intro g
      have := congrArg (List.map g) (map_unhooked_obj (f :: fs))
      rw [List.map_map, List.map_map] at this
      exact this
    have hl := hl (fun t => if t.kind.isNil then W.panic else .wr (if t.alias = [] then t.name else t.alias))
    simp only [List.map_cons, objs] at hl ⊢
    rw [hl]
    simp only [hf]
    rfl

example : supplied (some 1) [Ex.guarded] ≠ [] := by decide +revert

/-- **C20 (violated).** Predicates of USING and JOIN tables are ignored by DELETE. -/
theorem C20_delete_using_violated :
    (toSQL .postgres (.delete { env := some 1 } [] [Ex.users] Ex.guarded [] (Ex.andp [.literal "a" []]) [] [])).query =
      "DELETE FROM users AS u USING accounts WHERE a".toList := by decide +kernel

end Sq
