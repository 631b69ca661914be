import Verif.Spec.Clauses
import Verif.Props.Expr
import Verif.Props.Hooks
import Verif.Props.Columns
/-
C55: statements, joins, common table expressions, subqueries, lists and assignments write the SQL they stand for.
-/
namespace Sq.Exprs
open Sq Sq.Spec

/-! ### Code that follows a form whenever it succeeds -/

def Fol (d : Dialect) (w : W) (ps : List Part) : Prop := w.st = .ok → Follows d w (ps.flatMap (cut d))

theorem Fol.seq {d : Dialect} {a b : W} {ps qs : List Part} (ha : Fol d a ps) (hb : Fol d b qs) :
    Fol d (a ⨟ b) (ps ++ qs) := by
  intro h
  obtain ⟨h1, h2⟩ := seq_ok h
  rw [List.flatMap_append]
  exact .seq (ha h1) (hb h2)

theorem Fol.text {d : Dialect} (t : Str) : Fol d (.wr t) [.text t] := by
  intro _
  simpa [cut] using Follows.text (d := d) t

theorem Fol.text2 {d : Dialect} (t u : Str) : Fol d (.wr (t ++ u)) [.text t, .text u] := by
  intro _
  simpa [cut] using Follows.text (d := d) (t ++ u)

theorem Fol.text3 {d : Dialect} (t u v : Str) : Fol d (.wr (t ++ u ++ v)) [.text t, .text u, .text v] := by
  intro _
  simpa [cut] using Follows.text (d := d) (t ++ u ++ v)

theorem Fol.done {d : Dialect} : Fol d .ok [] := fun _ => .done

theorem Fol.fail {d : Dialect} (e : Str) (ps : List Part) : Fol d (.fail e) ps := by
  intro h; simp [W.fail] at h

theorem Fol.value {d : Dialect} (a : Arg) : Fol d (.emit (.bind [] a)) [.value a] := by
  intro _
  simpa [cut] using Follows.value (d := d) a

theorem Fol.placed {d : Dialect} (n : Node) (m : Mode) (h : m.d = d) : Fol d (ren n m []) [.placed n m] := by
  intro _
  simpa [cut] using Follows.operand (d := d) n m h

theorem Fol.when {d : Dialect} {c : Bool} {w : W} {ps : List Part} (h : c = true → Fol d w ps) (hn : c = false → ps = []) :
    Fol d (.when c w) ps := by
  cases c with
  | true => exact h rfl
  | false => rw [hn rfl]; exact .done

theorem Fol.sepBy {α : Type} {d : Dialect} (sep : Str) (f : α → W) (g : α → List Part) (xs : List α)
    (h : ∀ x ∈ xs, Fol d (f x) (g x)) : Fol d (sepBy sep (xs.map f)) (listed sep (xs.map g)) := by
  match xs, h with
  | [], _ => exact .done
  | [x], h => exact h x (by simp)
  | x :: y :: xs, h =>
    have ih := Fol.sepBy sep f g (y :: xs) (fun z hz => h z (by simp at hz ⊢; right; exact hz))
    have := (h x (by simp)).seq ((Fol.text sep).seq ih)
    simpa [Sq.sepBy, listed] using this

theorem Fol.congr {d : Dialect} {w v : W} {ps qs : List Part} (h : Fol d w ps) (hw : v = w) (hp : qs.flatMap (cut d) = ps.flatMap (cut d)) :
    Fol d v qs := by
  subst hw; intro hv; rw [hp]; exact h hv

/-! ### Parts of statements -/

theorem map_objs {α : Type} (f : Obj → α) (ns : List Node) :
    ((objs ns).map PV.toObj).map f = ns.map fun n => f (obj n).toObj := by
  simp [objs_eq, Function.comp_def]

theorem objs_nil (ns : List Node) : ((objs ns).map PV.toObj = []) = (ns = []) := by
  cases ns <;> simp [objs]

theorem values_fol (m : Mode) (ns : List Node) : Fol m.d (fieldsAppend m ((objs ns).map PV.toObj)) (values m ns) := by
  unfold fieldsAppend values
  rw [map_objs]
  exact Fol.sepBy _ _ _ ns (fun x _ => Fol.placed x m rfl)

theorem alias_fol (m : Mode) (a : Str) : Fol m.d (asAlias m.d a) (named m.d a) := by
  unfold asAlias named
  split
  · exact .done
  · exact Fol.text2 _ _

theorem item_fol (m : Mode) (f : Node) : Fol m.d (aliasField m (obj f).toObj) (item m f) := by
  unfold aliasField
  by_cases h : f = .nil
  · subst h; exact Fol.placed .nil m rfl
  · have h1 : ¬ (obj f).toObj.kind.isNil = true := fun hk => h ((Node.kind_isNil f).1 hk)
    have h2 : item m f = .placed f { d := m.d, ex := m.ex } :: named m.d f.alias := by
      cases f <;> first | rfl | contradiction
    rw [if_neg h1, h2]
    exact (Fol.placed f { d := m.d, ex := m.ex } rfl).seq (alias_fol m f.alias)

theorem items_fol (m : Mode) (fs : List Node) : Fol m.d (aliasFieldsAppend m ((objs fs).map PV.toObj)) (items m fs) := by
  unfold aliasFieldsAppend items
  rw [map_objs]
  exact Fol.sepBy _ _ _ fs (fun x _ => item_fol m x)

theorem element_fol (m : Mode) (v : Node) : Fol m.d (explodeElem m (obj v).toObj) (element m v) := by
  by_cases h : (obj v).toObj.kind.isAppender = true
  · have h2 : element m v = [.placed v { d := m.d, ex := m.ex }] := by
      cases v <;> first | rfl | simp [obj, mkPV, Node.kind, Kind.isAppender] at h
    rw [h2]
    unfold explodeElem
    rw [if_pos h]
    exact Fol.placed v _ rfl
  · unfold explodeElem
    rw [if_neg h]
    cases v with
    | nil => exact Fol.placed .nil { d := m.d, ex := m.ex } rfl
    | scalar a => exact Fol.placed (.scalar a) { d := m.d, ex := m.ex } rfl
    | slice i xs => exact Fol.value _
    | namedArg n a => exact Fol.value _
    | ext k a n f => cases k <;> simp [obj, mkPV, Node.kind, ExtKind.kind, Kind.isAppender] at h
    | _ => simp [obj, mkPV, Node.kind, Kind.isAppender] at h

theorem row_fol (m : Mode) (vs : List Node) : Fol m.d (rowValueAppend m ((objs vs).map PV.toObj)) (row m vs) := by
  unfold rowValueAppend row
  rw [map_objs]
  exact (Fol.text _).seq ((Fol.sepBy _ _ _ vs (fun x _ => Fol.placed x m rfl)).seq (Fol.text _))

theorem rows_fol (m : Mode) (rows : List (List Node)) :
    Fol m.d (rowValuesAppend m (objss rows)) (listed ", " (rows.map (row { d := m.d }))) := by
  have h : objss rows = rows.map fun r => (objs r).map PV.toObj := by
    induction rows with
    | nil => rfl
    | cons r rs ih => simp [objss, ih]
  unfold rowValuesAppend
  rw [h, List.map_map]
  exact Fol.sepBy _ _ _ rows (fun r _ => row_fol { d := m.d } r)

theorem assignment_fol (m : Mode) (a : Node × Node) :
    Fol m.d (assignAppend m (obj a.1).toObj (obj a.2).toObj) (assignment m a) := by
  unfold assignAppend assignment
  refine Fol.seq (ps := [.placed a.1 { d := m.d, ex := m.ex }]) (Fol.placed a.1 _ rfl) (Fol.seq (ps := [.text " = "]) (Fol.text _) ?_)
  have hk : (obj a.2).toObj.kind.isQuery = true ↔ (a.2.kind = .query ∨ a.2.kind = .vquery) := by
    show a.2.kind.isQuery = true ↔ _
    cases a.2.kind <;> simp [Kind.isQuery]
  by_cases h : (obj a.2).toObj.kind.isQuery = true
  · rw [if_pos h, if_pos (hk.1 h)]
    exact (Fol.text _).seq ((Fol.placed a.2 m rfl).seq (Fol.text _))
  · rw [if_neg h, if_neg (mt hk.2 h)]
    exact Fol.placed a.2 m rfl

theorem pairs_map (as : List (Node × Node)) : pairs as = as.map fun a => ((obj a.1).toObj, (obj a.2).toObj) := by
  induction as with
  | nil => rfl
  | cons a as ih => simp only [pairs, ih, List.map_cons]; rfl

theorem assignments_fol (m : Mode) (as : List (Node × Node)) : Fol m.d (assignsAppend m (pairs as)) (assignments m as) := by
  unfold assignsAppend assignments
  rw [pairs_map, List.map_map]
  exact Fol.sepBy _ _ _ as (fun a _ => assignment_fol { d := m.d, ex := m.ex } a)

theorem source_fol (m : Mode) (t : Node) : Fol m.d (tableRef m (obj t).toObj) (source m t) := by
  unfold tableRef source
  exact (Fol.placed t m rfl).seq (alias_fol m t.alias)

theorem npreds_eq (p : Node) : (obj p).toObj.npreds = match p with | .vpred _ _ _ _ ps => ps.length | _ => 0 := by
  cases p <;> try rfl
  rename_i k _ _ _; cases k <;> rfl

theorem condition_fol (m : Mode) (kw : Str) (p : Node) : Fol m.d (predClause m kw (obj p).toObj) (condition m kw p) := by
  unfold predClause
  apply Fol.when
  · intro h
    have h := of_decide_eq_true h
    rw [npreds_eq] at h
    cases p <;> simp at h
    rename_i t a o n ps _
    cases ps with
    | nil => simp at h
    | cons q qs => exact (Fol.text _).seq (Fol.placed _ _ rfl)
  · intro h
    have h := of_decide_eq_false h
    rw [npreds_eq] at h
    cases p <;> try rfl
    rename_i t a o n ps _
    cases ps with
    | nil => rfl
    | cons q qs => simp at h

theorem clause_fol (d : Dialect) (kw : Str) (fs : List Node) (w : W) (ps : List Part) (h : Fol d w ps) :
    Fol d (clause kw ((objs fs).map PV.toObj) w) (ifAny kw fs ps) := by
  unfold clause ifAny
  apply Fol.when
  · intro hf
    have : fs ≠ [] := by cases fs <;> simp [objs] at hf ⊢
    cases fs with
    | nil => contradiction
    | cons f fs => exact (Fol.text _).seq h
  · intro hf
    have : fs = [] := by cases fs <;> simp [objs] at hf ⊢
    simp [this]

theorem number_fol (m : Mode) (kw : Str) (text : Str) (hk : ' ' :: kw ++ " {}".toList = write (holes [text, []])) (i : Option Int) :
    Fol m.d (limitAppend m kw i) (number text i) := by
  cases i with
  | none => exact .done
  | some i =>
    simp only [limitAppend, number]
    rw [hk, C11_sequential _ _ _ (by simp)]
    intro _
    have := Follows.seq (Follows.seq (follows_chars m.d text) (Follows.seq (Follows.value (d := m.d) (.val (.int i))) (follows_chars m.d []))) Follows.forget
    simpa [interleave, cut] using this

theorem with_fol (m : Mode) (ctes : List Node) :
    Fol m.d (.when (((objs ctes).map PV.toObj) ≠ []) (ctesAppend m ((objs ctes).map PV.toObj))) (with_ m ctes) := by
  apply Fol.when
  · intro h
    have h : ctes ≠ [] := by cases ctes <;> simp [objs] at h ⊢
    have ha : ((objs ctes).map PV.toObj).any isRecCte = ctes.any recursive := by
      rw [objs_eq]
      simp only [List.map_map, List.any_map]
      congr 1
      funext n
      cases n <;> try rfl
      rename_i k _ _ _; cases k <;> rfl
    unfold ctesAppend with_
    rw [map_objs, ha]
    have hi : ctes.isEmpty = false := by simpa using h
    rw [hi]
    have ht : ∀ b : Bool, Fol m.d (.wr (if b then "WITH RECURSIVE " else "WITH ")) [.text (if b then "WITH RECURSIVE " else "WITH ")] :=
      fun b => Fol.text _
    exact (ht _).seq ((Fol.sepBy _ _ _ ctes (fun c _ => Fol.placed c _ rfl)).seq (Fol.text _))
  · intro h
    have h : ctes = [] := by cases ctes <;> simp [objs] at h ⊢
    simp [with_, h]

theorem joined_fol (m : Mode) (js : List Node) (w : W) (hw : w = .wr " " ∨ ∃ e, w = .fail e) :
    Fol m.d (.when (objs js ≠ []) (w ⨟ joinsAppend m ((objs js).map PV.toObj))) (joined m js) := by
  apply Fol.when
  · intro h
    have h : js ≠ [] := by cases js <;> simp [objs] at h ⊢
    rcases hw with rfl | ⟨e, rfl⟩
    · unfold joinsAppend joined ifAny
      rw [map_objs]
      have hi : js.isEmpty = false := by simpa using h
      rw [hi]
      exact (Fol.text _).seq (Fol.sepBy _ _ _ js (fun c _ => Fol.placed c _ rfl))
    · intro hs
      exact absurd (seq_ok hs).1 (by simp [W.fail])
  · intro h
    have h : js = [] := by cases js <;> simp [objs] at h ⊢
    simp [joined, ifAny, h]

theorem asks_eq (n : Node) (env : Env) : asks n env = suppliedBy n env := by
  match n with
  | .table _ _ _ _ _ => rfl
  | .join _ t _ => simp only [asks, suppliedBy]; exact asks_eq t env
  | .nil | .scalar _ | .slice _ _ | .namedArg _ _ | .param _ _ | .field _ _ _ _ | .checkedField _ _ _ | .literal _ _
  | .value _ _ | .cpred _ _ _ _ | .vpred _ _ _ _ _ | .predCases _ _ _ | .simpleCases _ _ _ _ | .window _ _ _
  | .rowValue _ | .rowValues _ | .assign _ _ | .assigns _ | .fields _ | .customTable _ _ | .cte _ _ | .subquery _ _ _
  | .vquery _ _ _ | .customQuery _ _ _ | .select _ _ _ _ _ _ _ _ _ _ | .insert _ _ _ _ _ _ _ _ _ _ _ _
  | .update _ _ _ _ _ _ _ _ _ _ | .delete _ _ _ _ _ _ _ _ | .ext _ _ _ _ => rfl

theorem hook_fails : (n : Node) → (env : Env) → HookFails n env → ∃ e, hookOf n env = .err e
  | .table _ _ _ hk _, env, h => by
    obtain ⟨e, he⟩ := h
    exact ⟨e, by simp [hookOf, he]⟩
  | .join _ t _, env, h => by
    simp only [hookOf]
    exact hook_fails t env h
  | .nil, _, h | .scalar _, _, h | .slice _ _, _, h | .namedArg _ _, _, h | .param _ _, _, h | .field _ _ _ _, _, h
  | .checkedField _ _ _, _, h | .literal _ _, _, h | .value _ _, _, h | .cpred _ _ _ _, _, h | .vpred _ _ _ _ _, _, h
  | .predCases _ _ _, _, h | .simpleCases _ _ _ _, _, h | .window _ _ _, _, h | .rowValue _, _, h | .rowValues _, _, h
  | .assign _ _, _, h | .assigns _, _, h | .fields _, _, h | .customTable _ _, _, h | .cte _ _, _, h
  | .subquery _ _ _, _, h | .vquery _ _ _, _, h | .customQuery _ _ _, _, h | .select _ _ _ _ _ _ _ _ _ _, _, h
  | .insert _ _ _ _ _ _ _ _ _ _ _ _, _, h | .update _ _ _ _ _ _ _ _ _ _, _, h | .delete _ _ _ _ _ _ _ _, _, h
  | .ext _ _ _ _, _, h => by exact absurd h (by simp [HookFails])

theorem collect_none_fails (env : Env) (ts : List Node) (hs : List Obj) (h : collectHooks env (objs ts) = .ok hs) :
    ∀ t ∈ ts, ¬ HookFails t env := by
  induction ts generalizing hs with
  | nil => simp
  | cons t ts ih =>
    simp only [objs, collectHooks] at h
    change (match hookOf t env with | .err e => _ | .none => _ | .pred o => _) = _ at h
    intro x hx hf
    rcases List.mem_cons.1 hx with rfl | hx
    · obtain ⟨e, he⟩ := hook_fails x env hf
      rw [he] at h
      simp at h
    · cases hh : hookOf t env with
      | err e => rw [hh] at h; simp at h
      | none => rw [hh] at h; exact ih _ h x hx hf
      | pred o =>
        rw [hh] at h
        simp only at h
        cases hc : collectHooks env (objs ts) with
        | ok l => exact ih l hc x hx hf
        | _ => rw [hc] at h; simp [Res.map] at h

theorem filtered_fol (m : Mode) (ts : List Node) (own : Node) :
    Fol m.d (W.ofRes (collectHooks m.env (objs ts)) fun hooks => whereWithHooks m hooks (obj own).toObj) (filtered m ts own) := by
  intro hok
  obtain ⟨hs, hc, _⟩ := ofRes_ok hok
  have hs' := collect_supplied m.env ts (collect_none_fails m.env ts hs hc)
  revert hok
  rw [hs']
  simp only [W.ofRes]
  have ha : ts.filterMap (asks · m.env) = supplied m.env ts := by
    unfold supplied
    congr 1
    funext n
    exact asks_eq n m.env
  unfold filtered
  rw [ha]
  cases hl : supplied m.env ts with
  | nil =>
    simp only [objs, List.map_nil, whereWithHooks, ne_eq, not_true_eq_false, if_false]
    exact condition_fol m _ own
  | cons a as =>
    unfold whereWithHooks
    rw [if_pos (by simp [objs])]
    rw [← andOf_clause m (a :: as) own]
    exact condition_fol m _ (andOf (a :: as ++ [own]))

/-! ### Columns and rows from the mapper -/

theorem appendLast_map {V W : Type} (g : V → W) (v : V) (rs : List (List V)) :
    appendLast (g v) (rs.map (List.map g)) = (appendLast v rs).map (List.map g) := by
  match rs with
  | [] => rfl
  | [r] => simp [appendLast]
  | r :: s :: rs =>
    have := appendLast_map g v (s :: rs)
    simp only [List.map_cons, appendLast] at this ⊢
    rw [this]

def mapCol {F G V W : Type} (f : F → G) (g : V → W) (c : Col F V) : Col G W :=
  { rowStarted := c.rowStarted, rowEnded := c.rowEnded, firstField := c.firstField,
    insertColumns := c.insertColumns.map f, rowValues := c.rowValues.map (List.map g) }

theorem set_map {F G V W : Type} (f : F → G) (g : V → W) (nm : G → Str) (c : Col F V) (a : F) (v : V) :
    (mapCol f g c).set nm (f a) (g v) = mapCol f g (c.set (nm ∘ f) a v) := by
  unfold Col.set
  by_cases h1 : c.rowStarted = false
  · simp [mapCol, h1]
  · by_cases h2 : nm (f a) = c.firstField
    · simp [mapCol, h1, h2]
    · by_cases h3 : c.rowEnded = true <;> simp [mapCol, h1, h2, h3, appendLast_map]

theorem columnInsert_map {F G V W : Type} (f : F → G) (g : V → W) (nm : G → Str) (cs : List (F × V)) :
    columnInsert nm (cs.map fun p => (f p.1, g p.2)) =
      ((columnInsert (nm ∘ f) cs).1.map f, (columnInsert (nm ∘ f) cs).2.map (List.map g)) := by
  have h : ∀ (c : Col F V), (cs.map fun p => (f p.1, g p.2)).foldl (fun c p => c.set nm p.1 p.2) (mapCol f g c) =
      mapCol f g (cs.foldl (fun c p => c.set (nm ∘ f) p.1 p.2) c) := by
    induction cs with
    | nil => intro c; rfl
    | cons p cs ih => intro c; simp only [List.map_cons, List.foldl_cons, set_map]; exact ih _
  have h0 := h {}
  unfold columnInsert
  have e : (mapCol f g ({} : Col F V)) = {} := rfl
  rw [e] at h0
  simp only [h0]
  rfl

theorem objss_map (rows : List (List Node)) : objss rows = rows.map fun r => (objs r).map PV.toObj := by
  induction rows with
  | nil => rfl
  | cons r rs ih => simp [objss, ih]

theorem objs_toObj (ns : List Node) : (objs ns).map PV.toObj = ns.map fun n => (obj n).toObj := by
  simp [objs_eq, Function.comp_def]

theorem insert_data (q : InsMeta) (columns : List Node) (rows : List (List Node)) (sets : List (Node × Node))
    (c : List Obj) (r : List (List Obj))
    (h : insertColumnsRows q ((objs columns).map PV.toObj) (objss rows) (pairs sets) = .ok (c, r)) :
    c = (objs (insertData q columns rows sets).1).map PV.toObj ∧ r = objss (insertData q columns rows sets).2 := by
  unfold insertColumnsRows at h
  unfold insertData
  split at h
  · rename_i hm
    rw [if_pos hm]
    split at h
    · simp at h
    · split at h
      · simp at h
      · simp only [Res.ok.injEq] at h
        rw [pairs_map, columnInsert_map (fun n => (obj n).toObj) (fun n => (obj n).toObj)] at h
        simp only [Prod.mk.injEq] at h
        rw [objs_toObj, objss_map]
        refine ⟨h.1.symm, h.2.symm.trans ?_⟩
        congr 1
        funext x
        exact (objs_toObj x).symm
  · rename_i hm
    rw [if_neg hm]
    simp only [Res.ok.injEq, Prod.mk.injEq] at h
    exact ⟨h.1.symm, h.2.symm⟩

theorem columnUpdate_id {F V : Type} (cs : List (F × V)) : columnUpdate cs = cs := by
  have h : ∀ acc, cs.foldl (fun as p => as ++ [p]) acc = acc ++ cs := by
    induction cs with
    | nil => simp
    | cons p cs ih => intro acc; simp [ih]
  simpa [columnUpdate] using h []

theorem joinStr_names (xs : List Str) : joinStr ", " xs = names xs := by
  match xs with
  | [] => rfl
  | [x] => simp [joinStr, names]
  | x :: y :: xs =>
    have := joinStr_names (y :: xs)
    simp only [joinStr, this, names, List.intersperse, List.flatten_cons]
    simp

/-! ### Statements -/

theorem returning_fol (m : Mode) (fs : List Node) :
    Fol m.d (returningAppend m ((objs fs).map PV.toObj)) (ifAny " RETURNING " fs (items m fs)) := by
  unfold returningAppend
  apply Fol.when
  · intro h
    have h : fs.isEmpty = false := by cases fs <;> simp [objs] at h ⊢
    unfold ifAny
    rw [h]
    split
    · exact .fail _ _
    · exact (Fol.text _).seq (items_fol m fs)
  · intro h
    have h : fs = [] := by cases fs <;> simp [objs] at h ⊢
    simp [ifAny, h]

theorem from_fol (m : Mode) (kw : Str) (t : Node) (w : W) (hw : Fol m.d w (.text kw :: source m t)) :
    Fol m.d (.when (!(obj t).toObj.kind.isNil) w) (ifTable m kw t) := by
  by_cases h : t = .nil
  · subst h; exact .done
  · have h1 : (obj t).toObj.kind.isNil = false := by
      cases hk : (obj t).toObj.kind.isNil with
      | false => rfl
      | true => exact absurd ((Node.kind_isNil t).1 hk) h
    have h2 : ifTable m kw t = .text kw :: source m t := by
      cases t <;> first | rfl | contradiction
    rw [h1, h2]
    exact hw

theorem distinct_fol (m : Mode) (q : SelMeta) (on : List Node) :
    Fol m.d (if (objs on).map PV.toObj ≠ [] then
      if m.d ≠ .postgres then .fail "SELECT DISTINCT ON not supported"
      else if q.distinct then .fail "cannot be DISTINCT and DISTINCT ON"
      else .wr "DISTINCT ON (" ⨟ fieldsAppend m ((objs on).map PV.toObj) ⨟ .wr ") "
     else .when q.distinct (.wr "DISTINCT ")) (distinct m q on) := by
  unfold distinct
  cases on with
  | nil =>
    simp only [objs, List.map_nil, ne_eq, not_true_eq_false, if_false, List.isEmpty_nil, if_true]
    cases q.distinct with
    | true => exact Fol.text _
    | false => exact .done
  | cons o os =>
    rw [if_pos (by simp [objs])]
    split
    · exact .fail _ _
    · split
      · exact .fail _ _
      · exact (Fol.text _).seq ((values_fol m (o :: os)).seq (Fol.text _))

theorem whereOf_eq (m0 : Mode) (wh own : Node) (h : whereOf m0 wh = some own) (m : Mode) (hooks : List Obj) :
    whereWithHooks m hooks (if m0.meth = .whereTrue ∧ (obj wh).toObj.npreds = 0 then withTrue (obj wh).toObj else (obj wh).toObj) =
    whereWithHooks m hooks (obj own).toObj := by
  by_cases hm : m0.meth = .whereTrue
  · cases wh <;> simp only [whereOf, hm, if_true, reduceCtorEq] at h
    rename_i t a o n ps
    cases ps with
    | cons p ps =>
      simp only [whereOf, Option.some.injEq] at h
      subst h
      rw [if_neg (by intro hc; exact absurd hc.2 (by simp [npreds_eq]))]
    | nil =>
      simp only [whereOf, hm, if_true, Option.some.injEq] at h
      subst h
      rw [if_pos ⟨hm, by simp [npreds_eq]⟩]
      have act : ∀ m' : Mode, (m'.meth = .std ∨ m'.meth = .top true) →
          (withTrue (obj (.vpred t a o n [])).toObj).act m' [] = (obj (.vpred t a o n [.cpred [] "TRUE" false []])).toObj.act m' [] := by
        intro m' hm'
        show ren (.vpred t a o n []) { m' with meth := .whereTrue } [] = ren (.vpred t a o n [.cpred [] "TRUE" false []]) m' []
        rw [ren, ren, if_pos ⟨rfl, rfl⟩, if_neg (by simp)]
        rfl
      unfold whereWithHooks
      split
      · congr 1
        cases hooks with
        | nil => contradiction
        | cons x xs =>
          have : ∀ ys : List Obj, ∀ y, variadicAppend m true false false (x :: ys ++ [y]) =
              sepBy " AND ".toList ((x :: ys ++ [y]).map (operand m)) := by
            intro ys y
            cases ys <;> simp [variadicAppend]
          rw [this, this]
          congr 1
          simp only [List.map_append, List.map_cons, List.map_nil]
          congr 2
      · unfold predClause
        have e := act { m with meth := .top true } (.inr rfl)
        rw [e]
        rfl
  · have : own = wh := by
      cases wh <;> simp only [whereOf, hm, if_false, Option.some.injEq] at h <;> try exact h.symm
      rename_i ps
      cases ps <;> simp only [whereOf, hm, if_false, Option.some.injEq] at h <;> exact h.symm
    subst this
    rw [if_neg (fun hc => hm hc.1)]

theorem select_fol (q : SelMeta) (ctes fields on : List Node) (from_ : Node) (joins : List Node) (wh : Node)
    (gb : List Node) (hv : Node) (ob : List Node) (m0 : Mode) (ps : List Part)
    (h : construct m0 (.select q ctes fields on from_ joins wh gb hv ob) = some ps) :
    Fol m0.d (ren (.select q ctes fields on from_ joins wh gb hv ob) m0 []) ps := by
  simp only [construct, Option.map_eq_some_iff] at h
  obtain ⟨own, hown, rfl⟩ := h
  rw [ren]
  simp only [selectAppend]
  have hw : ∀ hooks, whereWithHooks { d := m0.d, env := effEnv m0.env q.env } hooks
      (if m0.meth = .whereTrue ∧ (mkPV wh (ren wh) (hookOf wh)).toObj.npreds = 0 then withTrue (mkPV wh (ren wh) (hookOf wh)).toObj
      else (mkPV wh (ren wh) (hookOf wh)).toObj) = whereWithHooks { d := m0.d, env := effEnv m0.env q.env } hooks (obj own).toObj :=
    fun hooks => whereOf_eq m0 wh own hown _ hooks
  simp only [hw]
  simp only [List.append_assoc]
  refine (with_fol { d := m0.d, env := effEnv m0.env q.env } ctes).seq (Fol.seq (Fol.text _) (Fol.seq
    (distinct_fol { d := m0.d, env := effEnv m0.env q.env } q on) (Fol.seq ?_ (Fol.seq ?_ (Fol.seq ?_ (Fol.seq ?_
    (Fol.seq ?_ (Fol.seq ?_ (Fol.seq ?_ (Fol.seq ?_ ?_))))))))))
  · split
    · exact .fail _ _
    · exact items_fol { d := m0.d, env := effEnv m0.env q.env } fields
  · exact from_fol { d := m0.d, env := effEnv m0.env q.env } " FROM ".toList from_ _ ((Fol.text _).seq (source_fol { d := m0.d, env := effEnv m0.env q.env } from_))
  · refine joined_fol { d := m0.d, env := effEnv m0.env q.env } joins _ ?_
    split
    · exact .inr ⟨_, rfl⟩
    · exact .inl rfl
  · exact filtered_fol { d := m0.d, env := effEnv m0.env q.env } (from_ :: joins) own
  · exact clause_fol _ _ gb _ _ (values_fol { d := m0.d, env := effEnv m0.env q.env } gb)
  · exact condition_fol { d := m0.d, env := effEnv m0.env q.env } _ hv
  · exact clause_fol _ _ ob _ _ (values_fol { d := m0.d, env := effEnv m0.env q.env } ob)
  · exact number_fol { d := m0.d, env := effEnv m0.env q.env } _ _ (by decide +kernel) q.limit
  · exact number_fol { d := m0.d, env := effEnv m0.env q.env } _ _ (by decide +kernel) q.offset

theorem nil_kind (t : Node) : (obj t).toObj.kind.isNil = true ↔ t.kind = .nilv := by
  show t.kind.isNil = true ↔ _
  cases t.kind <;> simp [Kind.isNil]

theorem target_fol (m : Mode) (ex : List Str) (q : InsMeta) (cf : List Node) (cp : Node) :
    Fol m.d (if q.conflictConstraint ≠ [] then
        if m.d ≠ .postgres then .fail "ON CONFLICT ON CONSTRAINT not supported"
        else .wr (" ON CONSTRAINT ".toList ++ q.conflictConstraint)
       else .when ((objs cf).map PV.toObj ≠ [])
        (.wr " (" ⨟ fieldsAppend { m with ex := ex } ((objs cf).map PV.toObj) ⨟ .wr ")" ⨟
         .when (!(obj cp).toObj.kind.isNil)
           (.wr " WHERE " ⨟ (obj cp).toObj.act { m with ex := ex, meth := .top true } []))) (conflictTarget m ex q cf cp) := by
  unfold conflictTarget
  split
  · split
    · exact .fail _ _
    · exact Fol.text2 _ _
  · apply Fol.when
    · intro h
      have h : cf ≠ [] := by cases cf <;> simp [objs] at h ⊢
      rw [if_neg h]
      refine Fol.seq (ps := [.text " ("]) (Fol.text _) (Fol.seq (values_fol { m with ex := ex } cf) (Fol.seq (ps := [.text ")"])
        (qs := if cp.kind = .nilv then [] else [.text " WHERE ", .placed cp { m with ex := ex, meth := .top true }]) (Fol.text _) ?_))
      by_cases hk : cp.kind = .nilv
      · have := (nil_kind cp).2 hk
        simp only [this, hk, if_true, Bool.not_true, when_false]
        exact .done
      · have h1 : (obj cp).toObj.kind.isNil = false := by
          cases hh : (obj cp).toObj.kind.isNil with
          | false => rfl
          | true => exact absurd ((nil_kind cp).1 hh) hk
        simp only [h1, hk, if_false, Bool.not_false, when_true]
        exact (Fol.text _).seq (Fol.placed cp { m with ex := ex, meth := .top true } rfl)
    · intro h
      have h : cf = [] := by cases cf <;> simp [objs] at h ⊢
      rw [if_pos h]

theorem action_fol (m : Mode) (ex : List Str) (q : InsMeta) (res : List (Node × Node)) (rp : Node) :
    Fol m.d (if pairs res = [] ∨ q.doNothing = true then .wr " DO NOTHING"
       else
        .wr " DO UPDATE SET " ⨟ assignsAppend { m with ex := ex } (pairs res) ⨟
        predClause m " WHERE " (obj rp).toObj) (conflictAction m ex q res rp) := by
  have hres : pairs res = [] ↔ res = [] := by cases res <;> simp [pairs]
  unfold conflictAction
  by_cases h : res = [] ∨ q.doNothing = true
  · rw [if_pos h, if_pos (by rw [hres]; exact h)]; exact Fol.text _
  · rw [if_neg h, if_neg (by rw [hres]; exact h)]
    exact (Fol.text _).seq ((assignments_fol { m with ex := ex } res).seq (condition_fol m _ rp))

theorem conflict_fol (m : Mode) (ex : List Str) (q : InsMeta) (cf : List Node) (cp : Node) (res : List (Node × Node)) (rp : Node) :
    Fol m.d (insertConflict m ex q ((objs cf).map PV.toObj) (obj cp).toObj (pairs res) (obj rp).toObj)
      (conflict m ex q cf cp res rp) := by
  have up : ∀ c : Prop, [Decidable c] → (c ↔ (q.conflictConstraint = [] ∧ cf = [] ∧ q.doNothing = false)) →
    Fol m.d (if c then .ok
    else
      .wr " ON CONFLICT" ⨟
      (if q.conflictConstraint ≠ [] then
        if m.d ≠ .postgres then .fail "ON CONFLICT ON CONSTRAINT not supported"
        else .wr (" ON CONSTRAINT ".toList ++ q.conflictConstraint)
       else .when ((objs cf).map PV.toObj ≠ [])
        (.wr " (" ⨟ fieldsAppend { m with ex := ex } ((objs cf).map PV.toObj) ⨟ .wr ")" ⨟
         .when (!(obj cp).toObj.kind.isNil)
           (.wr " WHERE " ⨟ (obj cp).toObj.act { m with ex := ex, meth := .top true } []))) ⨟
      (if pairs res = [] ∨ q.doNothing = true then .wr " DO NOTHING"
       else
        .wr " DO UPDATE SET " ⨟ assignsAppend { m with ex := ex } (pairs res) ⨟
        predClause m " WHERE " (obj rp).toObj))
      (if q.conflictConstraint = [] ∧ cf = [] ∧ q.doNothing = false then []
        else .text " ON CONFLICT" :: conflictTarget m ex q cf cp ++ conflictAction m ex q res rp) := by
    intro c _ hc
    by_cases h : c
    · rw [if_pos h, if_pos (hc.1 h)]; exact .done
    · rw [if_neg h, if_neg (mt hc.2 h)]
      exact (Fol.text _).seq ((target_fol m ex q cf cp).seq (action_fol m ex q res rp))
  have hcf : (q.conflictConstraint = [] ∧ (objs cf).map PV.toObj = [] ∧ q.doNothing = false) ↔
      (q.conflictConstraint = [] ∧ cf = [] ∧ q.doNothing = false) := by rw [objs_nil]
  obtain ⟨d, env, ex0, meth⟩ := m
  unfold insertConflict conflict
  cases d with
  | sqlite => simp only [reduceCtorEq, if_false, true_or, if_true]; exact up _ hcf
  | postgres => simp only [reduceCtorEq, if_false, or_true, if_true]; exact up _ hcf
  | mysql =>
    simp only [if_true]
    apply Fol.when
    · intro h
      have h : res.isEmpty = false := by cases res <;> simp [pairs] at h ⊢
      unfold ifAny
      rw [h]
      exact Fol.seq (ps := [.text _]) (Fol.text _) (assignments_fol { d := .mysql, env := none, ex := ex, meth := meth } res)
    · intro h
      have h : res = [] := by cases res <;> simp [pairs] at h ⊢
      simp [ifAny, h]
  | _ => exact .done

theorem supply_fol (m : Mode) (q : InsMeta) (rows : List (List Node)) (sel : Node) :
    Fol m.d (if objss rows ≠ [] then
    .wr " VALUES " ⨟ rowValuesAppend m (objss rows) ⨟
    .when (q.rowAlias ≠ [])
      (if m.d ≠ .mysql then .fail "row aliases not supported"
       else .wr (" AS ".toList ++ q.rowAlias) ⨟
         .when (q.columnAliases ≠ []) (.wr (" (".toList ++ joinStr ", " q.columnAliases ++ ")".toList)))
   else if !(obj sel).toObj.kind.isNil then
    .wr " " ⨟ (obj sel).toObj.act { m with meth := if m.d = .sqlite then .whereTrue else .std } []
   else .fail "RowValues not provided and SelectQuery not provided to INSERT query") (supply m q rows sel) := by
  unfold supply
  cases rows with
  | nil =>
    simp only [objss, ne_eq, not_true_eq_false, if_false, List.isEmpty_nil, if_true]
    split
    · exact (Fol.text _).seq (Fol.placed sel _ rfl)
    · exact .fail _ _
  | cons r rs =>
    rw [if_pos (by simp [objss])]
    refine Fol.seq (ps := [.text _]) (Fol.text _) (Fol.seq (rows_fol m (r :: rs)) ?_)
    apply Fol.when
    · intro h
      rw [if_neg (of_decide_eq_true h)]
      split
      · exact .fail _ _
      · refine Fol.seq (Fol.text2 _ _) ?_
        apply Fol.when
        · intro h
          rw [if_neg (of_decide_eq_true h), joinStr_names]
          exact Fol.text3 _ _ _
        · intro h
          rw [if_pos (by simpa using of_decide_eq_false h)]
    · intro h
      rw [if_pos (by simpa using of_decide_eq_false h)]

theorem insert_fol (q : InsMeta) (ctes : List Node) (into : Node) (columns : List Node) (rows : List (List Node))
    (sets : List (Node × Node)) (sel : Node) (cf : List Node) (cp : Node) (res : List (Node × Node)) (rp : Node)
    (ret : List Node) (m0 : Mode) (ps : List Part)
    (h : construct m0 (.insert q ctes into columns rows sets sel cf cp res rp ret) = some ps) :
    Fol m0.d (ren (.insert q ctes into columns rows sets sel cf cp res rp ret) m0 []) ps := by
  simp only [construct, Option.some.injEq] at h
  subst h
  rw [ren]
  simp only [insertAppend]
  intro hok
  obtain ⟨⟨c, r⟩, hcr, _⟩ := ofRes_ok hok
  obtain ⟨hc, hr⟩ := insert_data q columns rows sets c r hcr
  revert hok
  rw [hcr]
  simp only [W.ofRes]
  subst hc hr
  generalize insertData q columns rows sets = data
  simp only [List.append_assoc, source, List.cons_append]
  refine (with_fol { d := m0.d, env := effEnv m0.env q.env } ctes).seq (Fol.seq (ps := [.text _]) ?_ (Fol.seq (ps := [.placed into _]) ?_ (Fol.seq ?_
    (Fol.seq ?_ (Fol.seq ?_ (Fol.seq ?_ ?_))))))
  · split
    · split
      · exact .fail _ _
      · exact Fol.text _
    · exact Fol.text _
  · split
    · exact .fail _ _
    · exact Fol.placed into _ rfl
  · unfold named
    show Fol _ (if into.alias ≠ [] then _ else _) _
    by_cases ha : into.alias = []
    · rw [if_neg (by simp [ha]), if_pos ha]; exact .done
    · rw [if_pos ha, if_neg ha]
      split
      · exact .fail _ _
      · exact Fol.text2 _ _
  · apply Fol.when
    · intro hn
      have hn : data.1.isEmpty = false := by
        cases hd : data.1 <;> simp [hd, objs] at hn ⊢
      rw [hn]
      exact (Fol.text _).seq ((values_fol { d := m0.d, env := effEnv m0.env q.env, ex := [Spec.qualifier into] } data.1).seq (Fol.text _))
    · intro hn
      have hn : data.1.isEmpty = true := by
        cases hd : data.1 <;> simp [hd, objs] at hn ⊢
      rw [hn]; rfl
  · exact supply_fol { d := m0.d, env := effEnv m0.env q.env } q data.2 sel
  · exact conflict_fol { d := m0.d, env := effEnv m0.env q.env } _ q cf cp res rp
  · exact returning_fol { d := m0.d, env := effEnv m0.env q.env } ret

theorem limited_fol (d : Dialect) (g : Prop) [Decidable g] (e : Str) (i : Option Int) (w : W) (text : Str)
    (h : Fol d w (number text i)) : Fol d (.when i.isSome (if g then .fail e else w)) (number text i) := by
  apply Fol.when
  · intro _
    split
    · exact .fail _ _
    · exact h
  · intro hi
    cases i with
    | none => rfl
    | some i => simp at hi

theorem guarded_clause (d : Dialect) (kw : Str) (fs : List Node) (w : W) (ps : List Part)
    (h : Fol d w (.text kw :: ps)) : Fol d (.when ((objs fs).map PV.toObj ≠ []) w) (ifAny kw fs ps) := by
  apply Fol.when
  · intro hn
    have hn : fs.isEmpty = false := by cases fs <;> simp [objs] at hn ⊢
    unfold ifAny
    rw [hn]; exact h
  · intro hn
    have hn : fs = [] := by cases fs <;> simp [objs] at hn ⊢
    simp [ifAny, hn]

theorem update_data (q : ModMeta) (as sets : List (Node × Node)) (r : List (Obj × Obj))
    (h : updateAssignments q (pairs as) (pairs sets) = .ok r) : r = pairs (if q.hasMapper then sets else as) := by
  unfold updateAssignments at h
  split at h
  · rename_i hm
    rw [if_pos hm]
    split at h
    · simp at h
    · split at h
      · simp at h
      · rw [columnUpdate_id] at h
        simpa using h.symm
  · rename_i hm
    rw [if_neg hm]
    simpa using h.symm

theorem update_fol (q : ModMeta) (ctes : List Node) (table from_ : Node) (joins : List Node)
    (as sets : List (Node × Node)) (wh : Node) (ob ret : List Node) (m0 : Mode) (ps : List Part)
    (h : construct m0 (.update q ctes table from_ joins as sets wh ob ret) = some ps) :
    Fol m0.d (ren (.update q ctes table from_ joins as sets wh ob ret) m0 []) ps := by
  simp only [construct, Option.some.injEq] at h
  subst h
  rw [ren]
  simp only [updateAppend]
  intro hok
  obtain ⟨r, hr, _⟩ := ofRes_ok hok
  have hr' := update_data q as sets r hr
  revert hok
  rw [hr]
  simp only [W.ofRes]
  subst hr'
  generalize (if q.hasMapper then sets else as) = ch
  simp only [List.append_assoc]
  refine (with_fol { d := m0.d, env := effEnv m0.env q.env } ctes).seq (Fol.seq (ps := [.text _]) (Fol.text _) (Fol.seq ?_
    (Fol.seq (ps := []) ?_ (Fol.seq ?_ (Fol.seq ?_ (Fol.seq ?_ (Fol.seq ?_ (Fol.seq (ps := []) ?_ (Fol.seq ?_ (Fol.seq ?_ (Fol.seq ?_ (Fol.seq ?_ ?_))))))))))))
  · split
    · exact .fail _ _
    · exact source_fol { d := m0.d, env := effEnv m0.env q.env } table
  · split
    · exact .fail _ _
    · exact .done
  · apply Fol.when
    · intro hd
      rw [if_neg (of_decide_eq_true hd)]
      exact (Fol.text _).seq (assignments_fol { d := m0.d, env := effEnv m0.env q.env, ex := [Spec.qualifier table] } ch)
    · intro hd
      rw [if_pos (by simpa using of_decide_eq_false hd)]
  · refine from_fol { d := m0.d, env := effEnv m0.env q.env } _ from_ _ ?_
    split
    · exact .fail _ _
    · exact (Fol.text _).seq (source_fol { d := m0.d, env := effEnv m0.env q.env } from_)
  · refine joined_fol { d := m0.d, env := effEnv m0.env q.env } joins _ ?_
    split
    · exact .inr ⟨_, rfl⟩
    · exact .inl rfl
  · apply Fol.when
    · intro hd
      rw [if_pos (of_decide_eq_true hd)]
      exact (Fol.text _).seq (assignments_fol { d := m0.d, env := effEnv m0.env q.env } ch)
    · intro hd
      rw [if_neg (of_decide_eq_false hd)]
  · intro hs
    obtain ⟨l, hl, _⟩ := ofRes_ok hs
    rw [hl]
    exact .done
  · exact condition_fol { d := m0.d, env := effEnv m0.env q.env } _ wh
  · refine guarded_clause _ _ ob _ _ ?_
    split
    · exact .fail _ _
    · exact (Fol.text _).seq (values_fol { d := m0.d, env := effEnv m0.env q.env } ob)
  · exact limited_fol _ _ _ _ _ _ (number_fol { d := m0.d, env := effEnv m0.env q.env } _ _ (by decide +kernel) q.limit)
  · exact limited_fol _ _ _ _ _ _ (number_fol { d := m0.d, env := effEnv m0.env q.env } _ _ (by decide +kernel) q.offset)
  · exact returning_fol { d := m0.d, env := effEnv m0.env q.env } ret

theorem cut_names (d : Dialect) (xs : List Str) :
    (listed ", " (xs.map fun x => [Part.text x])).flatMap (cut d) = [Part.text (names xs)].flatMap (cut d) := by
  match xs with
  | [] => simp [listed, names, cut]
  | [x] => simp [listed, names, cut]
  | x :: y :: xs =>
    have ih := cut_names d (y :: xs)
    simp only [List.map_cons, listed, List.flatMap_append, List.flatMap_cons, List.flatMap_nil, List.append_nil] at ih ⊢
    rw [ih]
    simp [cut, names, List.intersperse]

theorem tables_fol (m : Mode) (ts : List Node) :
    Fol m.d (sepBy ", " ((objs ts).map fun t => if t.kind.isNil then W.panic else .wr (if t.alias = [] then t.name else t.alias)))
      [.text (names (ts.map Spec.qualifier))] := by
  rw [objs_eq, List.map_map]
  have := Fol.sepBy (d := m.d) ", ".toList
    ((fun t : PV => if t.kind.isNil then W.panic else .wr (if t.alias = [] then t.name else t.alias)) ∘ obj)
    (fun t => [Part.text (Spec.qualifier t)]) ts ?_
  · refine this.congr rfl ?_
    rw [← cut_names, List.map_map]
    rfl
  · intro t _
    simp only [Function.comp]
    split
    · intro h; simp [W.panic] at h
    · exact Fol.text _

theorem delete_fol (q : ModMeta) (ctes froms : List Node) (us : Node) (joins : List Node) (wh : Node)
    (ob ret : List Node) (m0 : Mode) :
    Fol m0.d (ren (.delete q ctes froms us joins wh ob ret) m0 [])
      (deleteParts { d := m0.d, env := effEnv m0.env q.env } q ctes froms us joins wh ob ret) := by
  rw [ren]
  simp only [deleteAppend, deleteParts]
  simp only [List.append_assoc]
  refine (with_fol { d := m0.d, env := effEnv m0.env q.env } ctes).seq (Fol.seq (ps := [.text _]) (Fol.text _) (Fol.seq ?_
    (Fol.seq ?_ (Fol.seq ?_ (Fol.seq ?_ (Fol.seq ?_ (Fol.seq ?_ (Fol.seq ?_ ?_))))))))
  · have hus : (!(mkPV us (ren us) (hookOf us)).kind.isNil) = true ↔ ¬ us.kind = .nilv := by
      rw [Bool.not_eq_true', ← Bool.not_eq_true]
      exact not_congr (nil_kind us)
    match froms with
    | [] => exact .fail _ _
    | f :: fs =>
      simp only [objs, deleted]
      by_cases hc : ¬ us.kind = .nilv ∧ m0.d = .mysql
      · rw [if_pos ⟨hus.2 hc.1, hc.2⟩, if_neg (by intro h; rcases h with h | h; exact hc.1 h; exact h hc.2)]
        exact tables_fol { d := m0.d, env := effEnv m0.env q.env } (f :: fs)
      · rw [if_neg (fun h => hc ⟨hus.1 h.1, h.2⟩)]
        have hs : us.kind = .nilv ∨ m0.d ≠ .mysql := by
          by_cases hm : m0.d = .mysql
          · left
            by_cases hu : us.kind = .nilv
            · exact hu
            · exact absurd ⟨hu, hm⟩ hc
          · exact .inr hm
        rw [if_pos hs]
        split
        · exact .fail _ _
        · exact source_fol { d := m0.d, env := effEnv m0.env q.env } f
  · refine from_fol { d := m0.d, env := effEnv m0.env q.env } _ us _ ?_
    split
    · exact .fail _ _
    · exact (Fol.text _).seq (source_fol { d := m0.d, env := effEnv m0.env q.env } us)
  · apply Fol.when
    · intro hj
      have hj : joins.isEmpty = false := by cases joins <;> simp [objs] at hj ⊢
      split
      · exact .fail _ _
      · split
        · exact .fail _ _
        · unfold joinsAppend joined ifAny
          rw [map_objs, hj]
          exact (Fol.text _).seq (Fol.sepBy _ _ _ joins (fun c _ => Fol.placed c _ rfl))
    · intro hj
      have hj : joins = [] := by cases joins <;> simp [objs] at hj ⊢
      simp [joined, ifAny, hj]
  · exact filtered_fol { d := m0.d, env := effEnv m0.env q.env } froms wh
  · refine guarded_clause _ _ ob _ _ ?_
    split
    · exact .fail _ _
    · split
      · exact .fail _ _
      · exact (Fol.text _).seq (values_fol { d := m0.d, env := effEnv m0.env q.env } ob)
  · apply Fol.when
    · intro _
      split
      · exact .fail _ _
      · split
        · exact .fail _ _
        · exact number_fol { d := m0.d, env := effEnv m0.env q.env } _ _ (by decide +kernel) q.limit
    · intro hi
      cases hl : q.limit with
      | none => rfl
      | some i => simp [hl] at hi
  · exact limited_fol _ _ _ _ _ _ (number_fol { d := m0.d, env := effEnv m0.env q.env } _ _ (by decide +kernel) q.offset)
  · exact returning_fol { d := m0.d, env := effEnv m0.env q.env } ret

theorem join_fol (jt : Str) (tbl on : Node) (m : Mode) :
    Fol m.d (ren (.join jt tbl on) m [])
      ([.text (if jt = [] then "JOIN".toList else jt), .text " "] ++ source { d := m.d } tbl ++ condition { d := m.d } " ON " on) := by
  rw [ren]
  simp only [joinAppend]
  generalize (if jt = [] then "JOIN".toList else jt) = j
  split
  · exact .fail _ _
  · split
    · exact .fail _ _
    · simp only [List.append_assoc, source, List.cons_append, List.nil_append]
      refine Fol.seq (ps := [.text _, .text _]) (Fol.text2 _ _) (Fol.seq (ps := [.placed tbl _]) ?_ (Fol.seq (alias_fol m tbl.alias) ?_))
      · split
        · exact .fail _ _
        · exact Fol.placed tbl { d := m.d } rfl
      · exact condition_fol { d := m.d } _ on

theorem cte_fol (c : CteMeta) (q : Node) (m : Mode) (ps : List Part) (h : construct m (.cte c q) = some ps) :
    Fol m.d (ren (.cte c q) m []) ps := by
  simp only [construct, Option.some.injEq] at h
  subst h
  rw [ren]
  split
  · unfold cteDefAppend
    split
    · exact .fail _ _
    · split
      · exact .fail _ _
      · simp only [List.append_assoc]
        refine Fol.seq (ps := [.text _]) (Fol.text _) (Fol.seq ?_ (Fol.seq (Fol.text _) (Fol.seq ?_ (Fol.seq (ps := [.text _]) (Fol.text _)
          (Fol.seq (ps := [.placed q _]) ?_ (Fol.text _))))))
        · apply Fol.when
          · intro he
            rw [if_pos he, joinStr_names]
            rw [← List.append_assoc]
            exact Fol.text3 _ _ _
          · intro he
            rw [if_neg (by simp [he])]
        · cases m.d <;> cases c.materialized <;> try exact .done
          rename_i b
          cases b
          · exact Fol.text _
          · exact Fol.text _
        · have hk : (mkPV q (ren q) (hookOf q)).toObj.kind = q.kind := rfl
          rw [hk]
          split
          · exact .fail _ _
          · rename_i h; simp only [h, if_true]; exact Fol.placed q _ rfl
          · rename_i h1 h2; rw [if_neg h2]; exact Fol.placed q _ rfl
  · unfold cteRefAppend
    split
    · exact .fail _ _
    · split
      · exact .fail _ _
      · exact Fol.text _

theorem subquery_fol (st : Option Str) (a : Str) (q : Node) (m : Mode) :
    Fol m.d (ren (.subquery st a q) m []) [.text "(", .placed q { d := m.d }, .text ")"] := by
  rw [ren]
  unfold subqueryAppend
  split
  · exact .fail _ _
  · refine Fol.seq (ps := [.text _]) (Fol.text _) (Fol.seq (ps := [.placed q { d := m.d }]) (Fol.placed q { d := m.d } rfl)
      (Fol.seq (ps := [.text _]) (qs := []) (Fol.text _) ?_))
    split
    · exact .fail _ _
    · exact .done

theorem cases_fol (m : Mode) (cs : List (Node × Node)) : Fol m.d (seqAll ((pairs cs).map (caseArm m))) (cases_ m cs) := by
  rw [pairs_map, List.map_map]
  induction cs with
  | nil => exact .done
  | cons c cs ih =>
    refine Fol.seq ?_ ih
    exact Fol.seq (ps := [.text _]) (Fol.text _) (Fol.seq (ps := [.placed _ _]) (Fol.placed c.1 m rfl) (Fol.seq (ps := [.text _]) (Fol.text _)
      (Fol.placed c.2 m rfl)))

theorem else_fol (m : Mode) (fb : Node) : Fol m.d (elseEnd m (obj fb).toObj) (else_ m fb) := by
  unfold elseEnd else_
  refine Fol.seq (Fol.when ?_ ?_) (Fol.text _)
  · intro h
    rw [if_neg (by intro h2; rw [(nil_kind fb).2 h2] at h; simp at h)]
    exact (Fol.text _).seq (Fol.placed fb m rfl)
  · intro h
    rw [if_pos ((nil_kind fb).1 (by simpa using h))]

theorem not_fol (d : Dialect) (neg : Bool) : Fol d (.when neg (.wr "NOT ")) (not_ neg) := by
  cases neg
  · exact .done
  · exact Fol.text _

theorem grouped_fol {d : Dialect} (top : Bool) (w : W) (ps : List Part) (h : Fol d w ps) :
    Fol d (W.when (!top) (.wr "(") ⨟ w ⨟ W.when (!top) (.wr ")")) (grouped top ps) := by
  cases top
  · exact (Fol.text _).seq (h.seq (Fol.text _))
  · have := Fol.seq (Fol.done (d := d)) (h.seq Fol.done)
    simpa [grouped] using this

theorem vpred_fol (top : Bool) (a : Str) (isOr neg : Bool) (qs : List Node) (m : Mode) (ps : List Part)
    (h : construct m (.vpred top a isOr neg qs) = some ps) : Fol m.d (ren (.vpred top a isOr neg qs) m []) ps := by
  simp only [construct] at h
  split at h
  · simp at h
  rename_i hm
  simp only [Option.some.injEq] at h
  subst h
  rw [ren, if_neg (fun h => hm h.1)]
  have ht : effTop m top = alone m top := rfl
  rw [ht]
  generalize alone m top = t
  match qs with
  | [] => exact .done
  | [p] =>
    have hp : (obj p).toObj.kind = p.kind := rfl
    show Fol m.d (variadicAppend m t isOr neg [(obj p).toObj]) _
    simp only [variadicAppend, hp]
    refine (not_fol m.d neg).seq ?_
    split
    · exact .fail _ _
    · rename_i k hk
      cases p <;> simp [Node.kind] at hk
      · exact grouped_fol t _ _ (Fol.placed _ _ rfl)
      · rename_i k _ _ _; cases k <;> simp [ExtKind.kind] at hk
    · rename_i hk hv
      have hc : soleConjunct m t p = conjunct m p := by
        cases p <;> first | rfl | exact absurd rfl (hv _)
      rw [hc]
      exact Fol.placed p { d := m.d, ex := m.ex } rfl
  | p :: q :: ps =>
    refine (not_fol m.d neg).seq (grouped_fol t _ _ ?_)
    rw [map_objs]
    refine Fol.sepBy _ _ _ (p :: q :: ps) ?_
    intro x _
    unfold operand
    split
    · exact .fail _ _
    · exact Fol.placed x { d := m.d, ex := m.ex } rfl

theorem vquery_fol (top : Bool) (op : Str) (qs : List Node) (m : Mode) (ps : List Part)
    (h : construct m (.vquery top op qs) = some ps) : Fol m.d (ren (.vquery top op qs) m []) ps := by
  simp only [construct, Option.some.injEq] at h
  subst h
  rw [ren]
  have ht : effTop m top = alone m top := rfl
  rw [ht]
  generalize alone m top = t
  match qs with
  | [] => exact .done
  | [q] =>
    show Fol m.d (variadicQueryAppend m t op [(obj q).toObj]) _
    have hk : (obj q).toObj.kind = q.kind := rfl
    simp only [variadicQueryAppend, hk]
    split
    · exact .fail _ _
    · rename_i h; rw [if_pos h]; exact Fol.placed q _ rfl
    · rename_i h1 h2; rw [if_neg h2]; exact Fol.placed q _ rfl
  | p :: q :: ps =>
    refine grouped_fol t _ _ ?_
    rw [map_objs]
    refine Fol.sepBy _ _ _ (p :: q :: ps) ?_
    intro x _
    have hk : (obj x).toObj.kind = x.kind := rfl
    unfold vqOperand setOperand
    rw [hk]
    split
    · exact .fail _ _
    · rename_i h; rw [if_pos h]; exact Fol.placed x _ rfl
    · rename_i h1 h2; rw [if_neg h2]; exact Fol.placed x _ rfl

theorem construct_fol (n : Node) (m : Mode) (ps : List Part) (h : construct m n = some ps) : Fol m.d (ren n m []) ps := by
  match n with
  | .slice i vs =>
    simp only [construct, Option.some.injEq] at h
    subst h
    rw [ren]
    unfold explodeSlice
    rw [map_objs]
    exact Fol.sepBy _ _ _ vs (fun v _ => element_fol m v)
  | .fields fs =>
    simp only [construct, Option.some.injEq] at h
    subst h
    rw [ren]
    exact values_fol m.std fs
  | .rowValue vs =>
    simp only [construct, Option.some.injEq] at h
    subst h
    rw [ren]
    exact row_fol m.std vs
  | .rowValues rows =>
    simp only [construct, Option.some.injEq] at h
    subst h
    rw [ren]
    exact rows_fol m.std rows
  | .assign l r =>
    simp only [construct, Option.some.injEq] at h
    subst h
    rw [ren]
    exact assignment_fol m.std (l, r)
  | .assigns as =>
    simp only [construct, Option.some.injEq] at h
    subst h
    rw [ren]
    exact assignments_fol m.std as
  | .table s nm a hk hp =>
    simp only [construct, Option.some.injEq] at h
    subst h
    rw [ren]
    exact Fol.text _
  | .join jt tbl on =>
    simp only [construct, Option.some.injEq] at h
    subst h
    exact join_fol jt tbl on m
  | .literal s a =>
    simp only [construct, Option.some.injEq] at h
    subst h
    rw [ren]
    exact Fol.text _
  | .value v a =>
    simp only [construct, Option.some.injEq] at h
    subst h
    rw [ren]
    exact Fol.placed v m.std rfl
  | .predCases a cs fb =>
    simp only [construct, Option.some.injEq] at h
    subst h
    rw [ren]
    unfold predCasesAppend
    refine (Fol.text _).seq (Fol.seq (ps := []) ?_ ((cases_fol m.std cs).seq (else_fol m.std fb)))
    split
    · exact .fail _ _
    · exact .done
  | .simpleCases a e cs fb =>
    simp only [construct, Option.some.injEq] at h
    subst h
    rw [ren]
    unfold simpleCasesAppend
    refine (Fol.text _).seq (Fol.seq (ps := []) ?_ (Fol.seq (ps := [.placed e m.std]) (Fol.placed e m.std rfl)
      ((cases_fol m.std cs).seq (else_fol m.std fb))))
    split
    · exact .fail _ _
    · exact .done
  | .vpred .. => exact vpred_fol _ _ _ _ _ m ps h
  | .vquery .. => exact vquery_fol _ _ _ m ps h
  | .cte c q => exact cte_fol c q m ps h
  | .subquery st a q =>
    simp only [construct, Option.some.injEq] at h
    subst h
    exact subquery_fol st a q m
  | .select .. => exact select_fol _ _ _ _ _ _ _ _ _ _ m ps h
  | .insert .. => exact insert_fol _ _ _ _ _ _ _ _ _ _ _ _ m ps h
  | .update .. => exact update_fol _ _ _ _ _ _ _ _ _ _ m ps h
  | .delete .. =>
    simp only [construct] at h
    split at h
    · simp at h
    · simp only [Option.some.injEq] at h
      exact h ▸ delete_fol _ _ _ _ _ _ _ _ m

/-- **C55 (partial).** Whenever a statement, join, common table expression, subquery, set operation, group of predicates, CASE, table,
list of values or assignment renders without error, its SQL is exactly the form it stands for: the clauses that were given, once each
and in the order SQL wants them, with their keywords and separators, every part meaning what it means when rendered alone and with its
own values bound, and nothing else.  `N n` are the parameter names part `n` uses.  Missing: parts that share a parameter name (C09,
C10), sql.NamedArg on SQLite and SQL Server, and `C55_delete_tables_violated`. -/
theorem C55_forms_partial (m : Mode) (n : Node) (ps : List Part) (hf : construct m n = some ps) (N : Node → Str → Prop)
    (hN : ∀ k ∈ operands ps, k.All (UsesNames m.d (N k)) ∧ k.All (NoNamed m.d))
    (hd : (operands ps).Pairwise fun a b => ∀ x, N a x → ¬ N b x) (hok : (renderAt m n).status = .ok) :
    sqlAt m n = ps.flatMap (Part.sql m.d) := by
  have h := construct_fol n m ps hf hok
  exact (h.means N (h.ok hok) hN hd).2

theorem ignoreErr_ok (a : W) (h : a.st = .ok) : a.ignoreErr = a := by
  unfold W.ignoreErr; rw [h]

theorem seq_st {a b : W} (ha : a.st = .ok) (hb : b.st = .ok) : (a ⨟ b).st = .ok := by
  unfold W.seq; rw [ha]; exact hb

theorem when_st {c : Bool} {a : W} (ha : a.st = .ok) : (W.when c a).st = .ok := by
  cases c
  · rfl
  · exact ha

theorem sepBy_st (sep : Str) : (ws : List W) → (∀ w ∈ ws, w.st = .ok) → (sepBy sep ws).st = .ok
  | [], _ => rfl
  | [w], h => h w (by simp)
  | w :: v :: ws, h => seq_st (h w (by simp)) (seq_st rfl (sepBy_st sep (v :: ws) fun x hx => h x (by simp at hx ⊢; right; exact hx)))

theorem window_fol (m : Mode) (part order : List Node) (frame : Str)
    (hok : ∀ k ∈ part ++ order, (renderAt { d := m.d } k).status = .ok) :
    (ren (.window part order frame) m []).st = .ok ∧
    Fol m.d (ren (.window part order frame) m []) (windowForm m.d part order frame) := by
  have hall : ∀ ns : List Node, (∀ k ∈ ns, k ∈ part ++ order) →
      (fieldsAppend (m.std.call none []) ((objs ns).map PV.toObj)).st = .ok := by
    intro ns h
    unfold fieldsAppend
    rw [map_objs]
    refine sepBy_st _ _ ?_
    intro w hw
    obtain ⟨k, hk, rfl⟩ := List.mem_map.1 hw
    exact hok k (h k hk)
  have h1 := hall part (fun k hk => List.mem_append_left _ hk)
  have h2 := hall order (fun k hk => List.mem_append_right _ hk)
  have hst : (ren (.window part order frame) m []).st = .ok := by
    rw [ren]
    unfold windowAppend
    rw [ignoreErr_ok _ h1, ignoreErr_ok _ h2]
    exact seq_st rfl (seq_st (when_st (seq_st rfl h1)) (seq_st (when_st (seq_st (when_st rfl) (seq_st rfl h2)))
      (seq_st (when_st (seq_st (when_st rfl) rfl)) rfl)))
  refine ⟨hst, ?_⟩
  rw [ren]
  unfold windowAppend windowForm
  rw [ignoreErr_ok _ h1, ignoreErr_ok _ h2]
  have v1 : Fol m.d (fieldsAppend (m.std.call none []) ((objs part).map PV.toObj)) (values { d := m.d } part) := values_fol { d := m.d } part
  have v2 : Fol m.d (fieldsAppend (m.std.call none []) ((objs order).map PV.toObj)) (values { d := m.d } order) := values_fol { d := m.d } order
  generalize fieldsAppend (m.std.call none []) ((objs part).map PV.toObj) = w1 at v1
  generalize fieldsAppend (m.std.call none []) ((objs order).map PV.toObj) = w2 at v2
  generalize values { d := m.d } part = p1 at v1 ⊢
  generalize values { d := m.d } order = p2 at v2 ⊢
  simp only [objs_nil, ne_eq, List.append_assoc]
  refine (Fol.text _).seq ?_
  have t1 := (Fol.text (d := m.d) "PARTITION BY ".toList).seq v1
  have t2 := (Fol.text (d := m.d) "ORDER BY ".toList).seq v2
  by_cases e1 : part = [] <;> by_cases e2 : order = [] <;> by_cases e3 : frame = [] <;>
    simp only [e1, e2, e3, not_true, not_false_iff, decide_true, decide_false, when_true, when_false, ok_seq, if_true, if_false,
      List.nil_append, List.cons_append, listed, List.append_nil, Bool.or_true, Bool.or_false, Bool.true_or, Bool.false_or] 
  · exact Fol.text _
  · exact (Fol.text _).seq (Fol.text ")".toList)
  · exact (t2.seq (Fol.text ")".toList)).congr (by simp [seq_assoc]) (by simp)
  · exact (t2.seq ((Fol.text " ".toList).seq ((Fol.text frame).seq (Fol.text ")".toList)))).congr (by simp [seq_assoc]) (by simp)
  · exact (t1.seq (Fol.text ")".toList)).congr (by simp [seq_assoc]) (by simp)
  · exact (t1.seq ((Fol.text " ".toList).seq ((Fol.text frame).seq (Fol.text ")".toList)))).congr (by simp [seq_assoc]) (by simp)
  · exact (t1.seq ((Fol.text " ".toList).seq (t2.seq (Fol.text ")".toList)))).congr (by simp [seq_assoc]) (by simp)
  · exact (t1.seq ((Fol.text " ".toList).seq (t2.seq ((Fol.text " ".toList).seq ((Fol.text frame).seq (Fol.text ")".toList)))))).congr (by simp [seq_assoc]) (by simp)

/-- **C55, windows (partial).** A window writes its PARTITION BY, ORDER BY and frame in that order, separated by spaces.  It ignores
the errors of its fields (`C21_window_violated`), so this holds when all of them render. -/
theorem C55_window_partial (m : Mode) (part order : List Node) (frame : Str) (N : Node → Str → Prop)
    (hN : ∀ k ∈ operands (windowForm m.d part order frame), k.All (UsesNames m.d (N k)) ∧ k.All (NoNamed m.d))
    (hd : (operands (windowForm m.d part order frame)).Pairwise fun a b => ∀ x, N a x → ¬ N b x)
    (hok : ∀ k ∈ part ++ order, (renderAt { d := m.d } k).status = .ok) :
    (renderAt m (.window part order frame)).status = .ok ∧
    sqlAt m (.window part order frame) = (windowForm m.d part order frame).flatMap (Part.sql m.d) := by
  obtain ⟨hst, hf⟩ := window_fol m part order frame hok
  have h := hf hst
  exact ⟨hst, (h.means N (h.ok hst) hN hd).2⟩

/-- The hypotheses hold of a select with every kind of clause, a CTE, a join and a table that asks for a condition. -/
def exSelect : Node :=
  .select { distinct := true, limit := some 5, offset := some 2 } [] [Ex.col "u" "id", Ex.eqInt (Ex.col "u" "id") 7] []
    (.table [] "users" "u" (fun _ => .pred) (fun _ => Ex.eqInt (Ex.col "u" "tenant") 3))
    [.join "LEFT JOIN" (.table "public" "orders" [] Ex.noHook (fun _ => .nil)) (Ex.andp [Ex.eqInt (Ex.col "orders" "n") 1])]
    (Ex.andp [Ex.eqInt (Ex.col "u" "id") 1, .cpred [] "{} = {}" false [Ex.col "u" "age", .param "age" (.scalar (.int 4))]])
    [Ex.col "u" "id"] (Ex.andp [Ex.eqInt (Ex.col "u" "id") 1]) [Ex.col "u" "age"]

theorem C55_applies (d : Dialect) : ∃ ps, construct { d := d } exSelect = some ps ∧
    sqlAt { d := d } exSelect = ps.flatMap (Part.sql d) := by
  refine ⟨_, rfl, C55_forms_partial { d := d } exSelect _ rfl (fun n x => match n with | .vpred _ _ _ _ (_ :: _ :: _) => x = "age".toList | _ => False)
    ?_ ?_ ?_⟩
  · intro n hn
    have f1 : ∀ N, OrdinalsIn N "{} = {}".toList := fun N => no_ordinals N _ (by
      intro b hb
      rw [show parseFmt none "{} = {}".toList = [.hole [], .lit ' ', .lit '=', .lit ' ', .hole []] by decide] at hb
      simpa using hb)
    simp at f1
    simp [exSelect, operands, with_, Spec.distinct, items, item, listed, named, ifTable, source, joined, ifAny, filtered, asks, condition,
      values, number, Ex.andp, Ex.eqInt, Ex.col, Node.alias, Ex.noHook, List.filterMap_cons] at hn
    rcases hn with rfl | rfl | rfl | rfl | rfl | rfl | rfl | rfl <;>
      simp [Node.All, AllL, UsesNames, NoNamed, f1, Node.kind]
  · simp [exSelect, operands, with_, Spec.distinct, items, item, listed, named, ifTable, source, joined, ifAny, filtered, asks, condition,
      values, number, Ex.andp, Ex.eqInt, Ex.col, Node.alias, Ex.noHook, List.filterMap_cons]
  · cases d <;> decide +kernel

/-- **C55, several tables (violated).** DELETE with two tables and no USING writes the first and silently forgets the second. -/
theorem C55_delete_tables_violated (d : Dialect) :
    let a := Ex.users; let b := Node.table [] "orders" [] Ex.noHook (fun _ => .nil)
    (toSQL d (.delete {} [] [a, b] .nil [] (Ex.andp [Ex.eqInt (Ex.col "u" "id") 1]) [] [])).pieces =
    (toSQL d (.delete {} [] [a] .nil [] (Ex.andp [Ex.eqInt (Ex.col "u" "id") 1]) [] [])).pieces ∧
    (toSQL d (.delete {} [] [a, b] .nil [] (Ex.andp [Ex.eqInt (Ex.col "u" "id") 1]) [] [])).status = .ok := by
  cases d <;> decide +kernel

end Sq.Exprs
