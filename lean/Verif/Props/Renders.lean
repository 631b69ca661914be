import Verif.Spec.Renders
import Verif.Props.Clauses
/-
C62: a construct renders without an error exactly if what it needs is there and its parts render.
-/
namespace Sq.Exprs
open Sq Sq.Spec

/-- The code `w` succeeds exactly if `C` holds and the parts of the form render. -/
def Cond (w : W) (C : Prop) (ps : List Part) : Prop := w.st = .ok ↔ C ∧ PartsRender ps

theorem partsRender_append (ps qs : List Part) : PartsRender (ps ++ qs) ↔ PartsRender ps ∧ PartsRender qs := by
  unfold PartsRender
  constructor
  · intro h
    exact ⟨fun k mk hk => h k mk (List.mem_append_left _ hk), fun k mk hk => h k mk (List.mem_append_right _ hk)⟩
  · rintro ⟨h1, h2⟩ k mk hk
    rcases List.mem_append.1 hk with hk | hk
    · exact h1 k mk hk
    · exact h2 k mk hk

theorem partsRender_nil : PartsRender [] := fun _ _ h => absurd h (List.not_mem_nil)

theorem partsRender_text (t : Str) : PartsRender [.text t] := by
  intro k mk h
  simp at h

theorem seq_iff (a b : W) : (a ⨟ b).st = .ok ↔ a.st = .ok ∧ b.st = .ok :=
  ⟨seq_ok, fun h => seq_st h.1 h.2⟩

theorem Cond.seq {a b : W} {C D : Prop} {ps qs : List Part} (ha : Cond a C ps) (hb : Cond b D qs) : Cond (a ⨟ b) (C ∧ D) (ps ++ qs) := by
  unfold Cond at *
  rw [seq_iff, ha, hb, partsRender_append]
  constructor
  · rintro ⟨⟨h1, h2⟩, h3, h4⟩; exact ⟨⟨h1, h3⟩, h2, h4⟩
  · rintro ⟨⟨h1, h2⟩, h3, h4⟩; exact ⟨⟨h1, h3⟩, h2, h4⟩

theorem Cond.iff {w : W} {C D : Prop} {ps : List Part} (h : Cond w C ps) (hc : C ↔ D) : Cond w D ps := by
  unfold Cond at *
  rw [h, hc]

theorem Cond.text (t : Str) : Cond (.wr t) True [.text t] := by
  simp [Cond, W.wr, partsRender_text]

theorem Cond.text2 (t u : Str) : Cond (.wr (t ++ u)) True [.text t, .text u] := by
  simp only [Cond, W.wr, true_and, true_iff]
  intro k mk h
  simp at h

theorem Cond.text3 (t u v : Str) : Cond (.wr (t ++ u ++ v)) True [.text t, .text u, .text v] := by
  simp only [Cond, W.wr, true_and, true_iff]
  intro k mk h
  simp at h

theorem Cond.done : Cond .ok True [] := by
  simp [Cond, W.ok, partsRender_nil]

theorem Cond.fail (e : Str) (ps : List Part) : Cond (.fail e) False ps := by
  simp [Cond, W.fail]

theorem Cond.value (a : Arg) : Cond (.emit (.bind [] a)) True [.value a] := by
  simp only [Cond, W.emit, true_and, true_iff]
  intro k mk h
  simp at h

theorem Cond.placed (n : Node) (m : Mode) : Cond (ren n m []) True [.placed n m] := by
  unfold Cond PartsRender
  constructor
  · intro h
    refine ⟨trivial, fun k mk hk => ?_⟩
    simp only [List.mem_singleton, Part.placed.injEq] at hk
    obtain ⟨rfl, rfl⟩ := hk
    exact h
  · rintro ⟨_, h⟩
    exact h n m (by simp)

/-- A check before going on. -/
theorem Cond.guard {c : Prop} [Decidable c] (e : Str) {w : W} {C : Prop} {ps : List Part} (h : ¬ c → Cond w C ps) :
    Cond (if c then .fail e else w) (¬ c ∧ C) ps := by
  by_cases hc : c
  · rw [if_pos hc]
    exact (Cond.fail e ps).iff (by simp [hc])
  · rw [if_neg hc]
    exact (h hc).iff (by simp [hc])

theorem Cond.when {c : Bool} {w : W} {C : Prop} {ps : List Part} (h : c = true → Cond w C ps) (hn : c = false → ps = []) :
    Cond (.when c w) (c = true → C) ps := by
  cases c with
  | true => exact (h rfl).iff (by simp)
  | false => rw [hn rfl]; exact Cond.done.iff (by simp)

theorem Cond.sepBy {α : Type} (sep : Str) (f : α → W) (C : α → Prop) (g : α → List Part) (xs : List α)
    (h : ∀ x ∈ xs, Cond (f x) (C x) (g x)) : Cond (sepBy sep (xs.map f)) (∀ x ∈ xs, C x) (listed sep (xs.map g)) := by
  match xs, h with
  | [], _ => exact Cond.done.iff (by simp)
  | [x], h => exact (h x (by simp)).iff (by simp)
  | x :: y :: xs, h =>
    have ih := Cond.sepBy sep f C g (y :: xs) (fun z hz => h z (by simp at hz ⊢; right; exact hz))
    have := ((h x (by simp)).seq ((Cond.text sep).seq ih)).iff (D := ∀ z ∈ x :: y :: xs, C z) (by simp)
    simpa [Sq.sepBy, listed] using this

theorem Cond.list {α : Type} (sep : Str) (f : α → W) (g : α → List Part) (xs : List α)
    (h : ∀ x ∈ xs, Cond (f x) True (g x)) : Cond (Sq.sepBy sep (xs.map f)) True (listed sep (xs.map g)) :=
  (Cond.sepBy sep f (fun _ => True) g xs h).iff (by simp)

/-! ### Parts of statements -/

theorem values_cond (m : Mode) (ns : List Node) : Cond (fieldsAppend m ((objs ns).map PV.toObj)) True (values m ns) := by
  unfold fieldsAppend values
  rw [map_objs]
  exact Cond.list _ _ _ ns (fun x _ => Cond.placed x m)

theorem alias_cond (d : Dialect) (a : Str) : Cond (asAlias d a) True (named d a) := by
  unfold asAlias named
  split
  · exact .done
  · exact Cond.text2 _ _

/-- Two steps without needs of their own. -/
theorem Cond.both {a b : W} {ps qs : List Part} (ha : Cond a True ps) (hb : Cond b True qs) : Cond (a ⨟ b) True (ps ++ qs) :=
  (ha.seq hb).iff (by simp)

theorem item_cond (m : Mode) (f : Node) : Cond (aliasField m (obj f).toObj) True (item m f) := by
  unfold aliasField
  by_cases h : f = .nil
  · subst h; exact Cond.placed .nil m
  · have h1 : ¬ (obj f).toObj.kind.isNil = true := fun hk => h ((Node.kind_isNil f).1 hk)
    have h2 : item m f = .placed f { d := m.d, ex := m.ex } :: named m.d f.alias := by
      cases f <;> first | rfl | contradiction
    rw [if_neg h1, h2]
    exact (Cond.placed f { d := m.d, ex := m.ex }).both (alias_cond m.d f.alias)

theorem items_cond (m : Mode) (fs : List Node) : Cond (aliasFieldsAppend m ((objs fs).map PV.toObj)) True (items m fs) := by
  unfold aliasFieldsAppend items
  rw [map_objs]
  exact Cond.list _ _ _ fs (fun x _ => item_cond m x)

theorem element_cond (m : Mode) (v : Node) : Cond (explodeElem m (obj v).toObj) True (element m v) := by
  by_cases h : (obj v).toObj.kind.isAppender = true
  · have h2 : element m v = [.placed v { d := m.d, ex := m.ex }] := by
      cases v <;> first | rfl | simp [obj, mkPV, Node.kind, Kind.isAppender] at h
    rw [h2]
    unfold explodeElem
    rw [if_pos h]
    exact Cond.placed v _
  · unfold explodeElem
    rw [if_neg h]
    cases v with
    | nil => exact Cond.placed .nil { d := m.d, ex := m.ex }
    | scalar a => exact Cond.placed (.scalar a) { d := m.d, ex := m.ex }
    | slice i xs => exact Cond.value _
    | namedArg n a => exact Cond.value _
    | ext k a n f => cases k <;> simp [obj, mkPV, Node.kind, ExtKind.kind, Kind.isAppender] at h
    | _ => simp [obj, mkPV, Node.kind, Kind.isAppender] at h

theorem row_cond (m : Mode) (vs : List Node) : Cond (rowValueAppend m ((objs vs).map PV.toObj)) True (row m vs) := by
  unfold rowValueAppend row
  rw [map_objs]
  exact (Cond.text _).both ((Cond.list _ _ _ vs (fun x _ => Cond.placed x m)).both (Cond.text _))

theorem rows_cond (m : Mode) (rows : List (List Node)) :
    Cond (rowValuesAppend m (objss rows)) True (listed ", " (rows.map (row { d := m.d }))) := by
  unfold rowValuesAppend
  rw [objss_map, List.map_map]
  exact Cond.list _ _ _ rows (fun r _ => row_cond { d := m.d } r)

theorem assignment_cond (m : Mode) (a : Node × Node) :
    Cond (assignAppend m (obj a.1).toObj (obj a.2).toObj) True (assignment m a) := by
  unfold assignAppend assignment
  refine Cond.both (ps := [.placed a.1 { d := m.d, ex := m.ex }]) (Cond.placed a.1 _) (Cond.both (ps := [.text " = "]) (Cond.text _) ?_)
  have hk : (obj a.2).toObj.kind.isQuery = true ↔ (a.2.kind = .query ∨ a.2.kind = .vquery) := by
    show a.2.kind.isQuery = true ↔ _
    cases a.2.kind <;> simp [Kind.isQuery]
  by_cases h : (obj a.2).toObj.kind.isQuery = true
  · rw [if_pos h, if_pos (hk.1 h)]
    exact (Cond.text _).both ((Cond.placed a.2 m).both (Cond.text _))
  · rw [if_neg h, if_neg (mt hk.2 h)]
    exact Cond.placed a.2 m

theorem assignments_cond (m : Mode) (as : List (Node × Node)) : Cond (assignsAppend m (pairs as)) True (assignments m as) := by
  unfold assignsAppend assignments
  rw [pairs_map, List.map_map]
  exact Cond.list _ _ _ as (fun a _ => assignment_cond { d := m.d, ex := m.ex } a)

theorem source_cond (m : Mode) (t : Node) : Cond (tableRef m (obj t).toObj) True (source m t) := by
  unfold tableRef source
  exact (Cond.placed t m).both (alias_cond m.d t.alias)

theorem conditional_iff (p : Node) : (obj p).toObj.npreds > 0 ↔ Conditional p := by
  rw [npreds_eq]
  cases p with
  | vpred t a o n ps => cases ps <;> simp [Conditional]
  | _ => simp [Conditional]

theorem condition_cond (m : Mode) (kw : Str) (p : Node) : Cond (predClause m kw (obj p).toObj) True (condition m kw p) := by
  unfold predClause
  refine (Cond.when (C := True) ?_ ?_).iff (by simp)
  · intro h
    have h := of_decide_eq_true h
    rw [npreds_eq] at h
    cases p <;> simp at h
    rename_i t a o n ps _
    cases ps with
    | nil => simp at h
    | cons q qs => exact (Cond.text _).both (Cond.placed _ _)
  · intro h
    have h := of_decide_eq_false h
    rw [npreds_eq] at h
    cases p <;> try rfl
    rename_i t a o n ps _
    cases ps with
    | nil => rfl
    | cons q qs => simp at h

theorem guarded_cond (kw : Str) (fs : List Node) (w : W) (C : Prop) (ps : List Part) (h : Cond w C (.text kw :: ps)) :
    Cond (.when ((objs fs).map PV.toObj ≠ []) w) (fs ≠ [] → C) (ifAny kw fs ps) := by
  have e : decide ((objs fs).map PV.toObj ≠ []) = true ↔ fs ≠ [] := by rw [decide_eq_true_iff, objs_nil']
  refine (Cond.when (C := C) ?_ ?_).iff (by rw [e])
  · intro hn
    have hn : fs.isEmpty = false := by cases fs <;> simp [objs] at hn ⊢
    unfold ifAny
    rw [hn]; exact h
  · intro hn
    have hn : fs = [] := by cases fs <;> simp [objs] at hn ⊢
    simp [ifAny, hn]
where
  objs_nil' : ((objs fs).map PV.toObj ≠ []) ↔ fs ≠ [] := by cases fs <;> simp [objs]

theorem clause_cond (kw : Str) (fs : List Node) (w : W) (ps : List Part) (h : Cond w True ps) :
    Cond (clause kw ((objs fs).map PV.toObj) w) True (ifAny kw fs ps) := by
  unfold clause
  exact (guarded_cond kw fs _ True ps ((Cond.text kw).both h)).iff (by simp)

theorem chars_st : (s : Str) → (seqAll (s.map fun c => W.wr [c])).st = .ok
  | [] => rfl
  | _ :: s => seq_st rfl (chars_st s)

theorem limit_st (m : Mode) (kw : Str) (text : Str) (hk : ' ' :: kw ++ " {}".toList = write (holes [text, []])) (i : Option Int) :
    (limitAppend m kw i).st = .ok := by
  cases i with
  | none => rfl
  | some i =>
    simp only [limitAppend]
    rw [hk, C11_sequential _ _ _ (by simp)]
    refine seq_st ?_ rfl
    exact seq_st (chars_st _) (seq_st rfl (chars_st _))

theorem number_cond (m : Mode) (kw : Str) (text : Str) (hk : ' ' :: kw ++ " {}".toList = write (holes [text, []])) (i : Option Int) :
    Cond (limitAppend m kw i) True (number text i) := by
  unfold Cond
  simp only [limit_st m kw text hk i, true_and, true_iff]
  intro k mk h
  cases i <;> simp [number] at h

theorem objs_ne (fs : List Node) : decide ((objs fs).map PV.toObj ≠ []) = true ↔ fs ≠ [] := by
  cases fs <;> simp [objs]

theorem pvs_ne (fs : List Node) : decide (objs fs ≠ []) = true ↔ fs ≠ [] := by
  cases fs <;> simp [objs]

theorem with_cond (m : Mode) (ctes : List Node) :
    Cond (.when (((objs ctes).map PV.toObj) ≠ []) (ctesAppend m ((objs ctes).map PV.toObj))) True (with_ m ctes) := by
  refine (Cond.when (C := True) ?_ ?_).iff (by simp)
  · intro h
    have h : ctes ≠ [] := by cases ctes <;> simp [objs] at h ⊢
    have ha : ((objs ctes).map PV.toObj).any isRecCte = ctes.any recursive := by
      rw [objs_eq]
      simp only [List.map_map, List.any_map]
      congr 1
      funext n
      cases n <;> try rfl
      rename_i k _ _ _; cases k <;> rfl
    unfold ctesAppend with_
    rw [map_objs, ha]
    have hi : ctes.isEmpty = false := by simpa using h
    rw [hi]
    have ht : ∀ b : Bool, Cond (.wr (if b then "WITH RECURSIVE " else "WITH ")) True [.text (if b then "WITH RECURSIVE " else "WITH ")] :=
      fun b => Cond.text _
    exact (ht _).both ((Cond.list _ _ _ ctes (fun c _ => Cond.placed c _)).both (Cond.text _))
  · intro h
    have h : ctes = [] := by cases ctes <;> simp [objs] at h ⊢
    simp [with_, h]

theorem joined_cond (m : Mode) (js : List Node) (w : W) (C : Prop) (hw : Cond w C [.text " "]) :
    Cond (.when (objs js ≠ []) (w ⨟ joinsAppend m ((objs js).map PV.toObj))) (js ≠ [] → C) (joined m js) := by
  refine (Cond.when (C := C) ?_ ?_).iff (by rw [pvs_ne])
  · intro h
    have h : js ≠ [] := by cases js <;> simp [objs] at h ⊢
    unfold joinsAppend joined ifAny
    rw [map_objs]
    have hi : js.isEmpty = false := by simpa using h
    rw [hi]
    exact (hw.seq (Cond.list _ _ _ js (fun c _ => Cond.placed c _))).iff (by simp)
  · intro h
    have h : js = [] := by cases js <;> simp [objs] at h ⊢
    simp [joined, ifAny, h]

theorem refuses_iff (n : Node) (env : Env) : Refuses n env ↔ HookFails n env := by
  match n with
  | .table _ _ _ _ _ => exact Iff.rfl
  | .join _ t _ => simp only [Refuses, HookFails]; exact refuses_iff t env
  | .nil | .scalar _ | .slice _ _ | .namedArg _ _ | .param _ _ | .field _ _ _ _ | .checkedField _ _ _ | .literal _ _
  | .value _ _ | .cpred _ _ _ _ | .vpred _ _ _ _ _ | .predCases _ _ _ | .simpleCases _ _ _ _ | .window _ _ _
  | .rowValue _ | .rowValues _ | .assign _ _ | .assigns _ | .fields _ | .customTable _ _ | .cte _ _ | .subquery _ _ _
  | .vquery _ _ _ | .customQuery _ _ _ | .select _ _ _ _ _ _ _ _ _ _ | .insert _ _ _ _ _ _ _ _ _ _ _ _
  | .update _ _ _ _ _ _ _ _ _ _ | .delete _ _ _ _ _ _ _ _ | .ext _ _ _ _ => exact Iff.rfl

/-- Asking the tables succeeds exactly if none answers with an error. -/
theorem collect_iff (env : Env) (ts : List Node) (f : List Obj → W) (C : Prop) (ps : List Part)
    (h : (∀ t ∈ ts, ¬ Refuses t env) → Cond (f ((objs (supplied env ts)).map PV.toObj)) C ps) :
    Cond (W.ofRes (collectHooks env (objs ts)) f) ((∀ t ∈ ts, ¬ Refuses t env) ∧ C) ps := by
  by_cases hr : ∀ t ∈ ts, ¬ Refuses t env
  · rw [collect_supplied env ts (fun t ht hf => hr t ht ((refuses_iff t env).2 hf))]
    exact (h hr).iff (by simp only [and_iff_right hr])
  · unfold Cond
    simp only [hr, false_and, iff_false]
    intro hok
    obtain ⟨hs, hc, _⟩ := ofRes_ok hok
    exact hr fun t ht hf => collect_none_fails env ts hs hc t ht ((refuses_iff t env).1 hf)

theorem filtered_cond (m : Mode) (ts : List Node) (own : Node) :
    Cond (W.ofRes (collectHooks m.env (objs ts)) fun hooks => whereWithHooks m hooks (obj own).toObj)
      (∀ t ∈ ts, ¬ Refuses t m.env) (filtered m ts own) := by
  refine (collect_iff m.env ts _ True _ ?_).iff (by simp)
  intro _
  have ha : ts.filterMap (asks · m.env) = supplied m.env ts := by
    unfold supplied
    congr 1
    funext n
    exact asks_eq n m.env
  unfold filtered
  rw [ha]
  cases hl : supplied m.env ts with
  | nil =>
    simp only [objs, List.map_nil, whereWithHooks, ne_eq, not_true_eq_false, if_false]
    exact condition_cond m _ own
  | cons a as =>
    unfold whereWithHooks
    rw [if_pos (by simp [objs])]
    rw [← andOf_clause m (a :: as) own]
    exact condition_cond m _ (andOf (a :: as ++ [own]))

theorem isNil_iff (t : Node) : (obj t).toObj.kind.isNil = true ↔ t = .nil := Node.kind_isNil t

theorem from_cond (m : Mode) (kw : Str) (t : Node) (w : W) (C : Prop) (hw : Cond w C (.text kw :: source m t)) :
    Cond (.when (!(obj t).toObj.kind.isNil) w) (t ≠ .nil → C) (ifTable m kw t) := by
  by_cases h : t = .nil
  · subst h; exact Cond.done.iff (by simp)
  · have h1 : (obj t).toObj.kind.isNil = false := by
      cases hk : (obj t).toObj.kind.isNil with
      | false => rfl
      | true => exact absurd ((Node.kind_isNil t).1 hk) h
    have h2 : ifTable m kw t = .text kw :: source m t := by
      cases t <;> first | rfl | contradiction
    rw [h1, h2]
    exact hw.iff (by simp [h])

theorem returning_cond (m : Mode) (fs : List Node) :
    Cond (returningAppend m ((objs fs).map PV.toObj)) (ReturningAllowed m.d fs) (ifAny " RETURNING " fs (items m fs)) := by
  unfold returningAppend
  refine (guarded_cond _ fs _ _ _ (Cond.guard _ fun _ => (Cond.text " RETURNING ".toList).both (items_cond m fs))).iff ?_
  unfold ReturningAllowed
  grind

theorem distinct_cond (m : Mode) (q : SelMeta) (on : List Node) :
    Cond (if (objs on).map PV.toObj ≠ [] then
      if m.d ≠ .postgres then .fail "SELECT DISTINCT ON not supported"
      else if q.distinct then .fail "cannot be DISTINCT and DISTINCT ON"
      else .wr "DISTINCT ON (" ⨟ fieldsAppend m ((objs on).map PV.toObj) ⨟ .wr ") "
     else .when q.distinct (.wr "DISTINCT ")) (on ≠ [] → m.d = .postgres ∧ q.distinct = false) (distinct m q on) := by
  unfold distinct
  cases on with
  | nil =>
    simp only [objs, List.map_nil, ne_eq, not_true_eq_false, if_false, List.isEmpty_nil, if_true, false_imp_iff]
    cases q.distinct with
    | true => exact Cond.text _
    | false => exact .done
  | cons o os =>
    rw [if_pos (by simp [objs])]
    refine (Cond.guard _ fun _ => Cond.guard _ fun _ =>
      (Cond.text _).both ((values_cond m (o :: os)).both (Cond.text _))).iff (by simp)

theorem select_cond (q : SelMeta) (ctes fields on : List Node) (from_ : Node) (joins : List Node) (wh : Node)
    (gb : List Node) (hv : Node) (ob : List Node) (m0 : Mode) (ps : List Part)
    (h : construct m0 (.select q ctes fields on from_ joins wh gb hv ob) = some ps) :
    Cond (ren (.select q ctes fields on from_ joins wh gb hv ob) m0 [])
      (SelectNeeds m0.d (effEnv m0.env q.env) q fields on from_ joins) ps := by
  simp only [construct, Option.map_eq_some_iff] at h
  obtain ⟨own, hown, rfl⟩ := h
  rw [ren]
  simp only [selectAppend]
  have hw : ∀ hooks, whereWithHooks { d := m0.d, env := effEnv m0.env q.env } hooks
      (if m0.meth = .whereTrue ∧ (mkPV wh (ren wh) (hookOf wh)).toObj.npreds = 0 then withTrue (mkPV wh (ren wh) (hookOf wh)).toObj
      else (mkPV wh (ren wh) (hookOf wh)).toObj) = whereWithHooks { d := m0.d, env := effEnv m0.env q.env } hooks (obj own).toObj :=
    fun hooks => whereOf_eq m0 wh own hown _ hooks
  simp only [hw]
  simp only [List.append_assoc]
  have C := (with_cond { d := m0.d, env := effEnv m0.env q.env } ctes).seq (Cond.seq (Cond.text "SELECT ".toList) (Cond.seq
    (distinct_cond { d := m0.d, env := effEnv m0.env q.env } q on) (Cond.seq
      (Cond.guard (c := (objs fields).map PV.toObj = []) "no fields SELECT-ed".toList
        (fun _ => items_cond { d := m0.d, env := effEnv m0.env q.env } fields))
    (Cond.seq
      (from_cond { d := m0.d, env := effEnv m0.env q.env } " FROM ".toList from_ _ _ ((Cond.text _).both (source_cond { d := m0.d, env := effEnv m0.env q.env } from_)))
    (Cond.seq
      (joined_cond { d := m0.d, env := effEnv m0.env q.env } joins _ _
        (Cond.guard (c := (obj from_).kind.isNil = true) "can't JOIN without a FROM table".toList (fun _ => Cond.text " ".toList)))
    (Cond.seq
      (filtered_cond { d := m0.d, env := effEnv m0.env q.env } (from_ :: joins) own)
    (Cond.seq
      (clause_cond " GROUP BY ".toList gb _ _ (values_cond { d := m0.d, env := effEnv m0.env q.env } gb))
    (Cond.seq
      (condition_cond { d := m0.d, env := effEnv m0.env q.env } " HAVING ".toList hv)
    (Cond.seq
      (clause_cond " ORDER BY ".toList ob _ _ (values_cond { d := m0.d, env := effEnv m0.env q.env } ob))
    (Cond.seq
      (number_cond { d := m0.d, env := effEnv m0.env q.env } "LIMIT".toList " LIMIT ".toList (by decide +kernel) q.limit)
      (number_cond { d := m0.d, env := effEnv m0.env q.env } "OFFSET".toList " OFFSET ".toList (by decide +kernel) q.offset)))))))))))
  refine Cond.iff C ?_
  have e1 : (obj from_).kind.isNil = true ↔ from_ = .nil := isNil_iff from_
  rw [objs_nil, e1]
  constructor
  · rintro ⟨-, -, h1, ⟨h2, -⟩, -, h3, h4, -⟩
    exact ⟨h2, h1, fun h => (h3 h).1, h4⟩
  · rintro ⟨h1, h2, h3, h4⟩
    exact ⟨trivial, trivial, h2, ⟨h1, trivial⟩, fun _ => trivial, fun h => ⟨h3 h, trivial⟩, h4, trivial, trivial, trivial, trivial, trivial⟩

theorem target_cond (m : Mode) (ex : List Str) (q : InsMeta) (cf : List Node) (cp : Node) :
    Cond (if q.conflictConstraint ≠ [] then
        if m.d ≠ .postgres then .fail "ON CONFLICT ON CONSTRAINT not supported"
        else .wr (" ON CONSTRAINT ".toList ++ q.conflictConstraint)
       else .when ((objs cf).map PV.toObj ≠ [])
        (.wr " (" ⨟ fieldsAppend { m with ex := ex } ((objs cf).map PV.toObj) ⨟ .wr ")" ⨟
         .when (!(obj cp).toObj.kind.isNil)
           (.wr " WHERE " ⨟ (obj cp).toObj.act { m with ex := ex, meth := .top true } [])))
      (q.conflictConstraint ≠ [] → m.d = .postgres) (conflictTarget m ex q cf cp) := by
  unfold conflictTarget
  split
  · rename_i hc
    exact (Cond.guard _ fun _ => Cond.text2 _ _).iff (by simp [hc])
  · rename_i hc
    refine (Cond.when (C := True) ?_ ?_).iff (by simp [hc])
    · intro h
      have h : cf ≠ [] := by cases cf <;> simp [objs] at h ⊢
      rw [if_neg h]
      refine Cond.both (ps := [.text " ("]) (Cond.text _) (Cond.both (values_cond { m with ex := ex } cf) (Cond.both (ps := [.text ")"])
        (qs := if cp.kind = .nilv then [] else [.text " WHERE ", .placed cp { m with ex := ex, meth := .top true }]) (Cond.text _) ?_))
      by_cases hk : cp.kind = .nilv
      · have := (nil_kind cp).2 hk
        simp only [this, hk, if_true, Bool.not_true, when_false]
        exact .done
      · have h1 : (obj cp).toObj.kind.isNil = false := by
          cases hh : (obj cp).toObj.kind.isNil with
          | false => rfl
          | true => exact absurd ((nil_kind cp).1 hh) hk
        simp only [h1, hk, if_false, Bool.not_false, when_true]
        exact (Cond.text _).both (Cond.placed cp { m with ex := ex, meth := .top true })
    · intro h
      have h : cf = [] := by cases cf <;> simp [objs] at h ⊢
      rw [if_pos h]

theorem action_cond (m : Mode) (ex : List Str) (q : InsMeta) (res : List (Node × Node)) (rp : Node) :
    Cond (if pairs res = [] ∨ q.doNothing = true then .wr " DO NOTHING"
       else
        .wr " DO UPDATE SET " ⨟ assignsAppend { m with ex := ex } (pairs res) ⨟
        predClause m " WHERE " (obj rp).toObj) True (conflictAction m ex q res rp) := by
  have hres : pairs res = [] ↔ res = [] := by cases res <;> simp [pairs]
  unfold conflictAction
  by_cases h : res = [] ∨ q.doNothing = true
  · rw [if_pos h, if_pos (by rw [hres]; exact h)]; exact Cond.text _
  · rw [if_neg h, if_neg (by rw [hres]; exact h)]
    exact (Cond.text _).both ((assignments_cond { m with ex := ex } res).both (condition_cond m _ rp))

theorem conflict_cond (m : Mode) (ex : List Str) (q : InsMeta) (cf : List Node) (cp : Node) (res : List (Node × Node)) (rp : Node) :
    Cond (insertConflict m ex q ((objs cf).map PV.toObj) (obj cp).toObj (pairs res) (obj rp).toObj)
      (q.conflictConstraint ≠ [] → m.d ≠ .sqlite) (conflict m ex q cf cp res rp) := by
  have up : ∀ c : Prop, [Decidable c] → (c ↔ (q.conflictConstraint = [] ∧ cf = [] ∧ q.doNothing = false)) →
    Cond (if c then .ok
    else
      .wr " ON CONFLICT" ⨟
      (if q.conflictConstraint ≠ [] then
        if m.d ≠ .postgres then .fail "ON CONFLICT ON CONSTRAINT not supported"
        else .wr (" ON CONSTRAINT ".toList ++ q.conflictConstraint)
       else .when ((objs cf).map PV.toObj ≠ [])
        (.wr " (" ⨟ fieldsAppend { m with ex := ex } ((objs cf).map PV.toObj) ⨟ .wr ")" ⨟
         .when (!(obj cp).toObj.kind.isNil)
           (.wr " WHERE " ⨟ (obj cp).toObj.act { m with ex := ex, meth := .top true } []))) ⨟
      (if pairs res = [] ∨ q.doNothing = true then .wr " DO NOTHING"
       else
        .wr " DO UPDATE SET " ⨟ assignsAppend { m with ex := ex } (pairs res) ⨟
        predClause m " WHERE " (obj rp).toObj))
      (q.conflictConstraint ≠ [] → m.d = .postgres)
      (if q.conflictConstraint = [] ∧ cf = [] ∧ q.doNothing = false then []
        else .text " ON CONFLICT" :: conflictTarget m ex q cf cp ++ conflictAction m ex q res rp) := by
    intro c _ hc
    by_cases h : c
    · rw [if_pos h, if_pos (hc.1 h)]; exact Cond.done.iff (by simp [(hc.1 h).1])
    · rw [if_neg h, if_neg (mt hc.2 h)]
      exact ((Cond.text _).seq ((target_cond m ex q cf cp).seq (action_cond m ex q res rp))).iff (by simp)
  have hcf : (q.conflictConstraint = [] ∧ (objs cf).map PV.toObj = [] ∧ q.doNothing = false) ↔
      (q.conflictConstraint = [] ∧ cf = [] ∧ q.doNothing = false) := by rw [objs_nil]
  obtain ⟨d, env, ex0, meth⟩ := m
  unfold insertConflict conflict
  cases d with
  | sqlite => simp only [reduceCtorEq, if_false, true_or, if_true]; exact (up _ hcf).iff (by simp)
  | postgres => simp only [reduceCtorEq, if_false, or_true, if_true]; exact (up _ hcf).iff (by simp)
  | mysql =>
    simp only [if_true]
    refine (Cond.when (C := True) ?_ ?_).iff (by simp)
    · intro h
      have h : res.isEmpty = false := by cases res <;> simp [pairs] at h ⊢
      unfold ifAny
      rw [h]
      exact Cond.both (ps := [.text _]) (Cond.text _) (assignments_cond { d := .mysql, env := none, ex := ex, meth := meth } res)
    · intro h
      have h : res = [] := by cases res <;> simp [pairs] at h ⊢
      simp [ifAny, h]
  | _ => exact Cond.done.iff (by simp)

theorem supply_cond (m : Mode) (q : InsMeta) (rows : List (List Node)) (sel : Node) :
    Cond (if objss rows ≠ [] then
    .wr " VALUES " ⨟ rowValuesAppend m (objss rows) ⨟
    .when (q.rowAlias ≠ [])
      (if m.d ≠ .mysql then .fail "row aliases not supported"
       else .wr (" AS ".toList ++ q.rowAlias) ⨟
         .when (q.columnAliases ≠ []) (.wr (" (".toList ++ joinStr ", " q.columnAliases ++ ")".toList)))
   else if !(obj sel).toObj.kind.isNil then
    .wr " " ⨟ (obj sel).toObj.act { m with meth := if m.d = .sqlite then .whereTrue else .std } []
   else .fail "RowValues not provided and SelectQuery not provided to INSERT query")
   ((rows ≠ [] → q.rowAlias ≠ [] → m.d = .mysql) ∧ (rows ≠ [] ∨ sel ≠ .nil)) (supply m q rows sel) := by
  unfold supply
  cases rows with
  | nil =>
    simp only [objss, ne_eq, not_true_eq_false, if_false, List.isEmpty_nil, if_true]
    have e := isNil_iff sel
    split
    · rename_i h
      have hs : sel ≠ .nil := fun hs => by rw [e.2 hs] at h; simp at h
      exact ((Cond.text _).both (Cond.placed sel _)).iff (by simp [hs])
    · rename_i h
      have hs : sel = .nil := e.1 (by simpa using h)
      exact (Cond.fail _ _).iff (by simp [hs])
  | cons r rs =>
    rw [if_pos (by simp [objss])]
    refine Cond.iff (C := True ∧ True ∧ (decide (q.rowAlias ≠ []) = true → m.d = .mysql))
      (Cond.seq (ps := [.text _]) (Cond.text _) (Cond.seq (rows_cond m (r :: rs)) (Cond.when (C := m.d = .mysql) ?_ ?_))) (by simp)
    · intro h
      rw [if_neg (of_decide_eq_true h)]
      refine (Cond.guard _ fun _ => ?_).iff (D := m.d = .mysql) (C := ¬ ¬ m.d = .mysql ∧ True) (by simp)
      refine Cond.both (Cond.text2 _ _) ?_
      refine (Cond.when (C := True) ?_ ?_).iff (by simp)
      · intro h
        rw [if_neg (of_decide_eq_true h), joinStr_names]
        exact Cond.text3 _ _ _
      · intro h
        rw [if_pos (by simpa using of_decide_eq_false h)]
    · intro h
      rw [if_pos (by simpa using of_decide_eq_false h)]

theorem mapper_any (sets : List (Node × Node)) : ((pairs sets).any fun p => p.1.kind.isNil) = true ↔ ∃ s ∈ sets, s.1 = .nil := by
  rw [pairs_map, List.any_map, List.any_eq_true]
  constructor
  · rintro ⟨s, hs, h⟩
    exact ⟨s, hs, (isNil_iff s.1).1 h⟩
  · rintro ⟨s, hs, h⟩
    exact ⟨s, hs, (isNil_iff s.1).2 h⟩

theorem insert_mapper (q : InsMeta) (columns : List Node) (rows : List (List Node)) (sets : List (Node × Node)) (f : List Obj × List (List Obj) → W)
    (C : Prop) (ps : List Part)
    (h : Cond (f ((objs (insertData q columns rows sets).1).map PV.toObj, objss (insertData q columns rows sets).2)) C ps) :
    Cond (W.ofRes (insertColumnsRows q ((objs columns).map PV.toObj) (objss rows) (pairs sets)) f)
      (MapperWorks q.hasMapper q.mapErr sets ∧ C) ps := by
  by_cases hm : MapperWorks q.hasMapper q.mapErr sets
  · have : ∃ c, insertColumnsRows q ((objs columns).map PV.toObj) (objss rows) (pairs sets) = .ok c := by
      unfold insertColumnsRows
      split
      · rename_i hh
        obtain ⟨h1, h2⟩ := hm hh
        rw [if_neg (by rw [mapper_any]; rintro ⟨s, hs, hn⟩; exact h2 s hs hn), h1]
        exact ⟨_, rfl⟩
      · exact ⟨_, rfl⟩
    obtain ⟨⟨c, r⟩, hc⟩ := this
    obtain ⟨h1, h2⟩ := insert_data q columns rows sets c r hc
    rw [hc]
    subst h1 h2
    exact h.iff (by simp [hm])
  · unfold Cond
    simp only [hm, false_and, iff_false]
    intro hok
    obtain ⟨c, hc, _⟩ := ofRes_ok hok
    apply hm
    intro hh
    unfold insertColumnsRows at hc
    rw [if_pos hh] at hc
    split at hc
    · simp at hc
    · rename_i hn
      rw [mapper_any] at hn
      split at hc
      · simp at hc
      · rename_i he
        exact ⟨he, fun s hs h => hn ⟨s, hs, h⟩⟩

theorem insert_cond (q : InsMeta) (ctes : List Node) (into : Node) (columns : List Node) (rows : List (List Node))
    (sets : List (Node × Node)) (sel : Node) (cf : List Node) (cp : Node) (res : List (Node × Node)) (rp : Node)
    (ret : List Node) (m0 : Mode) (ps : List Part)
    (h : construct m0 (.insert q ctes into columns rows sets sel cf cp res rp ret) = some ps) :
    Cond (ren (.insert q ctes into columns rows sets sel cf cp res rp ret) m0 [])
      (InsertNeeds m0.d q into columns rows sets sel ret) ps := by
  simp only [construct, Option.some.injEq] at h
  subst h
  rw [ren]
  simp only [insertAppend]
  have e1 : (obj into).toObj.kind.isNil = true ↔ into = .nil := isNil_iff into
  refine Cond.iff (C := MapperWorks q.hasMapper q.mapErr sets ∧ (True ∧ (q.ignore = true → m0.d = .mysql) ∧ (into ≠ .nil) ∧ (into.alias ≠ [] → m0.d ≠ .mysql) ∧
    True ∧ (((insertData q columns rows sets).2 ≠ [] → q.rowAlias ≠ [] → m0.d = .mysql) ∧ ((insertData q columns rows sets).2 ≠ [] ∨ sel ≠ .nil)) ∧ (q.conflictConstraint ≠ [] → m0.d ≠ .sqlite) ∧
    ReturningAllowed m0.d ret)) (insert_mapper q columns rows sets _ _ _ ?_) ?_
  · generalize insertData q columns rows sets = data
    simp only [List.append_assoc, source, List.cons_append]
    refine (with_cond { d := m0.d, env := effEnv m0.env q.env } ctes).seq (Cond.seq (ps := [.text _]) ?_ (Cond.seq (ps := [.placed into _]) ?_ (Cond.seq ?_
      (Cond.seq ?_ (Cond.seq ?_ (Cond.seq ?_ ?_))))))
    · cases hq : q.ignore
      · exact (Cond.text _).iff (by simp)
      · exact (Cond.guard _ fun _ => Cond.text _).iff (by simp)
    · refine (Cond.guard _ fun _ => Cond.placed into _).iff ?_
      rw [show (mkPV into (ren into) (hookOf into)).kind.isNil = (obj into).toObj.kind.isNil from rfl, e1]
      simp
    · unfold named
      show Cond (if into.alias ≠ [] then _ else _) _ _
      by_cases ha : into.alias = []
      · rw [if_neg (by simp [ha]), if_pos ha]; exact Cond.done.iff (by simp [ha])
      · rw [if_pos ha, if_neg ha]
        exact (Cond.guard _ fun _ => Cond.text2 _ _).iff (by simp [ha])
    · refine (Cond.when (C := True) ?_ ?_).iff (by simp)
      · intro hn
        have hn : data.1.isEmpty = false := by
          cases hd : data.1 <;> simp [hd, objs] at hn ⊢
        rw [hn]
        exact (Cond.text _).both ((values_cond { d := m0.d, env := effEnv m0.env q.env, ex := [Spec.qualifier into] } data.1).both (Cond.text _))
      · intro hn
        have hn : data.1.isEmpty = true := by
          cases hd : data.1 <;> simp [hd, objs] at hn ⊢
        rw [hn]; rfl
    · exact supply_cond { d := m0.d, env := effEnv m0.env q.env } q data.2 sel
    · exact conflict_cond { d := m0.d, env := effEnv m0.env q.env } _ q cf cp res rp
    · exact returning_cond { d := m0.d, env := effEnv m0.env q.env } ret
  · constructor
    · rintro ⟨h0, -, h1, h2, h3, -, ⟨h4, h5⟩, h6, h7⟩
      exact ⟨h0, h1, h2, h3, h4, h5, h6, h7⟩
    · rintro ⟨h0, h1, h2, h3, h4, h5, h6, h7⟩
      exact ⟨h0, trivial, h1, h2, h3, trivial, ⟨h4, h5⟩, h6, h7⟩

theorem update_mapper (q : ModMeta) (as sets : List (Node × Node)) (f : List (Obj × Obj) → W) (C : Prop) (ps : List Part)
    (h : Cond (f (pairs (if q.hasMapper then sets else as))) C ps) :
    Cond (W.ofRes (updateAssignments q (pairs as) (pairs sets)) f) (MapperWorks q.hasMapper q.mapErr sets ∧ C) ps := by
  by_cases hm : MapperWorks q.hasMapper q.mapErr sets
  · have : ∃ c, updateAssignments q (pairs as) (pairs sets) = .ok c := by
      unfold updateAssignments
      split
      · rename_i hh
        obtain ⟨h1, h2⟩ := hm hh
        rw [if_neg (by rw [mapper_any]; rintro ⟨s, hs, hn⟩; exact h2 s hs hn), h1]
        exact ⟨_, rfl⟩
      · exact ⟨_, rfl⟩
    obtain ⟨c, hc⟩ := this
    have h1 := update_data q as sets c hc
    rw [hc]
    subst h1
    exact h.iff (by simp [hm])
  · unfold Cond
    simp only [hm, false_and, iff_false]
    intro hok
    obtain ⟨c, hc, _⟩ := ofRes_ok hok
    apply hm
    intro hh
    unfold updateAssignments at hc
    rw [if_pos hh] at hc
    split at hc
    · simp at hc
    · rename_i hn
      rw [mapper_any] at hn
      split at hc
      · simp at hc
      · rename_i he
        exact ⟨he, fun s hs h => hn ⟨s, hs, h⟩⟩

theorem limited_cond (g : Prop) [Decidable g] (e : Str) (i : Option Int) (w : W) (text : Str) (C : Prop)
    (h : Cond w C (number text i)) : Cond (.when i.isSome (if g then .fail e else w)) (i ≠ none → ¬ g ∧ C) (number text i) := by
  refine (Cond.when (C := ¬ g ∧ C) ?_ ?_).iff ?_
  · intro _
    exact Cond.guard _ fun _ => h
  · intro hi
    cases i with
    | none => rfl
    | some i => simp at hi
  · cases i <;> simp

theorem update_cond (q : ModMeta) (ctes : List Node) (table from_ : Node) (joins : List Node)
    (as sets : List (Node × Node)) (wh : Node) (ob ret : List Node) (m0 : Mode) (ps : List Part)
    (h : construct m0 (.update q ctes table from_ joins as sets wh ob ret) = some ps) :
    Cond (ren (.update q ctes table from_ joins as sets wh ob ret) m0 [])
      (UpdateNeeds m0.d (effEnv m0.env q.env) q table from_ joins as sets ob ret) ps := by
  simp only [construct, Option.some.injEq] at h
  subst h
  rw [ren]
  simp only [updateAppend]
  refine Cond.iff (C := MapperWorks q.hasMapper q.mapErr sets ∧ (True ∧ True ∧ (table ≠ .nil) ∧ ((if q.hasMapper then sets else as) ≠ []) ∧
    True ∧ (from_ ≠ .nil → m0.d ≠ .mysql) ∧ (joins ≠ [] → from_ ≠ .nil ∨ m0.d = .mysql) ∧ True ∧
    (∀ t ∈ table :: from_ :: joins, ¬ Refuses t (effEnv m0.env q.env)) ∧ True ∧ (ob ≠ [] → m0.d = .mysql ∨ m0.d = .sqlite) ∧
    (q.limit ≠ none → m0.d = .mysql ∨ m0.d = .sqlite) ∧ (q.offset ≠ none → m0.d = .sqlite) ∧
    ReturningAllowed m0.d ret)) (update_mapper q as sets _ _ _ ?_) ?_
  · generalize (if q.hasMapper then sets else as) = ch
    simp only [List.append_assoc]
    have e1 : (mkPV table (ren table) (hookOf table)).kind.isNil = true ↔ table = .nil := isNil_iff table
    have e2 : (mkPV from_ (ren from_) (hookOf from_)).kind.isNil = true ↔ from_ = .nil := isNil_iff from_
    have e3 : pairs ch = [] ↔ ch = [] := by cases ch <;> simp [pairs]
    have e4 : ∀ d : Dialect, ¬ (!mysqlSqlite d) = true ↔ d = .mysql ∨ d = .sqlite := by intro d; cases d <;> simp [mysqlSqlite]
    refine (with_cond { d := m0.d, env := effEnv m0.env q.env } ctes).seq (Cond.seq (ps := [.text _]) (Cond.text _) (Cond.seq ?_
      (Cond.seq (ps := []) ?_ (Cond.seq ?_ (Cond.seq ?_ (Cond.seq ?_ (Cond.seq ?_ (Cond.seq (ps := []) ?_ (Cond.seq ?_ (Cond.seq ?_ (Cond.seq ?_ (Cond.seq ?_ ?_))))))))))))
    · refine (Cond.guard _ fun _ => source_cond { d := m0.d, env := effEnv m0.env q.env } table).iff ?_
      rw [e1]; simp
    · refine (Cond.guard _ fun _ => Cond.done).iff ?_
      rw [e3]; simp
    · refine (Cond.when (C := True) ?_ ?_).iff (by simp)
      · intro hd
        rw [if_neg (of_decide_eq_true hd)]
        exact (Cond.text _).both (assignments_cond { d := m0.d, env := effEnv m0.env q.env, ex := [Spec.qualifier table] } ch)
      · intro hd
        rw [if_pos (by simpa using of_decide_eq_false hd)]
    · exact (from_cond { d := m0.d, env := effEnv m0.env q.env } _ from_ _ _ (Cond.guard _ fun _ =>
        (Cond.text _).both (source_cond { d := m0.d, env := effEnv m0.env q.env } from_))).iff (by simp)
    · refine (joined_cond { d := m0.d, env := effEnv m0.env q.env } joins _ _ (Cond.guard _ fun _ => Cond.text _)).iff ?_
      rw [e2]
      grind
    · refine (Cond.when (C := True) ?_ ?_).iff (by simp)
      · intro hd
        rw [if_pos (of_decide_eq_true hd)]
        exact (Cond.text _).both (assignments_cond { d := m0.d, env := effEnv m0.env q.env } ch)
      · intro hd
        rw [if_neg (of_decide_eq_false hd)]
    · exact (collect_iff (effEnv m0.env q.env) (table :: from_ :: joins) (fun _ => .ok) True [] fun _ => Cond.done).iff (by simp)
    · exact condition_cond { d := m0.d, env := effEnv m0.env q.env } _ wh
    · refine (guarded_cond _ ob _ _ _ (Cond.guard _ fun _ => (Cond.text _).both (values_cond { d := m0.d, env := effEnv m0.env q.env } ob))).iff ?_
      rw [e4]; simp
    · refine (limited_cond _ _ _ _ _ _ (number_cond { d := m0.d, env := effEnv m0.env q.env } _ _ (by decide +kernel) q.limit)).iff ?_
      rw [e4]; simp
    · refine (limited_cond _ _ _ _ _ _ (number_cond { d := m0.d, env := effEnv m0.env q.env } _ _ (by decide +kernel) q.offset)).iff ?_
      simp
    · exact returning_cond { d := m0.d, env := effEnv m0.env q.env } ret
  · constructor
    · rintro ⟨h0, -, -, h1, h2, -, h3, h4, -, h5, -, h6, h7, h8, h9⟩
      exact ⟨h0, h1, h2, h3, h4, h5, ⟨fun h => h.elim h6 h7, h8⟩, h9⟩
    · rintro ⟨h0, h1, h2, h3, h4, h5, ⟨h6, h8⟩, h9⟩
      exact ⟨h0, trivial, trivial, h1, h2, trivial, h3, h4, trivial, h5, trivial, fun h => h6 (.inl h), fun h => h6 (.inr h), h8, h9⟩

theorem tables_cond (m : Mode) (ts : List Node) :
    Cond (sepBy ", " ((objs ts).map fun t => if t.kind.isNil then W.panic else .wr (if t.alias = [] then t.name else t.alias)))
      (∀ t ∈ ts, t ≠ .nil) [.text (names (ts.map Spec.qualifier))] := by
  rw [objs_eq, List.map_map]
  have := Cond.sepBy ", ".toList
    ((fun t : PV => if t.kind.isNil then W.panic else .wr (if t.alias = [] then t.name else t.alias)) ∘ obj) (fun t => t ≠ .nil)
    (fun t => [Part.text (Spec.qualifier t)]) ts ?_
  · unfold Cond at this ⊢
    rw [this]
    refine and_congr Iff.rfl ⟨fun _ => partsRender_text _, fun _ => ?_⟩
    exact only ts
  · intro t _
    simp only [Function.comp]
    have e := isNil_iff t
    split
    · rename_i h
      simp [Cond, W.panic, e.1 h]
    · rename_i h
      exact (Cond.text _).iff (by simp only [true_iff]; exact fun hh => h (e.2 hh))
where
  only : (ts : List Node) → PartsRender (listed ", " (ts.map fun t => [Part.text (Spec.qualifier t)]))
    | [] => partsRender_nil
    | [t] => partsRender_text _
    | t :: u :: ts => (partsRender_append [_] _).2 ⟨partsRender_text _, (partsRender_append [_] _).2 ⟨partsRender_text _, only (u :: ts)⟩⟩

theorem delete_cond (q : ModMeta) (ctes froms : List Node) (us : Node) (joins : List Node) (wh : Node)
    (ob ret : List Node) (m0 : Mode) :
    Cond (ren (.delete q ctes froms us joins wh ob ret) m0 [])
      (DeleteNeeds m0.d (effEnv m0.env q.env) q froms us joins ob ret)
      (deleteParts { d := m0.d, env := effEnv m0.env q.env } q ctes froms us joins wh ob ret) := by
  rw [ren]
  simp only [deleteAppend, deleteParts]
  simp only [List.append_assoc]
  have e2 : (mkPV us (ren us) (hookOf us)).kind.isNil = true ↔ us = .nil := isNil_iff us
  have e5 : (!(mkPV us (ren us) (hookOf us)).kind.isNil) = true ↔ us ≠ .nil := by
    rw [Bool.not_eq_true', ← Bool.not_eq_true, e2]
  have e4 : ∀ d : Dialect, ¬ (!mysqlSqlite d) = true ↔ d = .mysql ∨ d = .sqlite := by intro d; cases d <;> simp [mysqlSqlite]
  have e6 : ¬ (!(mkPV us (ren us) (hookOf us)).kind.isNil || decide ((objs joins).map PV.toObj ≠ [])) = true ↔ us = .nil ∧ joins = [] := by
    rw [Bool.or_eq_true, e5, objs_ne]
    grind
  refine Cond.iff (C := True ∧ True ∧ (∃ f fs, froms = f :: fs ∧ f ≠ .nil ∧ (us ≠ .nil → m0.d = .mysql → ∀ t ∈ fs, t ≠ .nil)) ∧ (us ≠ .nil → m0.d ≠ .sqlite) ∧
    (joins ≠ [] → m0.d ≠ .sqlite ∧ us ≠ .nil) ∧ (∀ t ∈ froms, ¬ Refuses t (effEnv m0.env q.env)) ∧
    (ob ≠ [] → (m0.d = .mysql ∨ m0.d = .sqlite) ∧ us = .nil ∧ joins = []) ∧
    (q.limit ≠ none → (m0.d = .mysql ∨ m0.d = .sqlite) ∧ us = .nil ∧ joins = []) ∧ (q.offset ≠ none → m0.d = .sqlite) ∧
    ReturningAllowed m0.d ret)
    ((with_cond { d := m0.d, env := effEnv m0.env q.env } ctes).seq (Cond.seq (ps := [.text _]) (Cond.text _) (Cond.seq ?_
    (Cond.seq ?_ (Cond.seq ?_ (Cond.seq ?_ (Cond.seq ?_ (Cond.seq ?_ (Cond.seq ?_ ?_))))))))) ?_
  · have hus : (!(mkPV us (ren us) (hookOf us)).kind.isNil) = true ↔ ¬ us.kind = .nilv := by
      rw [Bool.not_eq_true', ← Bool.not_eq_true]
      exact not_congr (nil_kind us)
    match froms with
    | [] => exact (Cond.fail _ _).iff (by simp)
    | f :: fs =>
      simp only [objs, deleted]
      by_cases hc : ¬ us.kind = .nilv ∧ m0.d = .mysql
      · rw [if_pos ⟨hus.2 hc.1, hc.2⟩, if_neg (by intro h; rcases h with h | h; exact hc.1 h; exact h hc.2)]
        refine (tables_cond { d := m0.d, env := effEnv m0.env q.env } (f :: fs)).iff ?_
        have hu : us ≠ .nil := e5.1 (hus.2 hc.1)
        simp only [hu, hc.2, ne_eq, not_false_iff, true_implies, List.mem_cons, forall_eq_or_imp]
        constructor
        · rintro ⟨h1, h2⟩
          exact ⟨f, fs, rfl, h1, h2⟩
        · rintro ⟨f', fs', he, h1, h2⟩
          simp only [List.cons.injEq] at he
          rw [he.1, he.2]; exact ⟨h1, h2⟩
      · rw [if_neg (fun h => hc ⟨hus.1 h.1, h.2⟩)]
        have hs : us.kind = .nilv ∨ m0.d ≠ .mysql := by
          by_cases hm : m0.d = .mysql
          · left
            by_cases hu : us.kind = .nilv
            · exact hu
            · exact absurd ⟨hu, hm⟩ hc
          · exact .inr hm
        have hu : us ≠ .nil → m0.d ≠ .mysql := fun h hm => hc ⟨hus.1 (e5.2 h), hm⟩
        have := Cond.guard (c := (obj f).toObj.kind.isNil = true) "no table provided to DELETE".toList
          fun _ => source_cond { d := m0.d, env := effEnv m0.env q.env } f
        rw [if_pos hs]
        refine this.iff ?_
        rw [isNil_iff]
        simp only [and_true]
        constructor
        · intro h
          exact ⟨f, fs, rfl, h, fun h1 h2 => absurd h2 (hu h1)⟩
        · rintro ⟨f', fs', he, h, -⟩
          simp only [List.cons.injEq] at he
          rw [he.1]; exact h
  · exact (from_cond { d := m0.d, env := effEnv m0.env q.env } _ us _ _ (Cond.guard _ fun _ =>
      (Cond.text _).both (source_cond { d := m0.d, env := effEnv m0.env q.env } us))).iff (by simp)
  · refine (Cond.when (C := m0.d ≠ .sqlite ∧ us ≠ .nil) ?_ ?_).iff (by rw [objs_ne])
    · intro hj
      have hj : joins.isEmpty = false := by cases joins <;> simp [objs] at hj ⊢
      refine (Cond.guard _ fun _ => Cond.guard (C := True) _ fun _ => ?_).iff (by rw [e2]; simp)
      unfold joinsAppend joined ifAny
      rw [map_objs, hj]
      exact (Cond.text _).both (Cond.list _ _ _ joins (fun c _ => Cond.placed c _))
    · intro hj
      have hj : joins = [] := by cases joins <;> simp [objs] at hj ⊢
      simp [joined, ifAny, hj]
  · exact filtered_cond { d := m0.d, env := effEnv m0.env q.env } froms wh
  · refine (guarded_cond _ ob _ _ _ (Cond.guard _ fun _ => Cond.guard _ fun _ =>
      (Cond.text _).both (values_cond { d := m0.d, env := effEnv m0.env q.env } ob))).iff ?_
    rw [e4, e6]; simp
  · refine (limited_cond _ _ _ _ _ _ (Cond.guard _ fun _ => number_cond { d := m0.d, env := effEnv m0.env q.env } _ _ (by decide +kernel) q.limit)).iff ?_
    rw [e4, e6]; simp
  · refine (limited_cond _ _ _ _ _ _ (number_cond { d := m0.d, env := effEnv m0.env q.env } _ _ (by decide +kernel) q.offset)).iff ?_
    simp
  · exact returning_cond { d := m0.d, env := effEnv m0.env q.env } ret
  · constructor
    · rintro ⟨-, -, h1, h3, h4, h5, h6, h7, h8, h9⟩
      exact ⟨h1, h3, h4, h5, ⟨fun h => h.elim (fun h => (h6 h).1) (fun h => (h7 h).1), h8⟩,
        fun h => h.elim (fun h => (h6 h).2) (fun h => (h7 h).2), h9⟩
    · rintro ⟨h1, h3, h4, h5, ⟨h6, h8⟩, h7, h9⟩
      exact ⟨trivial, trivial, h1, h3, h4, h5, fun h => ⟨h6 (.inl h), h7 (.inl h)⟩, fun h => ⟨h6 (.inr h), h7 (.inr h)⟩, h8, h9⟩

theorem join_cond (jt : Str) (tbl on : Node) (m : Mode) :
    Cond (ren (.join jt tbl on) m []) (Needs m (.join jt tbl on))
      ([.text (if jt = [] then "JOIN".toList else jt), .text " "] ++ source { d := m.d } tbl ++ condition { d := m.d } " ON " on) := by
  rw [ren]
  simp only [joinAppend]
  have e0 : (obj on).toObj.npreds = 0 ↔ ¬ Conditional on := by rw [← conditional_iff]; omega
  have e1 : joinNeedsPredicate (if jt = [] then "JOIN".toList else jt) = true ↔
      jt = [] ∨ jt = "JOIN".toList ∨ jt = "RIGHT JOIN".toList ∨ jt = "FULL JOIN".toList := by
    by_cases h : jt = []
    · subst h; decide
    · rw [if_neg h]
      unfold joinNeedsPredicate
      rw [Bool.or_eq_true, Bool.or_eq_true, decide_eq_true_iff, decide_eq_true_iff, decide_eq_true_iff, or_assoc, or_iff_right h]
  have e2 : sqliteRejectsJoin (if jt = [] then "JOIN".toList else jt) = true ↔ jt = "RIGHT JOIN".toList ∨ jt = "FULL JOIN".toList := by
    by_cases h : jt = []
    · subst h; decide
    · rw [if_neg h]
      unfold sqliteRejectsJoin
      rw [Bool.or_eq_true, decide_eq_true_iff, decide_eq_true_iff]
  generalize hj : (if jt = [] then "JOIN".toList else jt) = j at e1 e2 ⊢
  have e3 := isNil_iff tbl
  simp only [List.append_assoc, source, List.cons_append, List.nil_append]
  refine (Cond.guard _ fun _ => Cond.guard (C := tbl ≠ .nil) _ fun _ => ?_).iff ?_
  · refine (Cond.seq (ps := [.text _, .text _]) (Cond.text2 _ _) (Cond.seq (ps := [.placed tbl _]) (Cond.guard _ fun _ => Cond.placed tbl { d := m.d })
      (Cond.seq (alias_cond m.d tbl.alias) (condition_cond { d := m.d } " ON ".toList on)))).iff ?_
    have e3' : (mkPV tbl (ren tbl) (hookOf tbl)).kind.isNil = true ↔ tbl = .nil := e3
    rw [e3']
    simp
  · have e0' : (mkPV on (ren on) (hookOf on)).npreds = 0 ↔ ¬ Conditional on := e0
    rw [e1, e2, e0']
    simp only [Needs]
    grind

theorem cte_cond (c : CteMeta) (q : Node) (m : Mode) (ps : List Part) (h : construct m (.cte c q) = some ps) :
    Cond (ren (.cte c q) m []) (Needs m (.cte c q)) ps := by
  simp only [construct, Option.some.injEq] at h
  subst h
  rw [ren]
  simp only [Needs]
  split
  · rename_i hm
    unfold cteDefAppend
    cases hs : c.sticky with
    | some e => exact (Cond.fail _ _).iff (by simp)
    | none =>
      simp only [List.append_assoc]
      refine (Cond.guard (C := q ≠ .nil) _ fun _ => ?_).iff (by simp [hm])
      refine Cond.iff (C := True ∧ True ∧ True ∧ True ∧ True ∧ q ≠ .nil ∧ True)
        (Cond.seq (ps := [.text _]) (Cond.text _) (Cond.seq ?_ (Cond.seq (Cond.text _) (Cond.seq ?_ (Cond.seq (ps := [.text _]) (Cond.text _)
        (Cond.seq (ps := [.placed q _]) ?_ (Cond.text _))))))) (by simp)
      · refine (Cond.when (C := True) ?_ ?_).iff (by simp)
        · intro he
          rw [if_pos he, joinStr_names]
          rw [← List.append_assoc]
          exact Cond.text3 _ _ _
        · intro he
          rw [if_neg (by simp [he])]
      · cases m.d <;> cases c.materialized <;> try exact .done
        rename_i b
        cases b
        · exact Cond.text _
        · exact Cond.text _
      · have hk : (mkPV q (ren q) (hookOf q)).toObj.kind = q.kind := rfl
        rw [hk]
        have hn : q.kind = .nilv ↔ q = .nil := by rw [← nil_kind]; exact isNil_iff q
        split
        · rename_i h; exact (Cond.fail _ _).iff (by simp [hn.1 h])
        · rename_i h
          have : q ≠ .nil := fun e => by rw [hn.2 e] at h; simp at h
          simp only [h, if_true]; exact (Cond.placed q _).iff (by simp [this])
        · rename_i h1 h2
          have : q ≠ .nil := fun e => h1 (hn.2 e)
          rw [if_neg h2]; exact (Cond.placed q _).iff (by simp [this])
  · rename_i hm
    unfold cteRefAppend
    cases hs : c.sticky with
    | some e => exact (Cond.fail _ _).iff (by simp)
    | none => exact (Cond.guard _ fun _ => Cond.text _).iff (by simp [hm])

theorem subquery_cond (st : Option Str) (a : Str) (q : Node) (m : Mode) :
    Cond (ren (.subquery st a q) m []) (Needs m (.subquery st a q)) [.text "(", .placed q { d := m.d }, .text ")"] := by
  rw [ren]
  simp only [Needs]
  unfold subqueryAppend
  cases st with
  | some e => exact (Cond.fail _ _).iff (by simp)
  | none =>
    refine (Cond.seq (ps := [.text _]) (Cond.text _) (Cond.seq (ps := [.placed q { d := m.d }]) (Cond.placed q { d := m.d })
      (Cond.seq (ps := [.text _]) (qs := []) (Cond.text _) (Cond.guard _ fun _ => Cond.done)))).iff ?_
    grind

theorem cases_cond (m : Mode) (cs : List (Node × Node)) : Cond (seqAll ((pairs cs).map (caseArm m))) True (cases_ m cs) := by
  rw [pairs_map, List.map_map]
  induction cs with
  | nil => exact .done
  | cons c cs ih =>
    have h : Cond (caseArm m ((obj c.1).toObj, (obj c.2).toObj)) True
        ([.text " WHEN "] ++ ([.placed c.1 m] ++ ([.text " THEN "] ++ [.placed c.2 m]))) :=
      (Cond.text _).both ((Cond.placed c.1 m).both ((Cond.text _).both (Cond.placed c.2 m)))
    exact h.both ih

theorem else_cond (m : Mode) (fb : Node) : Cond (elseEnd m (obj fb).toObj) True (else_ m fb) := by
  unfold elseEnd else_
  refine Cond.both ((Cond.when (C := True) ?_ ?_).iff (by simp)) (Cond.text _)
  · intro h
    rw [if_neg (by intro h2; rw [(nil_kind fb).2 h2] at h; simp at h)]
    exact (Cond.text _).both (Cond.placed fb m)
  · intro h
    rw [if_pos ((nil_kind fb).1 (by simpa using h))]

theorem not_cond (neg : Bool) : Cond (.when neg (.wr "NOT ")) True (not_ neg) := by
  cases neg
  · exact .done
  · exact Cond.text _

theorem grouped_cond (top : Bool) (w : W) (C : Prop) (ps : List Part) (h : Cond w C ps) :
    Cond (W.when (!top) (.wr "(") ⨟ w ⨟ W.when (!top) (.wr ")")) C (grouped top ps) := by
  cases top
  · exact ((Cond.text _).seq (h.seq (Cond.text _))).iff (by simp)
  · have := (Cond.seq Cond.done (h.seq Cond.done)).iff (D := C) (by simp)
    simpa [grouped] using this

theorem vpred_cond (top : Bool) (a : Str) (isOr neg : Bool) (qs : List Node) (m : Mode) (ps : List Part)
    (h : construct m (.vpred top a isOr neg qs) = some ps) :
    Cond (ren (.vpred top a isOr neg qs) m []) (∀ p ∈ qs, p ≠ .nil) ps := by
  simp only [construct] at h
  split at h
  · simp at h
  rename_i hm
  simp only [Option.some.injEq] at h
  subst h
  rw [ren, if_neg (fun h => hm h.1)]
  have ht : effTop m top = alone m top := rfl
  rw [ht]
  generalize alone m top = t
  match qs with
  | [] => exact Cond.done.iff (by simp)
  | [p] =>
    have hp : (obj p).toObj.kind = p.kind := rfl
    have hn : p.kind = .nilv ↔ p = .nil := by rw [← nil_kind]; exact isNil_iff p
    show Cond (variadicAppend m t isOr neg [(obj p).toObj]) _ _
    simp only [variadicAppend, hp]
    refine ((not_cond neg).seq (D := p ≠ .nil) ?_).iff (by simp)
    split
    · rename_i h; exact (Cond.fail _ _).iff (by simp [hn.1 h])
    · rename_i k hk
      cases p <;> simp [Node.kind] at hk
      · exact (grouped_cond t _ _ _ (Cond.placed _ _)).iff (by simp)
      · rename_i k _ _ _; cases k <;> simp [ExtKind.kind] at hk
    · rename_i hk hv
      have hc : soleConjunct m t p = conjunct m p := by
        cases p <;> first | rfl | exact absurd rfl (hv _)
      rw [hc]
      exact (Cond.placed p { d := m.d, ex := m.ex }).iff (by simp only [true_iff]; exact fun e => hk (hn.2 e))
  | p :: q :: ps =>
    refine ((not_cond neg).seq (grouped_cond t _ (∀ x ∈ p :: q :: ps, x ≠ .nil) _ ?_)).iff (by simp)
    rw [map_objs]
    refine Cond.sepBy _ _ _ _ (p :: q :: ps) ?_
    intro x _
    unfold operand
    refine (Cond.guard _ fun _ => Cond.placed x { d := m.d, ex := m.ex }).iff ?_
    rw [isNil_iff]; simp

theorem vquery_cond (top : Bool) (op : Str) (qs : List Node) (m : Mode) (ps : List Part)
    (h : construct m (.vquery top op qs) = some ps) : Cond (ren (.vquery top op qs) m []) (∀ q ∈ qs, q ≠ .nil) ps := by
  simp only [construct, Option.some.injEq] at h
  subst h
  rw [ren]
  have ht : effTop m top = alone m top := rfl
  rw [ht]
  generalize alone m top = t
  match qs with
  | [] => exact Cond.done.iff (by simp)
  | [q] =>
    show Cond (variadicQueryAppend m t op [(obj q).toObj]) _ _
    have hk : (obj q).toObj.kind = q.kind := rfl
    have hn : q.kind = .nilv ↔ q = .nil := by rw [← nil_kind]; exact isNil_iff q
    simp only [variadicQueryAppend, hk]
    refine Cond.iff (C := q ≠ .nil) ?_ (by simp)
    split
    · rename_i h; exact (Cond.fail _ _).iff (by simp [hn.1 h])
    · rename_i h
      have : q ≠ .nil := fun e => by rw [hn.2 e] at h; simp at h
      rw [if_pos h]; exact (Cond.placed q _).iff (by simp [this])
    · rename_i h1 h2; rw [if_neg h2]; exact (Cond.placed q _).iff (by simp only [true_iff]; exact fun e => h1 (hn.2 e))
  | p :: q :: ps =>
    refine grouped_cond t _ _ _ ?_
    rw [map_objs]
    refine Cond.sepBy _ _ _ _ (p :: q :: ps) ?_
    intro x _
    have hk : (obj x).toObj.kind = x.kind := rfl
    have hn : x.kind = .nilv ↔ x = .nil := by rw [← nil_kind]; exact isNil_iff x
    unfold vqOperand setOperand
    rw [hk]
    split
    · rename_i h; exact (Cond.fail _ _).iff (by simp [hn.1 h])
    · rename_i h
      have : x ≠ .nil := fun e => by rw [hn.2 e] at h; simp at h
      rw [if_pos h]; exact (Cond.placed x _).iff (by simp [this])
    · rename_i h1 h2; rw [if_neg h2]; exact (Cond.placed x _).iff (by simp only [true_iff]; exact fun e => h1 (hn.2 e))

/-- **C62, windows.** A window is never refused: it renders, or panics or loops when one of its fields does.  (It ignores their errors,
`C21_window_violated`.) -/
theorem C62_window (m : Mode) (part order : List Node) (frame : Str) (e : Str) :
    (renderAt m (.window part order frame)).status ≠ .err e := by
  show (ren (.window part order frame) m []).st ≠ .err e
  rw [ren]
  unfold windowAppend
  have seqNe : ∀ a b : W, a.st ≠ .err e → b.st ≠ .err e → (a ⨟ b).st ≠ .err e := by
    intro a b ha hb
    unfold W.seq
    split <;> simp_all
  have whenNe : ∀ (c : Bool) (a : W), a.st ≠ .err e → (W.when c a).st ≠ .err e := by
    intro c a ha
    cases c
    · simp [W.when, W.ok]
    · exact ha
  have wrNe : ∀ t, (W.wr t).st ≠ .err e := by intro t; simp [W.wr, W.emit]
  have ignNe : ∀ a : W, a.ignoreErr.st ≠ .err e := by
    intro a
    unfold W.ignoreErr
    split <;> simp_all
  exact seqNe _ _ (wrNe _) (seqNe _ _ (whenNe _ _ (seqNe _ _ (wrNe _) (ignNe _))) (seqNe _ _ (whenNe _ _ (seqNe _ _ (whenNe _ _ (wrNe _))
    (seqNe _ _ (wrNe _) (ignNe _)))) (seqNe _ _ (whenNe _ _ (seqNe _ _ (whenNe _ _ (wrNe _)) (wrNe _))) (wrNe _))))

/-- **C62, DELETE.** A DELETE of any tables renders exactly if what it needs is there and its parts render: of several tables only the first is
among the parts, unless all are named with USING on MySQL (`C55_delete_tables_violated`). -/
theorem C62_delete_tables (m : Mode) (q : ModMeta) (ctes froms : List Node) (us : Node) (joins : List Node) (wh : Node) (ob ret : List Node) :
    (renderAt m (.delete q ctes froms us joins wh ob ret)).status = .ok ↔
      DeleteNeeds m.d (effEnv m.env q.env) q froms us joins ob ret ∧
      PartsRender (deleteParts { d := m.d, env := effEnv m.env q.env } q ctes froms us joins wh ob ret) :=
  delete_cond q ctes froms us joins wh ob ret m

/-- **C62.** A statement, join, common table expression, subquery, set operation, group of predicates, CASE, table, list of values or
assignment renders without an error exactly if what it needs is there and allowed by the dialect (`Needs`), and each of its parts,
rendered in its place, renders without an error. -/
theorem C62_renders (m : Mode) (n : Node) (ps : List Part) (hf : construct m n = some ps) :
    (renderAt m n).status = .ok ↔ Needs m n ∧ PartsRender ps := by
  show Cond (ren n m []) (Needs m n) ps
  match n with
  | .slice i vs =>
    simp only [construct, Option.some.injEq] at hf
    subst hf
    rw [ren]
    unfold explodeSlice
    rw [map_objs]
    exact Cond.list _ _ _ vs (fun v _ => element_cond m v)
  | .fields fs =>
    simp only [construct, Option.some.injEq] at hf
    subst hf
    rw [ren]
    exact values_cond m.std fs
  | .rowValue vs =>
    simp only [construct, Option.some.injEq] at hf
    subst hf
    rw [ren]
    exact row_cond m.std vs
  | .rowValues rows =>
    simp only [construct, Option.some.injEq] at hf
    subst hf
    rw [ren]
    exact rows_cond m.std rows
  | .assign l r =>
    simp only [construct, Option.some.injEq] at hf
    subst hf
    rw [ren]
    exact assignment_cond m.std (l, r)
  | .assigns as =>
    simp only [construct, Option.some.injEq] at hf
    subst hf
    rw [ren]
    exact assignments_cond m.std as
  | .table s nm a hk hp =>
    simp only [construct, Option.some.injEq] at hf
    subst hf
    rw [ren]
    exact Cond.text _
  | .join jt tbl on =>
    simp only [construct, Option.some.injEq] at hf
    subst hf
    exact join_cond jt tbl on m
  | .literal s a =>
    simp only [construct, Option.some.injEq] at hf
    subst hf
    rw [ren]
    exact Cond.text _
  | .value v a =>
    simp only [construct, Option.some.injEq] at hf
    subst hf
    rw [ren]
    exact Cond.placed v m.std
  | .predCases a cs fb =>
    simp only [construct, Option.some.injEq] at hf
    subst hf
    rw [ren]
    unfold predCasesAppend
    have e : pairs cs = [] ↔ cs = [] := by cases cs <;> simp [pairs]
    refine ((Cond.text _).seq (Cond.seq (ps := []) (Cond.guard _ fun _ => Cond.done) ((cases_cond m.std cs).both (else_cond m.std fb)))).iff ?_
    rw [e]
    simp [Needs]
  | .simpleCases a x cs fb =>
    simp only [construct, Option.some.injEq] at hf
    subst hf
    rw [ren]
    unfold simpleCasesAppend
    have e : pairs cs = [] ↔ cs = [] := by cases cs <;> simp [pairs]
    refine ((Cond.text _).seq (Cond.seq (ps := []) (Cond.guard _ fun _ => Cond.done) (Cond.both (ps := [.placed x m.std]) (Cond.placed x m.std)
      ((cases_cond m.std cs).both (else_cond m.std fb))))).iff ?_
    rw [e]
    simp [Needs]
  | .vpred .. => exact vpred_cond _ _ _ _ _ m ps hf
  | .vquery .. => exact vquery_cond _ _ _ m ps hf
  | .cte c q => exact cte_cond c q m ps hf
  | .subquery st a q =>
    simp only [construct, Option.some.injEq] at hf
    subst hf
    exact subquery_cond st a q m
  | .select .. => exact select_cond _ _ _ _ _ _ _ _ _ _ m ps hf
  | .insert .. => exact insert_cond _ _ _ _ _ _ _ _ _ _ _ _ m ps hf
  | .update .. => exact update_cond _ _ _ _ _ _ _ _ _ _ m ps hf
  | .delete .. =>
    simp only [construct] at hf
    split at hf
    · simp at hf
    · simp only [Option.some.injEq] at hf
      exact hf ▸ delete_cond _ _ _ _ _ _ _ _ m

end Sq.Exprs
