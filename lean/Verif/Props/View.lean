import Verif.Spec.View
import Verif.Proof.LoadDb
import Verif.Props.Derived
/-
C64: views declared in Go.
-/
namespace Ddl.Views
open Ddl Ddl.ViewSpec
open Sq (Node)

theorem inlined_iff (opq : Nat → Sq.Val) (d : Dialect) (w : Sq.W) (sql : Str) : inlined opq d w = .ok sql ↔
    w.st = .ok ∧ Sq.sprintf d (Sq.bufString d (Sq.exec d w.code {}).out) ((Sq.exec d w.code {}).args.map (valOf opq)) = .ok sql := by
  unfold inlined
  cases w.st <;> simp

theorem text_iff (opq : Nat → Sq.Val) (m : Sq.Mode) (q : Node) (sql : Str) : inlined opq m.d (Sq.ren q m []) = .ok sql ↔ Text opq m q sql :=
  inlined_iff ..

theorem format_iff (opq : Nat → Sq.Val) (d : Dialect) (ex : List Str) (fmt : Str) (vals : List Node) (sql : Str) :
    formatted opq d ex fmt vals = .ok sql ↔ FormatText opq { d := d, ex := ex } fmt vals sql := inlined_iff ..

theorem nil_iff (f : Node) : f.kind.isNil = true ↔ f = .nil := Sq.Deriving.isNil_iff f

theorem columnNames_iff (fs : List Node) (cs : List Str) :
    columnNames fs = .ok cs ↔ (∀ f ∈ fs, f ≠ .nil ∧ f.name ≠ []) ∧ cs = fs.map Node.name := by
  induction fs generalizing cs with
  | nil => rw [columnNames]; exact ⟨fun h => (by cases h; simp), fun h => (by rw [h.2]; rfl)⟩
  | cons f fs ih =>
    rw [columnNames]
    by_cases h1 : f.kind.isNil = true
    · rw [if_pos h1]
      refine ⟨fun h => (by cases h), fun h => absurd ((nil_iff f).1 h1) (h.1 f (by simp)).1⟩
    · have h1' := fun h => h1 ((nil_iff f).2 h)
      rw [if_neg h1]
      by_cases h2 : f.name = []
      · simp [h2]
      · rw [if_neg h2]
        constructor
        · intro h
          obtain ⟨r, hr, rfl⟩ := map_eq_ok h
          obtain ⟨h3, rfl⟩ := (ih r).1 hr
          exact ⟨fun g hg => (List.mem_cons.1 hg).elim (fun e => e ▸ ⟨h1', h2⟩) (h3 g), rfl⟩
        · rintro ⟨h3, rfl⟩
          rw [(ih _).2 ⟨fun g hg => h3 g (List.mem_cons_of_mem _ hg), rfl⟩]
          rfl

theorem queryColumns_iff (fs : List Node) (cs : List Str) :
    queryColumns fs = .ok cs ↔ (∀ f ∈ fs, f ≠ .nil ∧ columnName f ≠ []) ∧ cs = fs.map columnName := by
  induction fs generalizing cs with
  | nil => rw [queryColumns]; exact ⟨fun h => (by cases h; simp), fun h => (by rw [h.2]; rfl)⟩
  | cons f fs ih =>
    rw [queryColumns]
    by_cases h1 : f.kind.isNil = true
    · rw [if_pos h1]
      refine ⟨fun h => (by cases h), fun h => absurd ((nil_iff f).1 h1) (h.1 f (by simp)).1⟩
    · have h1' := fun h => h1 ((nil_iff f).2 h)
      rw [if_neg h1]
      have e : Sq.Deriving.fieldNameOf f = columnName f := rfl
      rw [e]
      by_cases h2 : columnName f = []
      · simp [h2]
      · rw [if_neg h2]
        constructor
        · intro h
          obtain ⟨r, hr, rfl⟩ := map_eq_ok h
          obtain ⟨h3, rfl⟩ := (ih r).1 hr
          exact ⟨fun g hg => (List.mem_cons.1 hg).elim (fun e => e ▸ ⟨h1', h2⟩) (h3 g), rfl⟩
        · rintro ⟨h3, rfl⟩
          rw [(ih _).2 ⟨fun g hg => h3 g (List.mem_cons_of_mem _ hg), rfl⟩]
          rfl

theorem columnsMatch_iff (want got : List Str) : columnsMatch want got = true ↔ got.Perm want := by
  unfold columnsMatch columnDiff
  rw [List.all_eq_true, List.perm_iff_count]
  constructor
  · intro h a
    by_cases hm : a ∈ want ++ got
    · have := of_decide_eq_true (h a hm); omega
    · simp only [List.mem_append, not_or] at hm
      rw [List.count_eq_zero.2 hm.1, List.count_eq_zero.2 hm.2]
  · intro h a _
    rw [h a]; simp

/-- **C64, queries.** A query is accepted exactly if it renders and its columns are, by name and number, those of the struct; the view then
has the text of the query with its arguments put in, and is otherwise unchanged. -/
theorem C64_query (opq : Nat → Sq.Val) (ext : Sq.Deriving.Ext) (d : Dialect) (want : List Str) (v v' : View) (q : Node) :
    v.setQuery opq ext d want q = .ok v' ↔
      q ≠ .nil ∧ Fits ext q want ∧ ∃ sql, Text opq { d := d } q sql ∧ v' = { v with sql := sql } := by
  unfold View.setQuery
  by_cases h1 : q.kind.isNil = true
  · rw [if_pos h1]
    exact ⟨fun h => (by cases h), fun h => absurd ((nil_iff q).1 h1) h.1⟩
  · have h1' := fun h => h1 ((nil_iff q).2 h)
    rw [if_neg h1]
    constructor
    · intro h
      obtain ⟨sql, hs, h⟩ := (Res.bind_eq_ok _ _ _).1 h
      obtain ⟨fields, hf, h⟩ := (Res.bind_eq_ok _ _ _).1 h
      obtain ⟨got, hg, h⟩ := (Res.bind_eq_ok _ _ _).1 h
      obtain ⟨h3, rfl⟩ := (queryColumns_iff ..).1 hg
      split at h
      next hm =>
        cases h
        exact ⟨h1', ⟨fields, hf, h3, (columnsMatch_iff ..).1 hm⟩, sql, (text_iff opq { d := d } q sql).1 hs, rfl⟩
      · cases h
    · rintro ⟨-, ⟨fields, hf, h3, hp⟩, sql, hs, rfl⟩
      rw [show inlined opq d _ = .ok sql from (text_iff opq { d := d } q sql).2 hs, Res.bind_ok, hf, Res.bind_ok,
        (queryColumns_iff ..).2 ⟨h3, rfl⟩, Res.bind_ok, if_pos ((columnsMatch_iff ..).2 hp)]

theorem columnOrExpr_iff (opq : Nat → Sq.Val) (view : Str) (f : Node) (p : Str × Str) :
    columnOrExpr opq .postgres view false f = .ok p ↔ Element opq view f p := by
  have key : (∀ s a, f ≠ .literal s a) → f ≠ .nil → ((if f.name ≠ [] then Res.ok (f.name, []) else
      (inlined opq .postgres (Sq.ren f { d := .postgres, ex := [view] } [])).map fun e => (([] : Str), '(' :: e ++ [')'])) = .ok p ↔
      Element opq view f p) := by
    intro h1 h2
    unfold Element
    by_cases h3 : f.name = []
    · rw [if_neg (by simpa using h3)]
      constructor
      · intro h
        obtain ⟨e, he, rfl⟩ := map_eq_ok h
        exact .inr (.inr ⟨h1, h2, h3, e, (text_iff opq { d := .postgres, ex := [view] } f e).1 he, rfl⟩)
      · rintro (⟨s, a, h, -⟩ | ⟨-, -, h, -⟩ | ⟨-, -, -, e, he, rfl⟩)
        · exact absurd h (h1 s a)
        · exact absurd h3 h
        · rw [show inlined opq .postgres _ = .ok e from (text_iff opq { d := .postgres, ex := [view] } f e).2 he]
          rfl
    · rw [if_pos h3]
      constructor
      · intro h; cases h; exact .inr (.inl ⟨h1, h2, h3, rfl⟩)
      · rintro (⟨s, a, h, -⟩ | ⟨-, -, -, rfl⟩ | ⟨-, -, h, -⟩)
        · exact absurd h (h1 s a)
        · rfl
        · exact absurd h h3
  unfold columnOrExpr
  split
  · unfold Element
    constructor
    · intro h; cases h
    · rintro (⟨s, a, h, -⟩ | ⟨-, h, -⟩ | ⟨-, h, -⟩)
      · cases h
      · exact absurd rfl h
      · exact absurd rfl h
  next s a =>
    unfold Element
    constructor
    · intro h; cases h; exact .inl ⟨s, a, rfl, rfl⟩
    · rintro (⟨s', a', h, rfl⟩ | ⟨h, -⟩ | ⟨h, -⟩)
      · cases h; rfl
      · exact absurd rfl (h s a)
      · exact absurd rfl (h s a)
  next f h1 h2 => exact key (fun s a h => h2 s a h) h1

theorem columnsAndExprs_iff (opq : Nat → Sq.Val) (view : Str) (fs : List Node) (ce : List Str × List Str) :
    columnsAndExprs opq .postgres view false fs = .ok ce ↔
      ∃ es, Elements opq view fs es ∧ ce = (es.map Prod.fst, es.map Prod.snd) := by
  induction fs generalizing ce with
  | nil =>
    rw [columnsAndExprs]
    constructor
    · intro h; cases h; exact ⟨[], trivial, rfl⟩
    · rintro ⟨es, h, rfl⟩
      cases es with
      | nil => rfl
      | cons p es => exact h.elim
  | cons f fs ih =>
    rw [columnsAndExprs]
    constructor
    · intro h
      obtain ⟨p, hp, h⟩ := (Res.bind_eq_ok _ _ _).1 h
      obtain ⟨r, hr, rfl⟩ := map_eq_ok h
      obtain ⟨es, h1, rfl⟩ := (ih r).1 hr
      exact ⟨p :: es, ⟨(columnOrExpr_iff ..).1 hp, h1⟩, rfl⟩
    · rintro ⟨es, h, rfl⟩
      cases es with
      | nil => exact h.elim
      | cons p es =>
        rw [(columnOrExpr_iff ..).2 h.1, Res.bind_ok, (ih _).2 ⟨es, h.2, rfl⟩]
        rfl

/-! ### Acceptance of one call -/

theorem option_ok_iff (opq : Nat → Sq.Val) (v : View) (name : Str) (op : VIdxOp) :
    (∀ x, ∃ y, op.run opq v name x = .ok y) ∧ AcceptedOption opq v.viewName op ∨
    (∀ x y, op.run opq v name x ≠ .ok y) ∧ ¬ AcceptedOption opq v.viewName op := by
  cases op with
  | unique => exact .inl ⟨fun x => ⟨_, rfl⟩, trivial⟩
  | «using» t => exact .inl ⟨fun x => ⟨_, rfl⟩, trivial⟩
  | config f => exact .inl ⟨fun x => ⟨_, rfl⟩, trivial⟩
  | «where» fmt vals =>
    by_cases h : AcceptedOption opq v.viewName (.«where» fmt vals)
    · obtain ⟨e, he⟩ := h
      refine .inl ⟨fun x => ⟨{ x with predicate := e }, ?_⟩, ⟨e, he⟩⟩
      show (formatted opq .postgres [v.viewName] fmt vals).map _ = _
      rw [(format_iff ..).2 he]; rfl
    · refine .inr ⟨fun x y hy => h ?_, h⟩
      obtain ⟨e, he, -⟩ := map_eq_ok hy
      exact ⟨e, (format_iff ..).1 he⟩
  | «include» fields =>
    by_cases h : AcceptedOption opq v.viewName (.«include» fields)
    · refine .inl ⟨fun x => ⟨{ x with includeColumns := fields.map Node.name }, ?_⟩, h⟩
      show (columnNames fields).map _ = _
      rw [(columnNames_iff ..).2 ⟨h, rfl⟩]; rfl
    · refine .inr ⟨fun x y hy => h ?_, h⟩
      obtain ⟨e, he, -⟩ := map_eq_ok hy
      exact ((columnNames_iff ..).1 he).1

theorem options_ok_iff (opq : Nat → Sq.Val) (v : View) (name : Str) (ops : List VIdxOp) (x : Index) :
    (∃ y, foldRes (VIdxOp.run opq v name) x ops = .ok y) ↔ ∀ op ∈ ops, AcceptedOption opq v.viewName op := by
  induction ops generalizing x with
  | nil => simp [foldRes]
  | cons op ops ih =>
    rw [foldRes]
    rcases option_ok_iff opq v name op with ⟨h1, h2⟩ | ⟨h1, h2⟩
    · obtain ⟨y, hy⟩ := h1 x
      rw [hy, Res.bind_ok, ih]
      simp [h2]
    · constructor
      · rintro ⟨y, hy⟩
        obtain ⟨z, hz, -⟩ := (Res.bind_eq_ok _ _ _).1 hy
        exact absurd hz (h1 x z)
      · intro h
        exact absurd (h op (by simp)) h2

theorem generateName_ne (view : Str) (cs : List Str) : generateName .index view cs ≠ [] := by
  have h : nameSuffix .index ≠ [] := by decide
  unfold generateName
  simp only
  split <;> exact fun e => h (List.append_eq_nil_iff.1 e).2

theorem getD_ne (name : Option Str) (view : Str) (cs : List Str) : name.getD (generateName .index view cs) ≠ [] ↔ name ≠ some [] := by
  cases name with
  | none => simp [generateName_ne]
  | some n => simp

/-- The name of the index of these elements. -/
def indexNamed (v : View) (name : Option Str) (es : List (Str × Str)) : Str := name.getD (generateName .index v.viewName (es.map Prod.fst))

/-- An index as a call makes or finds it, over these elements. -/
def over (v : View) (es : List (Str × Str)) (x : Index) : Index :=
  { x with tableSchema := v.viewSchema, tableName := v.viewName, columns := es.map Prod.fst, exprs := es.map Prod.snd }

/-- What `Index` does when it is accepted. -/
def IndexDone (opq : Nat → Sq.Val) (v v' : View) (name : Str) (es : List (Str × Str)) (ops : List VIdxOp) : Prop :=
  (∃ n x, v.cachedIndexPosition name = some n ∧
    foldRes (VIdxOp.run opq v name) (over v es ((v.indexes[n]?).getD { indexName := name })) ops = .ok x ∧
    v' = { v with indexes := v.indexes.set n x }) ∨
  (∃ x, v.cachedIndexPosition name = none ∧ foldRes (VIdxOp.run opq v name) (over v es { indexName := name }) ops = .ok x ∧
    v' = v.appendIndex x)

theorem index_ok (opq : Nat → Sq.Val) (ext : Sq.Deriving.Ext) (want : List Str) (v v' : View) (name : Option Str) (fields : List Node)
    (ops : List VIdxOp) (h : (VOp.index name fields ops).run opq ext .postgres want v = .ok v') :
    v.isMaterialized = true ∧ ∃ es, Elements opq v.viewName fields es ∧ name ≠ some [] ∧ IndexDone opq v v' (indexNamed v name es) es ops := by
  rw [VOp.run, if_neg (by simp)] at h
  split at h
  · cases h
  next hm =>
    obtain ⟨ce, hce, h⟩ := (Res.bind_eq_ok _ _ _).1 h
    obtain ⟨es, hes, rfl⟩ := (columnsAndExprs_iff ..).1 hce
    dsimp only at h
    unfold View.putIndex at h
    split at h
    · cases h
    next hne =>
      refine ⟨by simpa using hm, es, hes, (getD_ne ..).1 hne, ?_⟩
      split at h <;> rename_i hc
      · obtain ⟨x, hx, rfl⟩ := map_eq_ok h
        exact .inl ⟨_, x, hc, hx, rfl⟩
      · obtain ⟨x, hx, rfl⟩ := map_eq_ok h
        exact .inr ⟨x, hc, hx, rfl⟩

theorem trigger_ok (opq : Nat → Sq.Val) (ext : Sq.Deriving.Ext) (want : List Str) (v v' : View) (fmt : Str) (vals : List Node)
    (h : (VOp.trigger fmt vals).run opq ext .postgres want v = .ok v') :
    ∃ sql t, FormatText opq { d := .postgres } fmt vals sql ∧ triggerOp .postgres sql = .ok t ∧
      v' = match v.cachedTriggerPosition (t.tableSchema, t.tableName, t.triggerName) with
        | some n => { v with triggers := v.triggers.modify n fun x => { x with sql := t.sql } }
        | none => v.appendTrigger t := by
  rw [VOp.run, if_neg (by simp)] at h
  obtain ⟨sql, hs, h⟩ := (Res.bind_eq_ok _ _ _).1 h
  obtain ⟨t, ht, rfl⟩ := map_eq_ok h
  exact ⟨sql, t, (format_iff ..).1 hs, ht, rfl⟩

/-- A call keeps the names of the view and the rest, and knows whether it is materialized. -/
theorem run_keeps (opq : Nat → Sq.Val) (ext : Sq.Deriving.Ext) (d : Dialect) (want : List Str) (op : VOp) (v v' : View)
    (h : op.run opq ext d want v = .ok v') :
    v'.viewSchema = v.viewSchema ∧ v'.viewName = v.viewName ∧ v'.ignore = v.ignore ∧ v'.comment = v.comment ∧
    (v'.isMaterialized = true ↔ v.isMaterialized = true ∨ (d = .postgres ∧ op = .isMaterialized)) ∧
    (op.isQuery = false → v'.sql = v.sql) ∧ (op.isIndex = false → v'.indexes = v.indexes ∧ v'.indexCache = v.indexCache) ∧
    (op.isTrigger = false → v'.triggers = v.triggers ∧ v'.triggerCache = v.triggerCache) ∧
    (d ≠ .postgres → op.isQuery = false → v' = v) := by
  cases op with
  | isMaterialized =>
    cases h
    refine ⟨rfl, rfl, rfl, rfl, by simp, fun _ => rfl, fun _ => ⟨rfl, rfl⟩, fun _ => ⟨rfl, rfl⟩, fun hd _ => ?_⟩
    simp [hd]
  | setQuery q =>
    obtain ⟨-, -, sql, -, rfl⟩ := (C64_query ..).1 h
    exact ⟨rfl, rfl, rfl, rfl, by simp, fun h => by simp [VOp.isQuery] at h, fun _ => ⟨rfl, rfl⟩, fun _ => ⟨rfl, rfl⟩,
      fun _ h => by simp [VOp.isQuery] at h⟩
  | trigger fmt vals =>
    by_cases hd : d = .postgres
    · subst hd
      obtain ⟨sql, t, -, -, rfl⟩ := trigger_ok opq ext want v v' fmt vals h
      split <;> exact ⟨rfl, rfl, rfl, rfl, by simp [View.appendTrigger], fun _ => rfl, fun _ => ⟨rfl, rfl⟩, fun h => by simp [VOp.isTrigger] at h,
        fun h => absurd rfl h⟩
    · rw [VOp.run, if_pos hd] at h
      cases h
      exact ⟨rfl, rfl, rfl, rfl, by simp, fun _ => rfl, fun _ => ⟨rfl, rfl⟩, fun _ => ⟨rfl, rfl⟩, fun _ _ => rfl⟩
  | index name fields ops =>
    by_cases hd : d = .postgres
    · subst hd
      obtain ⟨-, es, -, -, hx⟩ := index_ok opq ext want v v' name fields ops h
      rcases hx with ⟨_, _, _, _, rfl⟩ | ⟨_, _, _, rfl⟩ <;>
        exact ⟨rfl, rfl, rfl, rfl, by simp [View.appendIndex], fun _ => rfl, fun h => by simp [VOp.isIndex] at h, fun _ => ⟨rfl, rfl⟩,
          fun h => absurd rfl h⟩
    · rw [VOp.run, if_pos hd] at h
      cases h
      exact ⟨rfl, rfl, rfl, rfl, by simp, fun _ => rfl, fun _ => ⟨rfl, rfl⟩, fun _ => ⟨rfl, rfl⟩, fun _ _ => rfl⟩

theorem run_ok_iff (opq : Nat → Sq.Val) (ext : Sq.Deriving.Ext) (d : Dialect) (want : List Str) (op : VOp) (v : View) :
    (∃ v', op.run opq ext d want v = .ok v') ↔ Accepted opq ext d v.viewName want (v.isMaterialized = true) op := by
  cases op with
  | isMaterialized => exact ⟨fun _ => trivial, fun _ => ⟨_, rfl⟩⟩
  | setQuery q =>
    constructor
    · rintro ⟨v', h⟩
      obtain ⟨h1, h2, sql, h3, -⟩ := (C64_query ..).1 h
      exact ⟨h1, ⟨sql, h3⟩, h2⟩
    · rintro ⟨h1, ⟨sql, h3⟩, h2⟩
      exact ⟨_, (C64_query ..).2 ⟨h1, h2, sql, h3, rfl⟩⟩
  | trigger fmt vals =>
    by_cases hd : d = .postgres
    · subst hd
      constructor
      · rintro ⟨v', h⟩ -
        obtain ⟨sql, t, h1, h2, -⟩ := trigger_ok opq ext want v v' fmt vals h
        exact ⟨sql, t, h1, h2⟩
      · intro h
        obtain ⟨sql, t, h1, h2⟩ := h rfl
        rw [VOp.run, if_neg (by simp), show formatted opq .postgres [] fmt vals = .ok sql from (format_iff ..).2 h1, Res.bind_ok, h2]
        exact ⟨_, rfl⟩
    · rw [VOp.run, if_pos hd]
      exact ⟨fun _ h => absurd h hd, fun _ => ⟨v, rfl⟩⟩
  | index name fields ops =>
    by_cases hd : d = .postgres
    · subst hd
      constructor
      · rintro ⟨v', h⟩ -
        obtain ⟨h1, es, h2, h3, hx⟩ := index_ok opq ext want v v' name fields ops h
        refine ⟨h1, ⟨es, h2⟩, h3, ?_⟩
        rcases hx with ⟨_, x, _, hx, _⟩ | ⟨x, _, hx, _⟩
        · exact (options_ok_iff ..).1 ⟨x, hx⟩
        · exact (options_ok_iff ..).1 ⟨x, hx⟩
      · intro h
        obtain ⟨h1, ⟨es, h2⟩, h3, h4⟩ := h rfl
        rw [VOp.run, if_neg (by simp), if_neg (by simp [h1]), (columnsAndExprs_iff ..).2 ⟨es, h2, rfl⟩, Res.bind_ok]
        dsimp only
        unfold View.putIndex
        rw [if_neg ((getD_ne ..).2 h3)]
        split
        next n hc =>
          obtain ⟨y, hy⟩ := (options_ok_iff opq v (indexNamed v name es) ops (over v es ((v.indexes[n]?).getD { indexName := indexNamed v name es }))).2 h4
          have hy' := congrArg (Res.map fun x => ({ v with indexes := v.indexes.set n x } : View)) hy
          exact ⟨_, hy'⟩
        next hc =>
          obtain ⟨y, hy⟩ := (options_ok_iff opq v (indexNamed v name es) ops (over v es { indexName := indexNamed v name es })).2 h4
          have hy' := congrArg (Res.map v.appendIndex) hy
          exact ⟨_, hy'⟩
    · rw [VOp.run, if_pos hd]
      exact ⟨fun _ h => absurd h hd, fun _ => ⟨v, rfl⟩⟩

/-! ### All calls -/

theorem runs_ok_iff (opq : Nat → Sq.Val) (ext : Sq.Deriving.Ext) (d : Dialect) (want : List Str) (ops : List VOp) (v : View) :
    (∃ v', foldRes (VOp.run opq ext d want) v ops = .ok v') ↔ ∀ pre op post, ops = pre ++ op :: post →
      Accepted opq ext d v.viewName want (v.isMaterialized = true ∨ (d = .postgres ∧ .isMaterialized ∈ pre)) op := by
  induction ops generalizing v with
  | nil => simp [foldRes]
  | cons o ops ih =>
    rw [foldRes]
    have hacc : ∀ (p q : Prop) (op : VOp) n, (p ↔ q) → (Accepted opq ext d n want p op ↔ Accepted opq ext d n want q op) := by
      intro p q op n hpq
      rw [propext hpq]
    constructor
    · rintro ⟨v', h⟩ pre op post he
      obtain ⟨v1, h1, h⟩ := (Res.bind_eq_ok _ _ _).1 h
      have hk := run_keeps opq ext d want o v v1 h1
      cases pre with
      | nil =>
        rw [List.nil_append, List.cons.injEq] at he
        rw [← he.1]
        exact (hacc _ _ _ _ (by simp)).1 ((run_ok_iff ..).1 ⟨v1, h1⟩)
      | cons p pre =>
        rw [List.cons_append, List.cons.injEq] at he
        have := (ih v1).1 ⟨v', h⟩ pre op post he.2
        rw [hk.2.1] at this
        refine (hacc _ _ _ _ ?_).1 this
        rw [hk.2.2.2.2.1, he.1]
        constructor
        · rintro ((h | ⟨h, h'⟩) | ⟨h, h'⟩)
          · exact .inl h
          · exact .inr ⟨h, by rw [h']; simp⟩
          · exact .inr ⟨h, by simp [h']⟩
        · rintro (h | ⟨h, h'⟩)
          · exact .inl (.inl h)
          · rcases List.mem_cons.1 h' with h' | h'
            · exact .inl (.inr ⟨h, h'.symm⟩)
            · exact .inr ⟨h, h'⟩
    · intro h
      obtain ⟨v1, h1⟩ := (run_ok_iff opq ext d want o v).2 ((hacc _ _ _ _ (by simp)).1 (h [] o ops rfl))
      have hk := run_keeps opq ext d want o v v1 h1
      obtain ⟨v', h'⟩ := (ih v1).2 (by
        intro pre op post he
        have := h (o :: pre) op post (by rw [he]; rfl)
        rw [hk.2.1]
        refine (hacc _ _ _ _ ?_).1 this
        rw [hk.2.2.2.2.1]
        constructor
        · rintro (h | ⟨h, h'⟩)
          · exact .inl (.inl h)
          · rcases List.mem_cons.1 h' with h' | h'
            · exact .inl (.inr ⟨h, h'.symm⟩)
            · exact .inr ⟨h, h'⟩
        · rintro ((h | ⟨h, h'⟩) | ⟨h, h'⟩)
          · exact .inl h
          · exact .inr ⟨h, by rw [h']; simp⟩
          · exact .inr ⟨h, by simp [h']⟩)
      exact ⟨v', by rw [h1, Res.bind_ok, h']⟩

theorem wantColumns_iff (fs : List (Option Str)) (cs : List Str) :
    wantColumns fs = .ok cs ↔ some [] ∉ fs ∧ cs = fs.filterMap id := by
  induction fs generalizing cs with
  | nil => simp [wantColumns, eq_comm]
  | cons f fs ih =>
    cases f with
    | none => rw [wantColumns, ih]; simp
    | some n =>
      rw [wantColumns]
      by_cases hn : n = []
      · simp [hn]
      · rw [if_neg hn]
        constructor
        · intro h
          obtain ⟨r, hr, rfl⟩ := map_eq_ok h
          obtain ⟨h1, rfl⟩ := (ih r).1 hr
          exact ⟨by simp [h1, Ne.symm hn], by simp⟩
        · rintro ⟨h1, rfl⟩
          rw [(ih _).2 ⟨fun h => h1 (List.mem_cons_of_mem _ h), rfl⟩]
          simp [Res.map]

theorem load_eq (opq : Nat → Sq.Val) (ext : Sq.Deriving.Ext) (d : Dialect) (v v' : View) (decl : ViewDecl) :
    v.load opq ext d decl = .ok v' ↔ decl.name ≠ [] ∧ some [] ∉ decl.fields ∧
      foldRes (VOp.run opq ext d decl.columns) { v with viewSchema := decl.schema, viewName := decl.name } (decl.ddl d) = .ok v' := by
  unfold View.load
  by_cases h1 : decl.name = []
  · simp [h1]
  · rw [if_neg h1]
    constructor
    · intro h
      split at h
      · cases h
      next hr =>
        obtain ⟨cs, hcs, h⟩ := (Res.bind_eq_ok _ _ _).1 h
        obtain ⟨h2, rfl⟩ := (wantColumns_iff ..).1 hcs
        exact ⟨h1, h2, h⟩
    · rintro ⟨-, h2, h3⟩
      rw [(wantColumns_iff ..).2 ⟨h2, rfl⟩, Res.bind_ok]
      rw [show decl.fields.filterMap id = decl.columns from rfl, h3]

/-- **C64, acceptance.** A view declaration is accepted exactly if the view and all columns of the struct have names and every call is all
right where it stands: a query must render and have the columns of the struct; on PostgreSQL a trigger must be readable, and an index must
come after the view was declared materialized, have a name and be of columns or expressions that render. -/
theorem C64_accepts (opq : Nat → Sq.Val) (ext : Sq.Deriving.Ext) (d : Dialect) (v : View) (decl : ViewDecl) :
    (∃ v', v.load opq ext d decl = .ok v') ↔
      decl.name ≠ [] ∧ some [] ∉ decl.fields ∧ ∀ pre op post, decl.ddl d = pre ++ op :: post →
        Accepted opq ext d decl.name decl.columns (v.isMaterialized = true ∨ (d = .postgres ∧ .isMaterialized ∈ pre)) op := by
  have hr := runs_ok_iff opq ext d decl.columns (decl.ddl d) { v with viewSchema := decl.schema, viewName := decl.name }
  constructor
  · rintro ⟨v', h⟩
    obtain ⟨h1, h2, h3⟩ := (load_eq ..).1 h
    exact ⟨h1, h2, hr.1 ⟨v', h3⟩⟩
  · rintro ⟨h1, h2, h3⟩
    obtain ⟨v', h⟩ := hr.2 h3
    exact ⟨v', (load_eq ..).2 ⟨h1, h2, h⟩⟩

theorem runs_keep (opq : Nat → Sq.Val) (ext : Sq.Deriving.Ext) (d : Dialect) (want : List Str) (ops : List VOp) (v v' : View)
    (h : foldRes (VOp.run opq ext d want) v ops = .ok v') :
    v'.viewSchema = v.viewSchema ∧ v'.viewName = v.viewName ∧ v'.ignore = v.ignore ∧ v'.comment = v.comment ∧
    (v'.isMaterialized = true ↔ v.isMaterialized = true ∨ (d = .postgres ∧ .isMaterialized ∈ ops)) ∧
    ((∀ q, VOp.setQuery q ∉ ops) → v'.sql = v.sql) ∧
    (d ≠ .postgres → v'.indexes = v.indexes ∧ v'.triggers = v.triggers) := by
  induction ops generalizing v with
  | nil => cases h; simp
  | cons o ops ih =>
    rw [foldRes] at h
    obtain ⟨v1, h1, h⟩ := (Res.bind_eq_ok _ _ _).1 h
    obtain ⟨a1, a2, a3, a4, a5, a6, a7, a8, a9⟩ := run_keeps opq ext d want o v v1 h1
    obtain ⟨b1, b2, b3, b4, b5, b6, b7⟩ := ih v1 h
    refine ⟨b1.trans a1, b2.trans a2, b3.trans a3, b4.trans a4, ?_, ?_, ?_⟩
    · rw [b5, a5]
      constructor
      · rintro ((h | ⟨h, h'⟩) | ⟨h, h'⟩)
        · exact .inl h
        · exact .inr ⟨h, by rw [h']; simp⟩
        · exact .inr ⟨h, by simp [h']⟩
      · rintro (h | ⟨h, h'⟩)
        · exact .inl (.inl h)
        · rcases List.mem_cons.1 h' with h' | h'
          · exact .inl (.inr ⟨h, h'.symm⟩)
          · exact .inr ⟨h, h'⟩
    · intro hq
      rw [b6 fun q hm => hq q (List.mem_cons_of_mem _ hm)]
      apply a6
      cases o with
      | setQuery q => exact absurd List.mem_cons_self (hq q)
      | _ => rfl
    · intro hd
      obtain ⟨c1, c2⟩ := b7 hd
      rw [c1, c2]
      by_cases hq : o.isQuery = false
      · rw [a9 hd hq]; exact ⟨rfl, rfl⟩
      · cases o with
        | setQuery q => exact ⟨(a7 rfl).1, (a8 rfl).1⟩
        | _ => exact absurd rfl hq

theorem runs_append (opq : Nat → Sq.Val) (ext : Sq.Deriving.Ext) (d : Dialect) (want : List Str) (xs ys : List VOp) (v v' : View) :
    foldRes (VOp.run opq ext d want) v (xs ++ ys) = .ok v' ↔
      ∃ w, foldRes (VOp.run opq ext d want) v xs = .ok w ∧ foldRes (VOp.run opq ext d want) w ys = .ok v' := by
  induction xs generalizing v with
  | nil => simp [foldRes]
  | cons x xs ih =>
    rw [List.cons_append, foldRes, foldRes]
    constructor
    · intro h
      obtain ⟨a, ha, h⟩ := (Res.bind_eq_ok _ _ _).1 h
      obtain ⟨w, h1, h2⟩ := (ih a).1 h
      exact ⟨w, by rw [ha, Res.bind_ok, h1], h2⟩
    · rintro ⟨w, h1, h2⟩
      obtain ⟨a, ha, h1⟩ := (Res.bind_eq_ok _ _ _).1 h1
      rw [ha, Res.bind_ok, ih]
      exact ⟨w, h1, h2⟩

/-- **C64, contents.** An accepted declaration makes the view what it says: its name, materialized exactly if asked for (on PostgreSQL),
with the text of the last query set. -/
theorem C64_declares (opq : Nat → Sq.Val) (ext : Sq.Deriving.Ext) (d : Dialect) (v v' : View) (decl : ViewDecl)
    (h : v.load opq ext d decl = .ok v') :
    v'.viewSchema = decl.schema ∧ v'.viewName = decl.name ∧
    (v'.isMaterialized = true ↔ v.isMaterialized = true ∨ (d = .postgres ∧ .isMaterialized ∈ decl.ddl d)) ∧
    (∀ pre q post, decl.ddl d = pre ++ .setQuery q :: post → (∀ q, VOp.setQuery q ∉ post) → Text opq { d := d } q v'.sql ∧ Fits ext q decl.columns) ∧
    ((∀ q, VOp.setQuery q ∉ decl.ddl d) → v'.sql = v.sql) ∧ v'.ignore = v.ignore ∧ v'.comment = v.comment := by
  obtain ⟨-, -, hf⟩ := (load_eq ..).1 h
  obtain ⟨b1, b2, b3, b4, b5, b6, -⟩ := runs_keep _ _ _ _ _ _ _ hf
  refine ⟨b1, b2, b5, ?_, b6, b3, b4⟩
  intro pre q post he hp
  rw [he, runs_append] at hf
  obtain ⟨w, -, hf⟩ := hf
  rw [foldRes] at hf
  obtain ⟨w', hw, hf⟩ := (Res.bind_eq_ok _ _ _).1 hf
  obtain ⟨-, h2, sql, h3, rfl⟩ := (C64_query ..).1 hw
  obtain ⟨-, -, -, -, -, c6, -⟩ := runs_keep _ _ _ _ _ _ _ hf
  rw [c6 hp]
  exact ⟨h3, h2⟩

/-- **C64, other dialects.** Materialization, indexes and triggers of views are for PostgreSQL: elsewhere the calls have no effect. -/
theorem C64_other_dialects (opq : Nat → Sq.Val) (ext : Sq.Deriving.Ext) (d : Dialect) (hd : d ≠ .postgres) (v v' : View) (decl : ViewDecl)
    (h : v.load opq ext d decl = .ok v') :
    v'.indexes = v.indexes ∧ v'.triggers = v.triggers ∧ v'.isMaterialized = v.isMaterialized := by
  obtain ⟨-, -, hf⟩ := (load_eq ..).1 h
  obtain ⟨-, -, -, -, b5, -, b7⟩ := runs_keep _ _ _ _ _ _ _ hf
  obtain ⟨c1, c2⟩ := b7 hd
  refine ⟨c1, c2, ?_⟩
  simp only [hd, false_and, or_false] at b5
  cases h1 : v.isMaterialized <;> cases h2 : v'.isMaterialized <;> simp_all

end Ddl.Views
