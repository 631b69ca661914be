import Verif.Spec.Built
import Verif.Proof.Declared
import Verif.Props.Load
/-
C59: the tags of a table struct, and the calls of its `DDL` method, say what the table is.
-/
namespace Ddl.Declared

theorem once_fresh {num : Str → Bool} {d : Dialect} {schema name : Str} {fs : List Field} (once : Once num ⟨d, schema, name⟩ fs) :
    Fresh (colNames { tableSchema := schema, tableName := name }) ((fs.flatMap (Field.columns num ⟨d, schema, name⟩)).map Column.columnName) ∧
    AllFresh d { tableSchema := schema, tableName := name } (fs.flatMap (Field.decls d)) :=
  ⟨⟨once.columns, fun n _ h => by cases h⟩, ⟨once.indexes, fun n _ h => by cases h⟩, ⟨once.constraints, fun n _ h => by cases h⟩, once.ok⟩

/-! ### Calls of the builder -/

/-- An entry changed at the position where it is found. -/
theorem declared_found {α : Type} [Entry α Str] {items : List α} {cache : Cache Str} (h : AllFound items cache) {k : Str} {n : Nat}
    (hp : (cachedPosition items cache k).1 = some n) (new : α) (edit : α → α) :
    items.set n (edit ((items[n]?).getD new)) = declared (Entry.key (κ := Str)) (Entry.ignore (κ := Str)) k new edit items := by
  obtain ⟨-, hg, x, hx, hk, hi⟩ := get_of_lookup hp
  unfold declared
  rw [if_pos (by
    rw [List.any_eq_true]
    exact ⟨x, List.mem_of_getElem? hx, by simp [hk, hi]⟩)]
  apply List.ext_getElem?
  intro i
  rw [List.getElem?_set, List.getElem?_map, hx]
  by_cases hni : n = i
  · subst hni
    obtain ⟨hl, -⟩ := List.getElem?_eq_some_iff.1 hx
    rw [if_pos rfl, if_pos hl, hx]
    simp [hk, hi]
  · rw [if_neg hni]
    cases hy : items[i]? with
    | none => rfl
    | some y =>
      simp only [Option.map_some, Option.some.injEq]
      rw [if_neg]
      intro hh
      simp only [Bool.and_eq_true, Bool.not_eq_true', decide_eq_true_eq] at hh
      have := (h i y hy hh.1).2
      rw [hh.2, hg] at this
      cases this
      exact hni rfl

theorem declared_new {α : Type} [Entry α Str] {items : List α} {cache : Cache Str} (h : AllFound items cache) {k : Str}
    (hp : (cachedPosition items cache k).1 = none) (new : α) (edit : α → α) :
    items ++ [edit new] = declared (Entry.key (κ := Str)) (Entry.ignore (κ := Str)) k new edit items := by
  unfold declared
  rw [if_neg]
  rw [List.any_eq_true]
  rintro ⟨x, hx, hh⟩
  simp only [Bool.and_eq_true, Bool.not_eq_true', decide_eq_true_eq] at hh
  obtain ⟨i, hi⟩ := List.mem_iff_getElem?.1 hx
  obtain ⟨a, b⟩ := h i x hi hh.1
  rw [hh.2] at a b
  have := (cachedPosition_iff items cache k i).2 ⟨a, b, x, hi, hh.2, hh.1⟩
  rw [hp] at this
  cases this

theorem putConstraint_says (t : Table) (hi : TabInv t) (name : Str) (new : Constraint) (g : Constraint → Constraint) :
    ∃ cache, t.putConstraint name new (fun s => .ok (g s.1, s.2)) =
      .ok { t with constraints := declared Constraint.constraintName Constraint.ignore name new g t.constraints, constraintCache := cache } := by
  unfold Table.putConstraint
  cases hp : t.cachedConstraintPosition name with
  | some n =>
    refine ⟨t.constraintCache, ?_⟩
    simp only [Res.map]
    rw [declared_found hi.constraints hp new g]
    rfl
  | none =>
    refine ⟨(appendItem t.constraints t.constraintCache (g new)).2, ?_⟩
    simp only [Res.map, Table.appendConstraint, appendItem]
    rw [declared_new hi.constraints hp new g]
    rfl

theorem putIndex_says (t : Table) (hi : TabInv t) (name : Str) (new : Index) (g : Index → Index) :
    ∃ cache, t.putIndex name new (fun s => .ok (g s)) =
      .ok { t with indexes := declared Index.indexName Index.ignore name new g t.indexes, indexCache := cache } := by
  unfold Table.putIndex
  cases hp : t.cachedIndexPosition name with
  | some n =>
    refine ⟨t.indexCache, ?_⟩
    simp only [Res.map]
    rw [declared_found hi.indexes hp new g]
    rfl
  | none =>
    refine ⟨(appendItem t.indexes t.indexCache (g new)).2, ?_⟩
    simp only [Res.map, Table.appendIndex, appendItem]
    rw [declared_new hi.indexes hp new g]
    rfl

theorem consOps_fold (d : Dialect) (name schema table : Str) (ops : List ConsOp) (hc : ∀ f, ConsOp.config f ∉ ops) : ∀ c,
    ops.foldl (ConsOp.run d name schema table) c = builtConstraint d ops c := by
  induction ops with
  | nil => intro c; simp [builtConstraint, lastOf_nil]
  | cons op ops ih =>
    intro c
    rw [List.foldl_cons, ih (fun f hf => hc f (by simp [hf]))]
    unfold builtConstraint
    by_cases h : d = .mysql <;> cases op <;>
      first
      | exact absurd List.mem_cons_self (hc _)
      | simp [h, ConsOp.run, lastOf_cons, or_getD, Bool.or_assoc]

theorem idxOps_fold (name schema table : Str) (ops : List IdxOp) (hc : ∀ f, IdxOp.config f ∉ ops) : ∀ c,
    ops.foldl (IdxOp.run name schema table) c = builtIndex ops c := by
  induction ops with
  | nil => intro c; simp [builtIndex, lastOf_nil]
  | cons op ops ih =>
    intro c
    rw [List.foldl_cons, ih (fun f hf => hc f (by simp [hf]))]
    unfold builtIndex
    cases op <;>
      first
      | exact absurd List.mem_cons_self (hc _)
      | simp [IdxOp.run, lastOf_cons, map_or, or_getD, Bool.or_assoc, -List.map_map]

/-- What one method does to the column itself. -/
theorem builtColumn_cons (d : Dialect) (op : ColOp) (ops : List ColOp) (c : Column) (hc : ∀ f, op ≠ .config f) :
    builtColumn d (op :: ops) c = builtColumn d ops (builtColumn d [op] c) := by
  unfold builtColumn
  by_cases h : d = .postgres <;> cases op <;>
    first
    | exact absurd rfl (hc _)
    | simp [h, lastOf_cons, lastOf_nil, or_getD, Bool.or_assoc]

theorem builtColumn_name (d : Dialect) (ops : List ColOp) (c : Column) : (builtColumn d ops c).columnName = c.columnName := rfl

theorem colOp_says (d : Dialect) (n : Nat) (k : Str) (t : Table) (hi : TabInv t) (op : ColOp) (hc : ∀ f, op ≠ .config f) (x : Column)
    (hx : t.columns[n]? = some x) (hk : x.columnName = k) :
    ∃ cache, op.run d n t = .ok { t with columns := t.columns.set n (builtColumn d [op] x)
                                         constraints := columnConstraints (.of d t) k [op] t.constraints, constraintCache := cache } := by
  have edit : ∀ f : Column → Column, columnConstraints (.of d t) k [op] t.constraints = t.constraints → f x = builtColumn d [op] x →
      ∃ cache, ColOp.run.edit n t f = .ok { t with columns := t.columns.set n (builtColumn d [op] x)
                                                   constraints := columnConstraints (.of d t) k [op] t.constraints, constraintCache := cache } := by
    intro f h1 h2
    refine ⟨t.constraintCache, ?_⟩
    unfold ColOp.run.edit
    rw [modify_eq_set _ _ _ _ hx, h1, h2]
  have same : builtColumn d [op] x = x → t.columns.set n (builtColumn d [op] x) = t.columns := by
    intro h
    rw [h]
    apply List.ext_getElem?
    intro i
    rw [List.getElem?_set]
    split
    · rename_i he
      subst he
      obtain ⟨hl, he⟩ := List.getElem?_eq_some_iff.1 hx
      rw [if_pos hl, hx]
    · rfl
  have decl : ∀ kind : ConstraintType, generateName kind.nameKind t.tableName [k] ≠ [] → builtColumn d [op] x = x →
      columnConstraints (.of d t) k [op] t.constraints = putConstraint (.of d t) kind (generateName kind.nameKind t.tableName [k]) [k] [] id t.constraints →
      ∃ cache, t.declareConstraint d kind (generateName kind.nameKind t.tableName [x.columnName]) [x.columnName] [] id =
        .ok { t with columns := t.columns.set n (builtColumn d [op] x)
                     constraints := columnConstraints (.of d t) k [op] t.constraints, constraintCache := cache } := by
    intro kind hne h1 h2
    unfold Table.declareConstraint
    rw [hk, if_neg (fun hh => hne hh.2), h2, same h1]
    exact putConstraint_says t hi _ _ (fun c => id { c with tableSchema := t.tableSchema, tableName := t.tableName, constraintType := kind, columns := [k], checkExpr := [] })
  cases op with
  | config f => exact absurd rfl (hc f)
  | primaryKey =>
    simp only [ColOp.run, hx]
    exact decl .primaryKey (generateName_ne _ (by simp [ConstraintType.nameKind]) _ _) (by simp [builtColumn, lastOf_cons, lastOf_nil]) rfl
  | unique =>
    simp only [ColOp.run, hx]
    exact decl .unique (generateName_ne _ (by simp [ConstraintType.nameKind]) _ _) (by simp [builtColumn, lastOf_cons, lastOf_nil]) rfl
  | identity => exact edit _ rfl (by by_cases h : d = .postgres <;> simp [h, builtColumn, lastOf_cons, lastOf_nil])
  | alwaysIdentity => exact edit _ rfl (by by_cases h : d = .postgres <;> simp [h, builtColumn, lastOf_cons, lastOf_nil])
  | _ => exact edit _ rfl (by simp [builtColumn, lastOf_cons, lastOf_nil])

theorem columnConstraints_cons (at_ : Place) (k : Str) (op : ColOp) (ops : List ColOp) (l : List Constraint) :
    columnConstraints at_ k (op :: ops) l = columnConstraints at_ k ops (columnConstraints at_ k [op] l) := by
  unfold columnConstraints
  rw [List.foldl_cons, List.foldl_cons, List.foldl_nil]

theorem set_set (l : List Column) (n : Nat) (a b : Column) : (l.set n a).set n b = l.set n b := by
  apply List.ext_getElem?
  intro i
  simp only [List.getElem?_set, List.length_set]
  split <;> rfl

theorem colOps_says (d : Dialect) (n : Nat) (k : Str) (hk : k ≠ []) : ∀ (ops : List ColOp) (t : Table), TabInv t → (∀ f, ColOp.config f ∉ ops) →
    Handle n k t → ∀ x, t.columns[n]? = some x →
    ∃ cache, foldRes (fun t op => op.run d n t) t ops =
      .ok { t with columns := t.columns.set n (builtColumn d ops x), constraints := columnConstraints (.of d t) k ops t.constraints, constraintCache := cache }
  | [], t, hi, _, hh, x, hx => by
    refine ⟨t.constraintCache, ?_⟩
    have : t.columns.set n (builtColumn d [] x) = t.columns := by
      have e : builtColumn d [] x = x := by simp [builtColumn, lastOf_nil]
      rw [e]
      apply List.ext_getElem?
      intro i
      rw [List.getElem?_set]
      split
      · rename_i he
        subst he
        obtain ⟨hl, he⟩ := List.getElem?_eq_some_iff.1 hx
        rw [if_pos hl, hx]
      · rfl
    rw [this]
    rfl
  | op :: ops, t, hi, hc, hh, x, hx => by
    have hxk : x.columnName = k := by
      obtain ⟨-, c, hc, hk⟩ := hh
      rw [hx] at hc; cases hc; exact hk
    have hop : ∀ f, op ≠ .config f := fun f he => hc f (by simp [he])
    obtain ⟨cache, h1⟩ := colOp_says d n k t hi op hop x hx hxk
    obtain ⟨k1, hh1⟩ := colOp_run hk hh h1
    obtain ⟨hl, -⟩ := List.getElem?_eq_some_iff.1 hx
    obtain ⟨cache', h2⟩ := colOps_says d n k hk ops _ (k1.1 hi) (fun f hf => hc f (by simp [hf])) hh1 (builtColumn d [op] x)
      (by simp [List.getElem?_set, hl])
    refine ⟨cache', ?_⟩
    rw [foldRes, h1]
    simp only [Res.bind]
    rw [h2, builtColumn_cons d op ops x hop, columnConstraints_cons]
    dsimp only
    rw [set_set]
    rfl

/-- **One call.** -/
theorem call_says {d : Dialect} {t : Table} (hi : TabInv t) (op : TOp) (hn : op.Named) (hc : NoConfig op) :
    match call ⟨d, t.tableSchema, t.tableName⟩ (partsOf t) op with
    | some p => ∃ t', op.run d t = .ok t' ∧ partsOf t' = p
    | none => ∃ e, op.run d t = .err e := by
  cases op with
  | ignore => exact ⟨_, rfl, rfl⟩
  | virtualTable m args => exact ⟨_, rfl, rfl⟩
  | column name ops =>
    simp only [call, TOp.run, runColumn]
    cases hp : t.cachedColumnPosition name with
    | none =>
      have : ¬ ((partsOf t).columns.any fun c => !c.ignore && c.columnName = name) = true := by
        rw [List.any_eq_true]
        rintro ⟨x, hx, hh⟩
        simp only [Bool.and_eq_true, Bool.not_eq_true', decide_eq_true_eq] at hh
        exact not_found _ _ hi.columns name hp x hx ⟨hh.1, hh.2.symm⟩
      rw [if_neg this]
      exact ⟨_, rfl⟩
    | some n =>
      obtain ⟨hb, hg, x, hx, hk, hxi⟩ := get_of_lookup hp
      have hne : name ≠ [] := by
        have : decide (name = []) = false := hb
        simpa using this
      have : ((partsOf t).columns.any fun c => !c.ignore && c.columnName = name) = true := by
        rw [List.any_eq_true]
        refine ⟨x, List.mem_of_getElem? hx, ?_⟩
        rw [show x.columnName = name from hk, show x.ignore = false from hxi]
        simp
      rw [if_pos this]
      obtain ⟨cache, h⟩ := colOps_says d n name hne ops t hi hc ⟨hg, x, hx, hk⟩ x hx
      refine ⟨_, h, ?_⟩
      have e : t.columns.set n (builtColumn d ops x) = t.columns.map fun c => if !c.ignore && c.columnName = name then builtColumn d ops c else c := by
        have := declared_found hi.columns hp x (builtColumn d ops)
        rw [hx] at this
        rw [Option.getD_some] at this
        rw [this]
        unfold declared
        rw [if_pos (by assumption)]
        rfl
      show Parts.mk _ _ _ _ _ _ _ = Parts.mk _ _ _ _ _ _ _
      rw [e]
      rfl
  | constraint kind name cols expr ops =>
    have hne : name.getD (generateName kind.nameKind t.tableName cols) ≠ [] := by
      cases name with
      | none => exact generateName_ne _ hn.1 _ _
      | some n => intro he; exact hn.2 (by rw [show n = [] from he])
    simp only [call, TOp.run, Table.declareConstraint]
    rw [if_neg (fun hh => hne hh.2)]
    obtain ⟨cache, h⟩ := putConstraint_says t hi (name.getD (generateName kind.nameKind t.tableName cols))
      { constraintName := name.getD (generateName kind.nameKind t.tableName cols) }
      (fun c => builtConstraint d ops { c with tableSchema := t.tableSchema, tableName := t.tableName, constraintType := kind, columns := cols, checkExpr := expr })
    simp only [consOps_fold d _ _ _ ops hc]
    exact ⟨_, h, rfl⟩
  | exclude name indexType cols exprs operators ops =>
    simp only [call, TOp.run]
    by_cases hd : d = .postgres
    · by_cases hne : name.getD (generateName .exclude t.tableName cols) = []
      · rw [if_pos (Or.inr hne), if_neg (not_not_intro hd), if_pos hne]
        exact ⟨_, rfl⟩
      · rw [if_neg (fun h => Or.elim h (fun h => h hd) hne), if_neg (not_not_intro hd), if_neg hne]
        obtain ⟨cache, h⟩ := putConstraint_says t hi (name.getD (generateName .exclude t.tableName cols))
          { constraintName := name.getD (generateName .exclude t.tableName cols) }
          (fun c => builtConstraint d ops { c with tableSchema := t.tableSchema, tableName := t.tableName, constraintType := .exclude, columns := cols, exprs := exprs, exclusionOperators := operators, exclusionIndexType := indexType })
        simp only [consOps_fold d _ _ _ ops hc]
        exact ⟨_, h, rfl⟩
    · rw [if_pos (Or.inl hd), if_pos hd]
      exact ⟨_, rfl⟩
  | index name cols exprs ops =>
    simp only [call, TOp.run]
    by_cases hne : name.getD (generateName .index t.tableName cols) = []
    · rw [if_pos hne, if_pos hne]
      exact ⟨_, rfl⟩
    · rw [if_neg hne, if_neg hne]
      obtain ⟨cache, h⟩ := putIndex_says t hi (name.getD (generateName .index t.tableName cols))
        { indexName := name.getD (generateName .index t.tableName cols) }
        (fun c => builtIndex ops { c with tableSchema := t.tableSchema, tableName := t.tableName, columns := cols, exprs := exprs })
      simp only [idxOps_fold _ _ _ ops hc]
      exact ⟨_, h, rfl⟩
  | trigger trg =>
    simp only [call, TOp.run]
    by_cases h1 : trg.tableSchema ≠ [] ∧ trg.tableSchema ≠ t.tableSchema
    · rw [if_pos (Or.inl h1), if_pos h1]
      exact ⟨_, rfl⟩
    · by_cases h2 : trg.tableName ≠ t.tableName
      · rw [if_pos (Or.inr h2), if_neg h1, if_pos h2]
        exact ⟨_, rfl⟩
      · rw [if_neg (fun h => Or.elim h h1 h2), if_neg h1, if_neg h2]
        cases hp : t.cachedTriggerPosition trg.triggerName with
        | none =>
          have := declared_new hi.triggers hp trg (fun x => { x with sql := trg.sql })
          refine ⟨_, rfl, ?_⟩
          show Parts.mk _ _ _ (t.triggers ++ [trg]) _ _ _ = _
          rw [show t.triggers ++ [trg] = _ from this]
          rfl
        | some n =>
          obtain ⟨hb, hg, x, hx, hk, hxi⟩ := get_of_lookup hp
          have := declared_found hi.triggers hp trg (fun x => { x with sql := trg.sql })
          rw [hx, Option.getD_some] at this
          refine ⟨_, rfl, ?_⟩
          show Parts.mk _ _ _ (t.triggers.modify n _) _ _ _ = _
          rw [modify_eq_set _ _ _ _ hx, this]
          rfl

theorem calls_says {d : Dialect} : ∀ (ops : List TOp) {t : Table}, TabInv t → (∀ op ∈ ops, op.Named ∧ NoConfig op) →
    match calls (.of d t) ops (partsOf t) with
    | some p => ∃ t', foldRes (TOp.run d) t ops = .ok t' ∧ partsOf t' = p ∧ Keeps t t'
    | none => ∃ e, foldRes (TOp.run d) t ops = .err e
  | [], t, hi, _ => ⟨t, rfl, rfl, .refl t⟩
  | op :: ops, t, hi, hn => by
    have h1 := call_says hi op (hn op (by simp)).1 (hn op (by simp)).2 (d := d)
    rw [calls, foldRes]
    cases hc : call ⟨d, t.tableSchema, t.tableName⟩ (partsOf t) op with
    | none =>
      rw [hc] at h1
      rw [show call (.of d t) (partsOf t) op = _ from hc]
      obtain ⟨e, he⟩ := h1
      rw [he]
      exact ⟨e, rfl⟩
    | some p =>
      rw [hc] at h1
      rw [show call (.of d t) (partsOf t) op = _ from hc]
      obtain ⟨t', ht, rfl⟩ := h1
      have k := tOp_keeps (hn op (by simp)).1 ht
      have hp : Place.of d t' = .of d t := by unfold Place.of; rw [k.2.1, k.2.2]
      have ih := calls_says (d := d) ops (k.1 hi) (fun o ho => hn o (by simp [ho]))
      rw [hp] at ih
      rw [ht]
      simp only [Option.bind, Res.bind]
      cases hcs : calls (.of d t) ops (partsOf t') with
      | none => rw [hcs] at ih; exact ih
      | some q =>
        rw [hcs] at ih
        obtain ⟨t'', h2, h3, h4⟩ := ih
        exact ⟨t'', h2, h3, k.trans h4⟩

/-! ### Whole tables -/

theorem eqFold_lower (s : Str) (w v : Str) (h : w.map Char.toLower = v) : eqFold s w = decide (s.map Char.toLower = v) := by
  unfold eqFold
  rw [h]
  by_cases e : s.map Char.toLower = v <;> simp [e]

theorem finished_says (t : Table) (hi : TabInv t) : partsOf (t.constraints.foldl markColumn (fts5Columns t)) = finished (partsOf t) := by
  rw [fold_mark t.constraints (fts5Columns t) ((fts5_keeps t).1 hi)]
  have em : ∀ c : Column, t.constraints.foldl markBy c = marked t.constraints c := fun c => fold_markBy t.constraints c
  have ef : ∀ c : Column, (!c.ignore && eqFold c.columnType "TEXT".toList) = (!c.ignore && decide (c.columnType.map Char.toLower = "text".toList)) :=
    fun c => by rw [eqFold_lower c.columnType _ "text".toList (by decide)]
  unfold fts5Columns finished partsOf
  rw [eqFold_lower t.virtualTable _ "fts5".toList (by decide)]
  by_cases hm : t.virtualTable.map Char.toLower = "fts5".toList
  · rw [if_pos (by simpa using hm), if_pos hm]
    simp only [em, ef]
  · rw [if_neg (by simpa using hm), if_neg hm]
    simp only [em]
    rfl

/-- **C59.** A table struct whose tags are any sequence of modifiers, written in any spacing, that declare every column, constraint
and index once, and whose `DDL` method makes any sequence of builder calls (no `Config`, no empty names given): loading it fails if
one of the calls is refused, and otherwise gives the table whose columns, constraints, indexes, triggers, virtual table module and
arguments are exactly those that the modifiers for the dialect and then the calls stand for — every attribute of every one of them,
in order, and nothing else. -/
theorem C59_table_partial (num : Str → Bool) (d : Dialect) (decl : TableDecl) (fs : List Field) (hn : decl.name ≠ []) (hf : Each Field.Is fs decl.fields)
    (hd : ∀ op ∈ decl.ddl d, op.Named ∧ NoConfig op) (once : Once num ⟨d, decl.schema, decl.name⟩ fs) (hi : fs.any (Field.ignored d) = false) :
    match calls ⟨d, decl.schema, decl.name⟩ (decl.ddl d) (tagParts num ⟨d, decl.schema, decl.name⟩ fs) with
    | some p => ∃ t, ({ tableSchema := decl.schema, tableName := decl.name } : Table).load num d decl = .ok t ∧
        t.tableSchema = decl.schema ∧ t.tableName = decl.name ∧ partsOf t = finished p
    | none => ∃ e, ({ tableSchema := decl.schema, tableName := decl.name } : Table).load num d decl = .err e := by
  obtain ⟨hc, ha⟩ := once_fresh once
  obtain ⟨t1, h1, a1⟩ := (loadFields_says (num := num) (d := d) hf hc once.named ha rfl).1 hi
  have inv : TabInv t1 := (loadFields_keeps _ h1).1 ⟨allFound_nil _, allFound_nil _, allFound_nil _, allFound_nil _⟩
  have hp : Place.of d t1 = ⟨d, decl.schema, decl.name⟩ := a1.place
  have hparts : partsOf t1 = tagParts num ⟨d, decl.schema, decl.name⟩ fs := by
    have hv := congrArg Prod.fst a1.virt
    have hva := congrArg Prod.snd a1.virt
    dsimp only at hv hva
    unfold partsOf tagParts
    rw [a1.columns, a1.constraints, a1.indexes, a1.triggers, hv, hva, a1.ignore, hi]
    simp [virtualAfter, constraintsOf, indexesOfAll, consOf, idxsOf, Place.of, moduleOf]
  have hcalls := calls_says (d := d) (decl.ddl d) inv hd
  rw [hp, hparts] at hcalls
  have hload : ∀ r, ((foldRes (TOp.run d) t1 (decl.ddl d)).map fun t => t.constraints.foldl markColumn (fts5Columns t)) = r → r ≠ .panic →
      ({ tableSchema := decl.schema, tableName := decl.name } : Table).load num d decl = r := by
    intro r hr hne
    unfold Table.load
    rw [if_neg hn]
    dsimp only
    rw [h1]
    simp only [Res.bind, Bool.false_eq_true, if_false]
    rw [hr]
    cases r with
    | panic => exact absurd rfl hne
    | _ => rfl
  cases hcs : calls ⟨d, decl.schema, decl.name⟩ (decl.ddl d) (tagParts num ⟨d, decl.schema, decl.name⟩ fs) with
  | none =>
    rw [hcs] at hcalls
    obtain ⟨e, he⟩ := hcalls
    exact ⟨e, hload _ (by rw [he]; rfl) (by simp)⟩
  | some p =>
    rw [hcs] at hcalls
    obtain ⟨t2, h2, hp2, k2⟩ := hcalls
    have k : Keeps t1 (t2.constraints.foldl markColumn (fts5Columns t2)) := k2.trans ((fts5_keeps t2).trans (fold_markColumn t2.constraints _))
    refine ⟨_, hload _ (by rw [h2]; rfl) (by simp), ?_, ?_, ?_⟩
    · rw [k.2.2]; exact congrArg Place.schema hp
    · rw [k.2.1]; exact congrArg Place.table hp
    · rw [finished_says t2 (k2.1 inv), hp2]

/-- C59: without a `DDL` method, the tags alone say what the table is. -/
theorem C59_tags_partial (num : Str → Bool) (d : Dialect) (decl : TableDecl) (fs : List Field) (hn : decl.name ≠ []) (hf : Each Field.Is fs decl.fields)
    (hd : decl.ddl d = []) (once : Once num ⟨d, decl.schema, decl.name⟩ fs) (hi : fs.any (Field.ignored d) = false) :
    ∃ t, ({ tableSchema := decl.schema, tableName := decl.name } : Table).load num d decl = .ok t ∧
      t.tableSchema = decl.schema ∧ t.tableName = decl.name ∧ t.columns = columnsOf num ⟨d, decl.schema, decl.name⟩ fs ∧
      t.constraints = constraintsOf ⟨d, decl.schema, decl.name⟩ fs ∧ t.indexes = indexesOfAll ⟨d, decl.schema, decl.name⟩ fs ∧
      t.triggers = [] ∧ t.virtualTable = moduleOf d fs ∧ t.virtualTableArgs = argumentsOf num ⟨d, decl.schema, decl.name⟩ fs ∧ t.ignore = false := by
  have h := C59_table_partial num d decl fs hn hf (by rw [hd]; intro op hop; cases hop) once hi
  rw [hd] at h
  obtain ⟨t, h1, h2, h3, h4⟩ := h
  unfold partsOf finished tagParts at h4
  simp only [Parts.mk.injEq] at h4
  obtain ⟨a, b, c, e, f, g, i⟩ := h4
  exact ⟨t, h1, h2, h3, a, b, c, e, f, g, i⟩

/-- C59: a table struct one of whose tags says that the table is not for the dialect is loaded as an ignored table. -/
theorem C59_ignored (num : Str → Bool) (d : Dialect) (decl : TableDecl) (fs : List Field) (hn : decl.name ≠ []) (hf : Each Field.Is fs decl.fields)
    (once : Once num ⟨d, decl.schema, decl.name⟩ fs) (hi : fs.any (Field.ignored d) = true) :
    ∃ t, ({ tableSchema := decl.schema, tableName := decl.name } : Table).load num d decl = .ok t ∧ t.ignore = true := by
  obtain ⟨hc, ha⟩ := once_fresh once
  obtain ⟨t1, h1, h2⟩ := (loadFields_says (num := num) (d := d) hf hc once.named ha rfl).2 hi
  refine ⟨t1, ?_, h2⟩
  unfold Table.load
  rw [if_neg hn]
  dsimp only
  rw [h1]
  rfl

/-! ### Whole databases -/

open Spec (find table?) in
theorem loadTable_total {num : Str → Bool} {dia : Dialect} {db : DatabaseMetadata} (h : DbInv db) {decl : TableDecl} (hne : decl.name ≠ [])
    (hnone : table? db decl.schema decl.name = none) {t' : Table} (ht : (freshTable decl).load num dia decl = .ok t') :
    ∃ db', db.loadTable num dia decl = .ok db' := by
  unfold DatabaseMetadata.loadTable
  rw [if_neg hne]
  obtain ⟨hi, -, -⟩ := schemaOrNew_inv h decl.schema
  have htab : find (schemaOrNew db decl.schema).tables decl.name = none := by
    unfold table? at hnone
    unfold schemaOrNew
    cases hf : find db.schemas decl.schema with
    | none => rfl
    | some s => rw [hf] at hnone; exact hnone
  have hput : ∃ s', (schemaOrNew db decl.schema).putTable decl.name { tableSchema := decl.schema, tableName := decl.name }
      (fun t => t.load num dia decl) = .ok s' := by
    unfold Schema.putTable
    cases hc : (schemaOrNew db decl.schema).cachedTablePosition decl.name with
    | some p =>
      obtain ⟨hb, hg, x, hx, hk, hxi⟩ := get_of_lookup hc
      have hm : x ∈ Spec.active (schemaOrNew db decl.schema).tables := mem_active.2 ⟨List.mem_iff_getElem?.2 ⟨p, hx⟩, hxi⟩
      have := find_eq_some hi.tables.ok.unique hm
      rw [hk, htab] at this
      cases this
    | none =>
      have ht' : ({ tableSchema := decl.schema, tableName := decl.name } : Table).load num dia decl = .ok t' := ht
      simp only [ht', Res.map]
      exact ⟨_, rfl⟩
  obtain ⟨s', hs'⟩ := hput
  unfold DatabaseMetadata.putSchema
  cases hc : db.cachedSchemaPosition decl.schema with
  | some p =>
    obtain ⟨hb, hg, x, hx, hk, hxi⟩ := get_of_lookup hc
    have hm : x ∈ Spec.active db.schemas := mem_active.2 ⟨List.mem_iff_getElem?.2 ⟨p, hx⟩, hxi⟩
    have hf := find_eq_some h.schemas.ok.unique hm
    rw [hk] at hf
    have e : schemaOrNew db decl.schema = x := by unfold schemaOrNew; rw [hf]; rfl
    rw [e] at hs'
    simp only [hx, Option.getD_some, hs', Res.map]
    exact ⟨_, rfl⟩
  | none =>
    have hf : find db.schemas decl.schema = none := by
      have := lookup_find h.schemas.ok decl.schema
      rw [show (cachedPosition db.schemas db.schemaCache decl.schema).1 = none from hc] at this
      exact this.symm
    have e : schemaOrNew db decl.schema = { schemaName := decl.schema } := by unfold schemaOrNew; rw [hf]; rfl
    rw [e] at hs'
    simp only [hs', Res.map]
    exact ⟨_, rfl⟩

open Spec (table?) in
theorem withTables_total {num : Str → Bool} {dia : Dialect} : ∀ (decls : List TableDecl) (db : DatabaseMetadata), DbInv db → TablesInv db →
    (∀ x ∈ decls, x.Named) → (∀ x ∈ decls, x.name ≠ []) → (∀ x ∈ decls, ∃ t, (freshTable x).load num dia x = .ok t) →
    (decls.Pairwise fun x y => ¬ (x.schema = y.schema ∧ x.name = y.name)) → (∀ x ∈ decls, table? db x.schema x.name = none) →
    ∃ db', withTables num dia decls db = .ok db'
  | [], db, _, _, _, _, _, _, _ => ⟨db, rfl⟩
  | x :: xs, db, h, ht, hn, hne, hl, hp, hnone => by
    rw [List.pairwise_cons] at hp
    obtain ⟨t, hxt⟩ := hl x (by simp)
    obtain ⟨db1, h1⟩ := loadTable_total h (hne x (by simp)) (hnone x (by simp)) hxt
    obtain ⟨-, i1, i2, t', -, -, hk⟩ := loadTable_ok h ht (hn x (by simp)) h1
    obtain ⟨db2, h2⟩ := withTables_total xs db1 i1 i2 (fun y hy => hn y (by simp [hy])) (fun y hy => hne y (by simp [hy]))
      (fun y hy => hl y (by simp [hy])) hp.2 (fun y hy => by
        rw [hk, if_neg (fun hh => hp.1 y hy ⟨hh.1.symm, hh.2.symm⟩)]
        exact hnone y (by simp [hy]))
    refine ⟨db2, ?_⟩
    unfold withTables at h2 ⊢
    rw [foldRes, h1]
    exact h2

open Spec (table?) in
/-- **C59 for a whole database**: `NewDatabaseMetadata` with tables whose tags say what they are (no two of the same table) succeeds, and
finds under each name the table its tags stand for, or no table if the tags say it is not for the dialect; and it finds no other. -/
theorem C59_database_partial (num : Str → Bool) (d : Dialect) (decls : List TableDecl) (tags : TableDecl → List Field)
    (hn : ∀ x ∈ decls, x.name ≠ []) (hf : ∀ x ∈ decls, Each Field.Is (tags x) x.fields) (hd : ∀ x ∈ decls, ∀ d, x.ddl d = [])
    (once : ∀ x ∈ decls, Once num ⟨d, x.schema, x.name⟩ (tags x)) (hp : decls.Pairwise fun x y => ¬ (x.schema = y.schema ∧ x.name = y.name)) :
    ∃ db, withTables num d decls { dialect := some d } = .ok db ∧
      (∀ x ∈ decls, match table? db x.schema x.name with
        | none => (tags x).any (Field.ignored d) = true
        | some t => (tags x).any (Field.ignored d) = false ∧ partsOf t = finished (tagParts num ⟨d, x.schema, x.name⟩ (tags x))) ∧
      (∀ s n, (∀ x ∈ decls, ¬ (s = x.schema ∧ n = x.name)) → table? db s n = none) := by
  have hnamed : ∀ x ∈ decls, x.Named := fun x hx d' op hop => by rw [hd x hx d'] at hop; cases hop
  have each : ∀ x ∈ decls, ∃ t, (freshTable x).load num d x = .ok t ∧
      ((tags x).any (Field.ignored d) = true ∧ t.ignore = true ∨
       (tags x).any (Field.ignored d) = false ∧ t.ignore = false ∧ partsOf t = finished (tagParts num ⟨d, x.schema, x.name⟩ (tags x))) := by
    intro x hx
    cases hi : (tags x).any (Field.ignored d) with
    | true =>
      obtain ⟨t, h1, h2⟩ := C59_ignored num d x (tags x) (hn x hx) (hf x hx) (once x hx) hi
      exact ⟨t, h1, Or.inl ⟨rfl, h2⟩⟩
    | false =>
      have h := C59_table_partial num d x (tags x) (hn x hx) (hf x hx) (by rw [hd x hx]; intro op hop; cases hop) (once x hx) hi
      rw [hd x hx] at h
      obtain ⟨t, h1, -, -, h4⟩ := h
      refine ⟨t, h1, Or.inr ⟨rfl, ?_, h4⟩⟩
      exact congrArg Parts.ignore h4
  have t0 : TablesInv { dialect := some d } := fun s n t ht => by cases ht
  obtain ⟨db, hdb⟩ := withTables_total (num := num) (dia := d) decls { dialect := some d } (dbInv_empty (some d) [] []) t0 hnamed hn
    (fun x hx => (each x hx).imp fun _ h => h.1) hp (fun x _ => rfl)
  obtain ⟨h1, h2⟩ := C46_with_tables_content num d decls hnamed hp db hdb
  refine ⟨db, hdb, fun x hx => ?_, h2⟩
  obtain ⟨t, ht, he⟩ := h1 x hx
  obtain ⟨t', ht', hcase⟩ := each x hx
  have : t = t' := by
    have e : Res.ok t = Res.ok t' := ht.symm.trans ht'
    cases e
    rfl
  subst this
  rw [he]
  rcases hcase with ⟨a, b⟩ | ⟨a, b, c⟩
  · rw [b]; exact a
  · rw [b]; exact ⟨a, c⟩

/-! ### Unknown modifiers -/

theorem foldRes_all {α β : Type} {f : α → β → Res α} : ∀ (bs : List β) (a a' : α), foldRes f a bs = .ok a' → ∀ b ∈ bs, ∃ s s', f s b = .ok s'
  | [], _, _, _, b, hb => by cases hb
  | b :: bs, a, a', h, c, hc => by
    rw [foldRes] at h
    obtain ⟨a1, h1, h2⟩ := (Res.bind_eq_ok _ _ _).1 h
    rcases List.mem_cons.1 hc with rfl | hc
    · exact ⟨a, a1, h1⟩
    · exact foldRes_all bs a1 a' h2 c hc

theorem readsAs_forDialect {d : Dialect} {k w : Str} (h : ReadsAs d k w) : forDialect d k = some w := by
  rcases h with ⟨rfl, hc⟩ | ⟨o, ho, rfl, hn⟩
  · exact forDialect_plain d _ hc
  · rw [forDialect_prefix d o w ho, if_pos hn]

theorem indexModifier_known {d : Dialect} {x x' : Index} {m : Str × Str} (h : indexModifier d x m = .ok x') : m.1 ∈ indexWords.map String.toList := by
  unfold indexModifier at h
  iterate 6 (split at h; · rename_i e; rw [e]; decide)
  cases h

theorem constraintModifier_known {d : Dialect} {cols : List Str} {x x' : Constraint × Table} {m : Str × Str}
    (h : constraintModifier d cols x m = .ok x') : m.1 ∈ constraintWords.map String.toList := by
  unfold constraintModifier at h
  split at h
  · rename_i e; rcases e with e | e <;> (rw [e]; decide)
  iterate 7 (split at h; · rename_i e; rw [e]; decide)
  cases h

theorem declare_known {d : Dialect} {t t' : Table} {cols : List Str} {k v : Str} (h : declare d t cols k v = .ok t') :
    k ∈ declWords.map String.toList := by
  unfold declare at h
  iterate 5 (split at h; · rename_i e; rw [e]; decide)
  cases h

theorem loadIndex_known {d : Dialect} {t t' : Table} {cols : List Str} {v first : Str} {pairs : List (Str × Str)}
    (hw : WrittenValue v first pairs) (h : loadIndexConfig d t cols v = .ok t') : ∀ p ∈ pairs, p.1 ∈ indexWords.map String.toList := by
  unfold loadIndexConfig at h
  rw [writtenValue_lex hw] at h
  simp only [Res.bind] at h
  generalize (if first ≠ ".".toList ∧ first ≠ [] then splitOn ',' first else cols) = cs at h
  split at h
  · cases h
  · unfold Table.putIndex at h
    intro p hp
    split at h
    · obtain ⟨x, hx, -⟩ := map_eq_ok h
      obtain ⟨s, s', hs⟩ := foldRes_all _ _ _ hx p hp
      exact indexModifier_known hs
    · obtain ⟨x, hx, -⟩ := map_eq_ok h
      obtain ⟨s, s', hs⟩ := foldRes_all _ _ _ hx p hp
      exact indexModifier_known hs

theorem loadConstraint_known {d : Dialect} {t t' : Table} {kind : ConstraintType} {isRef : Bool} {cols : List Str} {v first : Str}
    {pairs : List (Str × Str)} (hw : WrittenValue v first pairs) (h : loadConstraintConfig d t kind isRef cols v = .ok t') :
    ∀ p ∈ pairs, p.1 ∈ constraintWords.map String.toList := by
  unfold loadConstraintConfig at h
  rw [writtenValue_lex hw] at h
  simp only [Res.bind] at h
  generalize (if (!isRef) = true ∧ first ≠ ".".toList ∧ first ≠ [] then splitOn ',' first else cols) = cs at h
  split at h
  · cases h
  · unfold Table.putConstraint at h
    intro p hp
    split at h
    · obtain ⟨x, hx, -⟩ := map_eq_ok h
      obtain ⟨s, s', hs⟩ := foldRes_all _ _ _ hx p hp
      exact constraintModifier_known hs
    · obtain ⟨x, hx, -⟩ := map_eq_ok h
      obtain ⟨s, s', hs⟩ := foldRes_all _ _ _ hx p hp
      exact constraintModifier_known hs

/-- The modifiers inside the value of a declaration. -/
def InnerKnown (w v : Str) : Prop := ∀ first pairs, WrittenValue v first pairs →
  (w = "index".toList → ∀ q ∈ pairs, q.1 ∈ indexWords.map String.toList) ∧
  (w ∈ ["primarykey", "references", "foreignkey", "unique"].map String.toList → ∀ q ∈ pairs, q.1 ∈ constraintWords.map String.toList)

theorem declare_inner {d : Dialect} {t t' : Table} {cols : List Str} {k v : Str} (h : declare d t cols k v = .ok t') : InnerKnown k v := by
  intro first pairs hw
  constructor
  · rintro rfl
    exact loadIndex_known hw h
  · intro hk
    simp only [List.map_cons, List.map_nil, List.mem_cons, List.not_mem_nil, or_false] at hk
    rcases hk with rfl | rfl | rfl | rfl
    · exact loadConstraint_known (kind := .primaryKey) (isRef := false) hw h
    · exact loadConstraint_known (kind := .foreignKey) (isRef := true) hw h
    · exact loadConstraint_known (kind := .foreignKey) (isRef := false) hw h
    · exact loadConstraint_known (kind := .unique) (isRef := false) hw h

theorem ite_some_cases {α : Type} {p : Prop} [Decidable p] {a b c : Option α} {q : Prop} (h : (if p then a else b) = c)
    (h1 : p → q) (h2 : b = c → q) : q := by
  by_cases hp : p
  · exact h1 hp
  · rw [if_neg hp] at h; exact h2 h

theorem columnEdit_known {num : Str → Bool} {d : Dialect} {k v : Str} {f : Column → Column} (h : columnEdit num d k v = some f) :
    k ∈ columnWords.map String.toList ∧ k ∉ declWords.map String.toList := by
  unfold columnEdit at h
  iterate 12
    refine ite_some_cases h (fun e => ?_) (fun h => ?_)
    · rw [e]; decide
  cases h

theorem columnModifier_known {num : Str → Bool} {d : Dialect} {s s' : Column × Table} {m : Str × Str} (h : columnModifier num d s m = .ok s')
    {w : Str} (hr : ReadsAs d m.1 w) : w ∈ columnWords.map String.toList ∧ (w ∈ declWords.map String.toList → InnerKnown w m.2) := by
  unfold columnModifier at h
  rw [readsAs_forDialect hr] at h
  dsimp only at h
  cases he : columnEdit num d w m.2 with
  | some f =>
    have := columnEdit_known he
    exact ⟨this.1, fun hd => absurd hd this.2⟩
  | none =>
    rw [he] at h
    obtain ⟨t, ht, -⟩ := map_eq_ok h
    refine ⟨?_, fun _ => declare_inner ht⟩
    have := declare_known ht
    simp only [columnWords, List.map_append, List.mem_append]
    exact Or.inr this

theorem tableModifier_known {d : Dialect} {s s' : Table} {m : Str × Str} (h : tableModifier d s m = .ok s')
    {w : Str} (hr : ReadsAs d m.1 w) : w ∈ tableWords.map String.toList ∧ (w ∈ declWords.map String.toList → InnerKnown w m.2) := by
  unfold tableModifier at h
  rw [readsAs_forDialect hr] at h
  dsimp only at h
  split at h
  · rename_i hw
    subst hw
    exact ⟨by decide, fun hd => absurd hd (by decide)⟩
  · split at h
    · rename_i hw
      subst hw
      exact ⟨by decide, fun hd => absurd hd (by decide)⟩
    · refine ⟨?_, fun _ => declare_inner h⟩
      have := declare_known h
      simp only [tableWords, List.map_append, List.mem_append]
      exact Or.inr this

/-- The words a field knows, and its tag. -/
def FieldDecl.words : FieldDecl → List Str
  | .column _ _ _ => columnWords.map String.toList
  | .other _ => tableWords.map String.toList
def FieldDecl.tag : FieldDecl → Str
  | .column _ _ tag => tag
  | .other tag => tag

/-- The tag of the field says nothing that is not understood. -/
def Understood (d : Dialect) (f : FieldDecl) : Prop := ∀ pairs, WrittenTag (FieldDecl.tag f) pairs → ∀ p ∈ pairs, ∀ w, ReadsAs d p.1 w →
  w ∈ FieldDecl.words f ∧ (w ∈ declWords.map String.toList → InnerKnown w p.2)

theorem loadField_known {num : Str → Bool} {d : Dialect} {t : Table} {f : FieldDecl} {r : Table × Bool} (h : loadField num d t f = .ok r) :
    Understood d f := by
  intro pairs hw p hp w hr
  cases f with
  | other tag =>
    obtain ⟨t', ht, -⟩ := map_eq_ok h
    unfold loadTableConfig at ht
    have hl := writtenTag_lex hw
    rw [show Sq.lexModifiers false tag = .ok pairs from hl] at ht
    obtain ⟨s, s', hs⟩ := foldRes_all _ _ _ ht p hp
    exact tableModifier_known hs hr
  | column name type tag =>
    rw [loadField] at h
    split at h
    · cases h
    · obtain ⟨t', ht, -⟩ := map_eq_ok h
      unfold loadColumnConfig at ht
      have hl := writtenTag_lex hw
      rw [show Sq.lexModifiers false tag = .ok pairs from hl] at ht
      simp only [Res.bind] at ht
      split at ht
      · obtain ⟨x, hx, -⟩ := map_eq_ok ht
        obtain ⟨s, s', hs⟩ := foldRes_all _ _ _ hx p hp
        exact columnModifier_known hs hr
      · obtain ⟨x, hx, -⟩ := map_eq_ok ht
        obtain ⟨s, s', hs⟩ := foldRes_all _ _ _ hx p hp
        exact columnModifier_known hs hr

theorem loadFields_known {num : Str → Bool} {d : Dialect} : ∀ (fs : List FieldDecl) (t : Table) (t' : Table),
    loadFields num d t fs = .ok (t', false) → ∀ f ∈ fs, Understood d f
  | [], _, _, _, f, hf => by cases hf
  | g :: gs, t, t', h, f, hf => by
    rw [loadFields] at h
    obtain ⟨⟨t1, stop⟩, h1, h2⟩ := (Res.bind_eq_ok _ _ _).1 h
    cases stop with
    | true => cases h2
    | false =>
      rcases List.mem_cons.1 hf with rfl | hf
      · exact loadField_known h1
      · exact loadFields_known gs t1 t' h2 f hf

theorem loadFields_stop {num : Str → Bool} {d : Dialect} : ∀ (fs : List FieldDecl) (t : Table) (t' : Table),
    loadFields num d t fs = .ok (t', true) → t'.ignore = true
  | [], _, _, h => by cases h
  | g :: gs, t, t', h => by
    rw [loadFields] at h
    obtain ⟨⟨t1, stop⟩, h1, h2⟩ := (Res.bind_eq_ok _ _ _).1 h
    cases stop with
    | false => exact loadFields_stop gs t1 t' h2
    | true =>
      cases h2
      cases g with
      | other tag =>
        obtain ⟨t2, -, he⟩ := map_eq_ok h1
        simp only [Prod.mk.injEq] at he
        rw [← he.1]; exact he.2
      | column name type tag =>
        rw [loadField] at h1
        split at h1
        · cases h1
        · obtain ⟨t2, -, he⟩ := map_eq_ok h1
          cases he

/-- C59: nothing in a tag is skipped because it is not understood.  If a table struct is loaded and the table is not ignored, every
modifier in its tags that is for the dialect is a known one, and so is every modifier inside the constraints and indexes declared. -/
theorem C59_understood (num : Str → Bool) (d : Dialect) (t t' : Table) (decl : TableDecl) (h : t.load num d decl = .ok t') (hi : t'.ignore = false) :
    ∀ f ∈ decl.fields, Understood d f := by
  unfold Table.load at h
  split at h
  · cases h
  · dsimp only at h
    split at h
    · cases h
    · obtain ⟨⟨t1, stop⟩, h1, h2⟩ := (Res.bind_eq_ok _ _ _).1 h
      cases stop with
      | false => exact loadFields_known _ _ _ h1
      | true =>
        cases h2
        rw [loadFields_stop _ _ _ h1] at hi
        cases hi

/-! ### Examples -/

section examples
open Sq.Spec (Modifier Gap writeMods Word Balanced)

instance (s : Str) : Decidable (Word s) := by unfold Word; infer_instance
instance (s : Str) : Decidable (Gap s) := by unfold Gap; infer_instance
instance (s : Str) : Decidable (Balanced s) := by unfold Balanced; infer_instance
instance (m : Modifier) : Decidable m.Ok := by
  obtain ⟨name, value, bare⟩ := m
  cases value with
  | none => exact decidable_of_iff (Word name) ⟨fun h => ⟨h, fun _ hv => by cases hv⟩, fun h => h.1⟩
  | some v =>
    exact decidable_of_iff (Word name ∧ if bare then v ≠ [] ∧ ∀ c ∈ v, Sq.isSpace c = false ∧ c ≠ '{' ∧ c ≠ '}' else Balanced v)
      ⟨fun h => ⟨h.1, fun _ hv => by cases hv; exact h.2⟩, fun h => ⟨h.1, h.2 v rfl⟩⟩

/-- A bare word, a word with a bare value, a word with a braced value, each after a space. -/
private def w (a : String) : Str × Modifier := (" ".toList, ⟨a.toList, none, false⟩)
private def b (a v : String) : Str × Modifier := (" ".toList, ⟨a.toList, some v.toList, true⟩)
private def c (a v : String) : Str × Modifier := (" ".toList, ⟨a.toList, some v.toList, false⟩)

/-- A table with a two-column unique constraint, a primary key, a default, a check of the dialects, a reference with an index. -/
def exTags : List Field :=
  [.table [{ tag := .decl (.unique { cols := ["title".toList, "year".toList], mods := [.name "film_key".toList, .deferred] }) }],
   .column "film_id".toList "BIGINT".toList [{ only := some "sqlite".toList, tag := .type "INTEGER".toList }, { tag := .decl (.primaryKey {}) },
     { tag := .autoincrement }],
   .column "title".toList "TEXT".toList [{ tag := .notNull }, { tag := .default "'it''s'".toList }, { tag := .decl (.index {}) }],
   .column "year".toList "INT".toList [{ tag := .default "1 + 1".toList }, { tag := .ignore ["mysql".toList, "oracle".toList] }],
   .column "lang".toList "INT".toList [{ tag := .decl (.references { table := "language".toList, cols := ["id".toList] }
     [.onUpdate .cascade, .index { mods := [.unique, .where "lang > 0".toList] }]) }]]

def exDecl : TableDecl :=
  { name := "film".toList
    fields := [.other "unique={title,year name=film_key deferred}".toList,
      .column "film_id".toList "BIGINT".toList "sqlite:type=INTEGER primarykey autoincrement".toList,
      .column "title".toList "TEXT".toList "notnull default='it''s' index".toList,
      .column "year".toList "INT".toList "default={1 + 1} ignore=mysql,oracle".toList,
      .column "lang".toList "INT".toList "references={language.id onupdate=cascade index={. unique where={lang > 0}}}".toList] }

private theorem wr (ms : List (Str × Modifier)) (text : Str) (pairs : List (Str × Str))
    (h : decide (text = writeMods ms ∧ (∀ p ∈ ms, Gap p.1 ∧ p.2.Ok) ∧ ms.map (fun p => p.2.read) = pairs) = true) : Written text pairs :=
  ⟨ms, of_decide_eq_true h⟩

private theorem wv (first : Str) (ms : List (Str × Modifier)) (text : Str) (pairs : List (Str × Str))
    (h : decide ((text = first ++ writeMods ms ∧ Word first) ∧ (∀ p ∈ ms, Gap p.1 ∧ p.2.Ok) ∧ ms.map (fun p => p.2.read) = pairs) = true) :
    WrittenValue text first pairs := by
  have h := of_decide_eq_true h
  exact Or.inr ⟨writeMods ms, h.1.1, h.1.2, ms, rfl, h.2⟩

theorem exDecl_is : Each Field.Is exTags exDecl.fields := by
  refine ⟨?_, ⟨rfl, rfl, ?_⟩, ⟨rfl, rfl, ?_⟩, ⟨rfl, rfl, ?_⟩, ⟨rfl, rfl, ?_⟩, trivial⟩
  · refine ⟨[("unique".toList, "title,year name=film_key deferred".toList)],
      Or.inr (wr [c "unique" "title,year name=film_key deferred"] _ _ (by decide +kernel)), ⟨rfl, _, _,
        wv "title,year".toList [b "name" "film_key", w "deferred"] _ [("name".toList, "film_key".toList), ("deferred".toList, [])] (by decide +kernel),
        Or.inr ⟨by simp, ?_, by decide⟩, ⟨rfl, by decide⟩, rfl, trivial⟩, trivial⟩
    intro x hx
    simp only [List.mem_cons, List.not_mem_nil, or_false] at hx
    rcases hx with rfl | rfl <;> exact ⟨by decide, by decide, by decide⟩
  · exact ⟨[("sqlite:type".toList, "INTEGER".toList), ("primarykey".toList, []), ("autoincrement".toList, [])],
      Or.inr (wr [b "sqlite:type" "INTEGER", w "primarykey", w "autoincrement"] _ _ (by decide +kernel)),
      ⟨by decide, "type".toList, by decide, rfl⟩, ⟨rfl, [], [], Or.inl ⟨rfl, rfl, rfl⟩, Or.inl ⟨rfl, Or.inl rfl⟩, trivial⟩, rfl, trivial⟩
  · exact ⟨[("notnull".toList, []), ("default".toList, "'it''s'".toList), ("index".toList, [])],
      Or.inr (wr [w "notnull", b "default" "'it''s'", w "index"] _ _ (by decide +kernel)),
      rfl, rfl, ⟨rfl, [], [], Or.inl ⟨rfl, rfl, rfl⟩, Or.inl ⟨rfl, Or.inl rfl⟩, trivial⟩, trivial⟩
  · refine ⟨[("default".toList, "1 + 1".toList), ("ignore".toList, "mysql,oracle".toList)],
      Or.inr (wr [c "default" "1 + 1", b "ignore" "mysql,oracle"] _ _ (by decide +kernel)), rfl, ⟨rfl, by decide, ?_⟩, trivial⟩
    intro x hx
    simp only [List.mem_cons, List.not_mem_nil, or_false] at hx
    rcases hx with rfl | rfl <;> decide
  · refine ⟨[("references".toList, "language.id onupdate=cascade index={. unique where={lang > 0}}".toList)],
      Or.inr (wr [c "references" "language.id onupdate=cascade index={. unique where={lang > 0}}"] _ _ (by decide +kernel)), ⟨rfl, _, _,
        wv "language.id".toList [b "onupdate" "cascade", c "index" ". unique where={lang > 0}"] _
          [("onupdate".toList, "cascade".toList), ("index".toList, ". unique where={lang > 0}".toList)] (by decide +kernel),
        ⟨⟨by decide, by decide, by decide⟩, (by intro s hs; cases hs), ?_, by decide⟩, rfl,
        ⟨rfl, ".".toList, [("unique".toList, []), ("where".toList, "lang > 0".toList)],
          wv ".".toList [w "unique", c "where" "lang > 0"] _ _ (by decide +kernel), Or.inl ⟨rfl, Or.inr rfl⟩, rfl, rfl, trivial⟩, trivial⟩, trivial⟩
    intro x hx
    simp only [List.mem_cons, List.not_mem_nil, or_false] at hx
    subst hx
    exact ⟨by decide, by decide, by decide⟩

/-- The hypotheses of the theorems hold for this struct; on SQLite it stands for the table one expects. -/
example : exDecl.name ≠ [] ∧ Each Field.Is exTags exDecl.fields ∧ Once (fun _ => false) ⟨.sqlite, [], "film".toList⟩ exTags ∧
    exTags.any (Field.ignored .sqlite) = false ∧
    (columnsOf (fun _ => false) ⟨.sqlite, [], "film".toList⟩ exTags).map
      (fun c => ([String.ofList c.columnName, String.ofList c.columnType, String.ofList c.columnDefault], [c.isAutoincrement, c.isNotNull, c.isPrimaryKey, c.ignore])) =
      [(["film_id", "INTEGER", ""], [true, false, true, false]), (["title", "TEXT", "'it''s'"], [false, true, false, false]),
       (["year", "INT", "(1 + 1)"], [false, false, false, false]), (["lang", "INT", ""], [false, false, false, false])] ∧
    (constraintsOf ⟨.sqlite, [], "film".toList⟩ exTags).map (fun c => (String.ofList c.constraintName, c.isInitiallyDeferred, String.ofList c.updateRule)) =
      [("film_key", true, ""), ("film_film_id_pkey", false, ""), ("film_lang_fkey", false, "CASCADE")] ∧
    (indexesOfAll ⟨.sqlite, [], "film".toList⟩ exTags).map (fun x => (String.ofList x.indexName, x.isUnique, String.ofList x.predicate)) =
      [("film_title_idx", false, ""), ("film_lang_idx", true, "lang > 0")] := by
  refine ⟨by decide, exDecl_is, ⟨by decide +kernel, by decide +kernel, by decide +kernel, by decide +kernel, ?_⟩, by decide +kernel, by decide +kernel,
    by decide +kernel, by decide +kernel⟩
  intro x hx
  have e : exTags.flatMap (Field.decls .sqlite) =
      [([], .unique { cols := ["title".toList, "year".toList], mods := [.name "film_key".toList, .deferred] }), (["film_id".toList], .primaryKey {}),
       (["title".toList], .index {}), (["lang".toList], .references { table := "language".toList, cols := ["id".toList] }
         [.onUpdate .cascade, .index { mods := [.unique, .where "lang > 0".toList] }])] := rfl
  rw [e] at hx
  simp only [List.mem_cons, List.not_mem_nil, or_false] at hx
  rcases hx with rfl | rfl | rfl | rfl
  · exact ⟨Or.inr (by simp), by unfold OneRef; decide⟩
  · exact ⟨Or.inl (by simp), by unfold OneRef; decide⟩
  · exact Or.inl (by simp)
  · exact ⟨by simp, by unfold OneRef; decide⟩

/-- On MySQL the column `year` is ignored and the key is not deferrable. -/
example : (columnsOf (fun _ => false) ⟨.mysql, [], "film".toList⟩ exTags).map Column.ignore = [false, false, true, false] ∧
    (constraintsOf ⟨.mysql, [], "film".toList⟩ exTags).map Constraint.isInitiallyDeferred = [false, false, false] ∧
    (columnsOf (fun _ => false) ⟨.mysql, [], "film".toList⟩ exTags).map (fun c => String.ofList c.columnType) = ["BIGINT", "TEXT", "INT", "INT"] := by
  decide +kernel

/-- Builder calls: an index on a column, a chain on a column, a trigger of another table (refused). -/
example :
    let at_ : Place := ⟨.postgres, [], "film".toList⟩
    (calls at_ [.column "year".toList [.notNull, .default "2000".toList, .default "2001".toList, .unique], .index none ["year".toList] [] [.unique, .using "btree".toList]]
      (tagParts (fun _ => false) at_ exTags)).map (fun p =>
        (p.columns.map (fun c => (c.isNotNull, String.ofList c.columnDefault)), p.constraints.map (fun c => String.ofList c.constraintName),
          p.indexes.map fun x => (String.ofList x.indexName, String.ofList x.indexType))) =
      some ([(false, ""), (true, "'it''s'"), (true, "2001"), (false, "")], ["film_key", "film_film_id_pkey", "film_lang_fkey", "film_year_key"],
        [("film_title_idx", ""), ("film_lang_idx", ""), ("film_year_idx", "BTREE")]) ∧
    (calls at_ [.trigger { triggerName := "g".toList, tableName := "actor".toList }] (tagParts (fun _ => false) at_ exTags)).isSome = false := by
  decide +kernel

/-- What `Once` excludes: a second declaration under the same name changes the modifiers but keeps the columns of the first. -/
theorem C59_redeclared_violated :
    (({ tableName := "t".toList } : Table).load (fun _ => false) .postgres
      { name := "t".toList, fields := [.other "unique={a name=k} unique={b name=k deferred}".toList] }).map
        (fun t => t.constraints.map fun c => (String.ofList c.constraintName, c.columns.map String.ofList, c.isInitiallyDeferred)) =
      .ok [("k", ["a"], true)] := by
  decide +kernel

/-- An unknown modifier is an error. -/
example : ∃ e, ({ tableName := "t".toList } : Table).load (fun _ => false) .postgres
    { name := "t".toList, fields := [.column "a".toList "INT".toList "notnul".toList] } = .err e := ⟨"unknown modifier".toList, by decide +kernel⟩

end examples

end Ddl.Declared
