import Verif.Proof.Drops
/-
C35: no drops without DropExtraneous.  C36: DropExtraneous drops only what is not wanted.  C45: and all of that.
-/
namespace Ddl
open Spec

/-! ### C35 -/

/-- C35: a migration computed without the DropExtraneous flag drops nothing, whatever the two databases. -/
theorem C35_no_drops (mode : Mode) (got want : DatabaseMetadata) (m : Migration) (hm : mode &&& DropExtraneous = 0)
    (h : migrate mode got want = .ok m) : drops m = [] := by
  have hh : has mode DropExtraneous = false := by unfold has; rw [hm]; rfl
  obtain ⟨d, -, exts, dexts, -, -, rfl⟩ := migrate_ok h
  rw [hh, List.eq_nil_iff_forall_not_mem]
  intro o ho
  rw [mem_drops_append, mem_drops_append] at ho
  rcases ho with ho | ho | ho
  · simp [drops] at ho
  · split at ho
    · rw [mem_drops_concat] at ho
      obtain ⟨m, hm, ho⟩ := ho
      obtain ⟨s, -, rfl⟩ := List.mem_map.1 hm
      rw [drops_wantSchema] at ho; cases ho
    · cases ho
  · cases ho

/-! ### Lookups under `MetaOk` -/

theorem notSqlite {got want : DatabaseMetadata} {d : Dialect} (h : migrateDialect got want = .ok d) (hs : d ≠ .sqlite) :
    got.dialect ≠ some .sqlite ∧ want.dialect ≠ some .sqlite := by
  unfold migrateDialect at h
  split at h
  · cases h
  · rename_i e1 e2; cases h; rw [e1, e2]; simp [hs]
  · rename_i e1 e2; cases h; rw [e1, e2]; simp [hs]
  · rename_i e1 e2
    split at h
    · rename_i e; cases h; rw [e1, e2, ← e]; simp [hs]
    · cases h

theorem complete_empty {α κ : Type} [DecidableEq κ] [Entry α κ] : ListOk ([] : List α) ([] : Cache κ) :=
  ⟨complete_nil, List.Pairwise.nil, fun x hx => absurd hx (by simp [active])⟩

theorem schemaOk_empty (n : Str) : SchemaOk { schemaName := n } :=
  ⟨complete_empty, complete_empty, fun t ht => by cases ht⟩

theorem wantSchemaFor_eq {d : DatabaseMetadata} (h : MetaOk d) (n : Str) :
    wantSchemaFor d n = (find d.schemas n).getD { schemaName := n } := by
  have := lookup_find h.schemas n
  unfold wantSchemaFor DatabaseMetadata.cachedSchemaPosition
  cases hp : (cachedPosition d.schemas d.schemaCache n).1 with
  | none => rw [hp] at this; rw [← this]; rfl
  | some p => rw [hp] at this; rw [← this]

theorem gotSchemaFor_eq {d : DatabaseMetadata} (h : MetaOk d) (n : Str) :
    gotSchemaFor d n = (find d.schemas n).getD { schemaName := n } := wantSchemaFor_eq h n

theorem wantSchemaFor_ok {d : DatabaseMetadata} (h : MetaOk d) (n : Str) : SchemaOk (wantSchemaFor d n) := by
  rw [wantSchemaFor_eq h]
  cases hf : find d.schemas n with
  | none => exact schemaOk_empty n
  | some s => exact h.schema s (find_some hf).1

theorem wantTableFor_eq {d : DatabaseMetadata} (h : MetaOk d) (n : Str) (t : Table) :
    wantTableFor (wantSchemaFor d n) t = table? d n t.tableName := by
  have := lookup_find (wantSchemaFor_ok h n).tables t.tableName
  unfold wantTableFor Schema.cachedTablePosition
  refine this.trans ?_
  rw [wantSchemaFor_eq h]
  unfold table?
  cases find d.schemas n <;> rfl

theorem wantView_eq {d : DatabaseMetadata} (h : MetaOk d) (n : Str) (v : Str) :
    ((wantSchemaFor d n).cachedViewPosition v).isSome = (view? d n v).isSome := by
  have := lookup_isSome (wantSchemaFor_ok h n).views v
  unfold Schema.cachedViewPosition
  refine this.trans ?_
  rw [wantSchemaFor_eq h]
  unfold view?
  cases find d.schemas n <;> rfl

theorem schemaName_eq {cur : Str} {d : DatabaseMetadata} (hn : SchemasNamed cur d) {s : Schema} (hs : s ∈ active d.schemas) :
    (if s.schemaName = [] then cur else s.schemaName) = s.schemaName := by
  split
  · rename_i he
    rcases hn with h | h
    · rw [h, he]
    · exact absurd he (h s hs)
  · rfl

theorem mem_allTables {cur : Str} {d : DatabaseMetadata} (h : MetaOk d) (hn : SchemasNamed cur d) (s : Str) (t : Table) :
    (s, t) ∈ allTables cur d ↔ table? d s t.tableName = some t := by
  simp only [allTables, List.mem_flatMap, List.mem_map, Prod.mk.injEq, exists_eq_right_right]
  constructor
  · rintro ⟨sc, hsc, ht, hs⟩
    rw [schemaName_eq hn hsc] at hs
    have := find_eq_some h.schemas.unique hsc
    rw [show Entry.key sc = s from hs] at this
    unfold table?
    rw [this]
    exact find_eq_some (h.schema sc hsc).tables.unique ht
  · intro ht
    unfold table? at ht
    cases hf : find d.schemas s with
    | none => rw [hf] at ht; cases ht
    | some sc =>
      rw [hf] at ht
      obtain ⟨h1, h2⟩ := find_some hf
      exact ⟨sc, h1, (find_some ht).1, by rw [schemaName_eq hn h1]; exact h2⟩

theorem mem_allViews {cur : Str} {d : DatabaseMetadata} (h : MetaOk d) (hn : SchemasNamed cur d) (s : Str) (v : View) :
    (s, v) ∈ allViews cur d ↔ view? d s v.viewName = some v := by
  simp only [allViews, List.mem_flatMap, List.mem_map, Prod.mk.injEq, exists_eq_right_right]
  constructor
  · rintro ⟨sc, hsc, ht, hs⟩
    rw [schemaName_eq hn hsc] at hs
    have := find_eq_some h.schemas.unique hsc
    rw [show Entry.key sc = s from hs] at this
    unfold view?
    rw [this]
    exact find_eq_some (h.schema sc hsc).views.unique ht
  · intro ht
    unfold view? at ht
    cases hf : find d.schemas s with
    | none => rw [hf] at ht; cases ht
    | some sc =>
      rw [hf] at ht
      obtain ⟨h1, h2⟩ := find_some hf
      exact ⟨sc, h1, (find_some ht).1, by rw [schemaName_eq hn h1]; exact h2⟩

theorem table?_some {d : DatabaseMetadata} {s n : Str} {t : Table} (h : table? d s n = some t) :
    t.tableName = n ∧ ∃ sc ∈ active d.schemas, sc.schemaName = s ∧ t ∈ active sc.tables := by
  unfold table? at h
  cases hf : find d.schemas s with
  | none => rw [hf] at h; cases h
  | some sc =>
    rw [hf] at h
    obtain ⟨h1, h2⟩ := find_some hf
    obtain ⟨h3, h4⟩ := find_some h
    exact ⟨h4, sc, h1, h2, h3⟩

theorem has_table {cur : Str} {d : DatabaseMetadata} (h : MetaOk d) (hn : SchemasNamed cur d) (s n : Str) :
    Has cur d (.table s n) ↔ (table? d s n).isSome := by
  simp only [Has, mem_allTables h hn, Option.isSome_iff_exists]
  constructor
  · rintro ⟨t, ht, rfl⟩; exact ⟨t, ht⟩
  · rintro ⟨t, ht⟩
    have := (table?_some ht).1
    exact ⟨t, by rw [this]; exact ht, this⟩

theorem has_view {cur : Str} {d : DatabaseMetadata} (h : MetaOk d) (hn : SchemasNamed cur d) (s n : Str) :
    Has cur d (.view s n) ↔ (view? d s n).isSome := by
  simp only [Has, mem_allViews h hn, Option.isSome_iff_exists]
  constructor
  · rintro ⟨t, ht, rfl⟩; exact ⟨t, ht⟩
  · rintro ⟨t, ht⟩
    have : t.viewName = n := by
      unfold view? at ht
      cases hf : find d.schemas s with
      | none => rw [hf] at ht; cases ht
      | some sc => rw [hf] at ht; exact (find_some ht).2
    exact ⟨t, by rw [this]; exact ht, this⟩

theorem has_part {cur : Str} {d : DatabaseMetadata} (h : MetaOk d) (hn : SchemasNamed cur d) {s tn n : Str} {w : Table}
    (hw : table? d s tn = some w) :
    (Has cur d (.column s tn n) ↔ w.cachedColumnPosition n ≠ none) ∧
    (d.dialect ≠ some .sqlite → (Has cur d (.constraint s tn n) ↔ w.cachedConstraintPosition n ≠ none)) ∧
    (Has cur d (.index s tn n) ↔ w.cachedIndexPosition n ≠ none) ∧
    (Has cur d (.trigger s tn n) ↔ w.cachedTriggerPosition n ≠ none) := by
  obtain ⟨hwn, sc, hsc, -, hwm⟩ := table?_some hw
  have hok := (h.schema sc hsc).table w hwm
  have key : ∀ (P : Table → Prop), (∃ t, (s, t) ∈ allTables cur d ∧ t.tableName = tn ∧ P t) ↔ P w := by
    intro P
    constructor
    · rintro ⟨t, ht, rfl, hp⟩
      rw [mem_allTables h hn, hw] at ht
      cases ht; exact hp
    · intro hp
      exact ⟨w, by rw [mem_allTables h hn, hwn]; exact hw, hwn, hp⟩
  have part : ∀ {α : Type} [Entry α Str] (items : List α) (cache : Cache Str), ListOk items cache →
      ((∃ c ∈ active items, Entry.key c = n) ↔ (cachedPosition items cache n).1 ≠ none) := by
    intro α _ items cache hl
    rw [← Option.isSome_iff_ne_none, lookup_isSome hl]
    cases hf : find items n with
    | none =>
      have := find_none.1 hf
      simp only [Option.isSome_none, Bool.false_eq_true, iff_false]
      rintro ⟨c, hc, hk⟩
      exact this c hc hk
    | some c => simpa using ⟨c, find_some hf⟩
  refine ⟨?_, ?_, ?_, ?_⟩
  · exact (key _).trans (part _ _ hok.columns)
  · exact fun hne => (key _).trans (part _ _ (h.constraints hne sc hsc w hwm))
  · exact (key _).trans (part _ _ hok.indexes)
  · exact (key _).trans (part _ _ hok.triggers)

/-! ### C36 and C45 -/

theorem mem_dropExtensions {want : DatabaseMetadata} {exts l : List Str} (h : dropExtensions want exts = .ok l) (e : Str) :
    e ∈ l ↔ e ∈ exts ∧ ¬ "plpgsql".toList <+: e ∧ want.cachedExtensionPosition e = .ok none := by
  induction exts generalizing l with
  | nil => cases h; simp
  | cons x exts ih =>
    rw [dropExtensions] at h
    by_cases hp : "plpgsql".toList <+: x
    · rw [if_pos hp] at h
      rw [ih h]
      constructor
      · rintro ⟨h1, h2⟩; exact ⟨List.mem_cons_of_mem _ h1, h2⟩
      · rintro ⟨h1, h2, h3⟩
        rcases List.mem_cons.1 h1 with rfl | h1
        · exact absurd hp h2
        · exact ⟨h1, h2, h3⟩
    · rw [if_neg hp] at h
      obtain ⟨n, hn, h⟩ := (Res.bind_eq_ok _ _ _).1 h
      cases hr : dropExtensions want exts with
      | ok rest =>
        rw [hr] at h
        have h : (if n.isSome then rest else x :: rest) = l := by cases h; rfl
        cases n with
        | none =>
          simp only [Option.isSome_none, Bool.false_eq_true, if_false] at h
          subst h
          rw [List.mem_cons, List.mem_cons, ih hr]
          constructor
          · rintro (rfl | ⟨h1, h2⟩)
            · exact ⟨.inl rfl, hp, hn⟩
            · exact ⟨.inr h1, h2⟩
          · rintro ⟨rfl | h1, h2⟩
            · exact .inl rfl
            · exact .inr ⟨h1, h2⟩
        | some k =>
          simp only [Option.isSome_some, if_true] at h
          subst h
          rw [ih hr, List.mem_cons]
          constructor
          · rintro ⟨h1, h2⟩; exact ⟨.inr h1, h2⟩
          · rintro ⟨rfl | h1, h2, h3⟩
            · rw [hn] at h3; cases h3
            · exact ⟨h1, h2, h3⟩
      | err e => rw [hr] at h; cases h
      | panic => rw [hr] at h; cases h
      | hang => rw [hr] at h; cases h

/-- The drops of a migration come from its dropping half. -/
theorem mem_drops_migrate {mode : Mode} {got want : DatabaseMetadata} {m : Migration} (h : migrate mode got want = .ok m) :
    ∃ d, migrateDialect got want = .ok d ∧ ∀ o, o ∈ drops m → has mode DropExtraneous = true ∧
      ∃ dexts, dropExtensions want got.extensions = .ok dexts ∧ o ∈ drops (dropPhase mode d got want dexts) := by
  obtain ⟨d, hd, exts, dexts, -, hx, rfl⟩ := migrate_ok h
  refine ⟨d, hd, fun o ho => ?_⟩
  rw [mem_drops_append, mem_drops_append] at ho
  rcases ho with ho | ho | ho
  · simp [drops] at ho
  · split at ho
    · rw [mem_drops_concat] at ho
      obtain ⟨m, hm, ho⟩ := ho
      obtain ⟨s, -, rfl⟩ := List.mem_map.1 hm
      rw [drops_wantSchema] at ho; cases ho
    · cases ho
  · rcases hx with ⟨h1, h2⟩ | ⟨h1, h2⟩
    · rw [h1, if_pos rfl] at ho
      exact ⟨h1, dexts, h2, ho⟩
    · rw [h1] at ho; cases ho

/-- C36: with metadata in order, wanted schemas named (or the current schema unnamed), whatever is dropped exists and is not
wanted.  Functions and extensions: see the next two theorems. -/
theorem C36_unwanted_partial (mode : Mode) (got want : DatabaseMetadata) (m : Migration) (h : migrate mode got want = .ok m)
    (hw : MetaOk want) (hp : Placed got) (hn : SchemasNamed got.currentSchema want) (o : Obj) (ho : o ∈ drops m) :
    Present got o ∧ ((∀ s n, o ≠ .function s n) → (∀ n, o ≠ .extension n) → ¬ Has got.currentSchema want o) := by
  obtain ⟨d, hdia, hall⟩ := mem_drops_migrate h
  obtain ⟨-, dexts, hde, ho⟩ := hall o ho
  rw [mem_drops_dropPhase] at ho
  rcases ho with ⟨e, he, rfl⟩ | ⟨s, hs, ho⟩
  · exact ⟨⟨e, ((mem_dropExtensions hde e).1 he).1, rfl⟩, fun _ h => absurd rfl (h _)⟩
  have hps := hp s (mem_active.1 hs).1
  rcases ho with ⟨f, hf, -, rfl⟩ | ⟨v, hv, hnone, -, rfl⟩ | ⟨t, ht, ho⟩
  · refine ⟨⟨s, hs, (hps.functions f hf).symm, f, hf, rfl⟩, fun h => absurd rfl (h _ _)⟩
  · refine ⟨⟨s, hs, (hps.views v hv).symm, v, hv, rfl⟩, fun _ _ hh => ?_⟩
    rw [hps.views v hv, has_view hw hn, ← wantView_eq hw, hnone] at hh
    cases hh
  · have htm := (mem_active.1 ht).1
    obtain ⟨hts, hpt⟩ := hps.tables t htm
    rcases ho with ⟨hnone, rfl⟩ | ⟨w, hsome, ho⟩
    · rw [hts]
      refine ⟨⟨s, hs, rfl, t, ht, rfl⟩, fun _ _ hh => ?_⟩
      rw [wantTableFor_eq hw] at hnone
      rw [has_table hw hn, hnone] at hh
      cases hh
    · rw [wantTableFor_eq hw] at hsome
      rcases ho with ⟨c, hc, hnone, rfl⟩ | ⟨hsq, c, hc, hnone, rfl⟩ | ⟨c, hc, hnone, rfl⟩ | ⟨c, hc, hnone, rfl⟩
      · rw [hts]
        exact ⟨⟨s, hs, rfl, t, ht, rfl, c, hc, rfl⟩, fun _ _ hh => (has_part hw hn hsome).1.1 hh hnone⟩
      · rw [hts]
        exact ⟨⟨s, hs, rfl, t, ht, rfl, c, hc, rfl⟩, fun _ _ hh => ((has_part hw hn hsome).2.1 (notSqlite hdia hsq).2).1 hh hnone⟩
      · rw [(hpt.indexes c hc).1, (hpt.indexes c hc).2, hts]
        exact ⟨⟨s, hs, rfl, t, ht, rfl, c, hc, rfl⟩, fun _ _ hh => (has_part hw hn hsome).2.2.1.1 hh hnone⟩
      · rw [(hpt.triggers c hc).1, (hpt.triggers c hc).2, hts]
        exact ⟨⟨s, hs, rfl, t, ht, rfl, c, hc, rfl⟩, fun _ _ hh => (has_part hw hn hsome).2.2.2.1 hh hnone⟩

/-- C36: columns, constraints, indexes and triggers are dropped only from tables that stay, and no constraints on SQLite. -/
theorem C36_droppable (mode : Mode) (got want : DatabaseMetadata) (m : Migration) (d : Dialect) (hd : migrateDialect got want = .ok d)
    (h : migrate mode got want = .ok m) (hw : MetaOk want) (hp : Placed got) (hn : SchemasNamed got.currentSchema want)
    (o : Obj) (hne : ∀ n, o ≠ .extension n) (ho : o ∈ drops m) : Droppable d got.currentSchema want o := by
  obtain ⟨d', hd', hall⟩ := mem_drops_migrate h
  rw [hd] at hd'; cases hd'
  obtain ⟨-, dexts, hde, ho⟩ := hall o ho
  rw [mem_drops_dropPhase] at ho
  rcases ho with ⟨e, he, rfl⟩ | ⟨s, hs, ho⟩
  · exact absurd rfl (hne _)
  have hps := hp s (mem_active.1 hs).1
  rcases ho with ⟨f, hf, -, rfl⟩ | ⟨v, hv, hnone, -, rfl⟩ | ⟨t, ht, ho⟩
  · trivial
  · trivial
  · obtain ⟨hts, hpt⟩ := hps.tables t (mem_active.1 ht).1
    rcases ho with ⟨hnone, rfl⟩ | ⟨w, hsome, ho⟩
    · trivial
    · rw [wantTableFor_eq hw] at hsome
      have hT : Has got.currentSchema want (.table s.schemaName t.tableName) := by rw [has_table hw hn, hsome]; rfl
      rcases ho with ⟨c, hc, hnone, rfl⟩ | ⟨hsq, c, hc, hnone, rfl⟩ | ⟨c, hc, hnone, rfl⟩ | ⟨c, hc, hnone, rfl⟩
      · rw [hts]; exact hT
      · rw [hts]; exact ⟨hsq, hT⟩
      · rw [(hpt.indexes c hc).1, (hpt.indexes c hc).2, hts]; exact hT
      · rw [(hpt.triggers c hc).1, (hpt.triggers c hc).2, hts]; exact hT

/-- C36 for functions, when the wanted ones can be found. -/
theorem C36_functions_partial (mode : Mode) (got want : DatabaseMetadata) (m : Migration) (h : migrate mode got want = .ok m)
    (hw : MetaOk want) (hp : Placed got) (hn : SchemasNamed got.currentSchema want) (hf : FunctionsFindable want)
    (s n : Str) (ho : .function s n ∈ drops m) : ¬ Has got.currentSchema want (.function s n) := by
  obtain ⟨d, -, hall⟩ := mem_drops_migrate h
  obtain ⟨-, dexts, hde, ho⟩ := hall _ ho
  rw [mem_drops_dropPhase] at ho
  rcases ho with ⟨e, he, hc⟩ | ⟨sc, hs, ho⟩
  · cases hc
  have hps := hp sc (mem_active.1 hs).1
  rcases ho with ⟨f, hfm, hnone, hc⟩ | ⟨v, hv, hnone, -, hc⟩ | ⟨t, ht, ho⟩
  · cases hc
    rintro ⟨ws, hws, hname, g, hg, hi, hgn⟩
    rw [schemaName_eq hn hws, hps.functions f hfm] at hname
    rw [wantSchemaFor_eq hw, ← hname, show find want.schemas ws.schemaName = some ws from find_eq_some hw.schemas.unique hws] at hnone
    have := hf ws hws g hg hi
    rw [hgn] at this
    exact this hnone
  · cases hc
  · rcases ho with ⟨-, hc⟩ | ⟨w, -, ho⟩
    · cases hc
    · rcases ho with ⟨c, -, -, hc⟩ | ⟨-, c, -, -, hc⟩ | ⟨c, -, -, hc⟩ | ⟨c, -, -, hc⟩ <;> cases hc

/-- C36 for extensions, when the wanted ones can be found. -/
theorem C36_extensions_partial (mode : Mode) (got want : DatabaseMetadata) (m : Migration) (h : migrate mode got want = .ok m)
    (hf : ExtensionsFindable want) (n : Str) (ho : .extension n ∈ drops m) : ¬ Has got.currentSchema want (.extension n) := by
  obtain ⟨d, -, hall⟩ := mem_drops_migrate h
  obtain ⟨-, dexts, hde, ho⟩ := hall _ ho
  rw [mem_drops_dropPhase] at ho
  rcases ho with ⟨e, he, hc⟩ | ⟨sc, hs, ho⟩
  · cases hc
    rintro ⟨x, hx, hxn⟩
    obtain ⟨k, hk⟩ := hf x hx e hxn.symm
    have := ((mem_dropExtensions hde e).1 he).2.2
    rw [hk] at this; cases this
  rcases ho with ⟨f, hfm, hnone, hc⟩ | ⟨v, hv, hnone, -, hc⟩ | ⟨t, ht, ho⟩
  · cases hc
  · cases hc
  · rcases ho with ⟨-, hc⟩ | ⟨w, -, ho⟩
    · cases hc
    · rcases ho with ⟨c, -, -, hc⟩ | ⟨-, c, -, -, hc⟩ | ⟨c, -, -, hc⟩ | ⟨c, -, -, hc⟩ <;> cases hc

/-- C45: with DropExtraneous everything that exists, is not wanted and can be dropped is dropped (except materialized views on
SQLite, which has none; functions, if the wanted list has ignored ones; and extensions). -/
theorem C45_all_dropped_partial (mode : Mode) (got want : DatabaseMetadata) (m : Migration) (d : Dialect) (hd : migrateDialect got want = .ok d)
    (h : migrate mode got want = .ok m) (hm : has mode DropExtraneous = true)
    (hw : MetaOk want) (hp : Placed got) (hn : SchemasNamed got.currentSchema want)
    (hv : d = .sqlite → ∀ s ∈ got.schemas, ∀ v ∈ s.views, v.isMaterialized = false)
    (o : Obj) (hi : (∃ s n, o = .function s n) → ∀ s ∈ want.schemas, ∀ f ∈ s.functions, f.ignore = false) (hne : ∀ n, o ≠ .extension n)
    (h1 : Present got o) (h2 : ¬ Has got.currentSchema want o) (h3 : Droppable d got.currentSchema want o) : o ∈ drops m := by
  obtain ⟨d', hd', exts, dexts, -, hx, rfl⟩ := migrate_ok h
  rw [hd] at hd'; cases hd'
  rw [mem_drops_append, mem_drops_append, hm, if_pos rfl, mem_drops_dropPhase]
  refine .inr (.inr (.inr ?_))
  have tab : ∀ {s tn : Str} {sc : Schema}, sc.schemaName = s → ∀ t : Table, t.tableName = tn →
      Has got.currentSchema want (.table s tn) → ∃ w, wantTableFor (wantSchemaFor want sc.schemaName) t = some w ∧
        table? want s tn = some w := by
    rintro s tn sc rfl t rfl hh
    rw [has_table hw hn, Option.isSome_iff_exists] at hh
    obtain ⟨w, hww⟩ := hh
    exact ⟨w, (wantTableFor_eq hw _ _).trans hww, hww⟩
  cases o with
  | table s n =>
    obtain ⟨sc, hsc, rfl, t, ht, rfl⟩ := h1
    refine ⟨sc, hsc, .inr (.inr ⟨t, ht, .inl ⟨?_, ?_⟩⟩)⟩
    · rw [wantTableFor_eq hw]
      rw [has_table hw hn] at h2
      simpa using h2
    · rw [((hp sc (mem_active.1 hsc).1).tables t (mem_active.1 ht).1).1]
  | column s tn n =>
    obtain ⟨sc, hsc, rfl, t, ht, rfl, c, hc, rfl⟩ := h1
    obtain ⟨w, hw1, hw2⟩ := tab rfl t rfl h3
    refine ⟨sc, hsc, .inr (.inr ⟨t, ht, .inr ⟨w, hw1, .inl ⟨c, hc, ?_, ?_⟩⟩⟩)⟩
    · rw [(has_part hw hn hw2).1] at h2; simpa using h2
    · rw [((hp sc (mem_active.1 hsc).1).tables t (mem_active.1 ht).1).1]
  | constraint s tn n =>
    obtain ⟨sc, hsc, rfl, t, ht, rfl, c, hc, rfl⟩ := h1
    obtain ⟨w, hw1, hw2⟩ := tab rfl t rfl h3.2
    refine ⟨sc, hsc, .inr (.inr ⟨t, ht, .inr ⟨w, hw1, .inr (.inl ⟨h3.1, c, hc, ?_, ?_⟩)⟩⟩)⟩
    · rw [(has_part hw hn hw2).2.1 (notSqlite hd h3.1).2] at h2; simpa using h2
    · rw [((hp sc (mem_active.1 hsc).1).tables t (mem_active.1 ht).1).1]
  | index s tn n =>
    obtain ⟨sc, hsc, rfl, t, ht, rfl, c, hc, rfl⟩ := h1
    obtain ⟨w, hw1, hw2⟩ := tab rfl t rfl h3
    have hpt := (hp sc (mem_active.1 hsc).1).tables t (mem_active.1 ht).1
    refine ⟨sc, hsc, .inr (.inr ⟨t, ht, .inr ⟨w, hw1, .inr (.inr (.inl ⟨c, hc, ?_, ?_⟩))⟩⟩)⟩
    · rw [(has_part hw hn hw2).2.2.1] at h2; simpa using h2
    · rw [(hpt.2.indexes c hc).1, (hpt.2.indexes c hc).2, hpt.1]
  | trigger s tn n =>
    obtain ⟨sc, hsc, rfl, t, ht, rfl, c, hc, rfl⟩ := h1
    obtain ⟨w, hw1, hw2⟩ := tab rfl t rfl h3
    have hpt := (hp sc (mem_active.1 hsc).1).tables t (mem_active.1 ht).1
    refine ⟨sc, hsc, .inr (.inr ⟨t, ht, .inr ⟨w, hw1, .inr (.inr (.inr ⟨c, hc, ?_, ?_⟩))⟩⟩)⟩
    · rw [(has_part hw hn hw2).2.2.2] at h2; simpa using h2
    · rw [(hpt.2.triggers c hc).1, (hpt.2.triggers c hc).2, hpt.1]
  | view s n =>
    obtain ⟨sc, hsc, rfl, v, hvm, rfl⟩ := h1
    refine ⟨sc, hsc, .inr (.inl ⟨v, hvm, ?_, fun hs => hv hs sc (mem_active.1 hsc).1 v hvm, ?_⟩)⟩
    · rw [has_view hw hn, ← wantView_eq hw] at h2
      simpa using h2
    · rw [(hp sc (mem_active.1 hsc).1).views v hvm]
  | function s n =>
    obtain ⟨sc, hsc, rfl, f, hfm, rfl⟩ := h1
    refine ⟨sc, hsc, .inl ⟨f, hfm, ?_, ?_⟩⟩
    · rw [List.eq_nil_iff_forall_not_mem]
      intro p hpos
      apply h2
      unfold Schema.cachedFunctionPositions at hpos
      split at hpos
      · cases hpos
      · have hpos := (List.mem_filter.1 hpos).2
        rw [wantSchemaFor_eq hw] at hpos
        cases hfs : find want.schemas sc.schemaName with
        | none => rw [hfs] at hpos; simp at hpos
        | some ws =>
          rw [hfs] at hpos
          obtain ⟨hw1, hw2⟩ := find_some hfs
          simp only [Option.getD_some] at hpos
          cases hg : ws.functions[p]? with
          | none => rw [hg] at hpos; cases hpos
          | some g =>
            rw [hg] at hpos
            simp only [decide_eq_true_eq] at hpos
            have hgm : g ∈ ws.functions := List.mem_iff_getElem?.2 ⟨p, hg⟩
            exact ⟨ws, hw1, by rw [schemaName_eq hn hw1]; exact hw2, g, hgm, hi ⟨_, _, rfl⟩ ws (mem_active.1 hw1).1 g hgm, hpos⟩
    · rw [(hp sc (mem_active.1 hsc).1).functions f hfm]
  | extension n => exact absurd rfl (hne n)

end Ddl
