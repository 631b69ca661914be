import Verif.Props.Create
import Verif.Proof.Placed
/-
C38: a database that is up to date gets an empty migration.
C44: a migration only does what its mode allows.
C36, C37: counterexamples.
-/
namespace Ddl
open Spec

namespace Spec

/-- The migration has no commands. -/
def NoCommands (m : Migration) : Prop := m = { dialect := m.dialect, currentSchema := m.currentSchema }

/-- The name of a wanted schema: one without a name is the current one. -/
def effName (cur : Str) (s : Schema) : Str := if s.schemaName = [] then cur else s.schemaName

/-- Every element of `xs` has a namesake in `ys`. -/
def FoundIn {α : Type} [Entry α Str] (xs ys : List α) : Prop := ∀ x ∈ xs, (find ys (Entry.key x)).isSome

/-- The columns agree in what Migrate compares: type (up to case), NOT NULL, having a default and, on Postgres, having an identity. -/
def SameColumn (d : Dialect) (a b : Column) : Prop :=
  eqFold a.columnType b.columnType = true ∧ a.isNotNull = b.isNotNull ∧ (a.columnDefault = [] ↔ b.columnDefault = []) ∧
    (d = .postgres → (a.identity = [] ↔ b.identity = []))

/-- Everything wanted exists, and, if existing columns are to be updated, columns agree. -/
structure NothingMissing (mode : Mode) (d : Dialect) (got want : DatabaseMetadata) : Prop where
  schemas : ∀ s ∈ active want.schemas, effName got.currentSchema s = [] ∨ (find got.schemas (effName got.currentSchema s)).isSome
  tables : ∀ p ∈ allTables got.currentSchema want, ∃ g, table? got p.1 p.2.tableName = some g ∧
    (∀ c ∈ active p.2.columns, ∃ c', find g.columns c.columnName = some c' ∧ (mode &&& UpdateExisting ≠ 0 → SameColumn d c' c)) ∧
    (d ≠ .sqlite → FoundIn (active p.2.constraints) g.constraints) ∧ FoundIn (active p.2.indexes) g.indexes ∧ FoundIn (active p.2.triggers) g.triggers
  views : ∀ p ∈ allViews got.currentSchema want, (view? got p.1 p.2.viewName).isSome
  functions : ∀ s ∈ active want.schemas, ∀ f ∈ s.functions, f.ignore = false →
    (gotSchemaFor got (effName got.currentSchema s)).cachedFunctionPositions f.functionName ≠ []
  extensions : ∀ e ∈ want.extensions, ∃ n, got.cachedExtensionPosition e = .ok (some n)

/-- Everything that exists is wanted. -/
structure NothingExtra (d : Dialect) (got want : DatabaseMetadata) : Prop where
  tables : ∀ s ∈ active got.schemas, ∀ t ∈ active s.tables, ∃ w, table? want s.schemaName t.tableName = some w ∧
    FoundIn t.columns w.columns ∧ (d ≠ .sqlite → FoundIn t.constraints w.constraints) ∧ FoundIn t.indexes w.indexes ∧ FoundIn t.triggers w.triggers
  views : ∀ s ∈ active got.schemas, ∀ v ∈ s.views, (view? want s.schemaName v.viewName).isSome
  functions : ∀ s ∈ active got.schemas, ∀ f ∈ s.functions, (wantSchemaFor want s.schemaName).cachedFunctionPositions f.functionName ≠ []
  extensions : ∀ e ∈ got.extensions, "plpgsql".toList <+: e ∨ ∃ n, want.cachedExtensionPosition e = .ok (some n)

end Spec

/-! ### C38 -/

theorem diffColumn_same {d : Dialect} {a b : Column} (h : SameColumn d a b) : diffColumn d a b = none := by
  obtain ⟨h1, h2, h3, h4⟩ := h
  unfold diffColumn
  dsimp only
  rw [if_neg]
  rw [h1, h2]
  by_cases hd : d = .postgres
  · have h4 := h4 hd
    simp only [h3, h4]
    cases b.isNotNull <;> by_cases hb : b.columnDefault = [] <;> by_cases hi : b.identity = [] <;> simp [h3.2 , h4.2, hb, hi, h3, h4]
  · simp only [h3, hd]
    cases b.isNotNull <;> by_cases hb : b.columnDefault = [] <;> simp [hb, h3]

theorem filter_found {α : Type} [Entry α Str] {xs ys : List α} {cache : Cache Str} (h : ListOk ys cache) (hf : FoundIn xs ys) :
    (xs.filter fun x => (cachedPosition ys cache (Entry.key x)).1.isNone) = [] := by
  rw [List.filter_eq_nil_iff]
  intro x hx
  rw [lookup_isNone h, Option.isNone_iff_eq_none]
  intro hn
  have := hf x hx
  rw [hn] at this
  cases this

theorem missing_found {α : Type} [Entry α Str] {xs ys : List α} (hf : FoundIn (active xs) ys) : missing xs ys = [] := by
  unfold missing
  rw [List.filter_eq_nil_iff]
  intro x hx
  have := hf x hx
  cases h : find ys (Entry.key x) with
  | none => rw [h] at this; cases this
  | some y => simp

theorem columnCmds_same (mode : Mode) {d : Dialect} {g : Table} (hg : ListOk g.columns g.columnCache) {c c' : Column}
    (hc : c.ignore = false) (hf : find g.columns c.columnName = some c') (hs : mode &&& UpdateExisting ≠ 0 → SameColumn d c' c) : columnCmds mode d g c = ([], []) := by
  have hl := lookup_find hg c.columnName
  rw [hf] at hl
  unfold columnCmds Table.cachedColumnPosition
  rw [hc]
  simp only [Bool.false_eq_true, if_false]
  split
  · rename_i n hn
    simp only [hn] at hl
    rw [hl]
    split
    · rename_i hu
      simp only [Option.getD_some, diffColumn_same (hs (has_of_and hu)), Option.toList]
    · rfl
  · rename_i hn
    simp only [hn] at hl
    cases hl

theorem columnCmds_ignored (mode : Mode) (d : Dialect) (g : Table) {c : Column} (hc : c.ignore = true) : columnCmds mode d g c = ([], []) := by
  unfold columnCmds
  rw [if_pos hc]

theorem wantTable_empty (mode : Mode) {d : Dialect} {got : DatabaseMetadata} (hg : MetaOk got) (hne : d ≠ .sqlite → got.dialect ≠ some .sqlite) {n : Str} {t g : Table}
    (ht : table? got n t.tableName = some g)
    (hc : ∀ c ∈ active t.columns, ∃ c', find g.columns c.columnName = some c' ∧ (mode &&& UpdateExisting ≠ 0 → SameColumn d c' c))
    (hcon : d ≠ .sqlite → FoundIn (active t.constraints) g.constraints) (hidx : FoundIn (active t.indexes) g.indexes)
    (htrg : FoundIn (active t.triggers) g.triggers) : wantTable mode d (gotSchemaFor got n) t = {} := by
  have hgt : gotTableFor (gotSchemaFor got n) t = some g := by rw [gotTableFor_eq hg, ht]
  have hge : gotOrEmpty (gotSchemaFor got n) t = g := by unfold gotOrEmpty; rw [hgt]; rfl
  have hok : TableOk g := gotTable_ok hg ht
  have h1 : newIndexes d (gotSchemaFor got n) t = [] := by
    unfold newIndexes
    rw [missingIndexes_eq hg]
    unfold existing
    dsimp only
    rw [ht]
    dsimp only
    rw [missing_found hidx]; rfl
  have h2 : newConstraints d (gotSchemaFor got n) t = [] := by
    unfold newConstraints
    split
    · rfl
    · rename_i hs
      rw [missingConstraints_eq hg (hne hs)]
      unfold existing
      dsimp only
      rw [ht]
      exact missing_found (hcon hs)
  have h3 : missingTriggers (gotOrEmpty (gotSchemaFor got n) t) t.triggers = [] := by
    rw [missingTriggers_eq hg]
    unfold existing
    dsimp only
    rw [ht]
    exact missing_found htrg
  have hcols : ∀ x ∈ t.columns.map (columnCmds mode d g), x = ([], []) := by
    intro x hx
    obtain ⟨c, hcm, rfl⟩ := List.mem_map.1 hx
    cases hi : c.ignore with
    | true => exact columnCmds_ignored mode d g hi
    | false =>
      obtain ⟨c', hf, hs⟩ := hc c (mem_active.2 ⟨hcm, hi⟩)
      exact columnCmds_same mode hok.columns hi hf hs
  have h4 : wantAlter mode d (gotSchemaFor got n) t =
      { tableSchema := t.tableSchema, tableName := t.tableName, alterIfExists := d = .postgres } := by
    unfold wantAlter
    dsimp only
    rw [hge, hgt, h1, h2]
    have e1 : (t.columns.map (columnCmds mode d g)).flatMap Prod.fst = [] := by
      rw [List.flatMap_eq_nil_iff]; intro x hx; rw [hcols x hx]
    have e2 : (t.columns.map (columnCmds mode d g)).flatMap Prod.snd = [] := by
      rw [List.flatMap_eq_nil_iff]; intro x hx; rw [hcols x hx]
    simp only [Option.isSome_some, if_true, e1, e2, List.filter_nil, List.map_nil, ite_self]
  have h5 : (wantForeignKeys d (gotSchemaFor got n) t).addConstraintCmds = [] := by
    unfold wantForeignKeys
    dsimp only
    rw [h2]; rfl
  unfold wantTable
  rw [h1, h3, h4, h5, hgt]
  cases d <;> rfl

theorem concat_empty {ms : List Migration} (h : ∀ m ∈ ms, m = {}) : Migration.concat ms = {} := by
  induction ms with
  | nil => rfl
  | cons m ms ih =>
    rw [Migration.concat, h m (List.mem_cons_self ..), ih fun x hx => h x (List.mem_cons_of_mem _ hx)]
    rfl

theorem wantSchema_empty (mode : Mode) {d : Dialect} {got want : DatabaseMetadata} (hg : MetaOk got)
    (hne : d ≠ .sqlite → got.dialect ≠ some .sqlite) (hn : NothingMissing mode d got want)
    {s : Schema} (hs : s ∈ active want.schemas) : wantSchema mode d got s = {} := by
  have hT : ∀ t ∈ active s.tables, (effName got.currentSchema s, t) ∈ allTables got.currentSchema want := fun t ht =>
    List.mem_flatMap.2 ⟨s, hs, List.mem_map.2 ⟨t, ht, rfl⟩⟩
  have hV : ∀ t ∈ active s.views, (effName got.currentSchema s, t) ∈ allViews got.currentSchema want := fun t ht =>
    List.mem_flatMap.2 ⟨s, hs, List.mem_map.2 ⟨t, ht, rfl⟩⟩
  have h1 := hn.schemas s hs
  have h2 := hn.functions s hs
  unfold wantSchema
  dsimp only
  rw [show (if s.schemaName = [] then got.currentSchema else s.schemaName) = effName got.currentSchema s from rfl]
  generalize effName got.currentSchema s = n at *
  have e1 : Migration.concat ((s.tables.filter fun t => !t.ignore).map (wantTable mode d (gotSchemaFor got n))) = {} := by
    refine concat_empty fun m hm => ?_
    obtain ⟨t, ht, rfl⟩ := List.mem_map.1 hm
    obtain ⟨g, a, b, c, e, f⟩ := hn.tables _ (hT t ht)
    exact wantTable_empty mode hg hne a b c e f
  have e2 : Migration.concat ((s.views.filter fun v => !v.ignore).map (wantView d (gotSchemaFor got n))) = {} := by
    refine concat_empty fun m hm => ?_
    obtain ⟨v, hv, rfl⟩ := List.mem_map.1 hm
    have := hn.views _ (hV v hv)
    unfold wantView
    rw [if_pos]
    exact (wantView_eq hg n v.viewName).trans this
  have e3 : wantFunctions d (gotSchemaFor got n) s.functions = [] := by
    unfold wantFunctions
    split
    · rfl
    · rw [List.map_eq_nil_iff, List.filter_eq_nil_iff]
      intro f hf hc
      simp only [Bool.and_eq_true, Bool.not_eq_true', List.isEmpty_iff] at hc
      exact h2 f hf hc.1 hc.2
  rw [e1, e2, e3, if_neg]
  · rfl
  · simp only [Bool.and_eq_true, decide_eq_true_eq, not_and, not_not, ne_eq]
    intro hnone
    rcases h1 with h1 | h1
    · exact h1
    · have hnone := hnone.1
      unfold DatabaseMetadata.cachedSchemaPosition at hnone
      rw [lookup_isNone hg.schemas, ← Option.not_isSome, h1] at hnone
      cases hnone

theorem wantExtensions_nil {got : DatabaseMetadata} {es : List Str} (h : ∀ e ∈ es, ∃ n, got.cachedExtensionPosition e = .ok (some n)) :
    wantExtensions got es = .ok [] := by
  induction es with
  | nil => rfl
  | cons e es ih =>
    obtain ⟨n, hn⟩ := h e (List.mem_cons_self ..)
    rw [wantExtensions, hn, ih fun x hx => h x (List.mem_cons_of_mem _ hx)]
    rfl

theorem dropExtensions_nil {want : DatabaseMetadata} {es : List Str}
    (h : ∀ e ∈ es, "plpgsql".toList <+: e ∨ ∃ n, want.cachedExtensionPosition e = .ok (some n)) :
    dropExtensions want es = .ok [] := by
  induction es with
  | nil => rfl
  | cons e es ih =>
    have ih := ih fun x hx => h x (List.mem_cons_of_mem _ hx)
    rw [dropExtensions]
    split
    · exact ih
    · rename_i hp
      rcases h e (List.mem_cons_self ..) with h1 | ⟨n, hn⟩
      · exact absurd h1 hp
      · rw [hn, ih]; rfl

theorem dropPhase_empty (mode : Mode) (d : Dialect) {got want : DatabaseMetadata} (hw : MetaOk want) (hne : d ≠ .sqlite → want.dialect ≠ some .sqlite)
    (hn : NothingExtra d got want) :
    dropPhase mode d got want [] = {} := by
  have hdt : ∀ s ∈ active got.schemas, ∀ t ∈ active s.tables, dropTable d (wantSchemaFor want s.schemaName) t = {} := by
    intro s hs t ht
    obtain ⟨w, hwt, h1, h2, h3, h4⟩ := hn.tables s hs t ht
    have hok : TableOk w := gotTable_ok hw hwt
    have e1 : (t.columns.filter fun c => (w.cachedColumnPosition c.columnName).isNone) = [] := filter_found hok.columns h1
    have e2 : d ≠ .sqlite → (t.constraints.filter fun c => (w.cachedConstraintPosition c.constraintName).isNone) = [] := fun hs => by
      obtain ⟨-, sc, hsc, -, hgm⟩ := table?_some hwt
      exact filter_found (hw.constraints (hne hs) sc hsc w hgm) (h2 hs)
    have e3 : extraIndexes d t w = [] := by
      unfold extraIndexes
      rw [show (t.indexes.filter fun c => (w.cachedIndexPosition c.indexName).isNone) = [] from filter_found hok.indexes h3]; rfl
    have e4 : (t.triggers.filter fun c => (w.cachedTriggerPosition c.triggerName).isNone) = [] := filter_found hok.triggers h4
    unfold dropTable
    rw [wantTableFor_eq hw, hwt]
    dsimp only
    unfold dropAlter
    rw [e1, e3, e4]
    by_cases hs : d = .sqlite
    · simp [hs]
    · rw [e2 hs]; simp
  have hT : ∀ x ∈ tableDrops d got want, x = {} := by
    intro x hx
    obtain ⟨s, hs, hx⟩ := List.mem_flatMap.1 hx
    obtain ⟨t, ht, rfl⟩ := List.mem_map.1 hx
    exact hdt s hs t ht
  have f1 : (tableDrops d got want).flatMap TableDrop.tables = [] := by rw [List.flatMap_eq_nil_iff]; intro x hx; rw [hT x hx]
  have f2 : (tableDrops d got want).flatMap TableDrop.alters = [] := by rw [List.flatMap_eq_nil_iff]; intro x hx; rw [hT x hx]
  have f3 : (tableDrops d got want).flatMap TableDrop.indexes = [] := by rw [List.flatMap_eq_nil_iff]; intro x hx; rw [hT x hx]
  have f4 : (tableDrops d got want).flatMap TableDrop.triggers = [] := by rw [List.flatMap_eq_nil_iff]; intro x hx; rw [hT x hx]
  have f5 : ∀ mat, extraViews got want mat = [] := by
    intro mat
    unfold extraViews
    rw [List.filter_eq_nil_iff]
    intro v hv
    obtain ⟨s, hs, hv⟩ := List.mem_flatMap.1 hv
    unfold dropViews at hv
    rw [List.mem_filter] at hv
    have h1 := hn.views s hs v hv.1
    have h2 := wantView_eq hw s.schemaName v.viewName
    have h3 := hv.2
    rw [← Option.not_isSome, h2, h1] at h3
    cases h3
  have f6 : ((got.schemas.filter fun s => !s.ignore).flatMap fun s => dropFunctions (wantSchemaFor want s.schemaName) s.functions) = [] := by
    rw [List.flatMap_eq_nil_iff]
    intro s hs
    unfold dropFunctions
    rw [List.map_eq_nil_iff, List.filter_eq_nil_iff]
    intro f hf hc
    exact hn.functions s hs f hf (List.isEmpty_iff.1 hc)
  unfold dropPhase dropTableCmd dropViewCmd
  dsimp only
  rw [f1, f2, f3, f4, f6]
  simp only [f5]
  cases d <;> rfl

/-- C38: when everything wanted exists and agrees, and everything that exists is wanted, the migration has no commands, in every mode. -/
theorem C38_up_to_date (mode : Mode) (got want : DatabaseMetadata) (d : Dialect) (hdia : migrateDialect got want = .ok d)
    (hg : MetaOk got) (hw : MetaOk want) (hmis : NothingMissing mode d got want) (hext : NothingExtra d got want) :
    ∃ m, migrate mode got want = .ok m ∧ NoCommands m := by
  refine ⟨{ dialect := some d, currentSchema := got.currentSchema }, ?_, rfl⟩
  have hc : Migration.concat ((want.schemas.filter fun s => !s.ignore).map (wantSchema mode d got)) = {} := by
    refine concat_empty fun m hm => ?_
    obtain ⟨s, hs, rfl⟩ := List.mem_map.1 hm
    exact wantSchema_empty mode hg (fun hs => (notSqlite hdia hs).1) hmis hs
  unfold migrate
  rw [hdia]
  simp only [Res.bind]
  rw [wantExtensions_nil hmis.extensions, dropExtensions_nil hext.extensions, ite_self]
  simp only [Res.bind, Res.map, dropPhase_empty mode d hw (fun hs => (notSqlite hdia hs).2) hext, hc, ite_self]
  rfl

/-- Nothing below a table or schema that counts is ignored. -/
structure Spec.NoIgnoredParts (d : DatabaseMetadata) : Prop where
  views : ∀ s ∈ active d.schemas, ∀ v ∈ s.views, v.ignore = false
  functions : ∀ s ∈ active d.schemas, ∀ f ∈ s.functions, f.ignore = false
  tables : ∀ s ∈ active d.schemas, ∀ t ∈ active s.tables, (∀ c ∈ t.columns, c.ignore = false) ∧
    (∀ c ∈ t.constraints, c.ignore = false) ∧ (∀ c ∈ t.indexes, c.ignore = false) ∧ (∀ c ∈ t.triggers, c.ignore = false)

theorem foundIn_self {α : Type} [Entry α Str] {xs : List α} (hu : Unique xs) : FoundIn (active xs) xs := fun x hx => by
  rw [find_eq_some hu hx]; rfl

theorem active_all {α : Type} [Entry α Str] {xs : List α} (h : ∀ x ∈ xs, Entry.ignore x = false) : active xs = xs := by
  unfold active
  rw [List.filter_eq_self]
  intro x hx
  rw [h x hx]; rfl

theorem sameColumn_refl (d : Dialect) (c : Column) : SameColumn d c c := ⟨by unfold eqFold; simp, rfl, Iff.rfl, fun _ => Iff.rfl⟩

/-- C38: comparing metadata with itself gives a migration without commands. -/
theorem C38_same_partial (mode : Mode) (x : DatabaseMetadata) (d : Dialect) (hd : x.dialect = some d) (hx : MetaOk x)
    (hn : SchemasNamed x.currentSchema x) (hi : NoIgnoredParts x) (hf : FunctionsFindable x) (he : ExtensionsFindable x) :
    ∃ m, migrate mode x x = .ok m ∧ NoCommands m := by
  have hfs : ∀ s ∈ active x.schemas, find x.schemas s.schemaName = some s := fun s hs => find_eq_some hx.schemas.unique hs
  have hft : ∀ s ∈ active x.schemas, ∀ t ∈ active s.tables, table? x s.schemaName t.tableName = some t := fun s hs t ht => by
    unfold table?
    rw [hfs s hs]
    exact find_eq_some (hx.schema s hs).tables.unique ht
  have hfv : ∀ s ∈ active x.schemas, ∀ t ∈ active s.views, view? x s.schemaName t.viewName = some t := fun s hs t ht => by
    unfold view?
    rw [hfs s hs]
    exact find_eq_some (hx.schema s hs).views.unique ht
  have hname : ∀ s ∈ active x.schemas, effName x.currentSchema s = s.schemaName := fun s hs => schemaName_eq hn hs
  have hgs : ∀ s ∈ active x.schemas, gotSchemaFor x s.schemaName = s := fun s hs => by
    rw [gotSchemaFor_eq hx, hfs s hs]; rfl
  refine C38_up_to_date mode x x d ?_ hx hx ⟨?_, ?_, ?_, ?_, ?_⟩ ⟨?_, ?_, ?_, ?_⟩
  · unfold migrateDialect; rw [hd]; simp
  · intro s hs
    rw [hname s hs, hfs s hs]; exact .inr rfl
  · rintro ⟨n, t⟩ hp
    obtain ⟨s, hs, ht⟩ := List.mem_flatMap.1 hp
    obtain ⟨t', ht, he⟩ := List.mem_map.1 ht
    rw [show (if s.schemaName = [] then x.currentSchema else s.schemaName) = s.schemaName from hname s hs] at he
    cases he
    have hok := (hx.schema s hs).table t ht
    exact ⟨t, hft s hs t ht, fun c hc => ⟨c, find_eq_some hok.columns.unique hc, fun _ => sameColumn_refl d c⟩,
      fun hne => foundIn_self (hx.constraints (by rw [hd]; simpa using hne) s hs t ht).unique, foundIn_self hok.indexes.unique, foundIn_self hok.triggers.unique⟩
  · rintro ⟨n, t⟩ hp
    obtain ⟨s, hs, ht⟩ := List.mem_flatMap.1 hp
    obtain ⟨t', ht, he⟩ := List.mem_map.1 ht
    rw [show (if s.schemaName = [] then x.currentSchema else s.schemaName) = s.schemaName from hname s hs] at he
    cases he
    simp only [hfv s hs t ht, Option.isSome_some]
  · intro s hs f hfm hfi
    rw [hname s hs, hgs s hs]
    exact hf s hs f hfm hfi
  · exact fun e hem => he e hem e rfl
  · intro s hs t ht
    have hok := (hx.schema s hs).table t ht
    obtain ⟨i1, i2, i3, i4⟩ := hi.tables s hs t ht
    refine ⟨t, hft s hs t ht, ?_, ?_, ?_, ?_⟩
    · have := foundIn_self hok.columns.unique; rwa [active_all i1] at this
    · intro hne; have := foundIn_self (hx.constraints (by rw [hd]; simpa using hne) s hs t ht).unique; rwa [active_all i2] at this
    · have := foundIn_self hok.indexes.unique; rwa [active_all i3] at this
    · have := foundIn_self hok.triggers.unique; rwa [active_all i4] at this
  · intro s hs v hv
    rw [hfv s hs v (mem_active.2 ⟨hv, hi.views s hs v hv⟩)]; rfl
  · intro s hs f hfm
    rw [show wantSchemaFor x s.schemaName = s from hgs s hs]
    exact hf s hs f hfm (hi.functions s hs f hfm)
  · exact fun e hem => .inr (he e hem e rfl)

/-! ### C44 -/

/-- C44: mode 0 (or any without the three flags) produces no command at all. -/
theorem C44_nothing (mode : Mode) (got want : DatabaseMetadata) (m : Migration) (h : migrate mode got want = .ok m)
    (h1 : mode &&& CreateMissing = 0) (h2 : mode &&& UpdateExisting = 0) (h3 : mode &&& DropExtraneous = 0) : NoCommands m := by
  have e1 : has mode CreateMissing = false := by unfold has; rw [h1]; rfl
  have e2 : has mode UpdateExisting = false := by unfold has; rw [h2]; rfl
  have e3 : has mode DropExtraneous = false := by unfold has; rw [h3]; rfl
  unfold migrate at h
  rw [e1, e2, e3] at h
  cases hd : migrateDialect got want with
  | ok d =>
    rw [hd] at h
    simp only [Res.bind, Bool.or_false, Bool.false_and, Bool.false_eq_true, if_false] at h
    cases h
    rfl
  | err e => rw [hd] at h; cases h
  | panic => rw [hd] at h; cases h
  | hang => rw [hd] at h; cases h

/-- Views contribute only views, indexes and triggers. -/
theorem wantView_schemas (d : Dialect) (gs : Schema) (v : View) : (wantView d gs v).createSchemaCmds = [] := by
  unfold wantView
  split <;> rfl
theorem wantView_extensions (d : Dialect) (gs : Schema) (v : View) : (wantView d gs v).createExtensionCmds = [] := by
  unfold wantView
  split <;> rfl

/-- C44: without UpdateExisting no existing column is altered. -/
theorem C44_no_update (mode : Mode) (got want : DatabaseMetadata) (m : Migration) (h : migrate mode got want = .ok m)
    (h2 : mode &&& UpdateExisting = 0) : ∀ c ∈ m.alterTableCmds ++ m.addForeignKeyCmds ++ m.alterTableDropCmds, c.alterColumnCmds = [] := by
  have e2 : has mode UpdateExisting = false := by unfold has; rw [h2]; rfl
  let f : Migration → List AlterColumnCommand := fun m =>
    m.alterTableCmds.flatMap AlterTableCommand.alterColumnCmds ++
    (m.addForeignKeyCmds.flatMap AlterTableCommand.alterColumnCmds ++ m.alterTableDropCmds.flatMap AlterTableCommand.alterColumnCmds)
  have hf0 : ∀ m : Migration, f m = [] ↔ ∀ c ∈ m.alterTableCmds ++ m.addForeignKeyCmds ++ m.alterTableDropCmds, c.alterColumnCmds = [] := by
    intro m
    simp only [f, List.append_eq_nil_iff, List.flatMap_eq_nil_iff, List.mem_append]
    constructor
    · rintro ⟨a, b, c⟩ x ((hx | hx) | hx)
      · exact a x hx
      · exact b x hx
      · exact c x hx
    · intro h
      exact ⟨fun x hx => h x (.inl (.inl hx)), fun x hx => h x (.inl (.inr hx)), fun x hx => h x (.inr hx)⟩
  have happ : ∀ a b : Migration, f a = [] → f b = [] → f (a.append b) = [] := by
    intro a b ha hb
    rw [hf0] at *
    intro c hc
    simp only [Migration.append, List.mem_append] at hc
    simp only [List.mem_append] at ha hb
    rcases hc with ((hc | hc) | hc | hc) | hc | hc
    · exact ha c (.inl (.inl hc))
    · exact hb c (.inl (.inl hc))
    · exact ha c (.inl (.inr hc))
    · exact hb c (.inl (.inr hc))
    · exact ha c (.inr hc)
    · exact hb c (.inr hc)
  have hcon : ∀ ms : List Migration, (∀ m ∈ ms, f m = []) → f (Migration.concat ms) = [] := by
    intro ms
    induction ms with
    | nil => intro _; rfl
    | cons m ms ih =>
      intro h
      exact happ _ _ (h m (List.mem_cons_self ..)) (ih fun x hx => h x (List.mem_cons_of_mem _ hx))
  have hdec : ∀ a : AlterTableCommand, ∀ c ∈ decomposeAlterTable a, c.alterColumnCmds = [] := by
    intro a c hc
    unfold decomposeAlterTable at hc
    simp only [List.mem_append, List.mem_map] at hc
    rcases hc with ⟨x, -, rfl⟩ | ⟨x, -, rfl⟩ <;> rfl
  have hcol : ∀ d g c, (columnCmds mode d g c).2 = [] := by
    intro d g c
    unfold columnCmds
    rw [e2]
    split
    · rfl
    · split
      · simp
      · split <;> rfl
  have hal : ∀ d gs t, (wantAlter mode d gs t).alterColumnCmds = [] := by
    intro d gs t
    unfold wantAlter
    dsimp only
    rw [List.flatMap_eq_nil_iff]
    intro x hx
    split at hx
    · obtain ⟨c, -, rfl⟩ := List.mem_map.1 hx
      exact hcol _ _ _
    · cases hx
  have hwt : ∀ d gs t, f (wantTable mode d gs t) = [] := by
    intro d gs t
    rw [hf0]
    intro c hc
    unfold wantTable at hc
    simp only [List.append_nil, List.mem_append] at hc
    rcases hc with hc | hc
    · split at hc
      · exact hdec _ c hc
      · split at hc
        · rw [List.mem_singleton.1 hc]; exact hal _ _ _
        · cases hc
    · split at hc
      · rw [List.mem_singleton.1 hc]; rfl
      · cases hc
  have hwv : ∀ d gs v, f (wantView d gs v) = [] := by
    intro d gs v
    unfold wantView
    split <;> rfl
  have hws : ∀ d s, f (wantSchema mode d got s) = [] := by
    intro d s
    unfold wantSchema
    refine happ _ _ rfl (happ _ _ (hcon _ fun m hm => ?_) (hcon _ fun m hm => ?_))
    · obtain ⟨t, -, rfl⟩ := List.mem_map.1 hm; exact hwt _ _ _
    · obtain ⟨t, -, rfl⟩ := List.mem_map.1 hm; exact hwv _ _ _
  have hdt : ∀ d ws t, ∀ c ∈ (dropTable d ws t).alters, c.alterColumnCmds = [] := by
    intro d ws t c hc
    unfold dropTable at hc
    split at hc
    · cases hc
    · dsimp only at hc
      split at hc
      · rw [List.mem_singleton.1 hc]; rfl
      · cases hc
  have hdp : ∀ d e, f (dropPhase mode d got want e) = [] := by
    intro d e
    rw [hf0]
    intro c hc
    unfold dropPhase at hc
    simp only [List.append_nil, List.nil_append] at hc
    have htab : ∀ c ∈ (tableDrops d got want).flatMap TableDrop.alters, c.alterColumnCmds = [] := by
      intro c hc
      obtain ⟨x, hx, hc⟩ := List.mem_flatMap.1 hc
      obtain ⟨s, -, hx⟩ := List.mem_flatMap.1 hx
      obtain ⟨t, -, rfl⟩ := List.mem_map.1 hx
      exact hdt _ _ _ c hc
    split at hc
    · obtain ⟨a, -, hc⟩ := List.mem_flatMap.1 hc
      exact hdec a c hc
    · exact htab c hc
  obtain ⟨d, -, exts, dexts, -, -, rfl⟩ := migrate_ok h
  rw [← hf0]
  refine happ _ _ rfl (happ _ _ ?_ ?_)
  · split
    · exact hcon _ fun m hm => by
        obtain ⟨s, -, rfl⟩ := List.mem_map.1 hm; exact hws _ _
    · rfl
  · split
    · exact hdp _ _
    · rfl

/-- C44, partly: without CreateMissing and UpdateExisting nothing is created and no table is altered except by drops; without
CreateMissing no schema, extension or column is created.  Missing: with UpdateExisting alone, tables, views, indexes, constraints,
triggers and functions are created all the same (`C44_update_creates_violated`). -/
theorem C44_no_create_partial (mode : Mode) (got want : DatabaseMetadata) (m : Migration) (h : migrate mode got want = .ok m)
    (h1 : mode &&& CreateMissing = 0) :
    m.createSchemaCmds = [] ∧ m.createExtensionCmds = [] ∧ (∀ c ∈ m.alterTableCmds, c.addColumnCmds = []) ∧
    (mode &&& UpdateExisting = 0 → m.createFunctionCmds = [] ∧ m.createTableCmds = [] ∧ m.alterTableCmds = [] ∧ m.createViewCmds = [] ∧
      m.createIndexCmds = [] ∧ m.createTriggerCmds = [] ∧ m.addForeignKeyCmds = []) := by
  have e1 : has mode CreateMissing = false := by unfold has; rw [h1]; rfl
  obtain ⟨d, -, exts, dexts, hex, -, rfl⟩ := migrate_ok h
  have hexts : exts = [] := by
    rcases hex with ⟨hc, -⟩ | ⟨-, hc⟩
    · rw [e1] at hc; cases hc
    · exact hc
  have hcol : ∀ g c, (columnCmds mode d g c).1 = [] := by
    intro g c
    unfold columnCmds
    rw [e1]
    split
    · rfl
    · split
      · split
        · split <;> rfl
        · rfl
      · simp
  have hal : ∀ gs t, (wantAlter mode d gs t).addColumnCmds = [] := by
    intro gs t
    unfold wantAlter
    dsimp only
    rw [List.flatMap_eq_nil_iff]
    intro x hx
    split at hx
    · obtain ⟨c, -, rfl⟩ := List.mem_map.1 hx
      exact hcol _ _
    · cases hx
  have hwt : ∀ gs t, ∀ c ∈ (wantTable mode d gs t).alterTableCmds, c.addColumnCmds = [] := by
    intro gs t c hc
    unfold wantTable at hc
    dsimp only at hc
    split at hc
    · unfold decomposeAlterTable at hc
      rw [hal] at hc
      simp only [List.map_nil, List.nil_append, List.mem_map] at hc
      obtain ⟨x, -, rfl⟩ := hc
      rfl
    · split at hc
      · rw [List.mem_singleton.1 hc]; exact hal _ _
      · cases hc
  have hdrop : ∀ {β : Type} (f : Migration → List β), f {} = [] → f (dropPhase mode d got want dexts) = [] →
      f (if has mode DropExtraneous = true then dropPhase mode d got want dexts else {}) = [] := by
    intro β f h0 hf
    split
    · exact hf
    · exact h0
  have happ : ∀ {β : Type} (f : Migration → List β), (∀ a b, f (a.append b) = f a ++ f b) → ∀ a b, f a = [] → f b = [] → f (a.append b) = [] := by
    intro β f hf a b ha hb
    rw [hf, ha, hb]; rfl
  refine ⟨?_, ?_, ?_, ?_⟩
  · refine happ Migration.createSchemaCmds (fun _ _ => rfl) _ _ rfl (happ Migration.createSchemaCmds (fun _ _ => rfl) _ _ ?_ (hdrop Migration.createSchemaCmds rfl rfl))
    split
    · rw [concat_proj Migration.createSchemaCmds rfl (fun _ _ => rfl), List.flatMap_eq_nil_iff]
      intro x hx
      obtain ⟨s, -, rfl⟩ := List.mem_map.1 hx
      unfold wantSchema
      refine happ Migration.createSchemaCmds (fun _ _ => rfl) _ _ (by rw [e1]; simp) (happ Migration.createSchemaCmds (fun _ _ => rfl) _ _ ?_ ?_)
      · rw [concat_proj Migration.createSchemaCmds rfl (fun _ _ => rfl), List.flatMap_eq_nil_iff]
        intro x hx
        obtain ⟨s, -, rfl⟩ := List.mem_map.1 hx
        rfl
      · rw [concat_proj Migration.createSchemaCmds rfl (fun _ _ => rfl), List.flatMap_eq_nil_iff]
        intro x hx
        obtain ⟨s, -, rfl⟩ := List.mem_map.1 hx
        exact wantView_schemas _ _ _
    · rfl
  · refine happ Migration.createExtensionCmds (fun _ _ => rfl) _ _ hexts (happ Migration.createExtensionCmds (fun _ _ => rfl) _ _ ?_ (hdrop Migration.createExtensionCmds rfl rfl))
    split
    · rw [concat_proj Migration.createExtensionCmds rfl (fun _ _ => rfl), List.flatMap_eq_nil_iff]
      intro x hx
      obtain ⟨s, -, rfl⟩ := List.mem_map.1 hx
      unfold wantSchema
      refine happ Migration.createExtensionCmds (fun _ _ => rfl) _ _ rfl (happ Migration.createExtensionCmds (fun _ _ => rfl) _ _ ?_ ?_)
      · rw [concat_proj Migration.createExtensionCmds rfl (fun _ _ => rfl), List.flatMap_eq_nil_iff]
        intro x hx
        obtain ⟨s, -, rfl⟩ := List.mem_map.1 hx
        rfl
      · rw [concat_proj Migration.createExtensionCmds rfl (fun _ _ => rfl), List.flatMap_eq_nil_iff]
        intro x hx
        obtain ⟨s, -, rfl⟩ := List.mem_map.1 hx
        exact wantView_extensions _ _ _
    · rfl
  · intro c hc
    have hc : c ∈ [] ++ ((if (has mode CreateMissing || has mode UpdateExisting) = true then
        Migration.concat (List.map (wantSchema mode d got) (List.filter (fun s => !s.ignore) want.schemas)) else {}).alterTableCmds ++
        (if has mode DropExtraneous = true then dropPhase mode d got want dexts else {}).alterTableCmds) := hc
    rw [hdrop Migration.alterTableCmds rfl rfl, List.append_nil, List.nil_append] at hc
    split at hc
    · rw [concat_proj Migration.alterTableCmds rfl (fun _ _ => rfl)] at hc
      obtain ⟨x, hx, hc⟩ := List.mem_flatMap.1 hc
      obtain ⟨s, -, rfl⟩ := List.mem_map.1 hx
      rw [wantSchema_proj Migration.alterTableCmds rfl (fun _ _ => rfl) (fun _ _ => rfl), List.mem_append] at hc
      rcases hc with hc | hc
      · obtain ⟨t, -, hc⟩ := List.mem_flatMap.1 hc
        exact hwt _ _ c hc
      · obtain ⟨t, -, hc⟩ := List.mem_flatMap.1 hc
        have : (wantView d (gotSchemaFor got (if s.schemaName = [] then got.currentSchema else s.schemaName)) t).alterTableCmds = [] := by
          generalize (if s.schemaName = [] then got.currentSchema else s.schemaName) = n
          unfold wantView
          split <;> rfl
        rw [this] at hc
        cases hc
    · cases hc
  · intro h2
    have e2 : has mode UpdateExisting = false := by unfold has; rw [h2]; rfl
    rw [e1, e2]
    refine ⟨?_, ?_, ?_, ?_, ?_, ?_, ?_⟩
    · exact hdrop Migration.createFunctionCmds rfl rfl
    · exact hdrop Migration.createTableCmds rfl rfl
    · exact hdrop Migration.alterTableCmds rfl rfl
    · exact hdrop Migration.createViewCmds rfl rfl
    · exact hdrop Migration.createIndexCmds rfl rfl
    · exact hdrop Migration.createTriggerCmds rfl rfl
    · exact hdrop Migration.addForeignKeyCmds rfl rfl

/-! ### Examples and counterexamples -/

/-- What `WithTables` makes of `exampleDecl`, in the given schema, plus options. -/
def exampleWant (schema : Str) : DatabaseMetadata :=
  match withTables (fun _ => false) .postgres [{ exampleDecl with schema := schema }] { dialect := some .postgres } with
  | .ok d => d
  | _ => {}

/-- What `WithDB` makes of `exampleRows`. -/
def exampleGot : DatabaseMetadata := withDB .postgres { exampleRows with currentSchema := "public".toList }

/-- C36 and C45 for what the package itself builds: the existing state is read with `WithDB` (rows that name distinct things), the wanted
one is declared with `WithTables` (in named schemas, or on SQLite).  Then the dropped tables, columns, constraints, indexes, triggers and
views are exactly those that exist, are not wanted, and are not parts of dropped tables. -/
theorem C36_C45_declared (dia : Dialect) (r : Introspected) (hr : RowsOk r) (hp : ∀ t ∈ r.tables, PartsOk dia r t)
    (num : Str → Bool) (decls : List TableDecl) (hn : ∀ x ∈ decls, x.Named) (want : DatabaseMetadata)
    (hw : withTables num dia decls { dialect := some dia } = .ok want) (hs : SchemasNamed r.currentSchema want)
    (hv : dia = .sqlite → ∀ v ∈ r.views, v.isMaterialized = false)
    (mode : Mode) (hm : mode &&& DropExtraneous ≠ 0) (m : Migration) (h : migrate mode (withDB dia r) want = .ok m)
    (o : Obj) (ho : (∀ s n, o ≠ .function s n) ∧ ∀ n, o ≠ .extension n) :
    o ∈ drops m ↔ Present (withDB dia r) o ∧ ¬ Has r.currentSchema want o ∧ Droppable dia r.currentSchema want o := by
  have hg := C46_with_db dia r hr hp
  have hwo := C46_with_tables num dia decls hn want hw
  have hpl := placed_withDB dia r fun t ht => ⟨(hp t ht).bare.2.2.1, (hp t ht).bare.2.2.2⟩
  have hcur : (withDB dia r).currentSchema = r.currentSchema := withDB_currentSchema dia r
  have hdia : migrateDialect (withDB dia r) want = .ok dia := by
    unfold migrateDialect
    rw [withDB_dialect, withTables_dialect decls hw]
    simp
  have hm' : has mode DropExtraneous = true := by unfold has; simpa using hm
  constructor
  · intro hod
    obtain ⟨h1, h2⟩ := C36_unwanted_partial mode _ want m h hwo hpl (by rw [hcur]; exact hs) o hod
    have h3 := C36_droppable mode _ want m dia hdia h hwo hpl (by rw [hcur]; exact hs) o ho.2 hod
    rw [hcur] at h2 h3
    exact ⟨h1, h2 ho.1 ho.2, h3⟩
  · rintro ⟨h1, h2, h3⟩
    refine C45_all_dropped_partial mode _ want m dia hdia h hm' hwo hpl (by rw [hcur]; exact hs) ?_ o (fun ⟨s, n, he⟩ => absurd he (ho.1 s n)) ho.2 h1
      (by rw [hcur]; exact h2) (by rw [hcur]; exact h3)
    intro hsq
    exact withDB_views (fun v => v.isMaterialized = false) dia r (fun _ _ h => h) (fun _ _ h => h) (hv hsq)

/-- The hypotheses above hold of the example. -/
example : RowsOk { exampleRows with currentSchema := "public".toList } ∧
    (∀ t ∈ exampleRows.tables, PartsOk .postgres { exampleRows with currentSchema := "public".toList } t) ∧
    withTables (fun _ => false) .postgres [{ exampleDecl with schema := "public".toList }] { dialect := some .postgres } =
      .ok (exampleWant "public".toList) ∧
    SchemasNamed "public".toList (exampleWant "public".toList) := by
  refine ⟨⟨by decide, by decide, by decide, by decide⟩, ?_, by decide +kernel, .inr (by decide +kernel)⟩
  intro t ht
  simp only [exampleRows, List.mem_cons, List.not_mem_nil, or_false] at ht
  rcases ht with rfl | rfl <;> exact ⟨by decide +kernel, by decide +kernel, by decide +kernel, by decide +kernel, by decide +kernel, by decide +kernel⟩

/-- The example database and the example declaration: `lang` is dropped, `film` stays, its missing parts are added, once. -/
theorem C35_C36_C37_C45_example :
    (migrate (CreateMissing ||| UpdateExisting ||| DropExtraneous) exampleGot (exampleWant "public".toList)).map (fun m =>
      (drops m, m.createTableCmds.map (fun c => c.table.tableName), m.alterTableCmds.map (fun c => c.addColumnCmds.map fun c => c.column.columnName))) =
    .ok ([.table "public".toList "lang".toList, .column "public".toList "film".toList "id".toList,
        .constraint "public".toList "film".toList "film_pkey".toList], [], [["film_id".toList, "year".toList, "lang".toList]]) ∧
    (migrate (CreateMissing ||| UpdateExisting) exampleGot (exampleWant "public".toList)).map drops = .ok [] ∧
    (migrate CreateMissing {} (exampleWant "public".toList)).map (fun m => (m.createTableCmds.map (fun c => c.table.tableName),
      m.createIndexCmds.map fun c => c.index.indexName)) =
      .ok (["film".toList], ["film_title_idx".toList, "film_year_idx".toList]) := by
  decide +kernel

/-- **C36 fails for tables declared without schema.** The wanted table is found in the current schema when creating but not when
dropping: it is dropped although it is wanted and exists. -/
theorem C36_schemaless_violated :
    Has exampleGot.currentSchema (exampleWant []) (.table "public".toList "film".toList) ∧
    (migrate DropExtraneous exampleGot (exampleWant [])).map (fun m => decide (.table "public".toList "film".toList ∈ drops m)) = .ok true := by
  refine ⟨?_, by decide +kernel⟩
  have : ((allTables exampleGot.currentSchema (exampleWant [])).any fun p => p.1 = "public".toList && p.2.tableName = "film".toList) = true := by
    decide +kernel
  obtain ⟨⟨s, t⟩, hm, hp⟩ := List.any_eq_true.1 this
  simp only [Bool.and_eq_true, decide_eq_true_eq] at hp
  obtain ⟨rfl, hp⟩ := hp
  exact ⟨t, hm, hp⟩

/-- **C36 and C37 fail for extensions.** No option fills the position cache: metadata with an empty cache finds no extension, so that
every existing extension (but plpgsql) is dropped and every wanted one is created, wanted and existing or not. -/
theorem C36_C37_extensions_violated (mode : Mode) (got want : DatabaseMetadata) (m : Migration) (h : migrate mode got want = .ok m)
    (hg : got.extensionCache = []) (hw : want.extensionCache = []) :
    (has mode DropExtraneous = true → ∀ e ∈ got.extensions, ¬ "plpgsql".toList <+: e → .extension (extensionName e) ∈ drops m) ∧
    (has mode CreateMissing = true → migrateDialect got want = .ok .postgres →
      m.createExtensionCmds.map CreateExtensionCommand.extension = want.extensions) := by
  have hnone : ∀ (d : DatabaseMetadata), d.extensionCache = [] → ∀ e, d.cachedExtensionPosition e = .ok none := by
    intro d hd e
    unfold DatabaseMetadata.cachedExtensionPosition
    rw [hd]; rfl
  obtain ⟨d, hd, exts, dexts, hex, hdx, rfl⟩ := migrate_ok h
  refine ⟨fun hm e he hp => ?_, fun hm hdia => ?_⟩
  · rw [hm] at hdx
    rcases hdx with ⟨-, hdx⟩ | ⟨hc, -⟩
    · rw [mem_drops_append, mem_drops_append, hm, if_pos rfl, mem_drops_dropPhase]
      exact .inr (.inr (.inl ⟨e, (mem_dropExtensions hdx e).2 ⟨he, hp, hnone want hw e⟩, rfl⟩))
    · cases hc
  · rw [hd] at hdia
    cases hdia
    rcases hex with ⟨-, -, hex⟩ | ⟨hc, -⟩
    · have h1 : ∀ (es : List Str) cmds, wantExtensions got es = .ok cmds → cmds.map CreateExtensionCommand.extension = es := by
        intro es
        induction es with
        | nil => intro cmds hc; cases hc; rfl
        | cons e es ih =>
          intro cmds hc
          rw [wantExtensions, hnone got hg] at hc
          simp only [Res.bind] at hc
          cases hw' : wantExtensions got es with
          | ok l =>
            rw [hw'] at hc
            simp only [Res.map, Option.isSome_none, Bool.false_eq_true, if_false] at hc
            cases hc
            rw [List.map_cons, ih l hw']
          | err e => rw [hw'] at hc; cases hc
          | panic => rw [hw'] at hc; cases hc
          | hang => rw [hw'] at hc; cases hc
      have hproj : ∀ a b c : Migration, (a.append (b.append c)).createExtensionCmds = a.createExtensionCmds ++ (b.createExtensionCmds ++ c.createExtensionCmds) :=
        fun _ _ _ => rfl
      rw [hproj]
      have hb : (if (has mode CreateMissing || has mode UpdateExisting) = true then
          Migration.concat (List.map (wantSchema mode .postgres got) (List.filter (fun s => !s.ignore) want.schemas)) else {}).createExtensionCmds = [] := by
        split
        · rw [concat_proj Migration.createExtensionCmds rfl (fun _ _ => rfl), List.flatMap_eq_nil_iff]
          intro x hx
          obtain ⟨s, -, rfl⟩ := List.mem_map.1 hx
          rw [wantSchema_proj Migration.createExtensionCmds rfl (fun _ _ => rfl) (fun _ _ => rfl), List.append_eq_nil_iff,
            List.flatMap_eq_nil_iff, List.flatMap_eq_nil_iff]
          generalize (if s.schemaName = [] then got.currentSchema else s.schemaName) = n
          refine ⟨fun _ _ => rfl, fun v _ => ?_⟩
          unfold wantView
          split <;> rfl
        · rfl
      have hc : (if has mode DropExtraneous = true then dropPhase mode .postgres got want dexts else {}).createExtensionCmds = [] := by
        split <;> rfl
      rw [hb, hc, List.append_nil, List.append_nil]
      exact h1 _ _ hex
    · exact absurd ⟨hm, rfl⟩ hc

/-- The options leave the cache empty, so that the above applies to metadata built with them. -/
theorem options_no_extensionCache (exts : List Str) (d : DatabaseMetadata) (h : d.extensionCache = []) :
    (∀ d', withExtensions exts d = .ok d' → d'.extensionCache = [] ∧ d'.extensions = exts) := by
  intro d' hd
  cases hd
  exact ⟨h, rfl⟩

/-- A wanted function that exists. -/
def exampleFunction : Function := { functionSchema := "public".toList, functionName := "f".toList, sql := "CREATE FUNCTION public.f()".toList }

/-- **C36 fails for functions.** `WithFunctions` does not fill the position cache: a wanted, existing function is dropped. -/
theorem C36_wanted_function_dropped_violated :
    (withFunctions [exampleFunction] { dialect := some .postgres }).bind (fun want =>
      (migrate DropExtraneous (addFunction { dialect := some .postgres } exampleFunction) want).map fun m =>
        (decide (.function "public".toList "f".toList ∈ drops m), want.schemas.map fun s => s.functions.map Function.functionName)) =
      .ok (true, [["f".toList]]) := by
  decide +kernel

/-- **C38 fails for ignored parts.** Comparing a table that has an ignored column with itself drops that column. -/
theorem C38_ignored_violated :
    let c : Column := { tableName := "t".toList, columnName := "c".toList, ignore := true }
    let x : DatabaseMetadata := { withDB .postgres { tables := [{ tableName := "t".toList }], columns := [c] } with currentSchema := [] }
    (migrate DropExtraneous x x).map drops = .ok [.column [] "t".toList "c".toList] := by
  decide +kernel

/-- **C44 fails for UpdateExisting.** Without CreateMissing, a missing table leads to a CREATE TABLE command (of a table without name),
and its indexes are created. -/
theorem C44_update_creates_violated :
    (migrate UpdateExisting { dialect := some .postgres } (exampleWant "public".toList)).map (fun m =>
      (m.createTableCmds.map (fun c => (c.ignore, c.table.tableName)), m.createIndexCmds.map fun c => (c.index.tableName, c.index.indexName))) =
    .ok ([(false, [])], [("film".toList, "film_title_idx".toList), ("film".toList, "film_year_idx".toList)]) := by
  decide +kernel

/-- The example database is as the hypotheses of `C38_same_partial` say: comparing it with itself gives nothing, in all modes. -/
example : (List.range 16).all (fun k => (migrate (BitVec.ofNat 64 k) exampleGot exampleGot).map (fun m =>
    decide (m = { dialect := m.dialect, currentSchema := m.currentSchema })) = .ok true) = true := by
  decide +kernel


/-- A SQLite database with unnamed constraints, compared with itself: nothing to do, in any mode. -/
example (mode : Mode) : ∃ m, migrate mode (withDB .sqlite exampleSqliteRows) (withDB .sqlite exampleSqliteRows) = .ok m ∧ NoCommands m := by
  refine C38_same_partial mode _ .sqlite (withDB_dialect _ _) (C46_with_db _ _ exampleSqliteRows_ok.1 exampleSqliteRows_ok.2).1
    (.inl (by rw [withDB_currentSchema]; rfl)) ⟨by decide +kernel, by decide +kernel, by decide +kernel⟩ (by unfold FunctionsFindable; decide +kernel) (fun e he => ?_)
  exact absurd he (by rw [show (withDB .sqlite exampleSqliteRows).extensions = [] by decide +kernel]; simp)

end Ddl
