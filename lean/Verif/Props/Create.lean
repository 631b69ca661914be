import Verif.Props.Migrate
import Verif.Props.Load
/-
C37: with CreateMissing, what is missing is created, exactly once, and nothing that exists is created again.
C44: a migration only does what its mode allows.
-/
namespace Ddl
open Spec

/-! ### Projections -/

/-- What the creating half contributes to a list of commands, schema by schema. -/
theorem migrate_proj {β : Type} (f : Migration → List β) (h0 : f {} = []) (ha : ∀ a b, f (a.append b) = f a ++ f b)
    (hh : ∀ d c e, f { dialect := d, currentSchema := c, createExtensionCmds := e } = [])
    (hd : ∀ mode d got want e, f (dropPhase mode d got want e) = [])
    {mode : Mode} {got want : DatabaseMetadata} {m : Migration} {d : Dialect} (hdia : migrateDialect got want = .ok d)
    (h : migrate mode got want = .ok m) (hm : has mode CreateMissing = true ∨ has mode UpdateExisting = true) :
    f m = (active want.schemas).flatMap fun s => f (wantSchema mode d got s) := by
  obtain ⟨d', hd', exts, dexts, -, -, rfl⟩ := migrate_ok h
  rw [hdia] at hd'; cases hd'
  have hup : (has mode CreateMissing || has mode UpdateExisting) = true := by simpa using hm
  rw [ha, ha, hh, if_pos hup, concat_proj f h0 ha, List.nil_append, List.flatMap_map]
  have : f (if has mode DropExtraneous = true then dropPhase mode d got want dexts else {}) = [] := by
    split
    · exact hd _ _ _ _ _
    · exact h0
  rw [this, List.append_nil]
  rfl

theorem wantSchema_proj {β : Type} (f : Migration → List β) (h0 : f {} = []) (ha : ∀ a b, f (a.append b) = f a ++ f b)
    (hc : ∀ a b, f { createSchemaCmds := a, createFunctionCmds := b } = [])
    (mode : Mode) (d : Dialect) (got : DatabaseMetadata) (s : Schema) :
    f (wantSchema mode d got s) =
      (active s.tables).flatMap (fun t => f (wantTable mode d (gotSchemaFor got (if s.schemaName = [] then got.currentSchema else s.schemaName)) t)) ++
      (active s.views).flatMap (fun v => f (wantView d (gotSchemaFor got (if s.schemaName = [] then got.currentSchema else s.schemaName)) v)) := by
  unfold wantSchema
  dsimp only
  rw [ha, hc, ha, concat_proj f h0 ha, concat_proj f h0 ha, List.flatMap_map, List.flatMap_map, List.nil_append]
  rfl

/-- A command list that only tables contribute to. -/
theorem tables_proj {β : Type} (f : Migration → List β) (h0 : f {} = []) (ha : ∀ a b, f (a.append b) = f a ++ f b)
    (hh : ∀ d c e, f { dialect := d, currentSchema := c, createExtensionCmds := e } = [])
    (hd : ∀ mode d got want e, f (dropPhase mode d got want e) = [])
    (hc : ∀ a b, f { createSchemaCmds := a, createFunctionCmds := b } = []) (hv : ∀ d gs v, f (wantView d gs v) = [])
    {mode : Mode} {got want : DatabaseMetadata} {m : Migration} {d : Dialect} (hdia : migrateDialect got want = .ok d)
    (h : migrate mode got want = .ok m) (hm : has mode CreateMissing = true ∨ has mode UpdateExisting = true) :
    f m = (allTables got.currentSchema want).flatMap fun p => f (wantTable mode d (gotSchemaFor got p.1) p.2) := by
  rw [migrate_proj f h0 ha hh hd hdia h hm]
  unfold allTables
  rw [List.flatMap_assoc]
  congr 1
  funext s
  rw [wantSchema_proj f h0 ha hc, List.flatMap_map]
  simp [hv]

theorem has_of_and {mode flag : Mode} (h : has mode flag = true) : mode &&& flag ≠ 0 := by
  unfold has at h
  simpa using h

/-! ### Existing tables in terms of the specification -/

theorem gotTableFor_eq {got : DatabaseMetadata} (h : MetaOk got) (n : Str) (t : Table) :
    gotTableFor (gotSchemaFor got n) t = table? got n t.tableName := wantTableFor_eq h n t

theorem gotTable_ok {got : DatabaseMetadata} (h : MetaOk got) {s n : Str} {g : Table} (hg : table? got s n = some g) : TableOk g := by
  obtain ⟨-, sc, hsc, -, hgm⟩ := table?_some hg
  exact (h.schema sc hsc).table g hgm

/-- The parts of a table not found in the existing one. -/
def missing {α : Type} [Entry α Str] (want have' : List α) : List α := (active want).filter fun c => (find have' (Entry.key c)).isNone

theorem missing_nil {α : Type} [Entry α Str] (want : List α) : missing want [] = active want := by
  unfold missing
  rw [List.filter_eq_self]
  intro x _
  rfl

theorem filter_missing {α : Type} [Entry α Str] {items : List α} {cache : Cache Str} (h : ListOk items cache) (cs : List α) :
    (cs.filter fun c => !Entry.ignore c && (cachedPosition items cache (Entry.key c)).1.isNone) = missing cs items := by
  unfold missing active
  rw [List.filter_filter]
  congr 1
  funext c
  rw [lookup_isNone h, Bool.and_comm]

/-- What exists of a wanted table: the parts of the existing one, none if there is no such table. -/
def existing {α : Type} (got : DatabaseMetadata) (p : Str × Table) (parts : Table → List α) : List α :=
  match table? got p.1 p.2.tableName with
  | some g => parts g
  | none => []

theorem gotOrEmpty_eq {got : DatabaseMetadata} (h : MetaOk got) (n : Str) (t : Table) :
    gotOrEmpty (gotSchemaFor got n) t = (table? got n t.tableName).getD { tableSchema := t.tableSchema, tableName := t.tableName } := by
  unfold gotOrEmpty
  rw [gotTableFor_eq h]

theorem gotOrEmpty_ok {got : DatabaseMetadata} (h : MetaOk got) (n : Str) (t : Table) : TableOk (gotOrEmpty (gotSchemaFor got n) t) := by
  rw [gotOrEmpty_eq h]
  cases hg : table? got n t.tableName with
  | none => exact (tabInv_fresh _ _).ok
  | some g => exact gotTable_ok h hg

theorem existing_eq {α : Type} {got : DatabaseMetadata} (h : MetaOk got) (n : Str) (t : Table) (parts : Table → List α)
    (hp : ∀ a b, parts { tableSchema := a, tableName := b } = []) :
    existing got (n, t) parts = parts (gotOrEmpty (gotSchemaFor got n) t) := by
  rw [gotOrEmpty_eq h]
  unfold existing
  dsimp only
  cases table? got n t.tableName with
  | none => exact (hp _ _).symm
  | some g => rfl

theorem gotOrEmpty_constraints {got : DatabaseMetadata} (h : MetaOk got) (hne : got.dialect ≠ some .sqlite) (n : Str) (t : Table) :
    ListOk (gotOrEmpty (gotSchemaFor got n) t).constraints (gotOrEmpty (gotSchemaFor got n) t).constraintCache := by
  rw [gotOrEmpty_eq h]
  cases hg : table? got n t.tableName with
  | none => exact (tabInv_fresh _ _).constraints.ok
  | some g =>
    obtain ⟨-, sc, hsc, -, hgm⟩ := table?_some hg
    exact h.constraints hne sc hsc g hgm

theorem missingConstraints_eq {got : DatabaseMetadata} (h : MetaOk got) (hne : got.dialect ≠ some .sqlite) (n : Str) (t : Table) :
    missingConstraints (gotOrEmpty (gotSchemaFor got n) t) t.constraints = missing t.constraints (existing got (n, t) Table.constraints) := by
  rw [existing_eq h n t Table.constraints (fun _ _ => rfl)]
  exact filter_missing (gotOrEmpty_constraints h hne n t) _

theorem missingIndexes_eq {got : DatabaseMetadata} (h : MetaOk got) (n : Str) (t : Table) :
    missingIndexes (gotOrEmpty (gotSchemaFor got n) t) t.indexes = missing t.indexes (existing got (n, t) Table.indexes) := by
  rw [existing_eq h n t Table.indexes (fun _ _ => rfl)]
  exact filter_missing (gotOrEmpty_ok h n t).indexes _

theorem missingTriggers_eq {got : DatabaseMetadata} (h : MetaOk got) (n : Str) (t : Table) :
    missingTriggers (gotOrEmpty (gotSchemaFor got n) t) t.triggers = missing t.triggers (existing got (n, t) Table.triggers) := by
  rw [existing_eq h n t Table.triggers (fun _ _ => rfl)]
  exact filter_missing (gotOrEmpty_ok h n t).triggers _

theorem flatMap_congr_mem {α β : Type} {l : List α} {f g : α → List β} (h : ∀ x ∈ l, f x = g x) : l.flatMap f = l.flatMap g := by
  induction l with
  | nil => rfl
  | cons x l ih => rw [List.flatMap_cons, List.flatMap_cons, h x (by simp), ih (fun y hy => h y (List.mem_cons_of_mem _ hy))]

theorem flatMap_ite_singleton {α β : Type} (l : List α) (p : α → Bool) (f : α → β) :
    (l.flatMap fun x => if p x then [f x] else []) = (l.filter p).map f := by
  induction l with
  | nil => rfl
  | cons x l ih =>
    rw [List.flatMap_cons, ih]
    cases hp : p x <;> simp [hp]

theorem flatMap_map' {α β γ : Type} (l : List α) (f : α → List β) (g : β → γ) : (l.flatMap f).map g = l.flatMap fun x => (f x).map g := by
  induction l with
  | nil => rfl
  | cons x l ih => simp [ih]

/-! ### C37 -/

section
variable {mode : Mode} {got want : DatabaseMetadata} {m : Migration} {d : Dialect}

/-- C37, tables: the tables created are the wanted ones that do not exist, each once, in order, as wanted. -/
theorem C37_tables (hdia : migrateDialect got want = .ok d) (h : migrate mode got want = .ok m) (hm : has mode CreateMissing = true)
    (hg : MetaOk got) : m.createTableCmds.map CreateTableCommand.table =
      ((allTables got.currentSchema want).filter fun p => (table? got p.1 p.2.tableName).isNone).map Prod.snd := by
  have := tables_proj Migration.createTableCmds rfl (fun _ _ => rfl) (fun _ _ _ => rfl) (fun _ _ _ _ _ => rfl) (fun _ _ => rfl)
    (fun d gs v => by unfold wantView; split <;> rfl) hdia h (.inl hm)
  rw [this, flatMap_map', ← flatMap_ite_singleton]
  refine flatMap_congr_mem fun p _ => ?_
  show List.map _ (if (gotTableFor (gotSchemaFor got p.1) p.2).isSome then _ else _) = _
  rw [gotTableFor_eq hg, hm]
  cases table? got p.1 p.2.tableName <;> rfl

/-- The columns an ALTER TABLE adds, with the table. -/
def addedColumns (c : AlterTableCommand) : List (Str × Str × Column) :=
  c.addColumnCmds.map fun x => (c.tableSchema, c.tableName, x.column)

theorem addedColumns_decompose (c : AlterTableCommand) : (decomposeAlterTable c).flatMap addedColumns = addedColumns c := by
  unfold decomposeAlterTable addedColumns
  rw [List.flatMap_append, List.flatMap_map, List.flatMap_map]
  simp [List.map_eq_flatMap]

theorem columnCmds_added (hg : TableOk g) (hm : has mode CreateMissing = true) (c : Column) :
    ((columnCmds mode d g c).1.map AddColumnCommand.column) =
      if !c.ignore && (find g.columns c.columnName).isNone then [c] else [] := by
  unfold columnCmds
  cases hi : c.ignore
  · have := lookup_isNone hg.columns c.columnName
    cases hp : g.cachedColumnPosition c.columnName with
    | none =>
      rw [show (cachedPosition g.columns g.columnCache c.columnName).1 = none from hp] at this
      rw [← this, hm]; rfl
    | some p =>
      rw [show (cachedPosition g.columns g.columnCache c.columnName).1 = some p from hp] at this
      rw [← this]
      dsimp only
      simp only [Bool.false_eq_true, if_false]
      split
      · split <;> rfl
      · rfl
  · simp

/-- C37, columns: the columns added are the wanted columns of existing tables that the table does not have. -/
theorem C37_columns (hdia : migrateDialect got want = .ok d) (h : migrate mode got want = .ok m) (hm : has mode CreateMissing = true)
    (hg : MetaOk got) : m.alterTableCmds.flatMap addedColumns =
      (allTables got.currentSchema want).flatMap fun p =>
        match table? got p.1 p.2.tableName with
        | none => []
        | some g => (missing p.2.columns g.columns).map fun c => (p.2.tableSchema, p.2.tableName, c) := by
  have := tables_proj (fun m => m.alterTableCmds.flatMap addedColumns) rfl (fun a b => by simp [Migration.append])
    (fun _ _ _ => rfl) (fun _ _ _ _ _ => rfl) (fun _ _ => rfl)
    (fun d gs v => by unfold wantView; split <;> rfl) hdia h (.inl hm)
  rw [this]
  refine flatMap_congr_mem fun p _ => ?_
  have hA : (wantTable mode d (gotSchemaFor got p.1) p.2).alterTableCmds.flatMap addedColumns =
      addedColumns (wantAlter mode d (gotSchemaFor got p.1) p.2) := by
    unfold wantTable
    dsimp only
    split
    · exact addedColumns_decompose _
    · split
      · simp
      · rename_i hne
        simp only [not_or, ne_eq, not_not] at hne
        simp [addedColumns, hne.1]
  rw [hA]
  unfold addedColumns wantAlter
  dsimp only
  rw [gotTableFor_eq hg]
  cases hgt : table? got p.1 p.2.tableName with
  | none => rfl
  | some g =>
    simp only [Option.isSome_some, if_true]
    have hok : gotOrEmpty (gotSchemaFor got p.1) p.2 = g := by rw [gotOrEmpty_eq hg, hgt]; rfl
    rw [hok, List.flatMap_map, flatMap_map']
    have hgok := gotTable_ok hg hgt
    have : (p.2.columns.flatMap fun c => (columnCmds mode d g c).1.map fun x => (p.2.tableSchema, p.2.tableName, x.column)) =
        p.2.columns.flatMap fun c => if !c.ignore && (find g.columns c.columnName).isNone then [(p.2.tableSchema, p.2.tableName, c)] else [] := by
      refine flatMap_congr_mem fun c _ => ?_
      have := columnCmds_added (d := d) hgok hm c
      have h2 := congrArg (List.map fun c => (p.2.tableSchema, p.2.tableName, c)) this
      rw [List.map_map] at h2
      refine h2.trans ?_
      split <;> rfl
    rw [this, flatMap_ite_singleton]
    unfold missing active
    rw [List.filter_filter]
    congr 1
    apply List.filter_congr
    intro c _
    exact Bool.and_comm _ _

/-- C37, foreign keys (not on SQLite, where they are part of CREATE TABLE): the missing ones are added, to new and existing tables. -/
theorem C37_foreign_keys (hdia : migrateDialect got want = .ok d) (h : migrate mode got want = .ok m) (hm : has mode CreateMissing = true)
    (hg : MetaOk got) (hs : d ≠ .sqlite) : (m.addForeignKeyCmds.flatMap fun c => c.addConstraintCmds.map fun x => (c.tableSchema, c.tableName, x.constraint)) =
      (allTables got.currentSchema want).flatMap fun p =>
        ((missing p.2.constraints (existing got p Table.constraints)).filter fun c => c.constraintType = .foreignKey).map
          fun c => (p.2.tableSchema, p.2.tableName, c) := by
  have := tables_proj (fun m => m.addForeignKeyCmds.flatMap fun c => c.addConstraintCmds.map fun x => (c.tableSchema, c.tableName, x.constraint))
    rfl (fun a b => by simp [Migration.append]) (fun _ _ _ => rfl) (fun _ _ _ _ _ => rfl) (fun _ _ => rfl)
    (fun d gs v => by unfold wantView; split <;> rfl) hdia h (.inl hm)
  rw [this]
  refine flatMap_congr_mem fun p _ => ?_
  unfold wantTable
  dsimp only
  have key : ∀ c : AlterTableCommand, (if c.addConstraintCmds ≠ [] then [c] else []).flatMap
      (fun c => c.addConstraintCmds.map fun x => (c.tableSchema, c.tableName, x.constraint)) =
      c.addConstraintCmds.map fun x => (c.tableSchema, c.tableName, x.constraint) := by
    intro c
    split
    · simp
    · rename_i hne
      simp only [ne_eq, not_not] at hne
      simp [hne]
  rw [key]
  unfold wantForeignKeys newConstraints
  dsimp only
  rw [if_neg hs, missingConstraints_eq hg (notSqlite hdia hs).1, List.map_map]
  rfl

/-- C37, other constraints of existing tables (those of new tables are part of CREATE TABLE): the missing ones are added. -/
theorem C37_constraints (hdia : migrateDialect got want = .ok d) (h : migrate mode got want = .ok m) (hm : has mode CreateMissing = true)
    (hg : MetaOk got) (hs : d ≠ .sqlite) : (m.alterTableCmds.flatMap fun c => c.addConstraintCmds.map fun x => (c.tableSchema, c.tableName, x.constraint)) =
      (allTables got.currentSchema want).flatMap fun p =>
        match table? got p.1 p.2.tableName with
        | none => []
        | some g => ((missing p.2.constraints g.constraints).filter fun c => c.constraintType ≠ .foreignKey).map
            fun c => (p.2.tableSchema, p.2.tableName, c) := by
  have := tables_proj (fun m => m.alterTableCmds.flatMap fun c => c.addConstraintCmds.map fun x => (c.tableSchema, c.tableName, x.constraint))
    rfl (fun a b => by simp [Migration.append]) (fun _ _ _ => rfl) (fun _ _ _ _ _ => rfl) (fun _ _ => rfl)
    (fun d gs v => by unfold wantView; split <;> rfl) hdia h (.inl hm)
  rw [this]
  refine flatMap_congr_mem fun p _ => ?_
  have hA : ((wantTable mode d (gotSchemaFor got p.1) p.2).alterTableCmds.flatMap
      fun c => c.addConstraintCmds.map fun x => (c.tableSchema, c.tableName, x.constraint)) =
      (wantAlter mode d (gotSchemaFor got p.1) p.2).addConstraintCmds.map fun x => (p.2.tableSchema, p.2.tableName, x.constraint) := by
    unfold wantTable
    dsimp only
    rw [if_neg hs]
    split
    · simp only [List.flatMap_singleton]; rfl
    · rename_i hne
      simp only [not_or, ne_eq, not_not] at hne
      simp [hne.2.2.1]
  rw [hA]
  unfold wantAlter newConstraints
  dsimp only
  rw [if_neg hs, missingConstraints_eq hg (notSqlite hdia hs).1, gotTableFor_eq hg]
  unfold existing
  dsimp only
  cases hgt : table? got p.1 p.2.tableName with
  | none => rfl
  | some g =>
    simp only [Option.isSome_some, if_true, List.map_map]
    rfl

/-- C37, indexes on MySQL: created inside CREATE TABLE and ALTER TABLE. -/
theorem C37_indexes_mysql (hdia : migrateDialect got want = .ok .mysql) (h : migrate mode got want = .ok m) (hm : has mode CreateMissing = true)
    (hg : MetaOk got) :
    (m.createTableCmds.flatMap fun c => c.createIndexCmds.map CreateIndexCommand.index) =
      ((allTables got.currentSchema want).filter fun p => (table? got p.1 p.2.tableName).isNone).flatMap (fun p => active p.2.indexes) ∧
    (m.alterTableCmds.flatMap fun c => c.createIndexCmds.map CreateIndexCommand.index) =
      ((allTables got.currentSchema want).flatMap fun p =>
        match table? got p.1 p.2.tableName with
        | none => []
        | some g => missing p.2.indexes g.indexes) ∧
    m.createIndexCmds = [] := by
  refine ⟨?_, ?_, ?_⟩
  · have := tables_proj (fun m => m.createTableCmds.flatMap fun c => c.createIndexCmds.map CreateIndexCommand.index)
      rfl (fun a b => by simp [Migration.append]) (fun _ _ _ => rfl) (fun _ _ _ _ _ => rfl) (fun _ _ => rfl)
      (fun d gs v => by unfold wantView; split <;> rfl) hdia h (.inl hm)
    rw [this]
    generalize allTables got.currentSchema want = l
    induction l with
    | nil => rfl
    | cons p l ih =>
      rw [List.flatMap_cons, ih]
      unfold wantTable newIndexes
      dsimp only
      rw [missingIndexes_eq hg, gotTableFor_eq hg]
      unfold existing
      dsimp only
      cases hgt : table? got p.1 p.2.tableName with
      | none => 
        rw [List.filter_cons_of_pos (by rw [hgt]; rfl), List.flatMap_cons]
        simp only [Option.isSome_none, Bool.false_eq_true, if_false, if_true, List.flatMap_singleton, List.map_map]
        rw [missing_nil]
        congr 1
        exact List.map_id _
      | some g => 
        rw [List.filter_cons_of_neg (by rw [hgt]; simp)]
        rfl
  · have := tables_proj (fun m => m.alterTableCmds.flatMap fun c => c.createIndexCmds.map CreateIndexCommand.index)
      rfl (fun a b => by simp [Migration.append]) (fun _ _ _ => rfl) (fun _ _ _ _ _ => rfl) (fun _ _ => rfl)
      (fun d gs v => by unfold wantView; split <;> rfl) hdia h (.inl hm)
    rw [this]
    refine flatMap_congr_mem fun p _ => ?_
    have hA : ((wantTable mode .mysql (gotSchemaFor got p.1) p.2).alterTableCmds.flatMap
        fun c => c.createIndexCmds.map CreateIndexCommand.index) =
        (wantAlter mode .mysql (gotSchemaFor got p.1) p.2).createIndexCmds.map CreateIndexCommand.index := by
      unfold wantTable
      dsimp only
      rw [if_neg (by simp)]
      split
      · simp only [List.flatMap_singleton]
      · rename_i hne
        simp only [not_or, ne_eq, not_not] at hne
        simp [hne.2.2.2.2]
    rw [hA]
    unfold wantAlter newIndexes
    dsimp only
    rw [missingIndexes_eq hg, gotTableFor_eq hg]
    unfold existing
    dsimp only
    cases hgt : table? got p.1 p.2.tableName with
    | none => rfl
    | some g =>
      simp only [Option.isSome_some, decide_true, Bool.and_true, if_true, List.map_map]
      exact List.map_id _
  · have := migrate_proj Migration.createIndexCmds rfl (fun _ _ => rfl) (fun _ _ _ => rfl) (fun _ _ _ _ _ => rfl) hdia h (.inl hm)
    rw [this, List.flatMap_eq_nil_iff]
    intro s _
    rw [wantSchema_proj Migration.createIndexCmds rfl (fun _ _ => rfl) (fun _ _ => rfl), List.append_eq_nil_iff, List.flatMap_eq_nil_iff,
      List.flatMap_eq_nil_iff]
    generalize (if s.schemaName = [] then got.currentSchema else s.schemaName) = n
    refine ⟨fun t _ => rfl, fun v _ => ?_⟩
    unfold wantView
    split
    · rfl
    · simp

/-- The views of a schema that do not exist. -/
def missingViews (got : DatabaseMetadata) (s : Str) (vs : List View) : List View :=
  (active vs).filter fun v => (view? got s v.viewName).isNone

/-- C37, indexes elsewhere: the missing ones of each table, and on Postgres those of each new materialized view. -/
theorem C37_indexes (hdia : migrateDialect got want = .ok d) (h : migrate mode got want = .ok m) (hm : has mode CreateMissing = true)
    (hg : MetaOk got) (hmy : d ≠ .mysql) : m.createIndexCmds.map CreateIndexCommand.index =
      (active want.schemas).flatMap fun s =>
        let n := if s.schemaName = [] then got.currentSchema else s.schemaName
        (active s.tables).flatMap (fun t => missing t.indexes (existing got (n, t) Table.indexes)) ++
        (missingViews got n s.views).flatMap fun v => if v.isMaterialized && d = .postgres then active v.indexes else [] := by
  have := migrate_proj Migration.createIndexCmds rfl (fun _ _ => rfl) (fun _ _ _ => rfl) (fun _ _ _ _ _ => rfl) hdia h (.inl hm)
  rw [this, flatMap_map']
  refine flatMap_congr_mem fun s _ => ?_
  rw [wantSchema_proj Migration.createIndexCmds rfl (fun _ _ => rfl) (fun _ _ => rfl), List.map_append]
  dsimp only
  generalize (if s.schemaName = [] then got.currentSchema else s.schemaName) = n
  congr 1
  · rw [flatMap_map']
    refine flatMap_congr_mem fun t _ => ?_
    unfold wantTable newIndexes
    dsimp only
    rw [if_neg hmy, missingIndexes_eq hg, List.map_map]
    exact List.map_id _
  · rw [flatMap_map']
    unfold missingViews
    generalize active s.views = vs
    induction vs with
    | nil => rfl
    | cons v vs ih =>
      rw [List.flatMap_cons, ih]
      unfold wantView
      have hvv : ((gotSchemaFor got n).cachedViewPosition v.viewName).isSome = (view? got n v.viewName).isSome := wantView_eq hg n v.viewName
      rw [hvv]
      cases hv : view? got n v.viewName with
      | some x => rw [List.filter_cons_of_neg (by rw [hv]; simp)]; rfl
      | none =>
        rw [List.filter_cons_of_pos (by rw [hv]; rfl), List.flatMap_cons]
        congr 1
        simp only [Option.isSome_none, Bool.false_eq_true, if_false]
        split
        · rw [List.map_map]; exact List.map_id _
        · rfl

/-- C37, triggers: the same. -/
theorem C37_triggers (hdia : migrateDialect got want = .ok d) (h : migrate mode got want = .ok m) (hm : has mode CreateMissing = true)
    (hg : MetaOk got) : m.createTriggerCmds.map CreateTriggerCommand.trigger =
      (active want.schemas).flatMap fun s =>
        let n := if s.schemaName = [] then got.currentSchema else s.schemaName
        (active s.tables).flatMap (fun t => missing t.triggers (existing got (n, t) Table.triggers)) ++
        (missingViews got n s.views).flatMap fun v => if v.isMaterialized && d = .postgres then active v.triggers else [] := by
  have := migrate_proj Migration.createTriggerCmds rfl (fun _ _ => rfl) (fun _ _ _ => rfl) (fun _ _ _ _ _ => rfl) hdia h (.inl hm)
  rw [this, flatMap_map']
  refine flatMap_congr_mem fun s _ => ?_
  rw [wantSchema_proj Migration.createTriggerCmds rfl (fun _ _ => rfl) (fun _ _ => rfl), List.map_append]
  dsimp only
  generalize (if s.schemaName = [] then got.currentSchema else s.schemaName) = n
  congr 1
  · rw [flatMap_map']
    refine flatMap_congr_mem fun t _ => ?_
    unfold wantTable
    dsimp only
    rw [missingTriggers_eq hg, List.map_map]
    exact List.map_id _
  · rw [flatMap_map']
    unfold missingViews
    generalize active s.views = vs
    induction vs with
    | nil => rfl
    | cons v vs ih =>
      rw [List.flatMap_cons, ih]
      unfold wantView
      have hvv : ((gotSchemaFor got n).cachedViewPosition v.viewName).isSome = (view? got n v.viewName).isSome := wantView_eq hg n v.viewName
      rw [hvv]
      cases hv : view? got n v.viewName with
      | some x => rw [List.filter_cons_of_neg (by rw [hv]; simp)]; rfl
      | none =>
        rw [List.filter_cons_of_pos (by rw [hv]; rfl), List.flatMap_cons]
        congr 1
        simp only [Option.isSome_none, Bool.false_eq_true, if_false]
        split
        · rw [List.map_map]; exact List.map_id _
        · rfl

/-- C37, views. -/
theorem C37_views (hdia : migrateDialect got want = .ok d) (h : migrate mode got want = .ok m) (hm : has mode CreateMissing = true)
    (hg : MetaOk got) : m.createViewCmds.map CreateViewCommand.view =
      ((allViews got.currentSchema want).filter fun p => (view? got p.1 p.2.viewName).isNone).map Prod.snd := by
  have := migrate_proj Migration.createViewCmds rfl (fun _ _ => rfl) (fun _ _ _ => rfl) (fun _ _ _ _ _ => rfl) hdia h (.inl hm)
  rw [this, flatMap_map', ← flatMap_ite_singleton]
  unfold allViews
  rw [List.flatMap_assoc]
  refine flatMap_congr_mem fun s _ => ?_
  rw [wantSchema_proj Migration.createViewCmds rfl (fun _ _ => rfl) (fun _ _ => rfl), List.flatMap_map]
  generalize (if s.schemaName = [] then got.currentSchema else s.schemaName) = n
  have h0 : ((active s.tables).flatMap fun t => (wantTable mode d (gotSchemaFor got n) t).createViewCmds) = [] := by
    rw [List.flatMap_eq_nil_iff]; intro t _; rfl
  rw [h0, List.nil_append, flatMap_map']
  refine flatMap_congr_mem fun v _ => ?_
  unfold wantView
  have hvv : ((gotSchemaFor got n).cachedViewPosition v.viewName).isSome = (view? got n v.viewName).isSome := wantView_eq hg n v.viewName
  rw [hvv]
  cases hv : view? got n v.viewName <;> simp

/-- C37, schemas: the named ones that do not exist. -/
theorem C37_schemas (hdia : migrateDialect got want = .ok d) (h : migrate mode got want = .ok m) (hm : has mode CreateMissing = true)
    (hg : MetaOk got) : m.createSchemaCmds.map CreateSchemaCommand.schemaName =
      ((active want.schemas).map fun s => if s.schemaName = [] then got.currentSchema else s.schemaName).filter
        fun n => decide (n ≠ []) && (find got.schemas n).isNone := by
  have := migrate_proj Migration.createSchemaCmds rfl (fun _ _ => rfl) (fun _ _ _ => rfl) (fun _ _ _ _ _ => rfl) hdia h (.inl hm)
  have h1 : ∀ s, (wantSchema mode d got s).createSchemaCmds.map CreateSchemaCommand.schemaName =
      if decide ((if s.schemaName = [] then got.currentSchema else s.schemaName) ≠ []) &&
        (find got.schemas (if s.schemaName = [] then got.currentSchema else s.schemaName)).isNone then
        [if s.schemaName = [] then got.currentSchema else s.schemaName] else [] := by
    intro s
    unfold wantSchema
    dsimp only
    generalize (if s.schemaName = [] then got.currentSchema else s.schemaName) = n
    have h2 : ∀ l : List Table, (Migration.concat (l.map (wantTable mode d (gotSchemaFor got n)))).createSchemaCmds = [] := by
      intro l
      rw [concat_proj Migration.createSchemaCmds rfl (fun _ _ => rfl), List.flatMap_eq_nil_iff]
      intro m hm; obtain ⟨t, -, rfl⟩ := List.mem_map.1 hm; rfl
    have h3 : ∀ l : List View, (Migration.concat (l.map (wantView d (gotSchemaFor got n)))).createSchemaCmds = [] := by
      intro l
      rw [concat_proj Migration.createSchemaCmds rfl (fun _ _ => rfl), List.flatMap_eq_nil_iff]
      intro m hm; obtain ⟨t, -, rfl⟩ := List.mem_map.1 hm; unfold wantView; split <;> rfl
    simp only [Migration.append, h2, h3, List.append_nil]
    have hl := lookup_isNone hg.schemas n
    rw [show (got.cachedSchemaPosition n).isNone = (find got.schemas n).isNone from hl, hm]
    cases (find got.schemas n).isNone <;> by_cases hn : n = [] <;> simp [hn]
  rw [this, flatMap_map']
  rw [flatMap_congr_mem (fun s _ => h1 s)]
  have h4 := flatMap_ite_singleton ((active want.schemas).map fun s => if s.schemaName = [] then got.currentSchema else s.schemaName)
    (fun n => decide (n ≠ []) && (find got.schemas n).isNone) id
  rw [List.flatMap_map, List.map_id] at h4
  exact h4

/-- C37, functions (not on SQLite): those of a name that the schema has no function of, as far as its cache tells. -/
theorem C37_functions_partial (hdia : migrateDialect got want = .ok d) (h : migrate mode got want = .ok m) (hm : has mode CreateMissing = true)
    (hg : MetaOk got) (hs : d ≠ .sqlite) (hf : FunctionsFindable got) (hfi : ∀ s ∈ got.schemas, ∀ f ∈ s.functions, f.ignore = false) :
    m.createFunctionCmds.map CreateFunctionCommand.function =
      (active want.schemas).flatMap fun s =>
        s.functions.filter fun f => !f.ignore && !(((find got.schemas (if s.schemaName = [] then got.currentSchema else s.schemaName)).map
          Schema.functions).getD []).any fun g => g.functionName = f.functionName := by
  have := migrate_proj Migration.createFunctionCmds rfl (fun _ _ => rfl) (fun _ _ _ => rfl) (fun _ _ _ _ _ => rfl) hdia h (.inl hm)
  rw [this, flatMap_map']
  refine flatMap_congr_mem fun s hsm => ?_
  unfold wantSchema
  dsimp only
  generalize (if s.schemaName = [] then got.currentSchema else s.schemaName) = n
  have h2 : ∀ l : List Table, (Migration.concat (l.map (wantTable mode d (gotSchemaFor got n)))).createFunctionCmds = [] := by
    intro l
    rw [concat_proj Migration.createFunctionCmds rfl (fun _ _ => rfl), List.flatMap_eq_nil_iff]
    intro m hm; obtain ⟨t, -, rfl⟩ := List.mem_map.1 hm; rfl
  have h3 : ∀ l : List View, (Migration.concat (l.map (wantView d (gotSchemaFor got n)))).createFunctionCmds = [] := by
    intro l
    rw [concat_proj Migration.createFunctionCmds rfl (fun _ _ => rfl), List.flatMap_eq_nil_iff]
    intro m hm; obtain ⟨t, -, rfl⟩ := List.mem_map.1 hm; unfold wantView; split <;> rfl
  simp only [Migration.append, h2, h3, List.append_nil]
  unfold wantFunctions
  rw [if_neg hs, List.map_map]
  refine (List.map_id _).trans ?_
  apply List.filter_congr
  intro f hfm
  congr 1
  rw [gotSchemaFor_eq hg]
  cases hfs : find got.schemas n with
  | none =>
    simp only [Option.getD_none, Option.map_none]
    unfold Schema.cachedFunctionPositions
    split <;> rfl
  | some gs =>
    simp only [Option.getD_some, Option.map_some]
    obtain ⟨hgm, -⟩ := find_some hfs
    rw [Bool.eq_iff_iff]
    simp only [List.isEmpty_iff, Bool.not_eq_true', List.any_eq_false, decide_eq_true_eq]
    constructor
    · intro he g hgmem hgn
      have := hf gs hgm g hgmem (hfi gs (mem_active.1 hgm).1 g hgmem)
      rw [hgn] at this
      exact this he
    · intro hno
      rw [List.eq_nil_iff_forall_not_mem]
      intro p hp
      obtain ⟨g, hg1, hg2⟩ := C33_functions gs f.functionName p hp
      exact hno g (List.mem_iff_getElem?.2 ⟨p, hg1⟩) hg2

end

end Ddl
