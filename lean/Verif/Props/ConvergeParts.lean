import Verif.Props.Converge
/-
C48 for the parts of tables: constraints, indexes and triggers.
-/
namespace Ddl.ConvergeParts
open Spec Ddl.Spec

/-- The table an object is part of. -/
def tableOf : Obj → Option Obj
  | .column s t _ | .constraint s t _ | .index s t _ | .trigger s t _ => some (.table s t)
  | _ => none

/-- What a migration creates: in CREATE TABLE everything but, outside SQLite, the foreign keys; by ALTER TABLE; by CREATE INDEX and CREATE
TRIGGER commands. -/
def createdPart (m : Migration) : Obj → Prop
  | .constraint s t n =>
    (∃ c ∈ m.createTableCmds, c.table.tableSchema = s ∧ c.table.tableName = t ∧ c.includeConstraints = true ∧
      ∃ x ∈ active c.table.constraints, (x.constraintType = .foreignKey → m.dialect = some .sqlite) ∧ x.constraintName = n) ∨
    (∃ c ∈ m.alterTableCmds ++ m.addForeignKeyCmds, c.tableSchema = s ∧ c.tableName = t ∧
      ∃ x ∈ c.addConstraintCmds, x.constraint.constraintName = n)
  | .index s t n =>
    (∃ c ∈ m.createTableCmds, c.table.tableSchema = s ∧ c.table.tableName = t ∧ ∃ x ∈ c.createIndexCmds, x.index.indexName = n) ∨
    (∃ c ∈ m.alterTableCmds, c.tableSchema = s ∧ c.tableName = t ∧ ∃ x ∈ c.createIndexCmds, x.index.indexName = n) ∨
    (∃ c ∈ m.createIndexCmds, c.index.tableSchema = s ∧ c.index.tableName = t ∧ c.index.indexName = n)
  | .trigger s t n => ∃ c ∈ m.createTriggerCmds, c.trigger.tableSchema = s ∧ c.trigger.tableName = t ∧ c.trigger.triggerName = n
  | o => created m o

/-- What is there after running the migration: what was there or was created, and was not dropped, nor its table.  (Side effects of the
database, such as dropping the indexes of a dropped column, are not counted.) -/
def AfterParts (got : DatabaseMetadata) (m : Migration) (o : Obj) : Prop :=
  (Present got o ∨ createdPart m o) ∧ o ∉ drops m ∧ ∀ t, tableOf o = some t → t ∉ drops m

/-- Wanted indexes and triggers carry the names of the table or view they are declared on. -/
structure PlacedPartsOf (schema name : Str) (indexes : List Index) (triggers : List Trigger) : Prop where
  indexes : ∀ x ∈ active indexes, x.tableSchema = schema ∧ x.tableName = name
  triggers : ∀ x ∈ active triggers, x.tableSchema = schema ∧ x.tableName = name

def PlacedParts (d : DatabaseMetadata) : Prop :=
  ∀ s ∈ active d.schemas, (∀ t ∈ active s.tables, PlacedPartsOf t.tableSchema t.tableName t.indexes t.triggers) ∧
    ∀ v ∈ active s.views, PlacedPartsOf v.viewSchema v.viewName v.indexes v.triggers

variable {mode : Mode} {got want : DatabaseMetadata} {d : Dialect} {m : Migration}

/-- One kind of part at a time: if what is created is wanted, and what is wanted is there or created, the migration converges. -/
theorem converges_of (hdia : migrateDialect got want = .ok d)
    (h : migrate mode got want = .ok m) (hd : has mode DropExtraneous = true) (hw : MetaOk want)
    (hpg : Placed got) (hn : SchemasNamed got.currentSchema want)
    (hv : d = .sqlite → ∀ s ∈ got.schemas, ∀ v ∈ s.views, v.isMaterialized = false) (o : Obj) (s t : Str) (ht : tableOf o = some (.table s t))
    (hcre : createdPart m o → Has got.currentSchema want o) (hall : Has got.currentSchema want o → Present got o ∨ createdPart m o)
    (hpt : Present got o → Present got (.table s t)) (hht : Has got.currentSchema want o → Has got.currentSchema want (.table s t))
    (hdr : Has got.currentSchema want (.table s t) → Droppable d got.currentSchema want o) :
    AfterParts got m o ↔ Has got.currentSchema want o := by
  have hnf : ∀ s n, o ≠ .function s n := by rintro s n rfl; cases ht
  have hne : ∀ n, o ≠ .extension n := by rintro n rfl; cases ht
  have dropped := fun o hne h1 h2 h3 => C45_all_dropped_partial mode got want m d hdia h hd hw hpg hn hv o h3 hne h1 h2
  have unwanted := C36_unwanted_partial mode got want m h hw hpg hn
  constructor
  · rintro ⟨hpc, hnd, hndt⟩
    rcases hpc with hp | hc
    · refine Classical.byContradiction fun hno => ?_
      by_cases htw : Has got.currentSchema want (.table s t)
      · exact hnd (dropped _ hne hp hno (fun ⟨_, _, he⟩ => absurd he (hnf _ _)) (hdr htw))
      · exact hndt _ ht (dropped _ (fun _ he => by cases he) (hpt hp) htw (fun ⟨_, _, he⟩ => by cases he) trivial)
    · exact hcre hc
  · intro hh
    refine ⟨hall hh, fun hdm => (unwanted _ hdm).2 hnf hne hh, fun t' ht' hdm => ?_⟩
    rw [ht] at ht'
    cases ht'
    exact (unwanted _ hdm).2 (fun _ _ he => by cases he) (fun _ he => by cases he) (hht hh)

theorem mem_createTable (hdia : migrateDialect got want = .ok d) (h : migrate mode got want = .ok m) (hm : has mode CreateMissing = true)
    (hg : MetaOk got) (c : CreateTableCommand) : c ∈ m.createTableCmds ↔
      ∃ p ∈ allTables got.currentSchema want, table? got p.1 p.2.tableName = none ∧
        c = { createIfNotExists := true, includeConstraints := true, table := p.2,
              createIndexCmds := if d = .mysql then newIndexes d (gotSchemaFor got p.1) p.2 else [] } := by
  have := tables_proj Migration.createTableCmds rfl (fun _ _ => rfl) (fun _ _ _ => rfl) (fun _ _ _ _ _ => rfl) (fun _ _ => rfl)
    (fun d gs v => by unfold wantView; split <;> rfl) hdia h (.inl hm)
  rw [this, List.mem_flatMap]
  refine exists_congr fun p => and_congr_right fun _ => ?_
  unfold wantTable
  dsimp only
  rw [gotTableFor_eq hg, hm]
  cases table? got p.1 p.2.tableName <;> simp

theorem new_indexes (hg : MetaOk got) (p : Str × Table) (x : Index) :
    (∃ c ∈ newIndexes d (gotSchemaFor got p.1) p.2, c.index = x) ↔
      x ∈ active p.2.indexes ∧ find (existing got p Table.indexes) x.indexName = none := by
  unfold newIndexes
  rw [missingIndexes_eq hg]
  constructor
  · rintro ⟨c, hc, rfl⟩
    obtain ⟨y, hy, rfl⟩ := List.mem_map.1 hc
    unfold missing at hy
    obtain ⟨h1, h2⟩ := List.mem_filter.1 hy
    exact ⟨h1, Option.isNone_iff_eq_none.1 h2⟩
  · rintro ⟨h1, h2⟩
    exact ⟨_, List.mem_map.2 ⟨x, List.mem_filter.2 ⟨h1, Option.isNone_iff_eq_none.2 h2⟩, rfl⟩, rfl⟩

theorem mem_allTables {p : Str × Table} {cur : Str} (hn : SchemasNamed cur want) :
    p ∈ allTables cur want ↔ ∃ s ∈ active want.schemas, s.schemaName = p.1 ∧ p.2 ∈ active s.tables := by
  unfold allTables
  rw [List.mem_flatMap]
  refine exists_congr fun s => and_congr_right fun hs => ?_
  rw [List.mem_map, schemaName_eq hn hs]
  constructor
  · rintro ⟨t, ht, rfl⟩; exact ⟨rfl, ht⟩
  · rintro ⟨e, ht⟩; exact ⟨p.2, ht, by rw [e]⟩

theorem mem_allViews {p : Str × View} {cur : Str} (hn : SchemasNamed cur want) :
    p ∈ allViews cur want ↔ ∃ s ∈ active want.schemas, s.schemaName = p.1 ∧ p.2 ∈ active s.views := by
  unfold allViews
  rw [List.mem_flatMap]
  refine exists_congr fun s => and_congr_right fun hs => ?_
  rw [List.mem_map, schemaName_eq hn hs]
  constructor
  · rintro ⟨t, ht, rfl⟩; exact ⟨rfl, ht⟩
  · rintro ⟨e, ht⟩; exact ⟨p.2, ht, by rw [e]⟩

/-- A part found in the existing table is present. -/
theorem present_table {s n : Str} {g : Table} (h : table? got s n = some g) :
    ∃ sc ∈ active got.schemas, sc.schemaName = s ∧ g ∈ active sc.tables ∧ g.tableName = n := by
  obtain ⟨h1, sc, h2, h3, h4⟩ := table?_some h
  exact ⟨sc, h2, h3, h4, h1⟩

/-- C48, constraints (not on SQLite, which cannot add or drop any). -/
theorem C48_constraints (hdia : migrateDialect got want = .ok d)
    (h : migrate mode got want = .ok m) (hc : mode &&& CreateMissing ≠ 0) (hd : mode &&& DropExtraneous ≠ 0) (hg : MetaOk got) (hw : MetaOk want)
    (hpg : Placed got) (hpw : PlacedNames want) (hn : SchemasNamed got.currentSchema want) (hs : d ≠ .sqlite) (s t n : Str) :
    AfterParts got m (.constraint s t n) ↔ Has got.currentSchema want (.constraint s t n) := by
  have hm : has mode CreateMissing = true := by unfold has; simpa using hc
  have hm' : has mode DropExtraneous = true := by unfold has; simpa using hd
  obtain ⟨hpt, -⟩ := placedName hn hpw
  have hC := C37_constraints hdia h hm hg hs
  have hF := C37_foreign_keys hdia h hm hg hs
  refine converges_of hdia h hm' hw hpg hn (fun e => absurd e hs) _ s t rfl ?_ ?_ ?_ ?_ (fun htb => ⟨hs, htb⟩)
  · -- created is wanted
    rintro (⟨c, hcm, rfl, rfl, -, x, hx, -, rfl⟩ | ⟨c, hcm, rfl, rfl, x, hx, rfl⟩)
    · obtain ⟨p, hp, -, rfl⟩ := (mem_createTable hdia h hm hg c).1 hcm
      exact ⟨p.2, by rw [hpt p hp]; exact hp, rfl, x, hx, rfl⟩
    · have key : ∃ p ∈ allTables got.currentSchema want, c.tableSchema = p.2.tableSchema ∧ c.tableName = p.2.tableName ∧
          x.constraint ∈ active p.2.constraints := by
        rcases List.mem_append.1 hcm with hcm | hcm
        · have : (c.tableSchema, c.tableName, x.constraint) ∈
              m.alterTableCmds.flatMap fun c => c.addConstraintCmds.map fun x => (c.tableSchema, c.tableName, x.constraint) :=
            List.mem_flatMap.2 ⟨c, hcm, List.mem_map.2 ⟨x, hx, rfl⟩⟩
          rw [hC] at this
          obtain ⟨p, hp, hx'⟩ := List.mem_flatMap.1 this
          split at hx'
          · cases hx'
          · obtain ⟨y, hy, he⟩ := List.mem_map.1 hx'
            simp only [Prod.mk.injEq] at he
            obtain ⟨e1, e2, e3⟩ := he
            refine ⟨p, hp, e1.symm, e2.symm, ?_⟩
            rw [← e3]
            exact (List.mem_filter.1 (List.mem_filter.1 hy).1).1
        · have : (c.tableSchema, c.tableName, x.constraint) ∈
              m.addForeignKeyCmds.flatMap fun c => c.addConstraintCmds.map fun x => (c.tableSchema, c.tableName, x.constraint) :=
            List.mem_flatMap.2 ⟨c, hcm, List.mem_map.2 ⟨x, hx, rfl⟩⟩
          rw [hF] at this
          obtain ⟨p, hp, hx'⟩ := List.mem_flatMap.1 this
          obtain ⟨y, hy, he⟩ := List.mem_map.1 hx'
          simp only [Prod.mk.injEq] at he
          obtain ⟨e1, e2, e3⟩ := he
          refine ⟨p, hp, e1.symm, e2.symm, ?_⟩
          rw [← e3]
          exact (List.mem_filter.1 (List.mem_filter.1 hy).1).1
      obtain ⟨p, hp, e1, e2, hx⟩ := key
      refine ⟨p.2, ?_, e2.symm, x.constraint, hx, rfl⟩
      rw [e1, hpt p hp]; exact hp
  · -- wanted is there or created
    rintro ⟨T, hT, rfl, x, hx, rfl⟩
    have hTs : T.tableSchema = s := hpt _ hT
    by_cases hfk : x.constraintType = .foreignKey
    · -- foreign keys
      by_cases hex : find (existing got (s, T) Table.constraints) x.constraintName = none
      · have : (T.tableSchema, T.tableName, x) ∈
            m.addForeignKeyCmds.flatMap fun c => c.addConstraintCmds.map fun x => (c.tableSchema, c.tableName, x.constraint) := by
          rw [hF]
          refine List.mem_flatMap.2 ⟨_, hT, List.mem_map.2 ⟨x, List.mem_filter.2 ⟨List.mem_filter.2 ⟨hx, ?_⟩, by simpa using hfk⟩, rfl⟩⟩
          exact Option.isNone_iff_eq_none.2 hex
        obtain ⟨c, hcm, hx'⟩ := List.mem_flatMap.1 this
        obtain ⟨y, hy, he⟩ := List.mem_map.1 hx'
        simp only [Prod.mk.injEq] at he
        exact .inr (.inr ⟨c, List.mem_append.2 (.inr hcm), by rw [he.1, hTs], he.2.1, y, hy, by rw [he.2.2]⟩)
      · unfold existing at hex
        dsimp only at hex
        cases hgt : table? got s T.tableName with
        | none => rw [hgt] at hex; exact absurd rfl hex
        | some g =>
          rw [hgt] at hex
          obtain ⟨y, hy⟩ := Option.ne_none_iff_exists'.1 hex
          obtain ⟨h1, h2⟩ := find_some hy
          obtain ⟨sc, a, b, e, f⟩ := present_table hgt
          exact .inl ⟨sc, a, b, g, e, f, y, (mem_active.1 h1).1, h2⟩
    · cases hgt : table? got s T.tableName with
      | none =>
        refine .inr (.inl ⟨_, (mem_createTable hdia h hm hg _).2 ⟨_, hT, hgt, rfl⟩, hTs, rfl, rfl, x, hx, fun e => absurd e hfk, rfl⟩)
      | some g =>
        cases hex : find g.constraints x.constraintName with
        | some y =>
          obtain ⟨h1, h2⟩ := find_some hex
          obtain ⟨sc, a, b, e, f⟩ := present_table hgt
          exact .inl ⟨sc, a, b, g, e, f, y, (mem_active.1 h1).1, h2⟩
        | none =>
          have : (T.tableSchema, T.tableName, x) ∈
              m.alterTableCmds.flatMap fun c => c.addConstraintCmds.map fun x => (c.tableSchema, c.tableName, x.constraint) := by
            rw [hC]
            refine List.mem_flatMap.2 ⟨_, hT, ?_⟩
            simp only [hgt]
            refine List.mem_map.2 ⟨x, List.mem_filter.2 ⟨List.mem_filter.2 ⟨hx, ?_⟩, by simpa using hfk⟩, rfl⟩
            exact Option.isNone_iff_eq_none.2 hex
          obtain ⟨c, hcm, hx'⟩ := List.mem_flatMap.1 this
          obtain ⟨y, hy, he⟩ := List.mem_map.1 hx'
          simp only [Prod.mk.injEq] at he
          exact .inr (.inr ⟨c, List.mem_append.2 (.inl hcm), by rw [he.1, hTs], he.2.1, y, hy, by rw [he.2.2]⟩)
  · rintro ⟨sc, a, b, T, e, f, -⟩
    exact ⟨sc, a, b, T, e, f⟩
  · rintro ⟨T, hT, e, -⟩
    exact ⟨T, hT, e⟩

/-- C48, triggers. -/
theorem C48_triggers (hdia : migrateDialect got want = .ok d)
    (h : migrate mode got want = .ok m) (hc : mode &&& CreateMissing ≠ 0) (hd : mode &&& DropExtraneous ≠ 0) (hg : MetaOk got) (hw : MetaOk want)
    (hpg : Placed got) (hpw : PlacedNames want) (hpp : PlacedParts want) (hn : SchemasNamed got.currentSchema want)
    (hv : d = .sqlite → ∀ s ∈ got.schemas, ∀ v ∈ s.views, v.isMaterialized = false) (s t n : Str)
    (hnv : ¬ Has got.currentSchema want (.view s t)) :
    AfterParts got m (.trigger s t n) ↔ Has got.currentSchema want (.trigger s t n) := by
  have hm : has mode CreateMissing = true := by unfold has; simpa using hc
  have hm' : has mode DropExtraneous = true := by unfold has; simpa using hd
  obtain ⟨hpt, hpv⟩ := placedName hn hpw
  have hT := C37_triggers hdia h hm hg
  refine converges_of hdia h hm' hw hpg hn hv _ s t rfl ?_ ?_ ?_ ?_ id
  · rintro ⟨c, hcm, rfl, rfl, rfl⟩
    have : c.trigger ∈ m.createTriggerCmds.map CreateTriggerCommand.trigger := List.mem_map.2 ⟨c, hcm, rfl⟩
    rw [hT] at this
    obtain ⟨sc, hsc, hx⟩ := List.mem_flatMap.1 this
    dsimp only at hx
    rw [schemaName_eq hn hsc] at hx
    rcases List.mem_append.1 hx with hx | hx
    · obtain ⟨T, hTm, hx⟩ := List.mem_flatMap.1 hx
      have hxa := (List.mem_filter.1 hx).1
      obtain ⟨e1, e2⟩ := ((hpp sc hsc).1 T hTm).triggers _ hxa
      refine ⟨T, ?_, e2.symm, _, hxa, rfl⟩
      rw [e1]
      exact (mem_allTables hn).2 ⟨sc, hsc, ((hpw sc hsc).1 T hTm).symm, hTm⟩
    · obtain ⟨v, hvm, hx⟩ := List.mem_flatMap.1 hx
      have hvm := (List.mem_filter.1 hvm).1
      split at hx
      · obtain ⟨e1, e2⟩ := ((hpp sc hsc).2 v hvm).triggers _ hx
        refine absurd ?_ hnv
        rw [e1, e2]
        exact ⟨v, (mem_allViews hn).2 ⟨sc, hsc, ((hpw sc hsc).2 v hvm).symm, hvm⟩, rfl⟩
      · cases hx
  · rintro ⟨T, hTm, rfl, x, hx, rfl⟩
    obtain ⟨sc, hsc, e, hTa⟩ := (mem_allTables hn).1 hTm
    dsimp only at e hTa
    obtain ⟨e1, e2⟩ := ((hpp sc hsc).1 T hTa).triggers _ hx
    by_cases hex : find (existing got (s, T) Table.triggers) x.triggerName = none
    · have : x ∈ m.createTriggerCmds.map CreateTriggerCommand.trigger := by
        rw [hT]
        refine List.mem_flatMap.2 ⟨sc, hsc, ?_⟩
        dsimp only
        rw [schemaName_eq hn hsc, e]
        exact List.mem_append.2 (.inl (List.mem_flatMap.2 ⟨T, hTa, List.mem_filter.2 ⟨hx, Option.isNone_iff_eq_none.2 hex⟩⟩))
      obtain ⟨c, hcm, rfl⟩ := List.mem_map.1 this
      exact .inr ⟨c, hcm, by rw [e1]; exact hpt _ hTm, e2, rfl⟩
    · unfold existing at hex
      dsimp only at hex
      cases hgt : table? got s T.tableName with
      | none => rw [hgt] at hex; exact absurd rfl hex
      | some g =>
        rw [hgt] at hex
        obtain ⟨y, hy⟩ := Option.ne_none_iff_exists'.1 hex
        obtain ⟨h1, h2⟩ := find_some hy
        obtain ⟨sc, a, b, e, f⟩ := present_table hgt
        exact .inl ⟨sc, a, b, g, e, f, y, (mem_active.1 h1).1, h2⟩
  · rintro ⟨sc, a, b, T, e, f, -⟩
    exact ⟨sc, a, b, T, e, f⟩
  · rintro ⟨T, hT, e, -⟩
    exact ⟨T, hT, e⟩

/-- The indexes that ALTER TABLE adds are missing indexes of the table it alters. -/
theorem mem_alterIndexes (hdia : migrateDialect got want = .ok d) (h : migrate mode got want = .ok m) (hm : has mode CreateMissing = true)
    (hg : MetaOk got) (c : AlterTableCommand) (hcm : c ∈ m.alterTableCmds) (x : CreateIndexCommand) (hx : x ∈ c.createIndexCmds) :
    ∃ p ∈ allTables got.currentSchema want, c.tableSchema = p.2.tableSchema ∧ c.tableName = p.2.tableName ∧ x.index ∈ active p.2.indexes := by
  have := tables_proj Migration.alterTableCmds rfl (fun _ _ => rfl) (fun _ _ _ => rfl) (fun _ _ _ _ _ => rfl) (fun _ _ => rfl)
    (fun d gs v => by unfold wantView; split <;> rfl) hdia h (.inl hm)
  rw [this] at hcm
  obtain ⟨p, hp, hcm⟩ := List.mem_flatMap.1 hcm
  refine ⟨p, hp, ?_⟩
  unfold wantTable at hcm
  dsimp only at hcm
  have key : ∀ c : AlterTableCommand, c = wantAlter mode d (gotSchemaFor got p.1) p.2 → x ∈ c.createIndexCmds →
      c.tableSchema = p.2.tableSchema ∧ c.tableName = p.2.tableName ∧ x.index ∈ active p.2.indexes := by
    rintro c rfl hx
    refine ⟨rfl, rfl, ?_⟩
    unfold wantAlter at hx
    dsimp only at hx
    split at hx
    · exact ((new_indexes hg p x.index).1 ⟨x, hx, rfl⟩).1
    · cases hx
  split at hcm
  · -- SQLite: no indexes in ALTER TABLE
    exfalso
    have hall : ∀ c ∈ decomposeAlterTable (wantAlter mode d (gotSchemaFor got p.1) p.2), c.createIndexCmds = [] := by
      intro c hc
      unfold decomposeAlterTable at hc
      rcases List.mem_append.1 hc with hc | hc <;> obtain ⟨_, _, rfl⟩ := List.mem_map.1 hc <;> rfl
    rw [hall c hcm] at hx
    cases hx
  · split at hcm
    · exact key c (by simpa using hcm) hx
    · cases hcm

/-- C48, indexes. -/
theorem C48_indexes (hdia : migrateDialect got want = .ok d)
    (h : migrate mode got want = .ok m) (hc : mode &&& CreateMissing ≠ 0) (hd : mode &&& DropExtraneous ≠ 0) (hg : MetaOk got) (hw : MetaOk want)
    (hpg : Placed got) (hpw : PlacedNames want) (hpp : PlacedParts want) (hn : SchemasNamed got.currentSchema want)
    (hv : d = .sqlite → ∀ s ∈ got.schemas, ∀ v ∈ s.views, v.isMaterialized = false) (s t n : Str)
    (hnv : ¬ Has got.currentSchema want (.view s t)) :
    AfterParts got m (.index s t n) ↔ Has got.currentSchema want (.index s t n) := by
  have hm : has mode CreateMissing = true := by unfold has; simpa using hc
  have hm' : has mode DropExtraneous = true := by unfold has; simpa using hd
  obtain ⟨hpt, hpv⟩ := placedName hn hpw
  refine converges_of hdia h hm' hw hpg hn hv _ s t rfl ?_ ?_ ?_ ?_ id
  · rintro (⟨c, hcm, rfl, rfl, x, hx, rfl⟩ | ⟨c, hcm, rfl, rfl, x, hx, rfl⟩ | ⟨c, hcm, rfl, rfl, rfl⟩)
    · obtain ⟨p, hp, -, rfl⟩ := (mem_createTable hdia h hm hg c).1 hcm
      dsimp only at hx ⊢
      split at hx
      · exact ⟨p.2, by rw [hpt p hp]; exact hp, rfl, _, ((new_indexes hg p x.index).1 ⟨x, hx, rfl⟩).1, rfl⟩
      · cases hx
    · obtain ⟨p, hp, e1, e2, hxa⟩ := mem_alterIndexes hdia h hm hg c hcm x hx
      exact ⟨p.2, by rw [e1, hpt p hp]; exact hp, e2.symm, _, hxa, rfl⟩
    · by_cases hmy : d = .mysql
      · subst hmy
        rw [(C37_indexes_mysql hdia h hm hg).2.2] at hcm
        cases hcm
      · have : c.index ∈ m.createIndexCmds.map CreateIndexCommand.index := List.mem_map.2 ⟨c, hcm, rfl⟩
        rw [C37_indexes hdia h hm hg hmy] at this
        obtain ⟨sc, hsc, hx⟩ := List.mem_flatMap.1 this
        dsimp only at hx
        rw [schemaName_eq hn hsc] at hx
        rcases List.mem_append.1 hx with hx | hx
        · obtain ⟨T, hTm, hx⟩ := List.mem_flatMap.1 hx
          have hxa := (List.mem_filter.1 hx).1
          obtain ⟨e1, e2⟩ := ((hpp sc hsc).1 T hTm).indexes _ hxa
          refine ⟨T, ?_, e2.symm, _, hxa, rfl⟩
          rw [e1]
          exact (mem_allTables hn).2 ⟨sc, hsc, ((hpw sc hsc).1 T hTm).symm, hTm⟩
        · obtain ⟨v, hvm, hx⟩ := List.mem_flatMap.1 hx
          have hvm := (List.mem_filter.1 hvm).1
          split at hx
          · obtain ⟨e1, e2⟩ := ((hpp sc hsc).2 v hvm).indexes _ hx
            refine absurd ?_ hnv
            rw [e1, e2]
            exact ⟨v, (mem_allViews hn).2 ⟨sc, hsc, ((hpw sc hsc).2 v hvm).symm, hvm⟩, rfl⟩
          · cases hx
  · rintro ⟨T, hTm, rfl, x, hx, rfl⟩
    have hTs : T.tableSchema = s := hpt _ hTm
    obtain ⟨sc, hsc, e, hTa⟩ := (mem_allTables hn).1 hTm
    dsimp only at e hTa
    obtain ⟨e1, e2⟩ := ((hpp sc hsc).1 T hTa).indexes _ hx
    by_cases hex : find (existing got (s, T) Table.indexes) x.indexName = none
    · refine .inr ?_
      by_cases hmy : d = .mysql
      · subst hmy
        cases hgt : table? got s T.tableName with
        | none =>
          obtain ⟨c, hcm, hce⟩ := (new_indexes (d := .mysql) hg (s, T) x).2 ⟨hx, hex⟩
          exact .inl ⟨_, (mem_createTable hdia h hm hg _).2 ⟨_, hTm, hgt, rfl⟩, hTs, rfl, c, by simpa using hcm, by rw [hce]⟩
        | some g =>
          have : x ∈ m.alterTableCmds.flatMap fun c => c.createIndexCmds.map CreateIndexCommand.index := by
            rw [(C37_indexes_mysql hdia h hm hg).2.1]
            refine List.mem_flatMap.2 ⟨_, hTm, ?_⟩
            simp only [hgt]
            unfold existing at hex
            dsimp only at hex
            rw [hgt] at hex
            exact List.mem_filter.2 ⟨hx, Option.isNone_iff_eq_none.2 hex⟩
          obtain ⟨c, hcm, hx'⟩ := List.mem_flatMap.1 this
          obtain ⟨y, hy, rfl⟩ := List.mem_map.1 hx'
          obtain ⟨p, hp, f1, f2, hya⟩ := mem_alterIndexes hdia h hm hg c hcm y hy
          obtain ⟨sc', hsc', -, hpa⟩ := (mem_allTables hn).1 hp
          obtain ⟨g1, g2⟩ := ((hpp sc' hsc').1 p.2 hpa).indexes _ hya
          exact .inr (.inl ⟨c, hcm, by rw [f1, ← g1, e1, hTs], by rw [f2, ← g2, e2], y, hy, rfl⟩)
      · have : x ∈ m.createIndexCmds.map CreateIndexCommand.index := by
          rw [C37_indexes hdia h hm hg hmy]
          refine List.mem_flatMap.2 ⟨sc, hsc, ?_⟩
          dsimp only
          rw [schemaName_eq hn hsc, e]
          exact List.mem_append.2 (.inl (List.mem_flatMap.2 ⟨T, hTa, List.mem_filter.2 ⟨hx, Option.isNone_iff_eq_none.2 hex⟩⟩))
        obtain ⟨c, hcm, rfl⟩ := List.mem_map.1 this
        exact .inr (.inr ⟨c, hcm, by rw [e1, hTs], e2, rfl⟩)
    · unfold existing at hex
      dsimp only at hex
      cases hgt : table? got s T.tableName with
      | none => rw [hgt] at hex; exact absurd rfl hex
      | some g =>
        rw [hgt] at hex
        obtain ⟨y, hy⟩ := Option.ne_none_iff_exists'.1 hex
        obtain ⟨h1, h2⟩ := find_some hy
        obtain ⟨sc, a, b, e, f⟩ := present_table hgt
        exact .inl ⟨sc, a, b, g, e, f, y, (mem_active.1 h1).1, h2⟩
  · rintro ⟨sc, a, b, T, e, f, -⟩
    exact ⟨sc, a, b, T, e, f⟩
  · rintro ⟨T, hT, e, -⟩
    exact ⟨T, hT, e⟩

/-- The example declaration (a table with a primary key, a foreign key and two indexes) meets the hypotheses. -/
example : PlacedParts (exampleWant "public".toList) ∧
    ((active (exampleWant "public".toList).schemas).flatMap fun s => s.tables.flatMap fun t => t.indexes.map (·.indexName)) =
      ["film_title_idx".toList, "film_year_idx".toList] := by
  refine ⟨?_, by decide +kernel⟩
  have h : ∀ s ∈ active (exampleWant "public".toList).schemas,
      (∀ t ∈ active s.tables, (∀ x ∈ active t.indexes, x.tableSchema = t.tableSchema ∧ x.tableName = t.tableName) ∧
        ∀ x ∈ active t.triggers, x.tableSchema = t.tableSchema ∧ x.tableName = t.tableName) ∧
      ∀ v ∈ active s.views, (∀ x ∈ active v.indexes, x.tableSchema = v.viewSchema ∧ x.tableName = v.viewName) ∧
        ∀ x ∈ active v.triggers, x.tableSchema = v.viewSchema ∧ x.tableName = v.viewName := by decide +kernel
  exact fun s hs => ⟨fun t ht => ⟨((h s hs).1 t ht).1, ((h s hs).1 t ht).2⟩, fun v hv => ⟨((h s hs).2 v hv).1, ((h s hs).2 v hv).2⟩⟩

/-- C48 (constraints on SQLite, violated): an existing SQLite table never gets a wanted constraint, whatever the mode. -/
theorem C48_sqlite_constraint_violated : ∃ got want m, migrateDialect got want = .ok .sqlite ∧
    migrate (CreateMissing ||| UpdateExisting ||| DropExtraneous) got want = .ok m ∧
    Has got.currentSchema want (.constraint [] "t".toList "t_a_key".toList) ∧ ¬ AfterParts got m (.constraint [] "t".toList "t_a_key".toList) := by
  let t : Table := { tableName := "t".toList, columns := [{ columnName := "a".toList, columnType := "INT".toList }], columnCache := [("a".toList, 0)] }
  let k : Constraint := { constraintName := "t_a_key".toList, constraintType := .unique, columns := ["a".toList] }
  let dbOf (t : Table) : DatabaseMetadata :=
    { dialect := some .sqlite, schemas := [{ schemaName := [], tables := [t], tableCache := [("t".toList, 0)] }], schemaCache := [([], 0)] }
  let got := dbOf t
  let want := dbOf { t with constraints := [k], constraintCache := [("t_a_key".toList, 0)] }
  have hm : ∃ m, migrate (CreateMissing ||| UpdateExisting ||| DropExtraneous) got want = .ok m ∧ m.createTableCmds = [] ∧ m.alterTableCmds = [] ∧
      m.addForeignKeyCmds = [] := ⟨_, rfl, by decide +kernel, by decide +kernel, by decide +kernel⟩
  obtain ⟨m, hm, h1, h2, h3⟩ := hm
  refine ⟨got, want, m, by decide +kernel, hm, ⟨_, List.mem_singleton.2 rfl, rfl, k, List.mem_singleton.2 rfl, rfl⟩, ?_⟩
  rintro ⟨hp | hc, -⟩
  · obtain ⟨sc, hsc, -, T, hT, -, c, hc, -⟩ := hp
    have : ∀ sc ∈ active got.schemas, ∀ T ∈ active sc.tables, T.constraints = [] := by decide +kernel
    rw [this sc hsc T hT] at hc
    cases hc
  · simp [createdPart, h1, h2, h3] at hc

end Ddl.ConvergeParts
