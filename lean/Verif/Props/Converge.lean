import Verif.Props.Modes
/-
C48: running the migration leads to the wanted state.
C37: nothing is created twice.
-/
namespace Ddl
open Spec

namespace Spec

/-- What a migration creates: tables (with their columns), added columns, views. -/
def created (m : Migration) : Obj → Prop
  | .table s n => ∃ c ∈ m.createTableCmds, c.table.tableSchema = s ∧ c.table.tableName = n
  | .column s t n =>
    (∃ c ∈ m.createTableCmds, c.table.tableSchema = s ∧ c.table.tableName = t ∧ ∃ x ∈ active c.table.columns, x.columnName = n) ∨
    (∃ c ∈ m.alterTableCmds, c.tableSchema = s ∧ c.tableName = t ∧ ∃ x ∈ c.addColumnCmds, x.column.columnName = n)
  | .view s n => ∃ c ∈ m.createViewCmds, c.view.viewSchema = s ∧ c.view.viewName = n
  | _ => False

/-- What is there after running the migration: what was there or was created, and was not dropped (nor its table). -/
def After (got : DatabaseMetadata) (m : Migration) (o : Obj) : Prop :=
  (Present got o ∨ created m o) ∧ o ∉ drops m ∧ ∀ s t n, o = .column s t n → .table s t ∉ drops m

/-- Wanted tables and views carry the name of their schema. -/
def PlacedNames (d : DatabaseMetadata) : Prop :=
  ∀ s ∈ active d.schemas, (∀ t ∈ active s.tables, t.tableSchema = s.schemaName) ∧ ∀ v ∈ active s.views, v.viewSchema = s.schemaName

end Spec

theorem placedName {cur : Str} {want : DatabaseMetadata} (hn : SchemasNamed cur want) (hp : PlacedNames want) :
    (∀ p ∈ allTables cur want, p.2.tableSchema = p.1) ∧ ∀ p ∈ allViews cur want, p.2.viewSchema = p.1 := by
  constructor
  · rintro ⟨n, t⟩ h
    obtain ⟨s, hs, h⟩ := List.mem_flatMap.1 h
    obtain ⟨t', ht, he⟩ := List.mem_map.1 h
    rw [schemaName_eq hn hs] at he
    cases he
    exact (hp s hs).1 t ht
  · rintro ⟨n, t⟩ h
    obtain ⟨s, hs, h⟩ := List.mem_flatMap.1 h
    obtain ⟨t', ht, he⟩ := List.mem_map.1 h
    rw [schemaName_eq hn hs] at he
    cases he
    exact (hp s hs).2 t ht

/-- The tables asked for are distinct. -/
theorem allTables_nodup {cur : Str} {want : DatabaseMetadata} (hw : MetaOk want) (hn : SchemasNamed cur want) :
    ((allTables cur want).map fun p => (p.1, p.2.tableName)).Nodup := by
  have h1 : (allTables cur want).map (fun p => (p.1, p.2.tableName)) =
      (active want.schemas).flatMap fun s => (active s.tables).map fun t => (s.schemaName, t.tableName) := by
    unfold allTables
    rw [List.map_flatMap]
    refine flatMap_congr_mem fun s hs => ?_
    rw [List.map_map, schemaName_eq hn hs]
    rfl
  rw [h1]
  unfold List.Nodup
  rw [List.pairwise_flatMap]
  refine ⟨fun s hs => ?_, ?_⟩
  · have := (hw.schema s hs).tables.unique
    unfold Unique List.Nodup at this
    rw [List.pairwise_map] at this ⊢
    exact this.imp fun hne he => hne (Prod.mk.inj he).2
  · have := hw.schemas.unique
    unfold Unique List.Nodup at this
    rw [List.pairwise_map] at this
    refine this.imp fun {a b} hne x hx y hy he => ?_
    obtain ⟨t, -, rfl⟩ := List.mem_map.1 hx
    obtain ⟨t', -, rfl⟩ := List.mem_map.1 hy
    exact hne (Prod.mk.inj he).1

/-- C37: no table is created twice. -/
theorem C37_once {mode : Mode} {got want : DatabaseMetadata} {d : Dialect} {m : Migration} (hdia : migrateDialect got want = .ok d)
    (h : migrate mode got want = .ok m) (hm : has mode CreateMissing = true) (hg : MetaOk got) (hw : MetaOk want)
    (hn : SchemasNamed got.currentSchema want) (hp : PlacedNames want) :
    (m.createTableCmds.map fun c => (c.table.tableSchema, c.table.tableName)).Nodup := by
  have h1 := C37_tables hdia h hm hg
  have h2 : m.createTableCmds.map (fun c => (c.table.tableSchema, c.table.tableName)) =
      (m.createTableCmds.map CreateTableCommand.table).map fun t => (t.tableSchema, t.tableName) := by rw [List.map_map]; rfl
  rw [h2, h1, List.map_map]
  refine List.Nodup.sublist ?_ (allTables_nodup hw hn)
  have h3 : ((allTables got.currentSchema want).filter fun p => (table? got p.1 p.2.tableName).isNone).map
      ((fun t : Table => (t.tableSchema, t.tableName)) ∘ Prod.snd) =
      ((allTables got.currentSchema want).filter fun p => (table? got p.1 p.2.tableName).isNone).map fun p => (p.1, p.2.tableName) := by
    refine List.map_congr_left fun p hpm => ?_
    rw [Function.comp_apply, (placedName hn hp).1 p (List.mem_filter.1 hpm).1]
  rw [h3]
  exact List.filter_sublist.map _

/-- C48: with CreateMissing and DropExtraneous, after running the migration the database has exactly the wanted tables, views and
columns. -/
theorem C48_converges {mode : Mode} {got want : DatabaseMetadata} {d : Dialect} {m : Migration} (hdia : migrateDialect got want = .ok d)
    (h : migrate mode got want = .ok m) (hc : mode &&& CreateMissing ≠ 0) (hd : mode &&& DropExtraneous ≠ 0) (hg : MetaOk got) (hw : MetaOk want)
    (hpg : Placed got) (hpw : PlacedNames want) (hn : SchemasNamed got.currentSchema want)
    (hv : d = .sqlite → ∀ s ∈ got.schemas, ∀ v ∈ s.views, v.isMaterialized = false) (o : Obj)
    (ho : (∃ s n, o = .table s n) ∨ (∃ s t n, o = .column s t n) ∨ ∃ s n, o = .view s n) :
    After got m o ↔ Has got.currentSchema want o := by
  have hm : has mode CreateMissing = true := by unfold has; simpa using hc
  have hm' : has mode DropExtraneous = true := by unfold has; simpa using hd
  have hnf : ∀ s n, o ≠ .function s n := by rintro s n rfl; rcases ho with ⟨_, _, h⟩ | ⟨_, _, _, h⟩ | ⟨_, _, h⟩ <;> cases h
  have hne : ∀ n, o ≠ .extension n := by rintro n rfl; rcases ho with ⟨_, _, h⟩ | ⟨_, _, _, h⟩ | ⟨_, _, h⟩ <;> cases h
  have dropped := fun o hne h1 h2 h3 => C45_all_dropped_partial mode got want m d hdia h hm' hw hpg hn hv o h3 hne h1 h2
  have unwanted := C36_unwanted_partial mode got want m h hw hpg hn
  obtain ⟨hpt, hpv⟩ := placedName hn hpw
  -- created things are wanted
  have hT := C37_tables hdia h hm hg
  have hC := C37_columns hdia h hm hg
  have hV := C37_views hdia h hm hg
  have tabs : ∀ c ∈ m.createTableCmds, (c.table.tableSchema, c.table) ∈ allTables got.currentSchema want := by
    intro c hcm
    have : c.table ∈ m.createTableCmds.map CreateTableCommand.table := List.mem_map.2 ⟨c, hcm, rfl⟩
    rw [hT] at this
    obtain ⟨p, hp, he⟩ := List.mem_map.1 this
    have hpm := (List.mem_filter.1 hp).1
    have := hpt p hpm
    rw [← he, this]
    exact hpm
  have creT : ∀ p ∈ allTables got.currentSchema want, table? got p.1 p.2.tableName = none → ∃ c ∈ m.createTableCmds, c.table = p.2 := by
    intro p hp hnone
    have : p.2 ∈ m.createTableCmds.map CreateTableCommand.table := by
      rw [hT]
      exact List.mem_map.2 ⟨p, List.mem_filter.2 ⟨hp, by rw [hnone]; rfl⟩, rfl⟩
    obtain ⟨c, hcm, he⟩ := List.mem_map.1 this
    exact ⟨c, hcm, he⟩
  have presT : ∀ s n g, table? got s n = some g → ∃ sc ∈ active got.schemas, sc.schemaName = s ∧ g ∈ active sc.tables ∧ g.tableName = n := by
    intro s n g hs
    obtain ⟨h1, sc, h2, h3, h4⟩ := table?_some hs
    exact ⟨sc, h2, h3, h4, h1⟩
  rcases ho with ⟨s, n, rfl⟩ | ⟨s, tn, n, rfl⟩ | ⟨s, n, rfl⟩
  · -- tables
    constructor
    · rintro ⟨hpc, hnd, -⟩
      rcases hpc with hp | ⟨c, hcm, rfl, rfl⟩
      · refine Classical.byContradiction fun hno => ?_
        exact hnd (dropped _ hne hp hno (fun ⟨_, _, he⟩ => by cases he) trivial)
      · exact ⟨c.table, tabs c hcm, rfl⟩
    · intro hh
      refine ⟨?_, fun hdm => (unwanted _ hdm).2 hnf hne hh, fun _ _ _ he => by cases he⟩
      obtain ⟨t, htm, rfl⟩ := hh
      cases hgt : table? got s t.tableName with
      | none =>
        obtain ⟨c, hcm, he⟩ := creT _ htm hgt
        refine .inr ⟨c, hcm, ?_, by rw [he]⟩
        rw [he]; exact hpt _ htm
      | some g =>
        obtain ⟨sc, a, b, e, f⟩ := presT _ _ _ hgt
        exact .inl ⟨sc, a, b, g, e, f⟩
  · -- columns
    have hasT : Has got.currentSchema want (.column s tn n) → Has got.currentSchema want (.table s tn) := by
      rintro ⟨t, ht, rfl, -⟩
      exact ⟨t, ht, rfl⟩
    constructor
    · rintro ⟨hpc, hnd, hndt⟩
      rcases hpc with hp | hcr
      · refine Classical.byContradiction fun hno => ?_
        by_cases htw : Has got.currentSchema want (.table s tn)
        · exact hnd (dropped _ hne hp hno (fun ⟨_, _, he⟩ => by cases he) htw)
        · refine hndt s tn n rfl (dropped _ (fun _ he => by cases he) ?_ htw (fun ⟨_, _, he⟩ => by cases he) trivial)
          obtain ⟨sc, a, b, t, e, f, -⟩ := hp
          exact ⟨sc, a, b, t, e, f⟩
      · rcases hcr with ⟨c, hcm, rfl, rfl, x, hx, rfl⟩ | ⟨c, hcm, rfl, rfl, x, hx, rfl⟩
        · exact ⟨c.table, tabs c hcm, rfl, x, hx, rfl⟩
        · have : (c.tableSchema, c.tableName, x.column) ∈ m.alterTableCmds.flatMap addedColumns :=
            List.mem_flatMap.2 ⟨c, hcm, List.mem_map.2 ⟨x, hx, rfl⟩⟩
          rw [hC] at this
          obtain ⟨p, hpm, hx'⟩ := List.mem_flatMap.1 this
          split at hx'
          · cases hx'
          · rename_i g hgt
            obtain ⟨y, hy, he⟩ := List.mem_map.1 hx'
            have hym := (List.mem_filter.1 hy).1
            simp only [Prod.mk.injEq] at he
            obtain ⟨e1, e2, e3⟩ := he
            refine ⟨p.2, ?_, e2, y, hym, by rw [e3]⟩
            rw [← e1, hpt p hpm]
            exact hpm
    · intro hh
      refine ⟨?_, fun hdm => (unwanted _ hdm).2 hnf hne hh, fun s' t' n' he hdm => ?_⟩
      · obtain ⟨t, htm, rfl, c, hcm, rfl⟩ := hh
        cases hgt : table? got s t.tableName with
        | none =>
          obtain ⟨cmd, hcmd, he⟩ := creT _ htm hgt
          refine .inr (.inl ⟨cmd, hcmd, ?_, by rw [he], c, by rw [he]; exact hcm, rfl⟩)
          rw [he]; exact hpt _ htm
        | some g =>
          obtain ⟨sc, a, b, e, f⟩ := presT _ _ _ hgt
          cases hfc : find g.columns c.columnName with
          | some c' =>
            obtain ⟨h1, h2⟩ := find_some hfc
            exact .inl ⟨sc, a, b, g, e, f, c', (mem_active.1 h1).1, h2⟩
          | none =>
            refine .inr (.inr ?_)
            have : (s, t.tableName, c) ∈ m.alterTableCmds.flatMap addedColumns := by
              rw [hC]
              refine List.mem_flatMap.2 ⟨_, htm, ?_⟩
              simp only [hgt]
              refine List.mem_map.2 ⟨c, List.mem_filter.2 ⟨hcm, ?_⟩, by rw [hpt _ htm]⟩
              show (find g.columns c.columnName).isNone = true
              rw [hfc]; rfl
            obtain ⟨cmd, hcmd, hx⟩ := List.mem_flatMap.1 this
            obtain ⟨x, hx, he⟩ := List.mem_map.1 hx
            simp only [Prod.mk.injEq] at he
            exact ⟨cmd, hcmd, he.1, he.2.1, x, hx, by rw [he.2.2]⟩
      · cases he
        exact (unwanted _ hdm).2 (fun _ _ he => by cases he) (fun _ he => by cases he) (hasT hh)
  · -- views
    constructor
    · rintro ⟨hpc, hnd, -⟩
      rcases hpc with hp | ⟨c, hcm, rfl, rfl⟩
      · refine Classical.byContradiction fun hno => ?_
        exact hnd (dropped _ hne hp hno (fun ⟨_, _, he⟩ => by cases he) trivial)
      · have : c.view ∈ m.createViewCmds.map CreateViewCommand.view := List.mem_map.2 ⟨c, hcm, rfl⟩
        rw [hV] at this
        obtain ⟨p, hp, he⟩ := List.mem_map.1 this
        have hpm := (List.mem_filter.1 hp).1
        refine ⟨c.view, ?_, rfl⟩
        rw [← he, hpv p hpm]
        exact hpm
    · intro hh
      refine ⟨?_, fun hdm => (unwanted _ hdm).2 hnf hne hh, fun _ _ _ he => by cases he⟩
      obtain ⟨v, hvm, rfl⟩ := hh
      cases hgv : view? got s v.viewName with
      | none =>
        have : v ∈ m.createViewCmds.map CreateViewCommand.view := by
          rw [hV]
          exact List.mem_map.2 ⟨_, List.mem_filter.2 ⟨hvm, by simp only [hgv]; rfl⟩, rfl⟩
        obtain ⟨c, hcm, he⟩ := List.mem_map.1 this
        exact .inr ⟨c, hcm, by rw [he]; exact hpv _ hvm, by rw [he]⟩
      | some g =>
        unfold view? at hgv
        obtain ⟨sc, h1, h2⟩ := Option.bind_eq_some_iff.1 hgv
        obtain ⟨h3, h4⟩ := find_some h1
        obtain ⟨h5, h6⟩ := find_some h2
        exact .inl ⟨sc, h3, h4, g, (mem_active.1 h5).1, h6⟩

/-- The example database and declaration are as the theorem asks; the wanted table `film` had no column `year`. -/
example : PlacedNames (exampleWant "public".toList) ∧ (CreateMissing ||| DropExtraneous) &&& CreateMissing ≠ 0 := by
  refine ⟨?_, by decide⟩
  unfold PlacedNames
  decide +kernel

end Ddl
