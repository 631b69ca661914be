import Verif.Props.Converge
/-
C49: with UpdateExisting, an existing column that differs from the wanted one is altered.
-/
namespace Ddl
open Spec

instance (d : Dialect) (a b : Column) : Decidable (SameColumn d a b) := by
  unfold SameColumn; infer_instance

theorem diffColumn_none_iff {d : Dialect} {a b : Column} : diffColumn d a b = none ↔ SameColumn d a b := by
  refine ⟨fun h => ?_, diffColumn_same⟩
  unfold diffColumn at h
  dsimp only at h
  split at h
  · cases h
  · rename_i hne
    unfold SameColumn
    by_cases hd : d = .postgres <;> by_cases h1 : a.columnDefault = [] <;> by_cases h2 : b.columnDefault = [] <;>
      by_cases h3 : a.identity = [] <;> by_cases h4 : b.identity = [] <;> cases h5 : a.isNotNull <;> cases h6 : b.isNotNull <;>
      simp_all

/-- The columns a migration alters, with their table. -/
def alteredColumns (m : Migration) : List (Str × Str × AlterColumnCommand) :=
  m.alterTableCmds.flatMap fun c => c.alterColumnCmds.map fun x => (c.tableSchema, c.tableName, x)

/-- The wanted columns that exist but differ, with the existing ones. -/
def differing (d : Dialect) (want have' : List Column) : List (Column × Column) :=
  (active want).flatMap fun c => match find have' c.columnName with
    | some c' => if SameColumn d c' c then [] else [(c', c)]
    | none => []

theorem columnCmds_alter (mode : Mode) (hm : has mode UpdateExisting = true) (d : Dialect) (g : Table) (hg : ListOk g.columns g.columnCache) (cs : List Column) :
    (cs.map (columnCmds mode d g)).flatMap Prod.snd =
      (differing d cs g.columns).flatMap fun p => match diffColumn d p.1 p.2 with
        | some cmd => [if d = .mysql then { cmd with column := p.2 } else cmd]
        | none => [] := by
  induction cs with
  | nil => rfl
  | cons c cs ih =>
    rw [List.map_cons, List.flatMap_cons, ih]
    unfold differing active
    cases hi : c.ignore with
    | true =>
      rw [columnCmds_ignored _ _ _ hi, List.filter_cons_of_neg (by show ¬ (!c.ignore) = true; rw [hi]; decide)]
      rfl
    | false =>
      rw [List.filter_cons_of_pos (by show (!c.ignore) = true; rw [hi]; rfl), List.flatMap_cons, List.flatMap_append]
      congr 1
      have hl := lookup_find hg c.columnName
      unfold columnCmds Table.cachedColumnPosition
      rw [hi]
      simp only [Bool.false_eq_true, if_false, hm, if_true]
      cases hp : (cachedPosition g.columns g.columnCache c.columnName).1 with
      | none =>
        simp only [hp] at hl
        rw [← hl]
        simp only [List.flatMap_nil]
        split <;> rfl
      | some n =>
        simp only [hp] at hl
        obtain ⟨x, hx, -⟩ := cachedPosition_sound _ _ _ _ hp
        rw [hx] at hl
        rw [← hl]
        simp only [hx, Option.getD_some]
        by_cases hs : SameColumn d x c
        · rw [if_pos hs, diffColumn_same hs]; rfl
        · rw [if_neg hs, List.flatMap_singleton]
          dsimp only
          split
          · rename_i cmd hcmd
            rw [hcmd]
          · rename_i hnone
            exact absurd (diffColumn_none_iff.1 hnone) hs

variable {mode : Mode} {got want : DatabaseMetadata} {d : Dialect} {m : Migration}

theorem altered_eq (hdia : migrateDialect got want = .ok d) (h : migrate mode got want = .ok m) (hm : mode &&& UpdateExisting ≠ 0)
    (hg : MetaOk got) (hs : d ≠ .sqlite) : alteredColumns m =
      (allTables got.currentSchema want).flatMap fun p => match table? got p.1 p.2.tableName with
        | none => []
        | some g => (differing d p.2.columns g.columns).flatMap fun x => match diffColumn d x.1 x.2 with
          | some cmd => [(p.2.tableSchema, p.2.tableName, if d = .mysql then { cmd with column := x.2 } else cmd)]
          | none => [] := by
  have hm' : has mode UpdateExisting = true := by unfold has; simpa using hm
  have := tables_proj alteredColumns rfl (fun a b => by simp [alteredColumns, Migration.append])
    (fun _ _ _ => rfl) (fun _ _ _ _ _ => rfl) (fun _ _ => rfl)
    (fun d gs v => by unfold wantView; split <;> rfl) hdia h (.inr hm')
  rw [this]
  refine flatMap_congr_mem fun p _ => ?_
  have hA : alteredColumns (wantTable mode d (gotSchemaFor got p.1) p.2) =
      (wantAlter mode d (gotSchemaFor got p.1) p.2).alterColumnCmds.map fun x => (p.2.tableSchema, p.2.tableName, x) := by
    unfold alteredColumns wantTable
    dsimp only
    rw [if_neg hs]
    split
    · rw [List.flatMap_singleton]; rfl
    · rename_i hne
      simp only [not_or, ne_eq, Decidable.not_not] at hne
      rw [hne.2.1]; rfl
  rw [hA]
  unfold wantAlter
  dsimp only
  rw [gotTableFor_eq hg, gotOrEmpty_eq hg]
  cases hgt : table? got p.1 p.2.tableName with
  | none => rfl
  | some g =>
    simp only [Option.isSome_some, if_true, Option.getD_some]
    rw [columnCmds_alter mode hm' d g (gotTable_ok hg hgt).columns, List.map_flatMap]
    refine flatMap_congr_mem fun x _ => ?_
    split <;> rfl

/-- C49, MySQL: with UpdateExisting, exactly the existing columns that differ are altered, each by a command that names the column and
carries all of the wanted definition. -/
theorem C49_mysql (hdia : migrateDialect got want = .ok .mysql) (h : migrate mode got want = .ok m) (hm : mode &&& UpdateExisting ≠ 0)
    (hg : MetaOk got) : (alteredColumns m).map (fun x => (x.1, x.2.1, x.2.2.column)) =
      (allTables got.currentSchema want).flatMap fun p => match table? got p.1 p.2.tableName with
        | none => []
        | some g => (differing .mysql p.2.columns g.columns).map fun x => (p.2.tableSchema, p.2.tableName, x.2) := by
  rw [altered_eq hdia h hm hg (by decide), List.map_flatMap]
  refine flatMap_congr_mem fun p _ => ?_
  split
  · rfl
  · rename_i g hgt
    rw [List.map_flatMap]
    have : ∀ l : List (Column × Column), (∀ x ∈ l, ¬ SameColumn .mysql x.1 x.2) →
        (l.flatMap fun a => List.map (fun x : Str × Str × AlterColumnCommand => (x.1, x.2.1, x.2.2.column)) (match diffColumn .mysql a.1 a.2 with
          | some cmd => [(p.2.tableSchema, p.2.tableName, if Dialect.mysql = .mysql then { cmd with column := a.2 } else cmd)]
          | none => [])) = l.map fun x => (p.2.tableSchema, p.2.tableName, x.2) := by
      intro l hl
      induction l with
      | nil => rfl
      | cons x l ih =>
        rw [List.flatMap_cons, List.map_cons, ih fun y hy => hl y (List.mem_cons_of_mem _ hy)]
        cases hd : diffColumn .mysql x.1 x.2 with
        | none => exact absurd (diffColumn_none_iff.1 hd) (hl x (List.mem_cons_self ..))
        | some cmd => rfl
    refine this _ ?_
    rintro ⟨a, b⟩ hx
    obtain ⟨c, -, hx⟩ := List.mem_flatMap.1 hx
    split at hx
    · split at hx
      · cases hx
      · rename_i hns
        cases List.mem_singleton.1 hx
        exact hns
    · cases hx

/-- C49, Postgres, partly: a command is produced for exactly the existing columns that differ, and what it changes is right: the wanted type if the
types differ, NOT NULL set or dropped, a default or identity set or dropped.  Missing: the command does not name its column
(`C49_postgres_unnamed_violated`), and a change of one default into another is not noticed (`C49_default_violated`). -/
theorem C49_postgres_partial (hdia : migrateDialect got want = .ok .postgres) (h : migrate mode got want = .ok m) (hm : mode &&& UpdateExisting ≠ 0)
    (hg : MetaOk got) : ∃ f : Column × Column → AlterColumnCommand,
      (alteredColumns m = (allTables got.currentSchema want).flatMap fun p => match table? got p.1 p.2.tableName with
        | none => []
        | some g => (differing .postgres p.2.columns g.columns).map fun x => (p.2.tableSchema, p.2.tableName, f x)) ∧
      ∀ a b, (f (a, b)).column.columnType = (if eqFold a.columnType b.columnType then [] else b.columnType) ∧
        (f (a, b)).column.isNotNull = (!a.isNotNull && b.isNotNull) ∧ (f (a, b)).dropNotNull = (a.isNotNull && !b.isNotNull) ∧
        (f (a, b)).column.columnDefault = (if a.columnDefault = [] then b.columnDefault else []) ∧
        ((f (a, b)).dropDefault = true ↔ a.columnDefault ≠ [] ∧ b.columnDefault = []) ∧
        (f (a, b)).column.identity = (if a.identity = [] then b.identity else []) ∧
        ((f (a, b)).dropIdentity = true ↔ a.identity ≠ [] ∧ b.identity = []) := by
  refine ⟨fun x => (diffColumn .postgres x.1 x.2).getD {}, ?_, ?_⟩
  · rw [altered_eq hdia h hm hg (by decide)]
    refine flatMap_congr_mem fun p _ => ?_
    split
    · rfl
    · rename_i g hgt
      have : ∀ l : List (Column × Column), (∀ x ∈ l, ¬ SameColumn .postgres x.1 x.2) →
          (l.flatMap fun a => (match diffColumn .postgres a.1 a.2 with
            | some cmd => [(p.2.tableSchema, p.2.tableName, if Dialect.postgres = .mysql then { cmd with column := a.2 } else cmd)]
            | none => [])) = l.map fun x => (p.2.tableSchema, p.2.tableName, (diffColumn .postgres x.1 x.2).getD {}) := by
        intro l hl
        induction l with
        | nil => rfl
        | cons x l ih =>
          rw [List.flatMap_cons, List.map_cons, ih fun y hy => hl y (List.mem_cons_of_mem _ hy)]
          cases hd : diffColumn .postgres x.1 x.2 with
          | none => exact absurd (diffColumn_none_iff.1 hd) (hl x (List.mem_cons_self ..))
          | some cmd => rfl
      refine this _ ?_
      rintro ⟨a, b⟩ hx
      obtain ⟨c, -, hx⟩ := List.mem_flatMap.1 hx
      split at hx
      · split at hx
        · cases hx
        · rename_i hns
          cases List.mem_singleton.1 hx
          exact hns
      · cases hx
  · intro a b
    unfold diffColumn
    dsimp only
    split
    · simp only [Option.getD_some]
      refine ⟨?_, trivial, trivial, ?_, ?_, ?_, ?_⟩
      · cases eqFold a.columnType b.columnType <;> rfl
      · by_cases h1 : a.columnDefault = [] <;> by_cases h2 : b.columnDefault = [] <;> simp [h1, h2]
      · simp
      · by_cases h1 : a.identity = [] <;> by_cases h2 : b.identity = [] <;> simp [h1, h2]
      · simp
    · rename_i hne
      simp only [Option.getD_none]
      by_cases h1 : a.columnDefault = [] <;> by_cases h2 : b.columnDefault = [] <;>
      by_cases h3 : a.identity = [] <;> by_cases h4 : b.identity = [] <;> cases h5 : a.isNotNull <;> cases h6 : b.isNotNull <;>
      simp_all

/-- **C49 fails on Postgres.** No ALTER COLUMN command names its column, whatever is altered. -/
theorem C49_postgres_unnamed_violated (hdia : migrateDialect got want = .ok .postgres) (h : migrate mode got want = .ok m)
    (hm : mode &&& UpdateExisting ≠ 0) (hg : MetaOk got) : ∀ x ∈ alteredColumns m, x.2.2.column.columnName = [] := by
  rw [altered_eq hdia h hm hg (by decide)]
  intro x hx
  obtain ⟨p, -, hx⟩ := List.mem_flatMap.1 hx
  split at hx
  · cases hx
  · obtain ⟨y, -, hx⟩ := List.mem_flatMap.1 hx
    split at hx
    · rename_i cmd hcmd
      rw [List.mem_singleton.1 hx]
      rw [if_neg (by decide)]
      unfold diffColumn at hcmd
      dsimp only at hcmd
      split at hcmd
      · cases hcmd; rfl
      · cases hcmd
    · cases hx

/-- A database with one column of the given definition. -/
def oneColumn (d : Dialect) (c : Column) : DatabaseMetadata :=
  withDB d { tables := [{ tableName := "t".toList }], columns := [{ c with tableName := "t".toList, columnName := "c".toList }] }

/-- What the above says of an example: changing the type gives a command, without a name on Postgres, where the SQL has an empty identifier. -/
theorem C49_example_violated :
    (migrate UpdateExisting (oneColumn .postgres { columnType := "INT".toList }) (oneColumn .postgres { columnType := "TEXT".toList })).bind
      (fun m => match m.alterTableCmds with | [c] => c.sql .postgres | _ => .panic) =
      .ok "ALTER TABLE IF EXISTS t\n    ALTER COLUMN \"\" SET DATA TYPE TEXT\n".toList ∧
    (migrate UpdateExisting (oneColumn .mysql { columnType := "INT".toList }) (oneColumn .mysql { columnType := "TEXT".toList })).bind
      (fun m => match m.alterTableCmds with | [c] => c.sql .mysql | _ => .panic) =
      .ok "ALTER TABLE t\n    MODIFY COLUMN c TEXT\n".toList := by
  decide +kernel

/-- **C49 fails for defaults.** A default that changes from one value to another is not noticed, in any dialect. -/
theorem C49_default_violated (d : Dialect) (a : Column) (v : Str) (ha : a.columnDefault ≠ []) (hv : v ≠ []) :
    diffColumn d a { a with columnDefault := v } = none :=
  diffColumn_same ⟨by unfold eqFold; simp, rfl, by simp [ha, hv], fun _ => Iff.rfl⟩

end Ddl
