import Verif.Spec.Expressible
import Verif.Props.DdlSupport
import Verif.Props.Create
import Verif.Props.Run
import Verif.Props.Modes
import Verif.Proof.Drops
/-
C60: what Migrate produces can be written.
-/
namespace Ddl.Expressible
open Ddl Ddl.Spec

/-- The command is written without an error. -/
def Fine (d : Dialect) (c : Command) : Prop := ∃ t, c.sql d = .ok t

/-- Every command of the migration is written without an error. -/
def Good (d : Dialect) (m : Migration) : Prop := ∀ c ∈ m.execPhases.flatten, Fine d c

theorem mem_phases (m : Migration) (c : Command) : c ∈ m.execPhases.flatten ↔
    (∃ x ∈ m.createSchemaCmds, .createSchema x = c) ∨ (∃ x ∈ m.createExtensionCmds, .createExtension x = c) ∨
    (∃ x ∈ m.createFunctionCmds, .createFunction x = c) ∨ (∃ x ∈ m.createTableCmds, .createTable x = c) ∨
    (∃ x ∈ m.alterTableCmds, .alterTable x = c) ∨ (∃ x ∈ m.createViewCmds, .createView x = c) ∨
    (∃ x ∈ m.createIndexCmds, .createIndex x = c) ∨ (∃ x ∈ m.createTriggerCmds, .createTrigger x = c) ∨
    (∃ x ∈ m.addForeignKeyCmds, .addForeignKeys x = c) ∨ (∃ x ∈ m.dropViewCmds, .dropView x = c) ∨
    (∃ x ∈ m.dropTableCmds, .dropTable x = c) ∨ (∃ x ∈ m.dropTriggerCmds, .dropTrigger x = c) ∨
    (∃ x ∈ m.dropIndexCmds, .dropIndex x = c) ∨ (∃ x ∈ m.alterTableDropCmds, .alterTableDrop x = c) ∨
    (∃ x ∈ m.dropFunctionCmds, .dropFunction x = c) ∨ (∃ x ∈ m.dropExtensionCmds, .dropExtension x = c) := by
  simp only [Migration.execPhases, List.flatten_cons, List.flatten_nil, List.append_nil, List.mem_append, List.mem_map]

theorem mem_phases_append (a b : Migration) (c : Command) :
    c ∈ (a.append b).execPhases.flatten ↔ c ∈ a.execPhases.flatten ∨ c ∈ b.execPhases.flatten := by
  rw [mem_phases, mem_phases, mem_phases]
  cases c <;> simp [Migration.append]

theorem good_append {d : Dialect} {a b : Migration} (ha : Good d a) (hb : Good d b) : Good d (a.append b) := by
  intro c hc
  rcases (mem_phases_append a b c).1 hc with h | h
  · exact ha c h
  · exact hb c h

theorem good_empty (d : Dialect) : Good d {} := by
  intro c hc
  rw [mem_phases] at hc
  simp at hc

theorem mem_phases_concat (ms : List Migration) (c : Command) :
    c ∈ (Migration.concat ms).execPhases.flatten ↔ ∃ m ∈ ms, c ∈ m.execPhases.flatten := by
  induction ms with
  | nil => rw [mem_phases]; simp [Migration.concat]
  | cons m ms ih => rw [Migration.concat, mem_phases_append, ih]; simp

theorem good_concat {d : Dialect} {ms : List Migration} (h : ∀ m ∈ ms, Good d m) : Good d (Migration.concat ms) := by
  intro c hc
  obtain ⟨m, hm, hc⟩ := (mem_phases_concat ms c).1 hc
  exact h m hm c hc

/-! ### Commands -/

theorem fine_of {d : Dialect} {c : Command} (hi : c.ignore = false) (hf : ∀ f ∈ features d c, supports d f = true) (hm : makesSense d c) :
    Fine d c := (Support.C58_accepts d c hi).2 ⟨hf, hm⟩

theorem mem_use {p : Prop} [Decidable p] {f g : Feature} : f ∈ use p g ↔ p ∧ f = g := by
  unfold use; split <;> simp [*]

theorem mem_uses {p : Prop} [Decidable p] {f : Feature} {l : List Feature} : f ∈ uses p l ↔ p ∧ f ∈ l := by
  unfold uses; split <;> simp [*]

theorem createIndex_features {d : Dialect} (x : Index) (e : Bool) (he : e = true → d ≠ .mysql) (h : IndexFits d x) :
    ∀ f ∈ createIndexFeatures { createIfNotExists := e, index := x }, supports d f = true := by
  intro f hf
  simp only [createIndexFeatures, mem_uses, List.mem_append, mem_use] at hf
  rcases hf.2 with ((⟨h1, rfl⟩ | ⟨h1, rfl⟩) | ⟨h1, rfl⟩) | ⟨h1, rfl⟩
  · cases h1
  · have := he h1
    cases d <;> simp_all [supports]
  · exact h.1 h1
  · exact h.2.1 h1

theorem addColumn_features {d : Dialect} (c : Column) (hd : d = .postgres ∨ d = .mysql ∨ d = .sqlite) (h : ColumnAddable d c) :
    ∀ f ∈ addColumnFeatures { addIfNotExists := d = .postgres, column := c }, supports d f = true := by
  intro f hf
  simp only [addColumnFeatures, mem_uses, List.mem_append, mem_use] at hf
  rcases hf.2 with ((((((⟨h1, rfl⟩ | ⟨h1, rfl⟩) | ⟨h1, rfl⟩) | ⟨h1, rfl⟩) | ⟨h1, rfl⟩) | ⟨h1, rfl⟩) | ⟨h1, rfl⟩) | h1
  · simpa [supports] using h1
  all_goals first | exact h.1 _ h1 | skip
  all_goals
    rcases hd with rfl | rfl | rfl
    · rfl
    · rfl
    · have h2 := h.2 rfl
      grind

theorem addConstraint_features {d : Dialect} (c : Constraint) (hd : d ≠ .sqlite) (h : ConstraintFits d c) :
    ∀ f ∈ addConstraintFeatures { constraint := c }, supports d f = true := by
  intro f hf
  simp only [addConstraintFeatures, mem_uses, List.mem_append, mem_use, List.mem_singleton] at hf
  rcases hf.2 with ((rfl | ⟨h1, rfl⟩) | ⟨-, h1⟩) | ⟨h1, rfl⟩
  · cases d <;> simp_all [supports]
  · exact absurd rfl h1
  · exact h.1 _ h1
  · cases h1

/-! ### The creating half -/

section
variable {mode : Mode} {d : Dialect} {got want : DatabaseMetadata}

theorem active_filter (cs : List Constraint) : (cs.filter fun c => !c.ignore) = active cs := rfl

theorem mem_missing {α : Type} [Entry α Str] {cs have' : List α} {c : α} :
    c ∈ missing cs have' ↔ c ∈ active cs ∧ find have' (Entry.key c) = none := by
  simp [missing]

theorem newConstraints_eq (hg : MetaOk got) (hnq : d ≠ .sqlite → got.dialect ≠ some .sqlite) (n : Str) (t : Table) :
    newConstraints d (gotSchemaFor got n) t = if d = .sqlite then [] else missing t.constraints (existing got (n, t) Table.constraints) := by
  unfold newConstraints
  by_cases hs : d = .sqlite
  · simp [hs]
  · rw [missingConstraints_eq hg (hnq hs)]

theorem newIndexes_eq (hg : MetaOk got) (n : Str) (t : Table) :
    newIndexes d (gotSchemaFor got n) t = (missing t.indexes (existing got (n, t) Table.indexes)).map
      fun i => { createIfNotExists := d ≠ .mysql, index := i } := by
  unfold newIndexes
  rw [missingIndexes_eq hg]

theorem createTable_fine {t : Table} (h : TableFits d t) (is : List CreateIndexCommand)
    (hi : is ≠ [] → d = .mysql) (his : ∀ i ∈ is, ∃ x, i = { index := x } ∧ IndexFits d x) :
    Fine d (.createTable { createIfNotExists := true, includeConstraints := true, table := t, createIndexCmds := is }) := by
  refine fine_of rfl ?_ ⟨h.name, h.args, ?_, ?_⟩
  · intro f hf
    simp only [features, createTableFeatures, List.mem_append, mem_use, mem_uses, List.mem_flatMap] at hf
    rcases hf with (((⟨h1, rfl⟩ | ⟨h1, c, hc, hf⟩) | ⟨-, c, hc, hf⟩) | ⟨h1, rfl⟩) | ⟨i, hi', hf⟩
    · simpa [supports] using h.virtual h1
    · exact h.columns h1 c hc f hf
    · obtain ⟨hc1, hc2⟩ := List.mem_filter.1 hc
      refine (h.constraints c ?_ ?_).1 f hf
      · refine mem_active.2 ⟨hc1, ?_⟩
        simp only [inTable, Bool.and_eq_true, Bool.not_eq_true'] at hc2
        exact hc2.1.1
      · intro e1 e2 e3
        simp [inTable, e1, e2, e3] at hc2
    · simpa [supports] using hi h1
    · obtain ⟨x, rfl, hx⟩ := his i hi'
      exact createIndex_features x false (by simp) hx f hf
  · intro _ c hc hin
    refine (h.constraints c ?_ ?_).2
    · refine mem_active.2 ⟨hc, ?_⟩
      simp only [inTable, Bool.and_eq_true, Bool.not_eq_true'] at hin
      exact hin.1.1
    · intro e1 e2 e3
      simp [inTable, e1, e2, e3] at hin
  · intro i hi' _
    obtain ⟨x, rfl, hx⟩ := his i hi'
    exact hx.2.2

theorem alterTable_features {c : AlterTableCommand} (h1 : c.alterIfExists = true → d = .postgres)
    (h2 : d = .sqlite → c.addColumnCmds.length + c.alterColumnCmds.length + c.dropColumnCmds.length ≤ 1)
    (h3 : c.createIndexCmds ≠ [] ∨ c.dropIndexCmds ≠ [] → d = .mysql)
    (a1 : ∀ x ∈ c.addColumnCmds, ∀ f ∈ addColumnFeatures x, supports d f = true)
    (a2 : ∀ x ∈ c.alterColumnCmds, ∀ f ∈ alterColumnFeatures d x, supports d f = true)
    (a3 : ∀ x ∈ c.dropColumnCmds, ∀ f ∈ dropColumnFeatures x, supports d f = true)
    (a4 : ∀ x ∈ c.addConstraintCmds, ∀ f ∈ addConstraintFeatures x, supports d f = true)
    (a5 : c.alterConstraintCmds = [])
    (a6 : ∀ x ∈ c.dropConstraintCmds, ∀ f ∈ dropConstraintFeatures x, supports d f = true)
    (a7 : ∀ x ∈ c.createIndexCmds, ∀ f ∈ createIndexFeatures x, supports d f = true)
    (a8 : ∀ x ∈ c.dropIndexCmds, ∀ f ∈ dropIndexFeatures x, supports d f = true) :
    ∀ f ∈ alterTableFeatures d c, supports d f = true := by
  intro f hf
  simp only [alterTableFeatures, List.mem_append, mem_use, List.mem_flatMap, a5, List.not_mem_nil, false_and, exists_false, or_false] at hf
  rcases hf with (((((((((⟨h, rfl⟩ | ⟨h, rfl⟩) | ⟨h, rfl⟩) | ⟨x, hx, hf⟩) | ⟨x, hx, hf⟩) | ⟨x, hx, hf⟩) | ⟨x, hx, hf⟩)) | ⟨x, hx, hf⟩) | ⟨x, hx, hf⟩) | ⟨x, hx, hf⟩
  · simpa [supports] using h1 h
  · by_cases e : d = .sqlite
    · have := h2 e; omega
    · simpa [supports] using e
  · have := h3 h; subst this; rfl
  · exact a1 x hx f hf
  · exact a2 x hx f hf
  · exact a3 x hx f hf
  · exact a4 x hx f hf
  · exact a6 x hx f hf
  · exact a7 x hx f hf
  · exact a8 x hx f hf

theorem diffColumn_features (hd : d = .postgres ∨ d = .mysql) {g c : Column} {cmd : AlterColumnCommand} (h : diffColumn d g c = some cmd)
    (hf : d = .mysql → ColumnFits d c) :
    ∀ f ∈ alterColumnFeatures d (if d = .mysql then { cmd with column := c } else cmd), supports d f = true := by
  intro f hx
  simp only [alterColumnFeatures, mem_uses, List.mem_append, List.mem_singleton] at hx
  rcases hx.2 with rfl | ⟨h1, h2⟩
  · rcases hd with rfl | rfl <;> rfl
  · rw [if_pos h1] at h2
    exact hf h1 f h2

/-- The commands for the columns of a table that exists. -/
theorem columnCmds_fine (hd : d = .postgres ∨ d = .mysql ∨ d = .sqlite) (g : Table) (hg : TableOk g) {c : Column}
    (ha : c.ignore = false → find g.columns c.columnName = none → ColumnAddable d c) (hf : has mode UpdateExisting = true → c.ignore = false → d = .mysql → ColumnFits d c) :
    (∀ x ∈ (columnCmds mode d g c).1, (∀ f ∈ addColumnFeatures x, supports d f = true)) ∧
    (d ≠ .sqlite → ∀ x ∈ (columnCmds mode d g c).2, (∀ f ∈ alterColumnFeatures d x, supports d f = true)) := by
  unfold columnCmds
  split
  · simp
  · rename_i hi
    have hi : c.ignore = false := by simpa using hi
    split
    · split
      · rename_i hu
        split
        · rename_i cmd hcmd
          refine ⟨by simp, fun hs x hx => ?_⟩
          simp only [List.mem_singleton] at hx
          subst hx
          exact diffColumn_features (by rcases hd with h | h | h <;> simp_all) hcmd (hf hu hi)
        · simp
      · simp
    · rename_i hn
      have hnone : find g.columns c.columnName = none := by
        have := lookup_isNone hg.columns c.columnName
        have e : (cachedPosition g.columns g.columnCache c.columnName).1 = none := hn
        rw [e] at this
        simpa using this.symm
      split
      · refine ⟨fun x hx => ?_, by simp⟩
        simp only [List.mem_singleton] at hx
        subst hx
        exact addColumn_features c hd (ha hi hnone)
      · simp

theorem wantTable_good (hd : d = .postgres ∨ d = .mysql ∨ d = .sqlite) (hm : has mode CreateMissing = true) (hg : MetaOk got) (hnq : d ≠ .sqlite → got.dialect ≠ some .sqlite) (r : Reachable d got want)
    (u : has mode UpdateExisting = true → UpdatesFit d got want) {p : Str × Table} (hp : p ∈ allTables got.currentSchema want) : Good d (wantTable mode d (gotSchemaFor got p.1) p.2) := by
  have hIx : ∀ x ∈ missing p.2.indexes (existing got (p.1, p.2) Table.indexes), IndexFits d x := by
    intro x hx
    obtain ⟨h1, h2⟩ := mem_missing.1 hx
    unfold existing at h2
    cases hgt : table? got p.1 p.2.tableName with
    | none => exact (r.created p hp hgt).indexes x h1
    | some g => rw [hgt] at h2; exact r.indexes p hp g hgt x h1 h2
  have hCon : d ≠ .sqlite → ∀ c ∈ missing p.2.constraints (existing got (p.1, p.2) Table.constraints), ConstraintFits d c := by
    intro hs c hc
    obtain ⟨h1, h2⟩ := mem_missing.1 hc
    unfold existing at h2
    cases hgt : table? got p.1 p.2.tableName with
    | none => exact (r.created p hp hgt).constraints c h1 (fun e => absurd e hs)
    | some g => rw [hgt] at h2; exact r.constraints hs p hp g hgt c h1 h2
  have hCols : (gotTableFor (gotSchemaFor got p.1) p.2).isSome = true → ∀ c ∈ p.2.columns,
      (∀ x ∈ (columnCmds mode d (gotOrEmpty (gotSchemaFor got p.1) p.2) c).1, (∀ f ∈ addColumnFeatures x, supports d f = true)) ∧
      (d ≠ .sqlite → ∀ x ∈ (columnCmds mode d (gotOrEmpty (gotSchemaFor got p.1) p.2) c).2, (∀ f ∈ alterColumnFeatures d x, supports d f = true)) := by
    intro hsome c hc
    rw [gotTableFor_eq hg] at hsome
    obtain ⟨g, hgt⟩ := Option.isSome_iff_exists.1 hsome
    have hge : gotOrEmpty (gotSchemaFor got p.1) p.2 = g := by rw [gotOrEmpty_eq hg, hgt]; rfl
    rw [hge]
    exact columnCmds_fine hd g (gotTable_ok hg hgt) (fun hi hn => r.columns p hp g hgt c (mem_active.2 ⟨hc, hi⟩) hn)
      (fun hu hi hmy => u hu hmy p hp g hgt c (mem_active.2 ⟨hc, hi⟩))
  have hAdd : ∀ x ∈ (wantAlter mode d (gotSchemaFor got p.1) p.2).addColumnCmds, ∀ f ∈ addColumnFeatures x, supports d f = true := by
    intro x hx
    simp only [wantAlter, List.mem_flatMap] at hx
    obtain ⟨q, hq, hx⟩ := hx
    split at hq
    · obtain ⟨c, hc, rfl⟩ := List.mem_map.1 hq
      exact (hCols (by assumption) c hc).1 x hx
    · cases hq
  have hAlt : d ≠ .sqlite → ∀ x ∈ (wantAlter mode d (gotSchemaFor got p.1) p.2).alterColumnCmds, ∀ f ∈ alterColumnFeatures d x, supports d f = true := by
    intro hs x hx
    simp only [wantAlter, List.mem_flatMap] at hx
    obtain ⟨q, hq, hx⟩ := hx
    split at hq
    · obtain ⟨c, hc, rfl⟩ := List.mem_map.1 hq
      exact (hCols (by assumption) c hc).2 hs x hx
    · cases hq
  intro c hc
  rw [mem_phases] at hc
  simp only [wantTable, List.not_mem_nil, false_and, exists_false, false_or, or_false] at hc
  rcases hc with ⟨x, hx, rfl⟩ | ⟨x, hx, rfl⟩ | ⟨x, hx, rfl⟩ | ⟨x, hx, rfl⟩ | ⟨x, hx, rfl⟩
  · split at hx
    · cases hx
    · rename_i hnone
      simp only [List.mem_singleton] at hx
      subst hx
      have hgt : table? got p.1 p.2.tableName = none := by
        rw [gotTableFor_eq hg] at hnone
        simpa using hnone
      try rw [hm, if_pos rfl]
      refine createTable_fine (r.created p hp hgt) _ ?_ ?_
      · intro hnq
        split at hnq
        · assumption
        · exact absurd rfl hnq
      · intro i hi
        split at hi
        · rename_i hmy
          rw [newIndexes_eq hg] at hi
          obtain ⟨x, hx, rfl⟩ := List.mem_map.1 hi
          exact ⟨x, by simp [hmy], hIx x hx⟩
        · cases hi
  · split at hx
    · rename_i hs
      simp only [decomposeAlterTable, List.mem_append, List.mem_map] at hx
      rcases hx with ⟨y, hy, rfl⟩ | ⟨y, hy, rfl⟩
      · refine fine_of rfl (alterTable_features (by simp) (by simp) (by simp) ?_ (by simp) (by simp) (by simp) rfl (by simp) (by simp) (by simp))
          ⟨by simp, by simp⟩
        intro z hz
        simp only [List.mem_singleton] at hz
        subst hz
        exact hAdd z hy
      · simp [wantAlter] at hy
    · rename_i hs
      split at hx
      · simp only [List.mem_singleton] at hx
        subst hx
        refine fine_of rfl (alterTable_features ?_ (fun e => absurd e hs) ?_ hAdd (hAlt hs) (by simp [wantAlter]) ?_ rfl (by simp [wantAlter]) ?_
          (by simp [wantAlter])) ⟨?_, ?_⟩
        · simp [wantAlter]
        · simp only [wantAlter]
          intro h
          rcases h with h | h
          · split at h
            · rename_i e; simp at e; exact e.1
            · exact absurd rfl h
          · exact absurd rfl h
        · intro y hy
          simp only [wantAlter] at hy
          split at hy
          · obtain ⟨c, hc, rfl⟩ := List.mem_map.1 hy
            have hc := (List.mem_filter.1 hc).1
            rw [newConstraints_eq hg hnq, if_neg hs] at hc
            exact addConstraint_features c hs (hCon hs c hc)
          · cases hy
        · intro y hy
          simp only [wantAlter] at hy
          split at hy
          · rename_i e
            simp only [Bool.and_eq_true, decide_eq_true_eq] at e
            rw [newIndexes_eq hg] at hy
            obtain ⟨x, hx, rfl⟩ := List.mem_map.1 hy
            exact createIndex_features x _ (by simp) (hIx x hx)
          · cases hy
        · intro y hy
          simp only [wantAlter] at hy
          split at hy
          · obtain ⟨c, hc, rfl⟩ := List.mem_map.1 hy
            have hc := (List.mem_filter.1 hc).1
            rw [newConstraints_eq hg hnq, if_neg hs] at hc
            exact fun _ => ⟨fun h => absurd rfl h, fun _ => (hCon hs c hc).2⟩
          · cases hy
        · intro y hy
          simp only [wantAlter] at hy
          split at hy
          · rw [newIndexes_eq hg] at hy
            obtain ⟨x, hx, rfl⟩ := List.mem_map.1 hy
            exact fun _ => (hIx x hx).2.2
          · cases hy
      · cases hx
  · split at hx
    · cases hx
    · rename_i hmy
      rw [newIndexes_eq hg] at hx
      obtain ⟨y, hy, rfl⟩ := List.mem_map.1 hx
      exact fine_of rfl (createIndex_features y _ (by simp) (hIx y hy)) (hIx y hy).2.2
  · obtain ⟨y, -, rfl⟩ := List.mem_map.1 hx
    exact fine_of rfl (by simp [features]) trivial
  · split at hx
    · rename_i hnn
      simp only [List.mem_singleton] at hx
      subst hx
      have hs : d ≠ .sqlite := by
        rintro rfl
        simp [wantForeignKeys, newConstraints] at hnn
      refine fine_of rfl (alterTable_features (by simp [wantForeignKeys]) (by simp [wantForeignKeys]) (by simp [wantForeignKeys]) (by simp [wantForeignKeys])
        (by simp [wantForeignKeys]) (by simp [wantForeignKeys]) ?_ rfl (by simp [wantForeignKeys]) (by simp [wantForeignKeys]) (by simp [wantForeignKeys]))
        ⟨?_, by simp [wantForeignKeys]⟩
      · intro y hy
        simp only [wantForeignKeys] at hy
        obtain ⟨c, hc, rfl⟩ := List.mem_map.1 hy
        have hc := (List.mem_filter.1 hc).1
        rw [newConstraints_eq hg hnq, if_neg hs] at hc
        exact addConstraint_features c hs (hCon hs c hc)
      · intro y hy
        simp only [wantForeignKeys] at hy
        obtain ⟨c, hc, rfl⟩ := List.mem_map.1 hy
        have hc := (List.mem_filter.1 hc).1
        rw [newConstraints_eq hg hnq, if_neg hs] at hc
        exact fun _ => ⟨fun h => absurd rfl h, fun _ => (hCon hs c hc).2⟩
    · cases hx

theorem wantView_good (gs : Schema) (v : View)
    (hv : d = .postgres → (gs.cachedViewPosition v.viewName).isSome = false → v.isMaterialized = true → ∀ x ∈ active v.indexes, IndexFits d x) : Good d (wantView d gs v) := by
  intro c hc
  rw [mem_phases] at hc
  unfold wantView at hc
  split at hc
  · simp at hc
  · rename_i hmiss
    simp only [List.not_mem_nil, false_and, exists_false, false_or, or_false] at hc
    rcases hc with ⟨x, hx, rfl⟩ | ⟨x, hx, rfl⟩ | ⟨x, hx, rfl⟩
    · simp only [List.mem_singleton] at hx
      subst hx
      refine fine_of rfl ?_ trivial
      intro f hf
      simp only [features, List.mem_append, mem_use] at hf
      rcases hf with ⟨h, rfl⟩ | ⟨h, rfl⟩
      · simpa [supports] using h
      · simpa [supports] using h
    · split at hx
      · rename_i e
        simp only [Bool.and_eq_true, decide_eq_true_eq] at e
        obtain ⟨y, hy, rfl⟩ := List.mem_map.1 hx
        have := hv e.2 (by simpa using hmiss) e.1 y hy
        exact fine_of rfl (createIndex_features y _ (by simp [e.2]) this) this.2.2
      · cases hx
    · split at hx
      · obtain ⟨y, -, rfl⟩ := List.mem_map.1 hx
        exact fine_of rfl (by simp [features]) trivial
      · cases hx

theorem wantSchema_good (hd : d = .postgres ∨ d = .mysql ∨ d = .sqlite) (hm : has mode CreateMissing = true) (hg : MetaOk got) (hnq : d ≠ .sqlite → got.dialect ≠ some .sqlite) (r : Reachable d got want)
    (u : has mode UpdateExisting = true → UpdatesFit d got want) {s : Schema} (hs : s ∈ active want.schemas) : Good d (wantSchema mode d got s) := by
  have hsch := r.schemas
  unfold wantSchema
  dsimp only
  have hP : ∀ t ∈ active s.tables, ((if s.schemaName = [] then got.currentSchema else s.schemaName), t) ∈ allTables got.currentSchema want := by
    intro t ht
    unfold allTables
    rw [List.mem_flatMap]
    exact ⟨s, hs, List.mem_map.2 ⟨t, ht, rfl⟩⟩
  have hV : ∀ v ∈ active s.views, ((if s.schemaName = [] then got.currentSchema else s.schemaName), v) ∈ allViews got.currentSchema want := by
    intro v hv
    unfold allViews
    rw [List.mem_flatMap]
    exact ⟨s, hs, List.mem_map.2 ⟨v, hv, rfl⟩⟩
  have hS : d = .sqlite → _ := fun hq => r.schemas hq s hs
  clear hsch
  revert hP hV hS
  generalize (if s.schemaName = [] then got.currentSchema else s.schemaName) = n
  intro hP hV hS
  refine good_append ?_ (good_append (good_concat ?_) (good_concat ?_))
  · intro c hc
    rw [mem_phases] at hc
    simp only [List.not_mem_nil, false_and, exists_false, or_false, false_or] at hc
    rcases hc with ⟨x, hx, rfl⟩ | ⟨x, hx, rfl⟩
    · split at hx
      · rename_i e
        rw [List.mem_singleton] at hx
        subst hx
        refine fine_of rfl ?_ trivial
        intro f hf
        simp only [features, List.mem_singleton] at hf
        subst hf
        by_cases hsq : d = .sqlite
        · exfalso
          simp only [Bool.and_eq_true, decide_eq_true_eq] at e
          rcases hS hsq with h | h
          · exact e.2 h
          · have := lookup_isSome hg.schemas n
            rw [h] at this
            have e1 := e.1.1
            unfold DatabaseMetadata.cachedSchemaPosition at e1
            rw [Option.isNone_iff_eq_none] at e1
            simp [e1] at this
        · simpa [supports] using hsq
      · cases hx
    · unfold wantFunctions at hx
      split at hx
      · cases hx
      · rename_i hsq
        obtain ⟨f, -, rfl⟩ := List.mem_map.1 hx
        refine fine_of rfl ?_ trivial
        intro g hg
        simp only [features, List.mem_singleton] at hg
        subst hg
        simpa [supports] using hsq
  · intro m hm'
    obtain ⟨t, ht, rfl⟩ := List.mem_map.1 hm'
    have ht' : t ∈ active s.tables := ht
    have := wantTable_good (p := (n, t)) hd hm hg hnq r u (hP t ht')
    exact this
  · intro m hm'
    obtain ⟨v, hv, rfl⟩ := List.mem_map.1 hm'
    refine wantView_good _ v fun h1 h2 h3 => r.viewIndexes h1 (n, v) (hV v hv) ?_ h3
    have hvv : ((gotSchemaFor got n).cachedViewPosition v.viewName).isSome = (view? got n v.viewName).isSome := wantView_eq hg n v.viewName
    rw [hvv] at h2
    simpa using h2

/-! ### The dropping half -/

theorem dropColumn_features (hd : d = .postgres ∨ d = .mysql ∨ d = .sqlite) (n : Str) :
    ∀ f ∈ dropColumnFeatures { dropIfExists := d = .postgres, columnName := n, dropCascade := d = .postgres }, supports d f = true := by
  rcases hd with rfl | rfl | rfl <;> simp [dropColumnFeatures, use, uses, supports]

theorem dropConstraint_features (hd : d = .postgres ∨ d = .mysql) (n : Str) :
    ∀ f ∈ dropConstraintFeatures { dropIfExists := d = .postgres, constraintName := n, dropCascade := d = .postgres }, supports d f = true := by
  rcases hd with rfl | rfl <;> simp [dropConstraintFeatures, use, uses, supports]

theorem extraIndexes_features (hd : d = .postgres ∨ d = .mysql ∨ d = .sqlite) (t w : Table) :
    ∀ x ∈ extraIndexes d t w, x.ignore = false ∧ ∀ f ∈ dropIndexFeatures x, supports d f = true := by
  intro x hx
  obtain ⟨i, -, rfl⟩ := List.mem_map.1 hx
  refine ⟨rfl, ?_⟩
  rcases hd with rfl | rfl | rfl <;> simp [dropIndexFeatures, use, uses, supports]

theorem dropAlter_fine (hd : d = .postgres ∨ d = .mysql) (t w : Table) : Fine d (.alterTableDrop (dropAlter d t w)) := by
  have hd3 : d = .postgres ∨ d = .mysql ∨ d = .sqlite := by rcases hd with h | h <;> simp [h]
  have hs : d ≠ .sqlite := by rcases hd with h | h <;> simp [h]
  refine fine_of rfl (alterTable_features (by simp [dropAlter]) (fun e => absurd e hs) ?_ (by simp [dropAlter]) (by simp [dropAlter]) ?_
    (by simp [dropAlter]) rfl ?_ (by simp [dropAlter]) ?_) ⟨by simp [dropAlter], by simp [dropAlter]⟩
  · simp only [dropAlter]
    intro h
    rcases h with h | h
    · exact absurd rfl h
    · split at h
      · assumption
      · exact absurd rfl h
  · intro x hx
    obtain ⟨c, -, rfl⟩ := List.mem_map.1 hx
    exact dropColumn_features hd3 _
  · intro x hx
    simp only [dropAlter, if_neg hs] at hx
    obtain ⟨c, -, rfl⟩ := List.mem_map.1 hx
    exact dropConstraint_features hd _
  · intro x hx
    simp only [dropAlter] at hx
    split at hx
    · exact (extraIndexes_features hd3 t w x hx).2
    · cases hx

theorem dropAlter_sqlite_fine (t w : Table) : ∀ x ∈ decomposeAlterTable (dropAlter .sqlite t w), Fine .sqlite (.alterTableDrop x) := by
  intro x hx
  simp only [decomposeAlterTable, dropAlter, List.map_nil, List.nil_append, List.mem_map] at hx
  obtain ⟨c, ⟨y, -, rfl⟩, rfl⟩ := hx
  refine fine_of rfl (alterTable_features (by simp) (by simp) (by simp) (by simp) (by simp) ?_ (by simp) rfl (by simp) (by simp) (by simp))
    ⟨by simp, by simp⟩
  intro z hz
  simp only [List.mem_singleton] at hz
  subst hz
  exact dropColumn_features (d := .sqlite) (by simp) _

theorem tableDrops_mem {x : TableDrop} (hx : x ∈ tableDrops d got want) : ∃ ws t, x = dropTable d ws t := by
  simp only [tableDrops, List.mem_flatMap, List.mem_map] at hx
  obtain ⟨s, -, t, -, rfl⟩ := hx
  exact ⟨_, _, rfl⟩

theorem extraViews_mat (ho : OfDialect d got) (hne : d ≠ .postgres) : extraViews got want true = [] := by
  rw [extraViews, List.filter_eq_nil_iff]
  intro v hv
  simp only [List.mem_flatMap] at hv
  obtain ⟨s, hs, hv⟩ := hv
  have := ho.materialized hne s hs v (List.mem_filter.1 hv).1
  simp [this]

theorem dropPhase_good (hd : d = .postgres ∨ d = .mysql ∨ d = .sqlite) (ho : OfDialect d got) (exts : List Str) (he : d ≠ .postgres → exts = []) :
    Good d (dropPhase mode d got want exts) := by
  intro c hc
  rw [mem_phases] at hc
  simp only [dropPhase, List.not_mem_nil, false_and, exists_false, false_or, or_false] at hc
  rcases hc with ⟨x, hx, rfl⟩ | ⟨x, hx, rfl⟩ | ⟨x, hx, rfl⟩ | ⟨x, hx, rfl⟩ | ⟨x, hx, rfl⟩ | ⟨x, hx, rfl⟩ | ⟨x, hx, rfl⟩
  · split at hx
    · rename_i hs
      obtain ⟨p, -, rfl⟩ := List.mem_map.1 hx
      exact fine_of rfl (by simp [features, use]) (by simp [makesSense])
    · rename_i hs
      simp only [List.mem_append] at hx
      rcases hx with hx | hx
      · split at hx
        · simp only [List.mem_singleton] at hx
          subst hx
          refine fine_of rfl ?_ (by simp [makesSense, dropViewCmd])
          intro f hf
          simp only [features, List.mem_append, mem_use] at hf
          rcases hf with (⟨h, rfl⟩ | ⟨h, rfl⟩) | ⟨h, rfl⟩
          · cases h
          · simpa [supports] using hs
          · simpa [supports] using hs
        · cases hx
      · split at hx
        · rename_i hne
          simp only [List.mem_singleton] at hx
          subst hx
          have hpg : d = .postgres := by
            by_cases h : d = .postgres
            · exact h
            · exfalso
              apply hne
              simp [dropViewCmd, extraViews_mat ho h]
          refine fine_of rfl ?_ (by simp [makesSense, dropViewCmd])
          subst hpg
          intro f hf
          simp only [features, List.mem_append, mem_use] at hf
          rcases hf with (⟨h, rfl⟩ | ⟨h, rfl⟩) | ⟨h, rfl⟩ <;> rfl
        · cases hx
  · split at hx
    · obtain ⟨p, -, rfl⟩ := List.mem_map.1 hx
      exact fine_of rfl (by simp [features, use]) (by simp [makesSense])
    · rename_i hs
      split at hx
      · simp only [List.mem_singleton] at hx
        subst hx
        refine fine_of rfl ?_ (by simp [makesSense, dropTableCmd])
        intro f hf
        simp only [features, mem_use] at hf
        obtain ⟨-, rfl⟩ := hf
        rcases hd with rfl | rfl | rfl
        · rfl
        · rfl
        · exact absurd rfl hs
      · cases hx
  · simp only [List.mem_flatMap] at hx
    obtain ⟨y, hy, hx⟩ := hx
    obtain ⟨ws, t, rfl⟩ := tableDrops_mem hy
    unfold dropTable at hx
    split at hx
    · cases hx
    · obtain ⟨z, -, rfl⟩ := List.mem_map.1 hx
      exact fine_of rfl (by simp [features]) trivial
  · simp only [List.mem_flatMap] at hx
    obtain ⟨y, hy, hx⟩ := hx
    obtain ⟨ws, t, rfl⟩ := tableDrops_mem hy
    unfold dropTable at hx
    split at hx
    · cases hx
    · simp only at hx
      split at hx
      · cases hx
      · obtain ⟨h1, h2⟩ := extraIndexes_features hd _ _ x hx
        exact fine_of h1 h2 trivial
  · have hA : ∀ y ∈ (tableDrops d got want).flatMap TableDrop.alters, ∃ t w, y = dropAlter d t w := by
      intro y hy
      simp only [List.mem_flatMap] at hy
      obtain ⟨z, hz, hy⟩ := hy
      obtain ⟨ws, t, rfl⟩ := tableDrops_mem hz
      unfold dropTable at hy
      split at hy
      · cases hy
      · simp only at hy
        split at hy
        · simp only [List.mem_singleton] at hy
          exact ⟨_, _, hy⟩
        · cases hy
    split at hx
    · rename_i hs
      subst hs
      rw [List.mem_flatMap] at hx
      obtain ⟨y, hy, hx⟩ := hx
      obtain ⟨t, w, rfl⟩ := hA y hy
      exact dropAlter_sqlite_fine t w x hx
    · rename_i hs
      obtain ⟨t, w, rfl⟩ := hA x hx
      exact dropAlter_fine (by rcases hd with h | h | h <;> simp_all) t w
  · simp only [List.mem_flatMap] at hx
    obtain ⟨s, hs, hx⟩ := hx
    obtain ⟨f, hf, rfl⟩ := List.mem_map.1 hx
    refine fine_of rfl ?_ trivial
    intro g hg
    simp only [features, List.mem_singleton] at hg
    subst hg
    by_cases e : d = .sqlite
    · have := ho.functions e s hs
      rw [this] at hf
      simp at hf
    · simpa [supports] using e
  · split at hx
    · rename_i hne
      simp only [List.mem_singleton] at hx
      subst hx
      refine fine_of rfl ?_ trivial
      intro g hg
      simp only [features, List.mem_singleton] at hg
      subst hg
      by_cases e : d = .postgres
      · simp [supports, e]
      · exact absurd (he e) hne
    · cases hx

/-! ### C60 -/

variable {m : Migration}

/-- **C60.** Every command of a migration can be written, if the way from the existing database to the wanted one uses what the dialect has. -/
theorem C60_written_partial (hdia : migrateDialect got want = .ok d) (hd : d = .postgres ∨ d = .mysql ∨ d = .sqlite) (h : migrate mode got want = .ok m)
    (hm : has mode UpdateExisting = true → has mode CreateMissing = true) (hg : MetaOk got) (ho : OfDialect d got)
    (r : has mode CreateMissing = true → Reachable d got want) (u : has mode UpdateExisting = true → UpdatesFit d got want) :
    ∀ c ∈ m.order, ∃ t, c.sql d = .ok t := by
  have hgood : Good d m := by
    obtain ⟨d', hd', exts, dexts, h1, h2, rfl⟩ := migrate_ok h
    rw [hdia] at hd'; cases hd'
    refine good_append ?_ (good_append ?_ ?_)
    · intro c hc
      rw [mem_phases] at hc
      simp only [List.not_mem_nil, false_and, exists_false, or_false, false_or] at hc
      obtain ⟨x, hx, rfl⟩ := hc
      rcases h1 with ⟨-, rfl, he⟩ | ⟨-, rfl⟩
      · have hall : ∀ (es : List Str) (cs : List CreateExtensionCommand), wantExtensions got es = .ok cs → ∀ x ∈ cs, x.ignore = false := by
          intro es
          induction es with
          | nil => intro cs hcs x hx; cases hcs; cases hx
          | cons e es ih =>
            intro cs hcs x hx
            rw [wantExtensions] at hcs
            obtain ⟨n, -, hcs⟩ := (Res.bind_eq_ok _ _ _).1 hcs
            obtain ⟨r, hr, rfl⟩ := map_eq_ok hcs
            split at hx
            · exact ih _ hr x hx
            · rcases List.mem_cons.1 hx with rfl | hx
              · rfl
              · exact ih _ hr x hx
        exact fine_of (hall _ _ he x hx) (by simp [features, supports]) trivial
      · cases hx
    · split
      · rename_i hup
        have hcm : has mode CreateMissing = true := by
          cases hc : has mode CreateMissing with
          | true => rfl
          | false => rw [hc] at hup; rw [← hm (by simpa using hup), hc]
        refine good_concat ?_
        intro x hx
        obtain ⟨s, hs, rfl⟩ := List.mem_map.1 hx
        exact wantSchema_good hd hcm hg (fun hs => (notSqlite hdia hs).1) (r hcm) u hs
      · exact good_empty d
    · split
      · refine dropPhase_good hd ho dexts ?_
        intro hne
        rcases h2 with ⟨-, h2⟩ | ⟨-, h2⟩
        · rw [ho.extensions hne] at h2
          cases h2
          rfl
        · exact h2
      · exact good_empty d
  intro c hc
  exact hgood c (List.mem_filter.1 hc).1

/-- … and executing it ends well or with a statement that the database refused, never for want of a text. -/
theorem C60_executed_partial (hdia : migrateDialect got want = .ok d) (hd : d = .postgres ∨ d = .mysql ∨ d = .sqlite) (h : migrate mode got want = .ok m)
    (hm : has mode UpdateExisting = true → has mode CreateMissing = true) (hg : MetaOk got) (ho : OfDialect d got)
    (r : has mode CreateMissing = true → Reachable d got want) (u : has mode UpdateExisting = true → UpdatesFit d got want) (db : List Str → Str → Bool) :
    (m.exec db).ended = .done ∨ (m.exec db).ended = .refused := by
  have hw := C60_written_partial hdia hd h hm hg ho r u
  have hmd : m.d = d := by
    obtain ⟨d', hd', exts, dexts, -, -, rfl⟩ := migrate_ok h
    rw [hdia] at hd'; cases hd'
    rfl
  unfold Migration.exec
  have loop : ∀ cs h', (∀ c ∈ cs, c.ignore = false → ∃ t, c.sql d = .ok t) →
      (execLoop db d cs h').ended = .done ∨ (execLoop db d cs h').ended = .refused := by
    intro cs
    induction cs with
    | nil => intro h' _; exact .inl rfl
    | cons c cs ih =>
      intro h' hc
      rw [execLoop]
      split
      · exact ih h' fun x hx => hc x (List.mem_cons_of_mem _ hx)
      · rename_i hi
        obtain ⟨t, ht⟩ := hc c (by simp) (by simpa using hi)
        rw [ht]
        show (if db h' t = true then _ else _ : Execution).ended = _ ∨ (if db h' t = true then _ else _ : Execution).ended = _
        split
        · exact ih _ fun x hx => hc x (List.mem_cons_of_mem _ hx)
        · exact .inr rfl
  have loops : ∀ ps h', (∀ c ∈ ps.flatten, c.ignore = false → ∃ t, c.sql d = .ok t) →
      (execLoops db d ps h').ended = .done ∨ (execLoops db d ps h').ended = .refused := by
    intro ps
    induction ps with
    | nil => intro h' _; exact .inl rfl
    | cons p ps ih =>
      intro h' hc
      rw [execLoops]
      split
      · exact ih _ fun x hx => hc x (by simp only [List.flatten_cons, List.mem_append]; exact .inr hx)
      · exact loop p h' fun x hx => hc x (by simp only [List.flatten_cons, List.mem_append]; exact .inl hx)
  rw [hmd]
  refine loops _ _ fun c hc hi => hw c ?_
  exact List.mem_filter.2 ⟨hc, by simp [hi]⟩

/-! ### What the dialect does not have is refused -/

theorem of_fine {c : Command} (hi : c.ignore = false) (h : Fine d c) : (∀ f ∈ features d c, supports d f = true) ∧ makesSense d c :=
  (Support.C58_accepts d c hi).1 h

theorem mem_wantSchema (hdia : migrateDialect got want = .ok d) (h : migrate mode got want = .ok m) (hm : has mode CreateMissing = true)
    {s : Schema} (hs : s ∈ active want.schemas) {c : Command} (hc : c ∈ (wantSchema mode d got s).execPhases.flatten) :
    c ∈ m.execPhases.flatten := by
  obtain ⟨d', hd', exts, dexts, -, -, rfl⟩ := migrate_ok h
  rw [hdia] at hd'; cases hd'
  rw [mem_phases_append, mem_phases_append, hm, Bool.true_or, if_pos rfl, mem_phases_concat]
  exact .inr (.inl ⟨_, List.mem_map.2 ⟨s, hs, rfl⟩, hc⟩)

theorem mem_wantTable (hdia : migrateDialect got want = .ok d) (h : migrate mode got want = .ok m) (hm : has mode CreateMissing = true)
    {p : Str × Table} (hp : p ∈ allTables got.currentSchema want) {c : Command}
    (hc : c ∈ (wantTable mode d (gotSchemaFor got p.1) p.2).execPhases.flatten) : c ∈ m.execPhases.flatten := by
  unfold allTables at hp
  obtain ⟨s, hs, hp⟩ := List.mem_flatMap.1 hp
  obtain ⟨t, ht, rfl⟩ := List.mem_map.1 hp
  refine mem_wantSchema hdia h hm hs ?_
  unfold wantSchema
  dsimp only
  rw [mem_phases_append, mem_phases_append, mem_phases_concat]
  exact .inr (.inl ⟨_, List.mem_map.2 ⟨t, ht, rfl⟩, hc⟩)

theorem mem_wantView (hdia : migrateDialect got want = .ok d) (h : migrate mode got want = .ok m) (hm : has mode CreateMissing = true)
    {p : Str × View} (hp : p ∈ allViews got.currentSchema want) {c : Command}
    (hc : c ∈ (wantView d (gotSchemaFor got p.1) p.2).execPhases.flatten) : c ∈ m.execPhases.flatten := by
  unfold allViews at hp
  obtain ⟨s, hs, hp⟩ := List.mem_flatMap.1 hp
  obtain ⟨t, ht, rfl⟩ := List.mem_map.1 hp
  refine mem_wantSchema hdia h hm hs ?_
  unfold wantSchema
  dsimp only
  rw [mem_phases_append, mem_phases_append, mem_phases_concat, mem_phases_concat]
  exact .inr (.inr ⟨_, List.mem_map.2 ⟨t, ht, rfl⟩, hc⟩)

theorem indexFits_of (e : Bool) (x : Index) (h1 : ∀ f ∈ createIndexFeatures { createIfNotExists := e, index := x }, supports d f = true)
    (h2 : indexMakesSense x) : IndexFits d x := by
  refine ⟨fun h => h1 _ ?_, fun h => h1 _ ?_, h2⟩
  · simp only [createIndexFeatures, mem_uses, List.mem_append, mem_use]
    exact ⟨trivial, .inl (.inr ⟨h, trivial⟩)⟩
  · simp only [createIndexFeatures, mem_uses, List.mem_append, mem_use]
    exact ⟨trivial, .inr ⟨h, trivial⟩⟩

/-- **C60, the other direction.** If every command of a migration can be written, then all that was to be created is what the dialect has: a
table, column, constraint, index or schema with a feature that the dialect lacks is refused, not created without the feature. -/
theorem C60_refused (hdia : migrateDialect got want = .ok d) (h : migrate mode got want = .ok m)
    (hm : has mode CreateMissing = true) (hg : MetaOk got) (hall : ∀ c ∈ m.order, ∃ t, c.sql d = .ok t) : Reachable d got want := by
  have hall : ∀ c ∈ m.execPhases.flatten, c.ignore = false → (∀ f ∈ features d c, supports d f = true) ∧ makesSense d c :=
    fun c hc hi => of_fine hi (hall c (List.mem_filter.2 ⟨hc, by simp [hi]⟩))
  have hIx : ∀ p ∈ allTables got.currentSchema want, ∀ x ∈ missing p.2.indexes (existing got (p.1, p.2) Table.indexes), IndexFits d x := by
    intro p hp x hx
    have hmem : ({ createIfNotExists := d ≠ .mysql, index := x } : CreateIndexCommand) ∈ newIndexes d (gotSchemaFor got p.1) p.2 := by
      rw [newIndexes_eq hg]
      exact List.mem_map.2 ⟨x, hx, rfl⟩
    by_cases hmy : d = .mysql
    · cases hgt : table? got p.1 p.2.tableName with
      | none =>
        obtain ⟨h1, h2⟩ := hall (.createTable { createIfNotExists := true, includeConstraints := true, table := p.2
                                                createIndexCmds := newIndexes d (gotSchemaFor got p.1) p.2 })
          (mem_wantTable hdia h hm hp (by
            rw [mem_phases]
            refine .inr (.inr (.inr (.inl ⟨_, ?_, rfl⟩)))
            simp only [wantTable]
            rw [gotTableFor_eq hg, hgt, if_neg (by simp), hm, if_pos rfl, if_pos hmy]
            exact List.mem_singleton.2 rfl)) rfl
        refine indexFits_of (decide (d ≠ .mysql)) x (fun f hf => h1 f ?_) (h2.2.2.2 _ hmem rfl)
        simp only [features, createTableFeatures, List.mem_append, List.mem_flatMap]
        exact .inr ⟨_, hmem, hf⟩
      | some g =>
        have hx2 : (wantAlter mode d (gotSchemaFor got p.1) p.2).createIndexCmds = newIndexes d (gotSchemaFor got p.1) p.2 := by
          simp only [wantAlter]
          rw [gotTableFor_eq hg, hgt, if_pos (by simp [hmy])]
        obtain ⟨h1, h2⟩ := hall (.alterTable (wantAlter mode d (gotSchemaFor got p.1) p.2))
          (mem_wantTable hdia h hm hp (by
            rw [mem_phases]
            refine .inr (.inr (.inr (.inr (.inl ⟨_, ?_, rfl⟩))))
            simp only [wantTable]
            rw [if_neg (by simp [hmy]), if_pos]
            · exact List.mem_singleton.2 rfl
            · refine .inr (.inr (.inr (.inr ?_)))
              rw [hx2]
              exact List.ne_nil_of_mem hmem)) rfl
        refine indexFits_of (decide (d ≠ .mysql)) x (fun f hf => h1 f ?_) (h2.2 _ (by rw [hx2]; exact hmem) rfl)
        simp only [features, alterTableFeatures, List.mem_append, List.mem_flatMap]
        rw [hx2]
        exact .inl (.inr ⟨_, hmem, hf⟩)
    · obtain ⟨h1, h2⟩ := hall (.createIndex { createIfNotExists := d ≠ .mysql, index := x })
        (mem_wantTable hdia h hm hp (by
          rw [mem_phases]
          refine .inr (.inr (.inr (.inr (.inr (.inr (.inl ⟨_, ?_, rfl⟩))))))
          simp only [wantTable]
          rw [if_neg hmy]
          exact hmem)) rfl
      exact indexFits_of _ x h1 h2
  have hConAlter : ∀ c : Constraint, (∀ f ∈ addConstraintFeatures { constraint := c }, supports d f = true) → addConstraintMakesSense { constraint := c } →
      ConstraintFits d c := by
    intro c h1 h2
    refine ⟨fun f hf => h1 f ?_, (h2 rfl).2 rfl⟩
    simp only [addConstraintFeatures, mem_uses, List.mem_append]
    exact ⟨trivial, .inl (.inr ⟨trivial, hf⟩)⟩
  have hFk : d ≠ .sqlite → ∀ p ∈ allTables got.currentSchema want, ∀ c ∈ missing p.2.constraints (existing got (p.1, p.2) Table.constraints),
      c.constraintType = .foreignKey → ConstraintFits d c := by
    intro hs p hp c hc hfk
    have hmem : ({ constraint := c } : AddConstraintCommand) ∈ (wantForeignKeys d (gotSchemaFor got p.1) p.2).addConstraintCmds := by
      simp only [wantForeignKeys]
      rw [newConstraints_eq hg (fun hs => (notSqlite hdia hs).1), if_neg hs]
      exact List.mem_map.2 ⟨c, List.mem_filter.2 ⟨hc, by simp [hfk]⟩, rfl⟩
    obtain ⟨h1, h2⟩ := hall (.addForeignKeys (wantForeignKeys d (gotSchemaFor got p.1) p.2))
      (mem_wantTable hdia h hm hp (by
        rw [mem_phases]
        refine .inr (.inr (.inr (.inr (.inr (.inr (.inr (.inr (.inl ⟨_, ?_, rfl⟩))))))))
        simp only [wantTable]
        rw [if_pos (List.ne_nil_of_mem hmem)]
        exact List.mem_singleton.2 rfl)) rfl
    refine hConAlter c (fun f hf => h1 f ?_) (h2.1 _ hmem)
    simp only [features, alterTableFeatures, List.mem_append, List.mem_flatMap]
    exact .inl (.inl (.inl (.inl (.inr ⟨_, hmem, hf⟩))))
  constructor
  · intro hsq s hs
    refine Classical.byContradiction fun hn => ?_
    rw [not_or] at hn
    obtain ⟨hn1, hn2⟩ := hn
    obtain ⟨h1, -⟩ := hall (.createSchema { createIfNotExists := true, schemaName := if s.schemaName = [] then got.currentSchema else s.schemaName })
      (mem_wantSchema hdia h hm hs (by
        unfold wantSchema
        dsimp only
        rw [mem_phases_append]
        refine .inl ?_
        rw [mem_phases]
        refine .inl ⟨_, ?_, rfl⟩
        have := lookup_isSome hg.schemas (if s.schemaName = [] then got.currentSchema else s.schemaName)
        rw [if_pos]
        · exact List.mem_singleton.2 rfl
        · simp only [hm, Bool.and_true, Bool.and_eq_true, decide_eq_true_eq]
          refine ⟨?_, hn1⟩
          unfold DatabaseMetadata.cachedSchemaPosition
          rw [Bool.eq_false_iff.2 hn2] at this
          simpa using this)) rfl
    have := h1 .schemas (by simp [features])
    simp [supports, hsq] at this
  · intro p hp hgt
    have hex : ∀ (α : Type) (f : Table → List α), existing got (p.1, p.2) f = [] := by
      intro α f
      unfold existing
      rw [hgt]
    obtain ⟨h1, h2⟩ := hall (.createTable { createIfNotExists := true, includeConstraints := true, table := p.2
                                            createIndexCmds := if d = .mysql then newIndexes d (gotSchemaFor got p.1) p.2 else [] })
      (mem_wantTable hdia h hm hp (by
        rw [mem_phases]
        refine .inr (.inr (.inr (.inl ⟨_, ?_, rfl⟩)))
        simp only [wantTable]
        rw [gotTableFor_eq hg, hgt, if_neg (by simp), hm, if_pos rfl]
        exact List.mem_singleton.2 rfl)) rfl
    refine ⟨h2.1, ?_, h2.2.1, ?_, ?_, ?_⟩
    · intro hv
      have := h1 .virtualTable (by simp [features, createTableFeatures, mem_use, hv])
      simpa [supports] using this
    · intro hv c hc f hf
      refine h1 f ?_
      simp only [features, createTableFeatures, List.mem_append, mem_uses, List.mem_flatMap]
      exact .inl (.inl (.inl (.inr ⟨hv, c, hc, hf⟩)))
    · intro c hc hpk
      by_cases hin : inTable d c = true
      · refine ⟨fun f hf => h1 f ?_, h2.2.2.1 rfl c (mem_active.1 hc).1 hin⟩
        simp only [features, createTableFeatures, List.mem_append, mem_uses, List.mem_flatMap]
        exact .inl (.inl (.inr ⟨trivial, c, List.mem_filter.2 ⟨(mem_active.1 hc).1, hin⟩, hf⟩))
      · have hi : c.ignore = false := (mem_active.1 hc).2
        have hcases : d ≠ .sqlite ∧ c.constraintType = .foreignKey := by
          simp only [inTable, hi] at hin
          by_cases hsq : d = .sqlite
          · have := hpk hsq
            simp [hsq] at hin
            exact absurd hin.2 (this hin.1)
          · simp [hsq] at hin
            exact ⟨hsq, hin⟩
        refine hFk hcases.1 p hp c ?_ hcases.2
        rw [hex, missing_nil]
        exact hc
    · intro x hx
      refine hIx p hp x ?_
      rw [hex, missing_nil]
      exact hx
  · intro p hp g hgt c hc hnone
    have hi : c.ignore = false := (mem_active.1 hc).2
    have hge : gotOrEmpty (gotSchemaFor got p.1) p.2 = g := by rw [gotOrEmpty_eq hg, hgt]; rfl
    have hmem : ({ addIfNotExists := d = .postgres, column := c } : AddColumnCommand) ∈ (wantAlter mode d (gotSchemaFor got p.1) p.2).addColumnCmds := by
      simp only [wantAlter, List.mem_flatMap]
      rw [gotTableFor_eq hg, hgt, if_pos (by rfl), hge]
      refine ⟨_, List.mem_map.2 ⟨c, (mem_active.1 hc).1, rfl⟩, ?_⟩
      have hpos : g.cachedColumnPosition c.columnName = none := by
        have := lookup_isNone (gotTable_ok hg hgt).columns c.columnName
        rw [hnone] at this
        exact Option.isNone_iff_eq_none.1 this
      unfold columnCmds
      rw [hi, if_neg (by simp), hpos]
      simp [hm]
    have hf : ∀ f ∈ addColumnFeatures { addIfNotExists := d = .postgres, column := c }, supports d f = true := by
      by_cases hsq : d = .sqlite
      · obtain ⟨h1, -⟩ := hall (.alterTable { tableSchema := p.2.tableSchema, tableName := p.2.tableName,
                                              addColumnCmds := [{ addIfNotExists := d = .postgres, column := c }] })
          (mem_wantTable hdia h hm hp (by
            rw [mem_phases]
            refine .inr (.inr (.inr (.inr (.inl ⟨_, ?_, rfl⟩))))
            simp only [wantTable]
            rw [if_pos hsq]
            refine List.mem_append.2 (.inl (List.mem_map.2 ⟨_, hmem, rfl⟩)))) rfl
        intro f hf
        refine h1 f ?_
        simp only [features, alterTableFeatures, List.mem_append, List.mem_flatMap]
        exact .inl (.inl (.inl (.inl (.inl (.inl (.inl (.inr ⟨_, List.mem_singleton.2 rfl, hf⟩)))))))
      · obtain ⟨h1, -⟩ := hall (.alterTable (wantAlter mode d (gotSchemaFor got p.1) p.2))
          (mem_wantTable hdia h hm hp (by
            rw [mem_phases]
            refine .inr (.inr (.inr (.inr (.inl ⟨_, ?_, rfl⟩))))
            simp only [wantTable]
            rw [if_neg hsq, if_pos (.inl (List.ne_nil_of_mem hmem))]
            exact List.mem_singleton.2 rfl)) rfl
        intro f hf
        refine h1 f ?_
        simp only [features, alterTableFeatures, List.mem_append, List.mem_flatMap]
        exact .inl (.inl (.inl (.inl (.inl (.inl (.inl (.inr ⟨_, hmem, hf⟩)))))))
    simp only [addColumnFeatures, mem_uses, List.mem_append, mem_use] at hf
    refine ⟨fun f hx => hf f ⟨trivial, .inr hx⟩, fun hsq => ?_⟩
    subst hsq
    have hno : ∀ f, supports .sqlite f = false → ¬ _ := fun f hs hx => absurd (hf f hx) (by simp [hs])
    refine ⟨?_, ?_, ?_, ?_⟩
    · have := hno .addPrimaryKey rfl; simp at this; exact this.1
    · have := hno .addUnique rfl; simp at this; exact this.1
    · intro hnn
      have h1 := hno .addNotNullWithoutDefault rfl
      have h2 := hno .addNotNullExpressionDefault rfl
      simp [hnn] at h1 h2
      exact ⟨h1.1, h2.1⟩
    · intro hge
      have := hno .addStored rfl
      simp [hge] at this
      exact this.1
  · intro hsq p hp g hgt c hc hnone
    have hmis : c ∈ missing p.2.constraints (existing got (p.1, p.2) Table.constraints) := by
      refine mem_missing.2 ⟨hc, ?_⟩
      unfold existing
      rw [hgt]
      exact hnone
    by_cases hfk : c.constraintType = .foreignKey
    · exact hFk hsq p hp c hmis hfk
    · have hmem : ({ constraint := c } : AddConstraintCommand) ∈ (wantAlter mode d (gotSchemaFor got p.1) p.2).addConstraintCmds := by
        simp only [wantAlter]
        rw [gotTableFor_eq hg, hgt, if_pos (by rfl), newConstraints_eq hg (fun hs => (notSqlite hdia hs).1), if_neg hsq]
        exact List.mem_map.2 ⟨c, List.mem_filter.2 ⟨hmis, by simp [hfk]⟩, rfl⟩
      obtain ⟨h1, h2⟩ := hall (.alterTable (wantAlter mode d (gotSchemaFor got p.1) p.2))
        (mem_wantTable hdia h hm hp (by
          rw [mem_phases]
          refine .inr (.inr (.inr (.inr (.inl ⟨_, ?_, rfl⟩))))
          simp only [wantTable]
          rw [if_neg hsq, if_pos (.inr (.inr (.inl (List.ne_nil_of_mem hmem))))]
          exact List.mem_singleton.2 rfl)) rfl
      refine hConAlter c (fun f hf => h1 f ?_) (h2.1 _ hmem)
      simp only [features, alterTableFeatures, List.mem_append, List.mem_flatMap]
      exact .inl (.inl (.inl (.inl (.inr ⟨_, hmem, hf⟩))))
  · intro p hp g hgt x hx hnone
    refine hIx p hp x (mem_missing.2 ⟨hx, ?_⟩)
    unfold existing
    rw [hgt]
    exact hnone
  · intro hpg p hp hgv hmat x hx
    obtain ⟨h1, h2⟩ := hall (.createIndex { createIfNotExists := true, index := x })
      (mem_wantView hdia h hm hp (by
        rw [mem_phases]
        refine .inr (.inr (.inr (.inr (.inr (.inr (.inl ⟨_, ?_, rfl⟩))))))
        unfold wantView
        have hvv : ((gotSchemaFor got p.1).cachedViewPosition p.2.viewName).isSome = (view? got p.1 p.2.viewName).isSome := wantView_eq hg p.1 p.2.viewName
        rw [hvv, hgv, if_neg (by simp)]
        dsimp only
        rw [if_pos (by simp [hmat, hpg])]
        exact List.mem_map.2 ⟨x, hx, rfl⟩)) rfl
    exact indexFits_of _ x h1 h2

end

/-! ### Examples -/

theorem exampleGot_ok : MetaOk exampleGot := by
  refine (C46_with_db .postgres { exampleRows with currentSchema := "public".toList } ⟨by decide, by decide, by decide, by decide⟩ ?_).1
  intro t ht
  simp only [exampleRows, List.mem_cons, List.not_mem_nil, or_false] at ht
  rcases ht with rfl | rfl <;> exact ⟨by decide +kernel, by decide +kernel, by decide +kernel, by decide +kernel, by decide +kernel, by decide +kernel⟩

/-- The hypotheses of `C60_written_partial` and `C60_executed_partial` hold of the example (a table that exists and lacks three columns, a
key, a foreign key and indexes, and one that is not wanted); six commands are written. -/
theorem C60_applies :
    migrateDialect exampleGot (exampleWant "public".toList) = .ok .postgres ∧ OfDialect .postgres exampleGot ∧
    Reachable .postgres exampleGot (exampleWant "public".toList) ∧ UpdatesFit .postgres exampleGot (exampleWant "public".toList) ∧
    ((migrate (CreateMissing ||| UpdateExisting ||| DropExtraneous) exampleGot (exampleWant "public".toList)).map fun m =>
      (m.order.length, (m.exec fun _ _ => true).ended)) = .ok (6, .done) := by
  refine ⟨by decide +kernel, ⟨fun h => absurd rfl h, nofun, fun h => absurd rfl h⟩, ?_, nofun, by decide +kernel⟩
  have h : ∃ m, migrate CreateMissing exampleGot (exampleWant "public".toList) = .ok m ∧ m.order.all (fun c => match c.sql .postgres with | .ok _ => true | _ => false) = true := by
    have : ((migrate CreateMissing exampleGot (exampleWant "public".toList)).map fun m =>
        m.order.all (fun c => match c.sql .postgres with | .ok _ => true | _ => false)) = .ok true := by decide +kernel
    obtain ⟨m, hm, he⟩ := map_eq_ok this
    exact ⟨m, hm, he⟩
  obtain ⟨m, hm, hall⟩ := h
  refine C60_refused (by decide +kernel) hm (by decide) exampleGot_ok fun c hc => ?_
  have := List.all_eq_true.1 hall c hc
  split at this
  · rename_i t ht; exact ⟨t, ht⟩
  · cases this

/-- **C60 fails with UpdateExisting alone**: the migration holds a CREATE TABLE without a name, which cannot be written. -/
theorem C60_update_only_violated :
    ((migrate UpdateExisting { dialect := some .postgres } (exampleWant "public".toList)).map fun m => (m.exec fun _ _ => true).ended) = .ok .notBuilt := by
  decide +kernel

/-- A materialized view that only PostgreSQL has is not refused on MySQL: the statement is written all the same.  `Reachable` says nothing
of views for this reason. -/
theorem C60_materialized_violated :
    ((migrate CreateMissing { dialect := some .mysql }
      { schemas := [{ views := [{ viewName := "v".toList, isMaterialized := true, sql := "SELECT 1".toList }] }] }).map fun m => (m.exec fun _ _ => true)) =
      .ok ⟨["CREATE OR REPLACE MATERIALIZED VIEW v AS SELECT 1".toList], .done⟩ := by
  decide +kernel

/-- A table with an identity column cannot be created on MySQL: the migration ends with an error, before any statement. -/
example : ((migrate CreateMissing { dialect := some .mysql }
      { schemas := [{ tables := [{ tableName := "t".toList, columns := [{ columnName := "a".toList, columnType := "INT".toList, identity := "GENERATED ALWAYS AS IDENTITY".toList }] }] }] }).map
        fun m => (m.exec fun _ _ => true)) = .ok ⟨[], .notBuilt⟩ := by
  decide +kernel


end Ddl.Expressible
