import Verif.Proof.Migrate
import Mathlib.Tactic.Tauto
/-
What a computed migration drops, as a set of objects.
-/
namespace Ddl
open Spec

theorem mem_drops_append (a b : Migration) (o : Obj) : o ∈ drops (a.append b) ↔ o ∈ drops a ∨ o ∈ drops b := by
  simp only [drops, Migration.append, List.flatMap_append, List.map_append, List.mem_append]
  tauto

theorem drops_empty : drops {} = [] := rfl

theorem mem_drops_concat (ms : List Migration) (o : Obj) : o ∈ drops (Migration.concat ms) ↔ ∃ m ∈ ms, o ∈ drops m := by
  induction ms with
  | nil => simp [Migration.concat, drops_empty]
  | cons m ms ih => simp [Migration.concat, mem_drops_append, ih]

theorem drops_wantTable (mode : Mode) (d : Dialect) (gs : Schema) (t : Table) : drops (wantTable mode d gs t) = [] := by
  rw [List.eq_nil_iff_forall_not_mem]
  intro o ho
  simp only [drops, wantTable, List.flatMap_nil, List.map_nil, List.append_nil, List.nil_append, List.flatMap_append,
    List.mem_append, List.mem_flatMap] at ho
  rcases ho with ⟨c, hc, ho⟩ | ⟨c, hc, ho⟩
  · split at hc
    · simp only [decomposeAlterTable, wantAlter, List.map_nil, List.append_nil, List.mem_map] at hc
      obtain ⟨x, -, rfl⟩ := hc
      simp [alterDrops] at ho
    · split at hc
      · simp only [List.mem_singleton] at hc
        subst hc
        simp [alterDrops, wantAlter] at ho
      · cases hc
  · split at hc
    · simp only [List.mem_singleton] at hc
      subst hc
      simp [alterDrops, wantForeignKeys] at ho
    · cases hc

theorem drops_wantView (d : Dialect) (gs : Schema) (v : View) : drops (wantView d gs v) = [] := by
  unfold wantView
  split <;> rfl

theorem drops_wantSchema (mode : Mode) (d : Dialect) (got : DatabaseMetadata) (s : Schema) : drops (wantSchema mode d got s) = [] := by
  rw [List.eq_nil_iff_forall_not_mem]
  intro o ho
  simp only [wantSchema, mem_drops_append, mem_drops_concat, List.mem_map] at ho
  rcases ho with ho | ⟨m, ⟨t, -, rfl⟩, ho⟩ | ⟨m, ⟨t, -, rfl⟩, ho⟩
  · simp [drops] at ho
  · rw [drops_wantTable] at ho; cases ho
  · rw [drops_wantView] at ho; cases ho

theorem zip_fst_snd {α β : Type} (l : List (α × β)) : (l.map Prod.fst).zip (l.map Prod.snd) = l := by
  induction l with
  | nil => rfl
  | cons x l ih => simp [ih]

theorem zip_map_map {α β γ : Type} (l : List γ) (f : γ → α) (g : γ → β) : (l.map f).zip (l.map g) = l.map fun x => (f x, g x) := by
  induction l with
  | nil => rfl
  | cons x l ih => simp [ih]

/-- The parts of a table that its drop commands name. -/
def PartDrop (d : Dialect) (t w : Table) (o : Obj) : Prop :=
  (∃ c ∈ t.columns, w.cachedColumnPosition c.columnName = none ∧ o = .column t.tableSchema t.tableName c.columnName) ∨
  (d ≠ .sqlite ∧ ∃ c ∈ t.constraints, w.cachedConstraintPosition c.constraintName = none ∧
    o = .constraint t.tableSchema t.tableName c.constraintName) ∨
  (∃ i ∈ t.indexes, w.cachedIndexPosition i.indexName = none ∧ o = .index i.tableSchema i.tableName i.indexName) ∨
  (∃ x ∈ t.triggers, w.cachedTriggerPosition x.triggerName = none ∧ o = .trigger x.tableSchema x.tableName x.triggerName)

/-- The objects one existing table contributes. -/
def tableObjs (d : Dialect) (x : TableDrop) : List Obj :=
  x.tables.map (fun p => Obj.table p.1 p.2) ++ x.triggers.map (fun c => Obj.trigger c.tableSchema c.tableName c.triggerName) ++
  x.indexes.map (fun c => Obj.index c.tableSchema c.tableName c.indexName) ++
  (if d = .sqlite then x.alters.flatMap decomposeAlterTable else x.alters).flatMap alterDrops

theorem alterDrops_if (c : AlterTableCommand) :
    (if c.dropColumnCmds ≠ [] ∨ c.dropConstraintCmds ≠ [] ∨ c.dropIndexCmds ≠ [] then [c] else []).flatMap alterDrops = alterDrops c := by
  split
  · simp
  · rename_i h
    simp only [not_or, ne_eq, not_not] at h
    simp [alterDrops, h.1, h.2.1, h.2.2]

theorem alterDrops_decompose (c : AlterTableCommand) (h1 : c.dropConstraintCmds = []) (h2 : c.dropIndexCmds = []) :
    ((if c.dropColumnCmds ≠ [] ∨ c.dropConstraintCmds ≠ [] ∨ c.dropIndexCmds ≠ [] then [c] else []).flatMap decomposeAlterTable).flatMap
      alterDrops = alterDrops c := by
  have hm : ∀ l : List DropColumnCommand,
      (l.map fun x => ({ tableSchema := c.tableSchema, tableName := c.tableName, dropColumnCmds := [x] } : AlterTableCommand)).flatMap
        alterDrops = l.map fun x => Obj.column c.tableSchema c.tableName x.columnName := by
    intro l
    induction l with
    | nil => rfl
    | cons x l ih => simp only [List.map_cons, List.flatMap_cons, ih]; rfl
  have ha : ∀ l : List AddColumnCommand,
      (l.map fun x => ({ tableSchema := c.tableSchema, tableName := c.tableName, addColumnCmds := [x] } : AlterTableCommand)).flatMap
        alterDrops = [] := by
    intro l
    induction l with
    | nil => rfl
    | cons x l ih => simp only [List.map_cons, List.flatMap_cons, ih]; rfl
  split
  · simp only [List.flatMap_cons, List.flatMap_nil, List.append_nil, decomposeAlterTable, List.flatMap_append, hm, ha,
      List.nil_append, alterDrops, h1, h2, List.map_nil]
  · rename_i h
    simp only [not_or, ne_eq, not_not] at h
    simp [alterDrops, h.1, h.2.1, h.2.2]

theorem mem_tableObjs (d : Dialect) (ws : Schema) (t : Table) (o : Obj) :
    o ∈ tableObjs d (dropTable d ws t) ↔
      (wantTableFor ws t = none ∧ o = .table t.tableSchema t.tableName) ∨ ∃ w, wantTableFor ws t = some w ∧ PartDrop d t w o := by
  unfold dropTable
  cases hw : wantTableFor ws t with
  | none => simp [tableObjs]
  | some w =>
    simp only [reduceCtorEq, false_and, Option.some.injEq, exists_eq_left', false_or, PartDrop]
    unfold tableObjs
    by_cases hs : d = .sqlite
    · subst hs
      rw [if_pos rfl]
      dsimp only
      rw [alterDrops_decompose _ rfl rfl]
      simp only [alterDrops, dropAlter, extraIndexes, List.mem_append, List.mem_map, List.mem_filter, Option.isNone_iff_eq_none, if_true, if_false,
        List.map_nil, List.append_nil, List.nil_append, reduceCtorEq, ne_eq, not_true, false_and, false_or]
      constructor
      · rintro ((⟨c, ⟨x, ⟨h1, h2⟩, rfl⟩, rfl⟩ | ⟨c, ⟨x, ⟨h1, h2⟩, rfl⟩, rfl⟩) | ⟨c, ⟨x, ⟨h1, h2⟩, rfl⟩, rfl⟩)
        · exact .inr (.inr ⟨x, h1, h2, rfl⟩)
        · exact .inr (.inl ⟨x, h1, h2, rfl⟩)
        · exact .inl ⟨x, h1, h2, rfl⟩
      · rintro (⟨x, h1, h2, rfl⟩ | ⟨x, h1, h2, rfl⟩ | ⟨x, h1, h2, rfl⟩)
        · exact .inr ⟨_, ⟨x, ⟨h1, h2⟩, rfl⟩, rfl⟩
        · exact .inl (.inr ⟨_, ⟨x, ⟨h1, h2⟩, rfl⟩, rfl⟩)
        · exact .inl (.inl ⟨_, ⟨x, ⟨h1, h2⟩, rfl⟩, rfl⟩)
    · rw [if_neg hs]
      dsimp only
      rw [alterDrops_if]
      simp only [alterDrops, dropAlter, extraIndexes, List.mem_append, List.mem_map, List.map_nil, List.nil_append, if_neg hs]
      by_cases hm : d = .mysql
      · simp only [if_pos hm, List.mem_map, List.mem_filter, Option.isNone_iff_eq_none, List.map_nil, List.not_mem_nil, or_false,
          false_and, exists_false]
        constructor
        · rintro (⟨c, ⟨x, ⟨h1, h2⟩, rfl⟩, rfl⟩ | ((⟨c, ⟨x, ⟨h1, h2⟩, rfl⟩, rfl⟩ | ⟨c, ⟨x, ⟨h1, h2⟩, rfl⟩, rfl⟩) | ⟨c, ⟨x, ⟨h1, h2⟩, rfl⟩, rfl⟩))
          · exact .inr (.inr (.inr ⟨x, h1, h2, rfl⟩))
          · exact .inl ⟨x, h1, h2, rfl⟩
          · exact .inr (.inl ⟨hs, x, h1, h2, rfl⟩)
          · exact .inr (.inr (.inl ⟨x, h1, h2, rfl⟩))
        · rintro (⟨x, h1, h2, rfl⟩ | ⟨-, x, h1, h2, rfl⟩ | ⟨x, h1, h2, rfl⟩ | ⟨x, h1, h2, rfl⟩)
          · exact .inr (.inl (.inl ⟨_, ⟨x, ⟨h1, h2⟩, rfl⟩, rfl⟩))
          · exact .inr (.inl (.inr ⟨_, ⟨x, ⟨h1, h2⟩, rfl⟩, rfl⟩))
          · exact .inr (.inr ⟨_, ⟨x, ⟨h1, h2⟩, rfl⟩, rfl⟩)
          · exact .inl ⟨_, ⟨x, ⟨h1, h2⟩, rfl⟩, rfl⟩
      · simp only [if_neg hm, List.mem_map, List.mem_filter, Option.isNone_iff_eq_none, List.map_nil, List.not_mem_nil, or_false,
          false_and, exists_false]
        constructor
        · rintro ((⟨c, ⟨x, ⟨h1, h2⟩, rfl⟩, rfl⟩ | ⟨c, ⟨x, ⟨h1, h2⟩, rfl⟩, rfl⟩) | (⟨c, ⟨x, ⟨h1, h2⟩, rfl⟩, rfl⟩ | ⟨c, ⟨x, ⟨h1, h2⟩, rfl⟩, rfl⟩))
          · exact .inr (.inr (.inr ⟨x, h1, h2, rfl⟩))
          · exact .inr (.inr (.inl ⟨x, h1, h2, rfl⟩))
          · exact .inl ⟨x, h1, h2, rfl⟩
          · exact .inr (.inl ⟨hs, x, h1, h2, rfl⟩)
        · rintro (⟨x, h1, h2, rfl⟩ | ⟨-, x, h1, h2, rfl⟩ | ⟨x, h1, h2, rfl⟩ | ⟨x, h1, h2, rfl⟩)
          · exact .inr (.inl ⟨_, ⟨x, ⟨h1, h2⟩, rfl⟩, rfl⟩)
          · exact .inr (.inr ⟨_, ⟨x, ⟨h1, h2⟩, rfl⟩, rfl⟩)
          · exact .inl (.inr ⟨_, ⟨x, ⟨h1, h2⟩, rfl⟩, rfl⟩)
          · exact .inl (.inl ⟨_, ⟨x, ⟨h1, h2⟩, rfl⟩, rfl⟩)

/-- Everything the dropping half drops. -/
theorem mem_drops_dropPhase (mode : Mode) (d : Dialect) (got want : DatabaseMetadata) (exts : List Str) (o : Obj) :
    o ∈ drops (dropPhase mode d got want exts) ↔
      (∃ e ∈ exts, o = .extension (extensionName e)) ∨
      ∃ s ∈ active got.schemas,
        (∃ f ∈ s.functions, (wantSchemaFor want s.schemaName).cachedFunctionPositions f.functionName = [] ∧
          o = .function f.functionSchema f.functionName) ∨
        (∃ v ∈ s.views, (wantSchemaFor want s.schemaName).cachedViewPosition v.viewName = none ∧
          (d = .sqlite → v.isMaterialized = false) ∧ o = .view v.viewSchema v.viewName) ∨
        ∃ t ∈ active s.tables,
          (wantTableFor (wantSchemaFor want s.schemaName) t = none ∧ o = .table t.tableSchema t.tableName) ∨
          ∃ w, wantTableFor (wantSchemaFor want s.schemaName) t = some w ∧ PartDrop d t w o := by
  have hE : o ∈ (dropPhase mode d got want exts).dropExtensionCmds.flatMap
      (fun c => c.extensions.map fun e => Obj.extension (extensionName e)) ↔ ∃ e ∈ exts, o = .extension (extensionName e) := by
    unfold dropPhase
    dsimp only
    by_cases h : exts = []
    · simp [h]
    · rw [if_pos h]; simp [eq_comm]
  have hF : o ∈ (dropPhase mode d got want exts).dropFunctionCmds.map
      (fun c => Obj.function c.function.functionSchema c.function.functionName) ↔
      ∃ s ∈ active got.schemas, ∃ f ∈ s.functions,
        (wantSchemaFor want s.schemaName).cachedFunctionPositions f.functionName = [] ∧
          o = .function f.functionSchema f.functionName := by
    simp only [dropPhase, List.mem_map, List.mem_flatMap, dropFunctions, List.mem_filter, List.isEmpty_iff]
    constructor
    · rintro ⟨c, ⟨s, hs, f, ⟨hf, he⟩, rfl⟩, rfl⟩
      exact ⟨s, List.mem_filter.2 hs, f, hf, he, rfl⟩
    · rintro ⟨s, hs, f, hf, he, rfl⟩
      exact ⟨_, ⟨s, List.mem_filter.1 hs, f, ⟨hf, he⟩, rfl⟩, rfl⟩
  have hv : ∀ mat, o ∈ (extraViews got want mat).map (fun v => Obj.view v.viewSchema v.viewName) ↔
      ∃ s ∈ active got.schemas, ∃ v ∈ s.views, (wantSchemaFor want s.schemaName).cachedViewPosition v.viewName = none ∧
          v.isMaterialized = mat ∧ o = .view v.viewSchema v.viewName := by
    intro mat
    simp only [extraViews, List.mem_map, List.mem_filter, List.mem_flatMap, dropViews, Option.isNone_iff_eq_none, decide_eq_true_eq]
    constructor
    · rintro ⟨v, ⟨⟨s, hs, hv, hn⟩, hm⟩, rfl⟩
      exact ⟨s, List.mem_filter.2 hs, v, hv, hn, hm, rfl⟩
    · rintro ⟨s, hs, v, hv, hn, hm, rfl⟩
      exact ⟨v, ⟨⟨s, List.mem_filter.1 hs, hv, hn⟩, hm⟩, rfl⟩
  have hz : ∀ mat, ((dropViewCmd mode got want mat).viewSchemas.zip (dropViewCmd mode got want mat).viewNames).map
      (fun p => Obj.view p.1 p.2) = (extraViews got want mat).map fun v => Obj.view v.viewSchema v.viewName := by
    intro mat
    simp only [dropViewCmd, zip_map_map, List.map_map]; rfl
  have hV : o ∈ (dropPhase mode d got want exts).dropViewCmds.flatMap
      (fun c => (c.viewSchemas.zip c.viewNames).map fun p => Obj.view p.1 p.2) ↔
      ∃ s ∈ active got.schemas, ∃ v ∈ s.views, (wantSchemaFor want s.schemaName).cachedViewPosition v.viewName = none ∧
          (d = .sqlite → v.isMaterialized = false) ∧ o = .view v.viewSchema v.viewName := by
    unfold dropPhase
    dsimp only
    by_cases hs : d = .sqlite
    · rw [if_pos hs, decomposeDropView, List.flatMap_map]
      have : (((dropViewCmd mode got want false).viewSchemas.zip (dropViewCmd mode got want false).viewNames).flatMap
          fun a => (List.zip [a.1] [a.2]).map fun p => Obj.view p.1 p.2) =
          ((dropViewCmd mode got want false).viewSchemas.zip (dropViewCmd mode got want false).viewNames).map
            fun p => Obj.view p.1 p.2 := by
        exact (List.map_eq_flatMap ..).symm
      rw [this, hz, hv]
      simp [hs]
    · rw [if_neg hs, List.flatMap_append]
      have : ∀ mat, (if (dropViewCmd mode got want mat).viewNames ≠ [] then [dropViewCmd mode got want mat] else []).flatMap
          (fun c => (c.viewSchemas.zip c.viewNames).map fun p => Obj.view p.1 p.2) =
          (extraViews got want mat).map fun v => Obj.view v.viewSchema v.viewName := by
        intro mat
        split
        · rw [List.flatMap_singleton, hz]
        · rename_i h
          simp only [ne_eq, not_not, dropViewCmd, List.map_eq_nil_iff] at h
          simp [h]
      rw [this, this, List.mem_append, hv, hv]
      constructor
      · rintro (⟨s, h1, v, h2, h3, -, h4⟩ | ⟨s, h1, v, h2, h3, -, h4⟩) <;>
          exact ⟨s, h1, v, h2, h3, fun h => absurd h hs, h4⟩
      · rintro ⟨s, h1, v, h2, h3, -, h4⟩
        cases hm : v.isMaterialized
        · exact .inl ⟨s, h1, v, h2, h3, hm, h4⟩
        · exact .inr ⟨s, h1, v, h2, h3, hm, h4⟩
  have hT : o ∈ (dropPhase mode d got want exts).dropTableCmds.flatMap
      (fun c => (c.tableSchemas.zip c.tableNames).map fun p => Obj.table p.1 p.2) ↔
      o ∈ ((tableDrops d got want).flatMap TableDrop.tables).map fun p => Obj.table p.1 p.2 := by
    unfold dropPhase
    dsimp only
    by_cases hs : d = .sqlite
    · rw [if_pos hs, decomposeDropTable, List.flatMap_map]
      have : (((dropTableCmd mode (tableDrops d got want)).tableSchemas.zip (dropTableCmd mode (tableDrops d got want)).tableNames).flatMap
          fun a => (List.zip [a.1] [a.2]).map fun p => Obj.table p.1 p.2) =
          ((dropTableCmd mode (tableDrops d got want)).tableSchemas.zip (dropTableCmd mode (tableDrops d got want)).tableNames).map
            fun p => Obj.table p.1 p.2 := by
        exact (List.map_eq_flatMap ..).symm
      rw [this]
      simp only [dropTableCmd, zip_fst_snd]
    · rw [if_neg hs]
      split
      · simp only [List.flatMap_singleton, dropTableCmd, zip_fst_snd]
      · rename_i h
        simp only [ne_eq, not_not, dropTableCmd, List.map_eq_nil_iff] at h
        simp [h]
  have hO : (o ∈ (dropPhase mode d got want exts).dropTableCmds.flatMap
        (fun c => (c.tableSchemas.zip c.tableNames).map fun p => Obj.table p.1 p.2) ∨
      o ∈ (dropPhase mode d got want exts).dropTriggerCmds.map (fun c => Obj.trigger c.tableSchema c.tableName c.triggerName) ∨
      o ∈ (dropPhase mode d got want exts).dropIndexCmds.map (fun c => Obj.index c.tableSchema c.tableName c.indexName) ∨
      o ∈ (dropPhase mode d got want exts).alterTableDropCmds.flatMap alterDrops) ↔
      ∃ x ∈ tableDrops d got want, o ∈ tableObjs d x := by
    rw [hT]
    have : (dropPhase mode d got want exts).alterTableDropCmds.flatMap alterDrops =
        (tableDrops d got want).flatMap fun x =>
          (if d = .sqlite then x.alters.flatMap decomposeAlterTable else x.alters).flatMap alterDrops := by
      unfold dropPhase
      dsimp only
      by_cases hs : d = .sqlite
      · simp only [if_pos hs, List.flatMap_assoc]
      · simp only [if_neg hs, List.flatMap_assoc]
    rw [this]
    simp only [dropPhase, tableObjs, List.map_flatMap, List.mem_flatMap, List.mem_append]
    constructor
    · rintro (⟨x, hx, h⟩ | ⟨x, hx, h⟩ | ⟨x, hx, h⟩ | ⟨x, hx, h⟩)
      · exact ⟨x, hx, .inl (.inl (.inl h))⟩
      · exact ⟨x, hx, .inl (.inl (.inr h))⟩
      · exact ⟨x, hx, .inl (.inr h)⟩
      · exact ⟨x, hx, .inr h⟩
    · rintro ⟨x, hx, ((h | h) | h) | h⟩
      · exact .inl ⟨x, hx, h⟩
      · exact .inr (.inl ⟨x, hx, h⟩)
      · exact .inr (.inr (.inl ⟨x, hx, h⟩))
      · exact .inr (.inr (.inr ⟨x, hx, h⟩))
  have hO' : (∃ x ∈ tableDrops d got want, o ∈ tableObjs d x) ↔
      ∃ s ∈ active got.schemas, ∃ t ∈ active s.tables,
          (wantTableFor (wantSchemaFor want s.schemaName) t = none ∧ o = .table t.tableSchema t.tableName) ∨
          ∃ w, wantTableFor (wantSchemaFor want s.schemaName) t = some w ∧ PartDrop d t w o := by
    simp only [tableDrops, List.mem_flatMap, List.mem_map]
    constructor
    · rintro ⟨x, ⟨s, hs, t, ht, rfl⟩, ho⟩
      exact ⟨s, hs, t, ht, (mem_tableObjs _ _ _ _).1 ho⟩
    · rintro ⟨s, hs, t, ht, ho⟩
      exact ⟨_, ⟨s, hs, t, ht, rfl⟩, (mem_tableObjs _ _ _ _).2 ho⟩
  have hmem : o ∈ drops (dropPhase mode d got want exts) ↔
      (o ∈ (dropPhase mode d got want exts).dropExtensionCmds.flatMap
        (fun c => c.extensions.map fun e => Obj.extension (extensionName e))) ∨
      (o ∈ (dropPhase mode d got want exts).dropFunctionCmds.map
        (fun c => Obj.function c.function.functionSchema c.function.functionName)) ∨
      (o ∈ (dropPhase mode d got want exts).dropViewCmds.flatMap
        (fun c => (c.viewSchemas.zip c.viewNames).map fun p => Obj.view p.1 p.2)) ∨
      (o ∈ (dropPhase mode d got want exts).dropTableCmds.flatMap
        (fun c => (c.tableSchemas.zip c.tableNames).map fun p => Obj.table p.1 p.2) ∨
      o ∈ (dropPhase mode d got want exts).dropTriggerCmds.map (fun c => Obj.trigger c.tableSchema c.tableName c.triggerName) ∨
      o ∈ (dropPhase mode d got want exts).dropIndexCmds.map (fun c => Obj.index c.tableSchema c.tableName c.indexName) ∨
      o ∈ (dropPhase mode d got want exts).alterTableDropCmds.flatMap alterDrops) := by
    have h1 : (dropPhase mode d got want exts).alterTableCmds = [] := rfl
    have h2 : (dropPhase mode d got want exts).addForeignKeyCmds = [] := rfl
    clear hE hF hv hz hV hT hO hO'
    generalize dropPhase mode d got want exts = m at *
    simp only [drops, h1, h2, List.nil_append, List.mem_append, or_assoc, or_comm, or_left_comm]
  rw [hmem, hE, hF, hV, hO, hO']
  constructor
  · rintro (h | ⟨s, hs, h⟩ | ⟨s, hs, h⟩ | ⟨s, hs, h⟩)
    · exact .inl h
    · exact .inr ⟨s, hs, .inl h⟩
    · exact .inr ⟨s, hs, .inr (.inl h)⟩
    · exact .inr ⟨s, hs, .inr (.inr h)⟩
  · rintro (h | ⟨s, hs, h | h | h⟩)
    · exact .inl h
    · exact .inr (.inl ⟨s, hs, h⟩)
    · exact .inr (.inr (.inl ⟨s, hs, h⟩))
    · exact .inr (.inr (.inr ⟨s, hs, h⟩))

end Ddl
