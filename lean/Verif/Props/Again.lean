import Verif.Props.ConvergeParts
import Verif.Props.Contents
import Verif.Proof.PlacedDecl
/-
C76: migrating a second time does nothing.
-/
namespace Ddl.Again
open Ddl Ddl.Spec Ddl.ConvergeParts

namespace Spec

/-- `after` is what a database of dialect `d` reports that reported `got` and on which the commands of `m` have run since.  Nothing else
happened to it: it has the tables, views, columns, indexes, triggers and constraints that were there or
were created, and were not dropped (`AfterParts`, Spec of C48).  The parts are compared for the tables it has.  Functions and extensions (but
plpgsql) are left out (`C36_C37_extensions_violated`, `C36_wanted_function_dropped_violated`). -/
structure Reported (d : Dialect) (got : DatabaseMetadata) (m : Migration) (after : DatabaseMetadata) : Prop where
  dialect : after.dialect = some d
  current : after.currentSchema = got.currentSchema
  wellFormed : MetaOk after
  /-- A database ignores nothing. -/
  all : NoIgnoredParts after
  tables : ∀ s n, Present after (.table s n) ↔ AfterParts got m (.table s n)
  views : ∀ s n, Present after (.view s n) ↔ AfterParts got m (.view s n)
  columns : ∀ s t n, Present after (.table s t) → (Present after (.column s t n) ↔ AfterParts got m (.column s t n))
  indexes : ∀ s t n, Present after (.table s t) → (Present after (.index s t n) ↔ AfterParts got m (.index s t n))
  triggers : ∀ s t n, Present after (.table s t) → (Present after (.trigger s t n) ↔ AfterParts got m (.trigger s t n))
  constraints : d ≠ .sqlite → ∀ s t n, Present after (.table s t) → (Present after (.constraint s t n) ↔ AfterParts got m (.constraint s t n))
  functions : ∀ s ∈ active after.schemas, s.functions = []
  extensions : ∀ e ∈ after.extensions, "plpgsql".toList <+: e

/-- The declaration has no functions, extensions and empty schemas, and no view has the name of a table. -/
structure Plain (cur : Str) (want : DatabaseMetadata) : Prop where
  schemas : ∀ s ∈ active want.schemas, active s.tables ≠ [] ∨ active s.views ≠ []
  functions : ∀ s ∈ want.schemas, s.functions = []
  extensions : want.extensions = []
  distinct : ∀ s n, ¬ (Has cur want (.table s n) ∧ Has cur want (.view s n))

/-- The database reports a wanted column as it was declared, as far as Migrate compares columns. -/
def ReportsColumns (d : Dialect) (after want : DatabaseMetadata) : Prop :=
  ∀ s t n, ∀ g, table? after s t = some g → ∀ w, (s, w) ∈ allTables after.currentSchema want → w.tableName = t →
    ∀ c' ∈ active g.columns, ∀ c ∈ active w.columns, c'.columnName = n → c.columnName = n → SameColumn d c' c

end Spec
open Spec

theorem find_isSome {α : Type} [Entry α Str] {xs : List α} {k : Str} : (find xs k).isSome = true ↔ ∃ x ∈ active xs, Entry.key x = k := by
  constructor
  · intro h
    obtain ⟨x, hx⟩ := Option.isSome_iff_exists.1 h
    exact ⟨x, find_some hx⟩
  · rintro ⟨x, hx, hk⟩
    unfold find
    rw [List.find?_isSome]
    have := mem_active.1 hx
    exact ⟨x, this.1, by simp [hk, this.2]⟩

theorem findSchema {x : DatabaseMetadata} (hx : MetaOk x) {sc : Schema} (hsc : sc ∈ active x.schemas) : find x.schemas sc.schemaName = some sc :=
  find_eq_some hx.schemas.unique hsc

theorem table?_of_present {x : DatabaseMetadata} (hx : MetaOk x) {s n : Str} (h : Present x (.table s n)) : ∃ t, table? x s n = some t := by
  obtain ⟨sc, hsc, rfl, t, ht, rfl⟩ := h
  refine ⟨t, ?_⟩
  unfold table?
  rw [findSchema hx hsc]
  exact find_eq_some (hx.schema sc hsc).tables.unique ht

/-- There is one schema of a name and one table of a name in it. -/
theorem table?_uniq {x : DatabaseMetadata} (hx : MetaOk x) {sc : Schema} {t g : Table} (hsc : sc ∈ active x.schemas) (ht : t ∈ active sc.tables)
    (h : table? x sc.schemaName t.tableName = some g) : t = g := by
  unfold table? at h
  rw [findSchema hx hsc] at h
  have := find_eq_some (hx.schema sc hsc).tables.unique ht
  exact Option.some.inj (this.symm.trans h)

theorem view?_of_present {x : DatabaseMetadata} (hx : MetaOk x) (hi : NoIgnoredParts x) {s n : Str} (h : Present x (.view s n)) :
    (view? x s n).isSome = true := by
  obtain ⟨sc, hsc, rfl, t, ht, rfl⟩ := h
  unfold view?
  rw [findSchema hx hsc]
  exact find_isSome.2 ⟨t, mem_active.2 ⟨ht, hi.views sc hsc t ht⟩, rfl⟩

variable {mode : Mode} {got want after : DatabaseMetadata} {d : Dialect} {m : Migration}

/-- **C76.** Migrating a second time, with the same declaration and mode, has nothing to do. -/
theorem C76_second_partial (hdia : migrateDialect got want = .ok d) (h : migrate mode got want = .ok m)
    (hc : mode &&& CreateMissing ≠ 0) (hd : mode &&& DropExtraneous ≠ 0) (hg : MetaOk got) (hw : MetaOk want)
    (hpg : Placed got) (hpw : PlacedNames want) (hpp : PlacedParts want) (hn : SchemasNamed got.currentSchema want)
    (hv : d = .sqlite → ∀ s ∈ got.schemas, ∀ v ∈ s.views, v.isMaterialized = false) (hpl : Plain got.currentSchema want)
    (hr : Reported d got m after) (hcol : mode &&& UpdateExisting ≠ 0 → ReportsColumns d after want) :
    ∃ m', migrate mode after want = .ok m' ∧ NoCommands m' := by
  have hm : has mode CreateMissing = true := by unfold has; simpa using hc
  have hcur := hr.current
  have hok := hr.wellFormed
  have hdia' : migrateDialect after want = .ok d := by
    have hwd : want.dialect = none ∨ want.dialect = some d := by
      unfold migrateDialect at hdia
      split at hdia
      · cases hdia
      · rename_i e1 e2; exact .inl e2
      · rename_i e1 e2; cases hdia; exact .inr e2
      · rename_i e1 e2
        split at hdia
        · rename_i he; cases hdia; rw [e2, he]; exact .inr rfl
        · cases hdia
    unfold migrateDialect
    rw [hr.dialect]
    rcases hwd with e | e <;> rw [e] <;> simp
  -- what the database has is what is wanted
  have tab : ∀ s n, Present after (.table s n) ↔ Has got.currentSchema want (.table s n) := fun s n =>
    (hr.tables s n).trans (Iff.trans ⟨fun x => ⟨x.1, x.2.1, fun _ _ _ e => by cases e⟩, fun x => ⟨x.1, x.2.1, fun _ e => by cases e⟩⟩
      (C48_converges hdia h hc hd hg hw hpg hpw hn hv (.table s n) (.inl ⟨s, n, rfl⟩)))
  have vie : ∀ s n, Present after (.view s n) ↔ Has got.currentSchema want (.view s n) := fun s n =>
    (hr.views s n).trans (Iff.trans ⟨fun x => ⟨x.1, x.2.1, fun _ _ _ e => by cases e⟩, fun x => ⟨x.1, x.2.1, fun _ e => by cases e⟩⟩
      (C48_converges hdia h hc hd hg hw hpg hpw hn hv (.view s n) (.inr (.inr ⟨s, n, rfl⟩))))
  have col : ∀ s t n, Present after (.table s t) → (Present after (.column s t n) ↔ Has got.currentSchema want (.column s t n)) := fun s t n ht =>
    (hr.columns s t n ht).trans (Iff.trans ⟨fun x => ⟨x.1, x.2.1, fun _ _ _ e => by cases e; exact x.2.2 _ rfl⟩,
      fun x => ⟨x.1, x.2.1, fun _ e => by cases e; exact x.2.2 _ _ _ rfl⟩⟩
      (C48_converges hdia h hc hd hg hw hpg hpw hn hv (.column s t n) (.inr (.inl ⟨s, t, n, rfl⟩))))
  have noview : ∀ s t, Present after (.table s t) → ¬ Has got.currentSchema want (.view s t) := fun s t ht hvw => hpl.distinct s t ⟨(tab s t).1 ht, hvw⟩
  have idx : ∀ s t n, Present after (.table s t) → (Present after (.index s t n) ↔ Has got.currentSchema want (.index s t n)) := fun s t n ht =>
    (hr.indexes s t n ht).trans (C48_indexes hdia h hc hd hg hw hpg hpw hpp hn hv s t n (noview s t ht))
  have trg : ∀ s t n, Present after (.table s t) → (Present after (.trigger s t n) ↔ Has got.currentSchema want (.trigger s t n)) := fun s t n ht =>
    (hr.triggers s t n ht).trans (C48_triggers hdia h hc hd hg hw hpg hpw hpp hn hv s t n (noview s t ht))
  have con : d ≠ .sqlite → ∀ s t n, Present after (.table s t) → (Present after (.constraint s t n) ↔ Has got.currentSchema want (.constraint s t n)) :=
    fun hs s t n ht => (hr.constraints hs s t n ht).trans (C48_constraints hdia h hc hd hg hw hpg hpw hn hs s t n)
  -- a wanted table and the table that is there
  have wantT : ∀ s w, (s, w) ∈ allTables got.currentSchema want → ∃ sc ∈ active want.schemas, sc.schemaName = s ∧ w ∈ active sc.tables := by
    intro s w hp
    obtain ⟨sc, hsc, ht⟩ := List.mem_flatMap.1 hp
    obtain ⟨t', ht, he⟩ := List.mem_map.1 ht
    rw [schemaName_eq hn hsc] at he
    cases he
    exact ⟨sc, hsc, rfl, ht⟩
  have wantEq : ∀ s w w', (s, w) ∈ allTables got.currentSchema want → (s, w') ∈ allTables got.currentSchema want → w.tableName = w'.tableName → w = w' := by
    intro s w w' h1 h2 he
    obtain ⟨sc, hsc, rfl, ht⟩ := wantT s w h1
    obtain ⟨sc', hsc', hs', ht'⟩ := wantT _ w' h2
    have e1 := find_eq_some hw.schemas.unique hsc
    have e2 := find_eq_some hw.schemas.unique hsc'
    have : sc = sc' := by
      have e3 : Entry.key sc' = Entry.key sc := hs'
      rw [e3] at e2
      exact Option.some.inj (e1.symm.trans e2)
    subst this
    have f1 := find_eq_some (hw.schema sc hsc).tables.unique ht
    have f2 := find_eq_some (hw.schema sc hsc).tables.unique ht'
    have e3 : (Entry.key w : Str) = Entry.key w' := he
    rw [e3] at f1
    exact Option.some.inj (f1.symm.trans f2)
  have wantHas : ∀ s w, (s, w) ∈ allTables got.currentSchema want → table? want s w.tableName = some w := by
    intro s w h1
    obtain ⟨sc, hsc, rfl, ht⟩ := wantT s w h1
    unfold table?
    rw [findSchema hw hsc]
    exact find_eq_some (hw.schema sc hsc).tables.unique ht
  have parts : ∀ s n g, table? after s n = some g → (∀ c ∈ g.columns, c.ignore = false) ∧
      (∀ c ∈ g.constraints, c.ignore = false) ∧ (∀ c ∈ g.indexes, c.ignore = false) ∧ (∀ c ∈ g.triggers, c.ignore = false) := by
    intro s n g hgt
    obtain ⟨-, sc, hsc, -, ht⟩ := table?_some hgt
    exact hr.all.tables sc hsc g ht
  -- Present after of a part is being in the table found
  have inTable : ∀ s n g, table? after s n = some g →
      (∀ k, Present after (.column s n k) ↔ ∃ c ∈ g.columns, c.columnName = k) ∧ (∀ k, Present after (.index s n k) ↔ ∃ c ∈ g.indexes, c.indexName = k) ∧
      (∀ k, Present after (.trigger s n k) ↔ ∃ c ∈ g.triggers, c.triggerName = k) ∧
      (∀ k, Present after (.constraint s n k) ↔ ∃ c ∈ g.constraints, c.constraintName = k) := by
    intro s n g hgt
    obtain ⟨rfl, sc, hsc, rfl, ht⟩ := table?_some hgt
    have hu : ∀ sc' ∈ active after.schemas, sc'.schemaName = sc.schemaName → ∀ t ∈ active sc'.tables, t.tableName = g.tableName → t = g := by
      intro sc' hsc' he t ht' hte
      refine table?_uniq hok hsc' ht' ?_
      rw [he, hte]; exact hgt
    refine ⟨fun k => ⟨?_, fun ⟨c, hc, hk⟩ => ⟨sc, hsc, rfl, g, ht, rfl, c, hc, hk⟩⟩, fun k => ⟨?_, fun ⟨c, hc, hk⟩ => ⟨sc, hsc, rfl, g, ht, rfl, c, hc, hk⟩⟩,
      fun k => ⟨?_, fun ⟨c, hc, hk⟩ => ⟨sc, hsc, rfl, g, ht, rfl, c, hc, hk⟩⟩, fun k => ⟨?_, fun ⟨c, hc, hk⟩ => ⟨sc, hsc, rfl, g, ht, rfl, c, hc, hk⟩⟩⟩
    all_goals
      rintro ⟨sc', hsc', he, t, ht', hte, c, hc, hk⟩
      have := hu sc' hsc' he t ht' hte
      subst this
      exact ⟨c, hc, hk⟩
  have present : ∀ s n g, table? after s n = some g → Present after (.table s n) := by
    intro s n g hgt
    obtain ⟨rfl, sc, hsc, rfl, ht⟩ := table?_some hgt
    exact ⟨sc, hsc, rfl, g, ht, rfl⟩
  refine C38_up_to_date mode after want d hdia' hok hw ⟨?_, ?_, ?_, ?_, ?_⟩ ⟨?_, ?_, ?_, ?_⟩
  · intro s hs
    right
    have hname : effName got.currentSchema s = s.schemaName := schemaName_eq hn hs
    have hpres : ∃ sc ∈ active after.schemas, sc.schemaName = s.schemaName := by
      rcases hpl.schemas s hs with hne | hne
      · obtain ⟨w, hwm⟩ := List.exists_mem_of_ne_nil _ hne
        obtain ⟨sc, h1, h2, -⟩ := (tab s.schemaName w.tableName).2 ⟨w, List.mem_flatMap.2 ⟨s, hs, List.mem_map.2 ⟨w, hwm, by rw [schemaName_eq hn hs]⟩⟩, rfl⟩
        exact ⟨sc, h1, h2⟩
      · obtain ⟨w, hwm⟩ := List.exists_mem_of_ne_nil _ hne
        obtain ⟨sc, h1, h2, -⟩ := (vie s.schemaName w.viewName).2 ⟨w, List.mem_flatMap.2 ⟨s, hs, List.mem_map.2 ⟨w, hwm, by rw [schemaName_eq hn hs]⟩⟩, rfl⟩
        exact ⟨sc, h1, h2⟩
    rw [hcur, hname]
    exact find_isSome.2 hpres
  · rintro ⟨s, w⟩ hp
    rw [hcur] at hp
    have hpr : Present after (.table s w.tableName) := (tab s w.tableName).2 ⟨w, hp, rfl⟩
    obtain ⟨g, hgt⟩ := table?_of_present hok hpr
    obtain ⟨i1, i2, i3, i4⟩ := inTable s _ g hgt
    obtain ⟨n1, n2, n3, n4⟩ := parts s _ g hgt
    refine ⟨g, hgt, fun c hcm => ?_, fun hs x hx => ?_, fun x hx => ?_, fun x hx => ?_⟩
    · obtain ⟨c', hc', hk⟩ := (i1 c.columnName).1 ((col s _ c.columnName hpr).2 ⟨w, hp, rfl, c, hcm, rfl⟩)
      have ha : c' ∈ active g.columns := mem_active.2 ⟨hc', n1 c' hc'⟩
      have hf := find_eq_some (gotTable_ok hok hgt).columns.unique ha
      rw [show (Entry.key c' : Str) = c.columnName from hk] at hf
      refine ⟨c', hf, fun hu => hcol hu s w.tableName c.columnName g hgt w (by rw [hcur]; exact hp) rfl c' ha c hcm hk rfl⟩
    · obtain ⟨c', hc', hk⟩ := (i4 (Entry.key x)).1 ((con hs s _ _ hpr).2 ⟨w, hp, rfl, x, hx, rfl⟩)
      exact find_isSome.2 ⟨c', mem_active.2 ⟨hc', n2 c' hc'⟩, hk⟩
    · obtain ⟨c', hc', hk⟩ := (i2 (Entry.key x)).1 ((idx s _ _ hpr).2 ⟨w, hp, rfl, x, hx, rfl⟩)
      exact find_isSome.2 ⟨c', mem_active.2 ⟨hc', n3 c' hc'⟩, hk⟩
    · obtain ⟨c', hc', hk⟩ := (i3 (Entry.key x)).1 ((trg s _ _ hpr).2 ⟨w, hp, rfl, x, hx, rfl⟩)
      exact find_isSome.2 ⟨c', mem_active.2 ⟨hc', n4 c' hc'⟩, hk⟩
  · rintro ⟨s, w⟩ hp
    rw [hcur] at hp
    exact view?_of_present hok hr.all ((vie s w.viewName).2 ⟨w, hp, rfl⟩)
  · intro s hs f hf
    rw [hpl.functions s (mem_active.1 hs).1] at hf
    cases hf
  · intro e he
    rw [hpl.extensions] at he
    cases he
  · intro s hs t ht
    have hpr : Present after (.table s.schemaName t.tableName) := ⟨s, hs, rfl, t, ht, rfl⟩
    obtain ⟨w, hp, hwn⟩ := (tab _ _).1 hpr
    obtain ⟨g, hgt⟩ := table?_of_present hok hpr
    have := table?_uniq hok hs ht hgt
    subst this
    obtain ⟨i1, i2, i3, i4⟩ := inTable _ _ t hgt
    refine ⟨w, by rw [← hwn]; exact wantHas _ w hp, fun x hx => ?_, fun hsq x hx => ?_, fun x hx => ?_, fun x hx => ?_⟩
    · obtain ⟨w', hp', hn', c, hcm, hk⟩ := (col _ _ (Entry.key x) hpr).1 ((i1 _).2 ⟨x, hx, rfl⟩)
      have := wantEq _ w w' hp hp' (hwn.trans hn'.symm); subst this
      exact find_isSome.2 ⟨c, hcm, hk⟩
    · obtain ⟨w', hp', hn', c, hcm, hk⟩ := (con hsq _ _ (Entry.key x) hpr).1 ((i4 _).2 ⟨x, hx, rfl⟩)
      have := wantEq _ w w' hp hp' (hwn.trans hn'.symm); subst this
      exact find_isSome.2 ⟨c, hcm, hk⟩
    · obtain ⟨w', hp', hn', c, hcm, hk⟩ := (idx _ _ (Entry.key x) hpr).1 ((i2 _).2 ⟨x, hx, rfl⟩)
      have := wantEq _ w w' hp hp' (hwn.trans hn'.symm); subst this
      exact find_isSome.2 ⟨c, hcm, hk⟩
    · obtain ⟨w', hp', hn', c, hcm, hk⟩ := (trg _ _ (Entry.key x) hpr).1 ((i3 _).2 ⟨x, hx, rfl⟩)
      have := wantEq _ w w' hp hp' (hwn.trans hn'.symm); subst this
      exact find_isSome.2 ⟨c, hcm, hk⟩
  · intro s hs v hvm
    obtain ⟨w, hp, hwn⟩ := (vie s.schemaName v.viewName).1 ⟨s, hs, rfl, v, hvm, rfl⟩
    obtain ⟨sc, hsc, ht⟩ := List.mem_flatMap.1 hp
    obtain ⟨t', ht', he⟩ := List.mem_map.1 ht
    rw [schemaName_eq hn hsc] at he
    obtain ⟨he1, rfl⟩ := Prod.mk.inj he
    unfold view?
    have e1 := find_eq_some hw.schemas.unique hsc
    rw [show (Entry.key sc : Str) = s.schemaName from he1] at e1
    rw [e1]
    exact find_isSome.2 ⟨t', ht', hwn⟩
  · intro s hs f hf
    rw [hr.functions s hs] at hf
    cases hf
  · exact fun e he => .inl (hr.extensions e he)


/-! ### What the package itself builds -/

/-- The wanted state is declared with `WithTables`, in named schemas or on SQLite. -/
structure Declared (dia : Dialect) (cur : Str) (decls : List TableDecl) (num : Str → Bool) (want : DatabaseMetadata) : Prop where
  named : ∀ x ∈ decls, x.Named
  /-- Triggers made in a DDL method are on the table of their struct, with its schema. -/
  triggers : ∀ x ∈ decls, PlacedDecl.TrigsPlaced x
  loads : withTables num dia decls { dialect := some dia } = .ok want
  schemas : SchemasNamed cur want

theorem Declared.facts {dia : Dialect} {cur : Str} {decls : List TableDecl} {num : Str → Bool} {want : DatabaseMetadata}
    (h : Declared dia cur decls num want) : MetaOk want ∧ PlacedNames want ∧ PlacedParts want ∧ PlacedDecl.TablesOnly want := by
  have hok := C46_with_tables num dia decls h.named want h.loads
  have hpl : PlacedDecl.TablesPlaced want := PlacedDecl.withTables_placed decls h.named h.triggers (dbInv_empty (some dia) [] [])
    (fun s n t ht => by cases ht) (fun s n t ht => by cases ht) h.loads
  have hon : PlacedDecl.TablesOnly want := PlacedDecl.withTables_only decls ⟨fun s hs => (by cases hs), rfl⟩ h.loads
  have hone : ∀ s ∈ active want.schemas, ∀ t ∈ active s.tables, t.tableSchema = s.schemaName ∧ t.tableName = t.tableName ∧ PlacedTable t := by
    intro s hs t ht
    refine hpl s.schemaName t.tableName t ?_
    unfold table?
    rw [findSchema hok hs]
    exact find_eq_some (hok.schema s hs).tables.unique ht
  have hnov : ∀ s ∈ active want.schemas, active s.views = [] := fun s hs => by rw [(hon.1 s (mem_active.1 hs).1).1]; rfl
  refine ⟨hok, fun s hs => ⟨fun t ht => (hone s hs t ht).1, fun v hv => ?_⟩, fun s hs => ⟨fun t ht => ?_, fun v hv => ?_⟩, hon⟩
  · rw [hnov s hs] at hv; cases hv
  · have p := (hone s hs t ht).2.2
    exact ⟨fun x hx => p.indexes x (mem_active.1 hx).1, fun x hx => p.triggers x (mem_active.1 hx).1⟩
  · rw [hnov s hs] at hv; cases hv

/-- There is no view. -/
theorem Declared.noView {dia : Dialect} {cur : Str} {decls : List TableDecl} {num : Str → Bool} {want : DatabaseMetadata}
    (h : Declared dia cur decls num want) (s n : Str) : ¬ Has cur want (.view s n) := by
  rintro ⟨v, hv, -⟩
  obtain ⟨sc, hsc, hv⟩ := List.mem_flatMap.1 hv
  obtain ⟨v', hv, -⟩ := List.mem_map.1 hv
  rw [(h.facts.2.2.2.1 sc (mem_active.1 hsc).1).1] at hv
  cases hv

theorem migrateDialect_declared {dia : Dialect} {cur : Str} {decls : List TableDecl} {num : Str → Bool} {want : DatabaseMetadata} {r : Introspected}
    (h : Declared dia cur decls num want) : migrateDialect (withDB dia r) want = .ok dia := by
  unfold migrateDialect
  rw [withDB_dialect, withTables_dialect decls h.loads]
  simp

/-- **C48** for what the package itself builds: the database is read with `WithDB`, the wanted state declared with `WithTables`.  After the
migration the database has exactly the wanted tables, columns, indexes, triggers, views (none) and, off SQLite, constraints. -/
theorem C48_declared (dia : Dialect) (r : Introspected) (hr : RowsOk r) (hp : ∀ t ∈ r.tables, PartsOk dia r t)
    (num : Str → Bool) (decls : List TableDecl) (want : DatabaseMetadata) (hd : Declared dia r.currentSchema decls num want)
    (hv : dia = .sqlite → ∀ v ∈ r.views, v.isMaterialized = false)
    (mode : Mode) (hc : mode &&& CreateMissing ≠ 0) (hx : mode &&& DropExtraneous ≠ 0) (m : Migration)
    (h : migrate mode (withDB dia r) want = .ok m)
    (o : Obj) (ho : (∀ s n, o ≠ .function s n) ∧ ∀ n, o ≠ .extension n) (hs : dia = .sqlite → ∀ s t n, o ≠ .constraint s t n) :
    AfterParts (withDB dia r) m o ↔ Has r.currentSchema want o := by
  have hg := (C46_with_db dia r hr hp).1
  obtain ⟨hw, hpw, hpp, -⟩ := hd.facts
  have hpl := placed_withDB dia r fun t ht => ⟨(hp t ht).bare.2.2.1, (hp t ht).bare.2.2.2⟩
  have hcur : (withDB dia r).currentSchema = r.currentSchema := withDB_currentSchema dia r
  have hdia := migrateDialect_declared (r := r) hd
  have hn : SchemasNamed (withDB dia r).currentSchema want := by rw [hcur]; exact hd.schemas
  have hvv : dia = .sqlite → ∀ s ∈ (withDB dia r).schemas, ∀ v ∈ s.views, v.isMaterialized = false := fun hsq =>
    withDB_views (fun v => v.isMaterialized = false) dia r (fun _ _ h => h) (fun _ _ h => h) (hv hsq)
  have hnv : ∀ s n, ¬ Has (withDB dia r).currentSchema want (.view s n) := fun s n => by rw [hcur]; exact hd.noView s n
  rw [← hcur]
  cases o with
  | table s n =>
    exact Iff.trans ⟨fun x => ⟨x.1, x.2.1, fun _ _ _ e => by cases e⟩, fun x => ⟨x.1, x.2.1, fun _ e => by cases e⟩⟩
      (C48_converges hdia h hc hx hg hw hpl hpw hn hvv (.table s n) (.inl ⟨s, n, rfl⟩))
  | view s n =>
    exact Iff.trans ⟨fun x => ⟨x.1, x.2.1, fun _ _ _ e => by cases e⟩, fun x => ⟨x.1, x.2.1, fun _ e => by cases e⟩⟩
      (C48_converges hdia h hc hx hg hw hpl hpw hn hvv (.view s n) (.inr (.inr ⟨s, n, rfl⟩)))
  | column s t n =>
    exact Iff.trans ⟨fun x => ⟨x.1, x.2.1, fun _ _ _ e => by cases e; exact x.2.2 _ rfl⟩,
      fun x => ⟨x.1, x.2.1, fun _ e => by cases e; exact x.2.2 _ _ _ rfl⟩⟩
      (C48_converges hdia h hc hx hg hw hpl hpw hn hvv (.column s t n) (.inr (.inl ⟨s, t, n, rfl⟩)))
  | constraint s t n => exact C48_constraints hdia h hc hx hg hw hpl hpw hn (fun e => hs e s t n rfl) s t n
  | index s t n => exact C48_indexes hdia h hc hx hg hw hpl hpw hpp hn hvv s t n (hnv s t)
  | trigger s t n => exact C48_triggers hdia h hc hx hg hw hpl hpw hpp hn hvv s t n (hnv s t)
  | function s n => exact absurd rfl (ho.1 s n)
  | extension n => exact absurd rfl (ho.2 n)

theorem ext_inSchema (d : DatabaseMetadata) (n : Str) (f : Schema → Schema) : (d.inSchema n f).extensions = d.extensions := by
  unfold DatabaseMetadata.inSchema
  split <;> rfl
theorem ext_inTable (d : DatabaseMetadata) (n t : Str) (f : Table → Table) : (d.inTable n t f).extensions = d.extensions := by
  unfold DatabaseMetadata.inTable
  split <;> rfl
theorem ext_inView (d : DatabaseMetadata) (n t : Str) (f : View → View) : (d.inView n t f).extensions = d.extensions := by
  unfold DatabaseMetadata.inView
  split <;> rfl

theorem withDB_extensions (dia : Dialect) (r : Introspected) : (withDB dia r).extensions = if dia = .postgres then r.extensions else [] := by
  have h1 : ∀ d : DatabaseMetadata, (r.tables.foldl addTable d).extensions = d.extensions := fold_field _ _ _ fun d x => ext_inSchema ..
  have h2 : ∀ d : DatabaseMetadata, (r.views.foldl addView d).extensions = d.extensions := fold_field _ _ _ fun d x => ext_inSchema ..
  have h3 : ∀ d : DatabaseMetadata, (r.columns.foldl addColumn d).extensions = d.extensions := fold_field _ _ _ fun d x => ext_inTable ..
  have h4 : ∀ d : DatabaseMetadata, (r.constraints.foldl addConstraint d).extensions = d.extensions := fold_field _ _ _ fun d x => ext_inTable ..
  have h5 : ∀ d : DatabaseMetadata, (r.indexes.foldl addIndex d).extensions = d.extensions := fold_field _ _ _ fun d x => by
    unfold addIndex
    split
    · exact ext_inTable ..
    · exact ext_inView ..
  have h6 : ∀ d : DatabaseMetadata, (r.functions.foldl addFunction d).extensions = d.extensions := fold_field _ _ _ fun d x => ext_inSchema ..
  have h7 : ∀ d : DatabaseMetadata, (r.triggers.foldl addTrigger d).extensions = d.extensions := fold_field _ _ _ fun d x => by
    unfold addTrigger
    exact (ext_inView ..).trans (ext_inTable ..)
  unfold withDB
  dsimp only
  rw [h7]
  by_cases hp : dia = .postgres
  · simp only [hp, if_true]
    rw [h6, h5, h4, h3, h2, h1]
  · simp only [hp, if_false]
    rw [h5, h4, h3, h2, h1]

open Ddl.Contents in
/-- Nothing that a database reports is ignored. -/
theorem withDB_all (dia : Dialect) (r : Introspected) (hr : NamesOk r) (hb : Bare r) (hp : ∀ t ∈ r.tables, PartsOk dia r t) (hf : r.functions = [])
    (hi : (∀ c ∈ r.constraints, c.ignore = false) ∧ (∀ c ∈ r.indexes, c.ignore = false) ∧ ∀ c ∈ r.triggers, c.ignore = false) :
    NoIgnoredParts (withDB dia r) ∧ ∀ s ∈ active (withDB dia r).schemas, s.functions = [] := by
  have hok := (C46_with_db dia r (rowsOk hr hb) hp).1
  have hall := C46_contents dia r hr hb fun _ => hf
  have hfun : ∀ s ∈ active (withDB dia r).schemas, s.functions = [] := by
    intro s hs
    have := hall.functions s.schemaName
    rw [findSchema hok hs, hf] at this
    simpa using this
  refine ⟨⟨fun s hs => withDB_views (fun v => v.ignore = false) dia r (fun _ _ h => h) (fun _ _ h => h) (fun v hv => (hb.views v hv).1) s (mem_active.1 hs).1,
    fun s hs f hf => (by rw [hfun s hs] at hf; cases hf), fun s hs t ht => ?_⟩, hfun⟩
  have hft : table? (withDB dia r) s.schemaName t.tableName = some t := by
    unfold table?
    rw [findSchema hok hs]
    exact find_eq_some (hok.schema s hs).tables.unique ht
  have : ∃ t0 ∈ r.tables, t0.tableSchema = s.schemaName ∧ t0.tableName = t.tableName := by
    apply Classical.byContradiction
    intro hcon
    have := (hall.tables s.schemaName t.tableName).2 fun t0 h0 h1 => hcon ⟨t0, h0, h1⟩
    rw [hft] at this
    cases this
  obtain ⟨t0, h0, e1, e2⟩ := this
  obtain ⟨t', ht', -, -, -, c1, c2, c3, c4⟩ := hall.table t0 h0
  rw [e1, e2, hft] at ht'
  cases ht'
  refine ⟨fun c hc => ?_, fun c hc => ?_, fun c hc => ?_, fun c hc => ?_⟩
  · rw [c1] at hc
    obtain ⟨c', hc', rfl⟩ := List.mem_map.1 hc
    exact (hb.columns c' (List.mem_filter.1 hc').1).1
  · rw [c2] at hc; exact hi.1 c (List.mem_filter.1 hc).1
  · rw [c3] at hc; exact hi.2.1 c (List.mem_filter.1 hc).1
  · rw [c4] at hc; exact hi.2.2 c (List.mem_filter.1 hc).1

open Ddl.Contents in
/-- **C76** for what the package itself builds.  The database is read with `WithDB` (`r`), the migration to the tables declared with
`WithTables` runs, and the database is read again (`r'`): it reports what was there or was created and was not dropped.  Then migrating to the
same declaration in the same mode gives no commands. -/
theorem C76_declared (dia : Dialect) (r r' : Introspected) (hr : RowsOk r) (hp : ∀ t ∈ r.tables, PartsOk dia r t)
    (num : Str → Bool) (decls : List TableDecl) (want : DatabaseMetadata) (hd : Declared dia r.currentSchema decls num want)
    (hsch : ∀ s ∈ active want.schemas, active s.tables ≠ [])
    (hv : dia = .sqlite → ∀ v ∈ r.views, v.isMaterialized = false)
    (mode : Mode) (hc : mode &&& CreateMissing ≠ 0) (hx : mode &&& DropExtraneous ≠ 0) (m : Migration)
    (h : migrate mode (withDB dia r) want = .ok m)
    -- what the database reports afterwards
    (hr' : NamesOk r') (hb' : Bare r') (hp' : ∀ t ∈ r'.tables, PartsOk dia r' t) (hf' : r'.functions = []) (he' : ∀ e ∈ r'.extensions, "plpgsql".toList <+: e)
    (hi' : (∀ c ∈ r'.constraints, c.ignore = false) ∧ (∀ c ∈ r'.indexes, c.ignore = false) ∧ ∀ c ∈ r'.triggers, c.ignore = false)
    (hcur : r'.currentSchema = r.currentSchema)
    (hafter : ∀ o : Obj, (∀ s n, o ≠ .function s n) → (∀ n, o ≠ .extension n) → (dia = .sqlite → ∀ s t n, o ≠ .constraint s t n) →
      (Present (withDB dia r') o ↔ AfterParts (withDB dia r) m o))
    (hcol : mode &&& UpdateExisting ≠ 0 → ReportsColumns dia (withDB dia r') want) :
    ∃ m', migrate mode (withDB dia r') want = .ok m' ∧ NoCommands m' := by
  obtain ⟨hw, hpw, hpp, hon⟩ := hd.facts
  have hg := (C46_with_db dia r hr hp).1
  have hpl := placed_withDB dia r fun t ht => ⟨(hp t ht).bare.2.2.1, (hp t ht).bare.2.2.2⟩
  have hc1 : (withDB dia r).currentSchema = r.currentSchema := withDB_currentSchema dia r
  obtain ⟨hall, hfun⟩ := withDB_all dia r' hr' hb' hp' hf' hi'
  refine C76_second_partial (migrateDialect_declared hd) h hc hx hg hw hpl hpw hpp (by rw [hc1]; exact hd.schemas)
    (fun hsq => withDB_views (fun v => v.isMaterialized = false) dia r (fun _ _ h => h) (fun _ _ h => h) (hv hsq))
    ⟨fun s hs => .inl (hsch s hs), fun s hs => (hon.1 s hs).2, hon.2, fun s n hh => hd.noView s n (by rw [← hc1]; exact hh.2)⟩
    ⟨withDB_dialect dia r', ?_, (C46_with_db dia r' (rowsOk hr' hb') hp').1, hall, fun s n => ?_, fun s n => ?_, fun s t n _ => ?_, fun s t n _ => ?_,
      fun s t n _ => ?_, fun hs s t n _ => ?_, hfun, ?_⟩ hcol
  · rw [withDB_currentSchema, hc1, hcur]
  · exact hafter _ (fun _ _ e => by cases e) (fun _ e => by cases e) (fun _ _ _ _ e => by cases e)
  · exact hafter _ (fun _ _ e => by cases e) (fun _ e => by cases e) (fun _ _ _ _ e => by cases e)
  · exact hafter _ (fun _ _ e => by cases e) (fun _ e => by cases e) (fun _ _ _ _ e => by cases e)
  · exact hafter _ (fun _ _ e => by cases e) (fun _ e => by cases e) (fun _ _ _ _ e => by cases e)
  · exact hafter _ (fun _ _ e => by cases e) (fun _ e => by cases e) (fun _ _ _ _ e => by cases e)
  · exact hafter _ (fun _ _ e => by cases e) (fun _ e => by cases e) (fun e => absurd e hs)
  · rw [withDB_extensions]
    split
    · exact he'
    · intro e he; cases he


/-! ### An example -/

theorem present_iff_has {x : DatabaseMetadata} {cur : Str} (hn : SchemasNamed cur x) (hi : NoIgnoredParts x) (o : Obj)
    (hf : ∀ s n, o ≠ .function s n) : Present x o ↔ Has cur x o := by
  have key : ∀ s t, (s, t) ∈ allTables cur x ↔ ∃ sc ∈ active x.schemas, sc.schemaName = s ∧ t ∈ active sc.tables := by
    intro s t
    constructor
    · intro h
      obtain ⟨sc, hsc, ht⟩ := List.mem_flatMap.1 h
      obtain ⟨t', ht, he⟩ := List.mem_map.1 ht
      rw [schemaName_eq hn hsc] at he
      cases he
      exact ⟨sc, hsc, rfl, ht⟩
    · rintro ⟨sc, hsc, rfl, ht⟩
      exact List.mem_flatMap.2 ⟨sc, hsc, List.mem_map.2 ⟨t, ht, by rw [schemaName_eq hn hsc]⟩⟩
  cases o with
  | table s n =>
    exact ⟨fun ⟨sc, a, b, t, c, e⟩ => ⟨t, (key _ _).2 ⟨sc, a, b, c⟩, e⟩, fun ⟨t, a, e⟩ => let ⟨sc, b, c, d⟩ := (key _ _).1 a; ⟨sc, b, c, t, d, e⟩⟩
  | column s tn n =>
    exact ⟨fun ⟨sc, a, b, t, c, e, k, f, g⟩ => ⟨t, (key _ _).2 ⟨sc, a, b, c⟩, e, k, mem_active.2 ⟨f, (hi.tables sc a t c).1 k f⟩, g⟩,
      fun ⟨t, a, e, k, f, g⟩ => let ⟨sc, b, c, d⟩ := (key _ _).1 a; ⟨sc, b, c, t, d, e, k, (mem_active.1 f).1, g⟩⟩
  | constraint s tn n =>
    exact ⟨fun ⟨sc, a, b, t, c, e, k, f, g⟩ => ⟨t, (key _ _).2 ⟨sc, a, b, c⟩, e, k, mem_active.2 ⟨f, (hi.tables sc a t c).2.1 k f⟩, g⟩,
      fun ⟨t, a, e, k, f, g⟩ => let ⟨sc, b, c, d⟩ := (key _ _).1 a; ⟨sc, b, c, t, d, e, k, (mem_active.1 f).1, g⟩⟩
  | index s tn n =>
    exact ⟨fun ⟨sc, a, b, t, c, e, k, f, g⟩ => ⟨t, (key _ _).2 ⟨sc, a, b, c⟩, e, k, mem_active.2 ⟨f, (hi.tables sc a t c).2.2.1 k f⟩, g⟩,
      fun ⟨t, a, e, k, f, g⟩ => let ⟨sc, b, c, d⟩ := (key _ _).1 a; ⟨sc, b, c, t, d, e, k, (mem_active.1 f).1, g⟩⟩
  | trigger s tn n =>
    exact ⟨fun ⟨sc, a, b, t, c, e, k, f, g⟩ => ⟨t, (key _ _).2 ⟨sc, a, b, c⟩, e, k, mem_active.2 ⟨f, (hi.tables sc a t c).2.2.2 k f⟩, g⟩,
      fun ⟨t, a, e, k, f, g⟩ => let ⟨sc, b, c, d⟩ := (key _ _).1 a; ⟨sc, b, c, t, d, e, k, (mem_active.1 f).1, g⟩⟩
  | view s n =>
    constructor
    · rintro ⟨sc, a, b, v, c, e⟩
      refine ⟨v, List.mem_flatMap.2 ⟨sc, a, List.mem_map.2 ⟨v, mem_active.2 ⟨c, hi.views sc a v c⟩, ?_⟩⟩, e⟩
      rw [schemaName_eq hn a, b]
    · rintro ⟨v, h, e⟩
      obtain ⟨sc, hsc, ht⟩ := List.mem_flatMap.1 h
      obtain ⟨t', ht, he⟩ := List.mem_map.1 ht
      rw [schemaName_eq hn hsc] at he
      cases he
      exact ⟨sc, hsc, rfl, v, (mem_active.1 ht).1, e⟩
  | function s n => exact absurd rfl (hf s n)
  | extension n => exact Iff.rfl

/-- The example declaration, in the schema `public`. -/
def exampleDeclPublic : TableDecl := { exampleDecl with schema := "public".toList }

/-- The rows that a database with the tables of `d` reports. -/
def rowsOf (cur : Str) (d : DatabaseMetadata) : Introspected :=
  let ts := d.schemas.flatMap fun s => s.tables
  { currentSchema := cur
    tables := ts.map fun t => { tableSchema := t.tableSchema, tableName := t.tableName }
    columns := ts.flatMap fun t => t.columns.map fun c => { c with isPrimaryKey := false, isUnique := false }
    constraints := ts.flatMap fun t => t.constraints
    indexes := ts.flatMap fun t => t.indexes }

/-- The example rows (tables `film` and `lang`), with a current schema. -/
def exampleBefore : Introspected := { exampleRows with currentSchema := "public".toList }
def exampleAfter : Introspected := rowsOf "public".toList (exampleWant "public".toList)

theorem exampleDeclared : Declared .postgres exampleBefore.currentSchema [exampleDeclPublic] (fun _ => false) (exampleWant "public".toList) := by
  refine ⟨?_, ?_, by decide +kernel, .inr (by decide +kernel)⟩
  · intro x hx
    rw [List.mem_singleton.1 hx]
    intro d op hop
    simp only [exampleDeclPublic, exampleDecl, List.mem_cons, List.not_mem_nil, or_false] at hop
    rcases hop with rfl | rfl <;> trivial
  · intro x hx
    rw [List.mem_singleton.1 hx]
    intro d op hop
    simp only [exampleDeclPublic, exampleDecl, List.mem_cons, List.not_mem_nil, or_false] at hop
    rcases hop with rfl | rfl <;> trivial

/-- All the hypotheses of `C76_declared` hold of the example, whose first migration has commands. -/
theorem C76_example : ∃ m, migrate (CreateMissing ||| UpdateExisting ||| DropExtraneous) (withDB .postgres exampleBefore) (exampleWant "public".toList) = .ok m ∧
    ¬ NoCommands m ∧
    ∃ m', migrate (CreateMissing ||| UpdateExisting ||| DropExtraneous) (withDB .postgres exampleAfter) (exampleWant "public".toList) = .ok m' ∧ NoCommands m' := by
  have hm : ∃ m, migrate (CreateMissing ||| UpdateExisting ||| DropExtraneous) (withDB .postgres exampleBefore) (exampleWant "public".toList) = .ok m ∧
      m.dropTableCmds ≠ [] := by
    have : (match migrate (CreateMissing ||| UpdateExisting ||| DropExtraneous) (withDB .postgres exampleBefore) (exampleWant "public".toList) with
      | .ok m => decide (m.dropTableCmds ≠ [])
      | _ => false) = true := by decide +kernel
    split at this
    · rename_i m hm
      exact ⟨m, hm, by simpa using this⟩
    · cases this
  obtain ⟨m, hm, hne⟩ := hm
  have hrows : RowsOk exampleBefore := ⟨by decide, by decide, by decide, by decide⟩
  have hparts : ∀ t ∈ exampleBefore.tables, PartsOk .postgres exampleBefore t := by
    intro t ht
    simp only [exampleBefore, exampleRows, List.mem_cons, List.not_mem_nil, or_false] at ht
    rcases ht with rfl | rfl <;> exact ⟨by decide +kernel, by decide +kernel, by decide +kernel, by decide +kernel, by decide +kernel, by decide +kernel⟩
  have hself : withDB .postgres exampleAfter = { exampleWant "public".toList with currentSchema := "public".toList } := by decide +kernel
  have hparts' : ∀ t ∈ exampleAfter.tables, PartsOk .postgres exampleAfter t := by
    intro t ht
    have : exampleAfter.tables = [{ tableSchema := "public".toList, tableName := "film".toList }] := by decide +kernel
    rw [this] at ht
    rw [List.mem_singleton.1 ht]
    exact ⟨by decide +kernel, by decide +kernel, by decide +kernel, by decide +kernel, by decide +kernel, by decide +kernel⟩
  have hnames : Contents.NamesOk exampleAfter := ⟨by decide +kernel, by decide +kernel, by decide +kernel, by decide +kernel, by decide +kernel, by decide +kernel⟩
  have hbare : Contents.Bare exampleAfter := ⟨by decide +kernel, by decide +kernel, by decide +kernel⟩
  have hig : (∀ c ∈ exampleAfter.constraints, c.ignore = false) ∧ (∀ c ∈ exampleAfter.indexes, c.ignore = false) ∧
      ∀ c ∈ exampleAfter.triggers, c.ignore = false := by decide +kernel
  have hall := (withDB_all .postgres exampleAfter hnames hbare hparts' (by decide +kernel) hig).1
  refine ⟨m, hm, fun hno => hne ?_, ?_⟩
  · rw [hno]
  refine C76_declared .postgres exampleBefore exampleAfter hrows hparts (fun _ => false) [exampleDeclPublic] _ exampleDeclared (by decide +kernel)
    (fun h => by cases h) _ (by decide) (by decide) m hm hnames hbare hparts' (by decide +kernel) (by decide +kernel) hig (by decide +kernel) ?_ ?_
  · intro o h1 h2 h3
    rw [C48_declared .postgres exampleBefore hrows hparts (fun _ => false) [exampleDeclPublic] _ exampleDeclared (fun h => by cases h) _ (by decide) (by decide)
      m hm o ⟨h1, h2⟩ (fun h => by cases h)]
    rw [present_iff_has (cur := exampleBefore.currentSchema) (.inr (by decide +kernel)) hall o h1, hself]
    rfl
  · intro _ s t n g hg w hw hwn c' hc' c hc e1 e2
    rw [hself] at hg hw
    have hok := exampleDeclared.facts.1
    have : g = w := by
      obtain ⟨rfl, sc, hsc, rfl, ht⟩ := table?_some hg
      obtain ⟨sc', hsc', ht'⟩ := List.mem_flatMap.1 hw
      obtain ⟨t', htm, he⟩ := List.mem_map.1 ht'
      have hnm : sc'.schemaName ≠ [] := (by decide +kernel : ∀ s ∈ active (exampleWant "public".toList).schemas, s.schemaName ≠ []) sc' hsc'
      rw [if_neg hnm] at he
      have he1 := (Prod.mk.inj he).1
      have he2 := (Prod.mk.inj he).2
      subst he2
      symm
      refine table?_uniq hok hsc' htm ?_
      rw [he1, hwn]
      exact hg
    subst this
    have hu := (gotTable_ok (got := exampleWant "public".toList) hok hg).columns.unique
    have f1 := find_eq_some hu hc'
    have f2 := find_eq_some hu hc
    rw [show (Entry.key c' : Str) = Entry.key c from e1.trans e2.symm] at f1
    have : c' = c := Option.some.inj (f1.symm.trans f2)
    subst this
    exact sameColumn_refl _ _


/-- **C76 fails for extensions**: on a PostgreSQL database that has exactly the wanted extension, every further migration drops and creates it. -/
theorem C76_extension_violated : ∃ got want m, got.extensions = want.extensions ∧ got.dialect = some .postgres ∧
    got = withDB .postgres { extensions := ["hstore".toList] } ∧
    migrate (CreateMissing ||| DropExtraneous) got want = .ok m ∧ .extension "hstore".toList ∈ drops m ∧
    m.createExtensionCmds.map CreateExtensionCommand.extension = ["hstore".toList] := by
  let got : DatabaseMetadata := withDB .postgres { extensions := ["hstore".toList] }
  let want : DatabaseMetadata := { dialect := some .postgres, extensions := ["hstore".toList] }
  refine ⟨got, want, _, by decide +kernel, by decide +kernel, rfl, rfl, by decide +kernel, by decide +kernel⟩

end Ddl.Again
