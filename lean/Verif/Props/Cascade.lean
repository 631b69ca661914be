import Verif.Spec.Cascade
import Verif.Props.Modes
import Verif.Model.Run
import Mathlib.Tactic.Tauto
/-
C63: CASCADE and IF EXISTS.
-/
namespace Ddl.Cascades
open Ddl Ddl.Spec

/-- The list with options is the list of dropped objects. -/
theorem dropped_objs (m : Migration) : (dropped m).map Dropped.obj = drops m := by
  have h : alterDrops = fun c => (alterDropped c).map Dropped.obj := by
    funext c
    simp [alterDrops, alterDropped, Function.comp_def]
  simp only [dropped, drops, h, List.map_append, List.map_flatMap, List.map_map, Function.comp_def]

theorem mem_dropped_append (a b : Migration) (o : Dropped) : o ∈ dropped (a.append b) ↔ o ∈ dropped a ∨ o ∈ dropped b := by
  simp only [dropped, Migration.append, List.flatMap_append, List.map_append, List.mem_append]
  tauto

/-- Every dropped thing of a computed migration comes from the dropping half. -/
theorem mem_dropped (mode : Mode) (got want : DatabaseMetadata) (m : Migration) (h : migrate mode got want = .ok m) (o : Dropped)
    (ho : o ∈ dropped m) : ∃ d exts, m.dialect = some d ∧ o ∈ dropped (dropPhase mode d got want exts) := by
  obtain ⟨d, -, exts, dexts, -, -, rfl⟩ := migrate_ok h
  rw [mem_dropped_append, mem_dropped_append] at ho
  have e : ∀ m : Migration, drops m = [] → dropped m = [] := by
    intro m hm
    rw [← dropped_objs] at hm
    exact List.map_eq_nil_iff.1 hm
  rcases ho with ho | ho | ho
  · simp [dropped] at ho
  · split at ho
    · rw [e] at ho
      · cases ho
      · rw [List.eq_nil_iff_forall_not_mem]
        intro o ho
        rw [mem_drops_concat] at ho
        obtain ⟨m, hm, ho⟩ := ho
        obtain ⟨s, -, rfl⟩ := List.mem_map.1 hm
        rw [drops_wantSchema] at ho; cases ho
    · cases ho
  · split at ho
    · exact ⟨d, dexts, rfl, ho⟩
    · cases ho

/-- How the dropping half drops. -/
def Manner (mode : Mode) (d : Dialect) (o : Dropped) : Prop :=
  match o.obj with
  | .table .. | .view .. => o.ifExists = true ∧ o.cascade = (has mode DropCascade && decide (d ≠ .sqlite))
  | .extension _ => o.ifExists = true ∧ o.cascade = has mode DropCascade
  | .function .. => o.ifExists = true ∧ o.cascade = true
  | .trigger .. => o.ifExists = true ∧ o.cascade = decide (d = .postgres)
  | .index .. => o.ifExists = (decide (d = .postgres) || decide (d = .sqlite)) ∧ o.cascade = decide (d = .postgres)
  | .column .. | .constraint .. => o.ifExists = decide (d = .postgres) ∧ o.cascade = decide (d = .postgres)

theorem manner (mode : Mode) (d : Dialect) (got want : DatabaseMetadata) (exts : List Str) (o : Dropped)
    (ho : o ∈ dropped (dropPhase mode d got want exts)) : Manner mode d o := by
  simp only [dropped, List.mem_append] at ho
  rcases ho with (((((ho | ho) | ho) | ho) | ho) | ho) | ho
  · obtain ⟨c, hc, ho⟩ := List.mem_flatMap.1 ho
    obtain ⟨p, -, rfl⟩ := List.mem_map.1 ho
    simp only [dropPhase] at hc
    split at hc
    next hs =>
      obtain ⟨p, -, rfl⟩ := List.mem_map.1 hc
      simp [Manner, dropTableCmd, hs]
    next hs =>
      split at hc
      · simp only [List.mem_singleton] at hc; subst hc
        simp [Manner, dropTableCmd, hs]
      · cases hc
  · obtain ⟨c, hc, ho⟩ := List.mem_flatMap.1 ho
    obtain ⟨p, -, rfl⟩ := List.mem_map.1 ho
    simp only [dropPhase] at hc
    split at hc
    next hs =>
      obtain ⟨p, -, rfl⟩ := List.mem_map.1 hc
      simp [Manner, dropViewCmd, hs]
    next hs =>
      rcases List.mem_append.1 hc with hc | hc
      all_goals
        split at hc
        · simp only [List.mem_singleton] at hc; subst hc
          simp [Manner, dropViewCmd, hs]
        · cases hc
  · obtain ⟨c, hc, rfl⟩ := List.mem_map.1 ho
    simp only [dropPhase, tableDrops] at hc
    obtain ⟨td, ht, hc⟩ := List.mem_flatMap.1 hc
    obtain ⟨s, -, ht⟩ := List.mem_flatMap.1 ht
    obtain ⟨t, -, rfl⟩ := List.mem_map.1 ht
    unfold dropTable at hc
    split at hc
    · cases hc
    · obtain ⟨x, -, rfl⟩ := List.mem_map.1 hc
      simp [Manner]
  · obtain ⟨c, hc, rfl⟩ := List.mem_map.1 ho
    simp only [dropPhase, tableDrops] at hc
    obtain ⟨td, ht, hc⟩ := List.mem_flatMap.1 hc
    obtain ⟨s, -, ht⟩ := List.mem_flatMap.1 ht
    obtain ⟨t, -, rfl⟩ := List.mem_map.1 ht
    unfold dropTable at hc
    split at hc
    · cases hc
    · dsimp only at hc
      split at hc
      · cases hc
      · obtain ⟨x, -, rfl⟩ := List.mem_map.1 hc
        simp [Manner]
  · obtain ⟨c, hc, ho⟩ := List.mem_flatMap.1 ho
    have hx : ∀ c, (∃ t w, c = dropAlter d t w) → ∀ o ∈ alterDropped c, Manner mode d o := by
      rintro c ⟨t, w, rfl⟩ o ho
      simp only [alterDropped, dropAlter, List.mem_append] at ho
      rcases ho with (ho | ho) | ho
      · obtain ⟨y, hy, rfl⟩ := List.mem_map.1 ho
        obtain ⟨z, -, rfl⟩ := List.mem_map.1 hy
        simp [Manner]
      · obtain ⟨y, hy, rfl⟩ := List.mem_map.1 ho
        split at hy
        · cases hy
        · obtain ⟨z, -, rfl⟩ := List.mem_map.1 hy
          simp [Manner]
      · obtain ⟨y, hy, rfl⟩ := List.mem_map.1 ho
        split at hy
        · obtain ⟨z, -, rfl⟩ := List.mem_map.1 hy
          simp [Manner]
        · cases hy
    simp only [dropPhase, List.nil_append] at hc
    have ha : ∀ c ∈ (tableDrops d got want).flatMap TableDrop.alters, ∃ t w, c = dropAlter d t w := by
      intro c hc
      obtain ⟨td, ht, hc⟩ := List.mem_flatMap.1 hc
      obtain ⟨s, -, ht⟩ := List.mem_flatMap.1 ht
      obtain ⟨t, -, rfl⟩ := List.mem_map.1 ht
      unfold dropTable at hc
      split at hc
      · cases hc
      · dsimp only at hc
        split at hc
        · simp only [List.mem_singleton] at hc
          exact ⟨_, _, hc⟩
        · cases hc
    split at hc
    · obtain ⟨a, haa, hc⟩ := List.mem_flatMap.1 hc
      refine hx a (ha a haa) o ?_
      rcases List.mem_append.1 hc with hc | hc
      · obtain ⟨y, hy, rfl⟩ := List.mem_map.1 hc
        simp [alterDropped] at ho
      · obtain ⟨y, hy, rfl⟩ := List.mem_map.1 hc
        simp only [alterDropped, List.map_cons, List.map_nil, List.append_nil, List.mem_singleton] at ho
        subst ho
        exact List.mem_append_left _ (List.mem_append_left _ (List.mem_map.2 ⟨y, hy, rfl⟩))
    · exact hx c (ha c hc) o ho
  · obtain ⟨c, hc, rfl⟩ := List.mem_map.1 ho
    simp only [dropPhase] at hc
    obtain ⟨s, -, hc⟩ := List.mem_flatMap.1 hc
    obtain ⟨f, -, rfl⟩ := List.mem_map.1 hc
    simp [Manner]
  · obtain ⟨c, hc, ho⟩ := List.mem_flatMap.1 ho
    obtain ⟨p, -, rfl⟩ := List.mem_map.1 ho
    simp only [dropPhase] at hc
    split at hc
    · simp only [List.mem_singleton] at hc; subst hc
      simp [Manner]
    · cases hc

theorem has_iff (mode f : Mode) : has mode f = true ↔ mode &&& f ≠ 0 := by simp [has]

/-- **C63 (partial): CASCADE only on request.** Tables, views and extensions are dropped with CASCADE only if the mode has the
DropCascade flag; on dialects other than PostgreSQL so is everything but functions.  Missing: the parts of tables on PostgreSQL, and
functions (`C63_parts_violated`). -/
theorem C63_asked_partial (mode : Mode) (got want : DatabaseMetadata) (m : Migration) (h : migrate mode got want = .ok m)
    (o : Dropped) (ho : o ∈ dropped m) (hk : o.obj.Whole ∨ (m.dialect ≠ some .postgres ∧ ∀ s n, o.obj ≠ .function s n))
    (hc : o.cascade = true) : mode &&& DropCascade ≠ 0 := by
  obtain ⟨d, exts, hd, hp⟩ := mem_dropped mode got want m h o ho
  have hm := manner mode d got want exts o hp
  rw [← has_iff]
  obtain ⟨obj, ie, ca⟩ := o
  subst hc
  cases obj <;> simp [Manner, Obj.Whole, hd] at hm hk ⊢ <;> grind

/-- **C63 (partial): a request is honoured.** With DropCascade, tables, views and extensions are dropped with CASCADE.  Missing:
SQLite, which has no CASCADE: the request is dropped there without an error (`C63_sqlite_violated`). -/
theorem C63_honoured_partial (mode : Mode) (got want : DatabaseMetadata) (m : Migration) (h : migrate mode got want = .ok m)
    (hm : mode &&& DropCascade ≠ 0) (hd : m.dialect ≠ some .sqlite) (o : Dropped) (ho : o ∈ dropped m) (hk : o.obj.Whole) :
    o.cascade = true := by
  obtain ⟨d, exts, hd', hp⟩ := mem_dropped mode got want m h o ho
  have hma := manner mode d got want exts o hp
  have hh := (has_iff _ _).2 hm
  obtain ⟨obj, ie, ca⟩ := o
  cases obj <;> simp [Manner, Obj.Whole, hd', hh] at hma hk hd ⊢ <;> grind

/-- **C63: existence guards.** Whatever can be dropped with IF EXISTS is, and nothing else. -/
theorem C63_if_exists (mode : Mode) (got want : DatabaseMetadata) (m : Migration) (h : migrate mode got want = .ok m)
    (o : Dropped) (ho : o ∈ dropped m) : ∃ d, m.dialect = some d ∧ (o.ifExists = true ↔ CanGuard d o.obj) := by
  obtain ⟨d, exts, hd', hp⟩ := mem_dropped mode got want m h o ho
  have hma := manner mode d got want exts o hp
  refine ⟨d, hd', ?_⟩
  obtain ⟨obj, ie, ca⟩ := o
  cases obj <;> simp [Manner, CanGuard] at hma ⊢ <;> grind

/-- **C63, parts (violated).** On PostgreSQL every column, constraint, index and trigger is dropped with CASCADE, and functions are on
every dialect, whatever the mode says: with a column go the views that use it, wanted or not. -/
theorem C63_parts_violated (mode : Mode) (got want : DatabaseMetadata) (m : Migration) (h : migrate mode got want = .ok m)
    (o : Dropped) (ho : o ∈ dropped m) (hk : ¬ o.obj.Whole) (hd : m.dialect = some .postgres ∨ ∃ s n, o.obj = .function s n) :
    o.cascade = true := by
  obtain ⟨d, exts, hd', hp⟩ := mem_dropped mode got want m h o ho
  have hma := manner mode d got want exts o hp
  obtain ⟨obj, ie, ca⟩ := o
  cases obj <;> simp [Manner, Obj.Whole, hd'] at hma hk hd ⊢ <;> grind

/-- The example: a table, a column and a constraint are dropped without DropCascade; the latter two with CASCADE. -/
theorem C63_parts_example_violated :
    (migrate DropExtraneous exampleGot (exampleWant "public".toList)).map dropped =
    .ok [⟨.table "public".toList "lang".toList, true, false⟩, ⟨.column "public".toList "film".toList "id".toList, true, true⟩,
      ⟨.constraint "public".toList "film".toList "film_pkey".toList, true, true⟩] ∧
    (migrate DropExtraneous exampleGot (exampleWant "public".toList)).bind (fun m =>
      (m.alterTableDropCmds.head?.map fun c => Command.sql .postgres (.alterTable c)).getD .panic) =
      .ok "ALTER TABLE public.film\n    DROP COLUMN IF EXISTS id CASCADE\n    ,DROP CONSTRAINT IF EXISTS film_pkey CASCADE\n".toList := by
  decide +kernel

/-- With DropCascade the table of the example is dropped with CASCADE. -/
theorem C63_honoured_example :
    (migrate (DropExtraneous ||| DropCascade) exampleGot (exampleWant "public".toList)).map (fun m => (dropped m).head?) =
    .ok (some ⟨.table "public".toList "lang".toList, true, true⟩) := by
  decide +kernel

/-- **C63, SQLite (violated).** DropCascade has no effect: the command written is the plain one, and there is no error. -/
theorem C63_sqlite_violated (mode : Mode) (got want : DatabaseMetadata) (m : Migration) (h : migrate mode got want = .ok m)
    (hd : m.dialect = some .sqlite) (o : Dropped) (ho : o ∈ dropped m)
    (hk : (∃ s n, o.obj = .table s n) ∨ ∃ s n, o.obj = .view s n) : o.cascade = false := by
  obtain ⟨d, exts, hd', hp⟩ := mem_dropped mode got want m h o ho
  have hma := manner mode d got want exts o hp
  obtain ⟨obj, ie, ca⟩ := o
  cases obj <;> simp [Manner, hd'] at hma hk hd ⊢ <;> grind

end Ddl.Cascades
