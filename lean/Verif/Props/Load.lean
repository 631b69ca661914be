import Verif.Proof.Introspect
import Verif.Props.NoPanic
/-
C46: metadata built by the package is well-formed.  C47: modifiers for another dialect have no effect.
-/
namespace Ddl
open Spec

/-! ### C46: tables declared in Go -/

/-- C46: metadata loaded with `WithTables`, from any structs, tags and builder calls (in which explicit names are not empty), is
well-formed: everything not ignored is found under its name, names are unique. -/
theorem C46_with_tables (num : Str → Bool) (dia : Dialect) (decls : List TableDecl) (hn : ∀ x ∈ decls, x.Named) (d : DatabaseMetadata)
    (h : withTables num dia decls { dialect := some dia } = .ok d) : MetaOk d := by
  obtain ⟨h1, h2⟩ := withTables_inv decls hn (dbInv_empty (some dia) [] []) (fun s n t ht => by cases ht) h
  exact h1.ok (fun s n t ht => (h2 s n t ht).ok) fun _ s n t ht => (h2 s n t ht).constraints.ok

/-- C46: if no two of the structs are of the same table, the table found under a declared name is exactly what that struct
alone describes (nothing if it is ignored), and no other table is found. -/
theorem C46_with_tables_content (num : Str → Bool) (dia : Dialect) (decls : List TableDecl) (hn : ∀ x ∈ decls, x.Named)
    (hd : decls.Pairwise fun x y => ¬ (x.schema = y.schema ∧ x.name = y.name)) (d : DatabaseMetadata)
    (h : withTables num dia decls { dialect := some dia } = .ok d) :
    (∀ x ∈ decls, ∃ t, ({ tableSchema := x.schema, tableName := x.name } : Table).load num dia x = .ok t ∧
      table? d x.schema x.name = if t.ignore then none else some t) ∧
    (∀ s n, (∀ x ∈ decls, ¬ (s = x.schema ∧ n = x.name)) → table? d s n = none) := by
  have h0 := dbInv_empty (some dia) [] []
  have t0 : TablesInv { dialect := some dia } := fun s n t ht => by cases ht
  exact ⟨fun x hx => withTables_content decls hn hd h0 t0 h x hx, fun s n ho => withTables_other decls hn h0 t0 h s n ho⟩

/-! #### Every column field is there -/

def Table.colNames (t : Table) : List Str := t.columns.map Column.columnName

theorem colNames_set {t : Table} {n : Nat} {c x : Column} (hx : t.columns[n]? = some x) (hc : c.columnName = x.columnName) :
    (t.columns.set n c).map Column.columnName = t.colNames := by
  unfold Table.colNames
  apply List.ext_getElem?
  intro i
  rw [List.getElem?_map, List.getElem?_map, List.getElem?_set]
  split
  · rename_i he
    subst he
    obtain ⟨hl, -⟩ := List.getElem?_eq_some_iff.1 hx
    rw [if_pos hl, hx]
    simp [hc]
  · rfl

theorem DeclOnly.columns {a b : Table} (h : DeclOnly a b) : b.columns = a.columns := by rw [h.eq]

theorem columnFold_columns {num : Str → Bool} {d : Dialect} (ms : List (Str × Str)) {s r : Column × Table}
    (h : foldRes (columnModifier num d) s ms = .ok r) : s.1.columnName = r.1.columnName ∧ DeclOnly s.2 r.2 :=
  foldRes_inv _ (fun (a b : Column × Table) => a.1.columnName = b.1.columnName ∧ DeclOnly a.2 b.2)
    (fun _ => ⟨rfl, .refl _⟩) (fun _ _ _ h1 h2 => ⟨h1.1.trans h2.1, h1.2.trans h2.2⟩)
    (fun a b a' hh => columnModifier_only hh) ms _ _ h

theorem loadColumnConfig_names {num : Str → Bool} {d : Dialect} {t t' : Table} {name type config : Str}
    (h : loadColumnConfig num d t name type config = .ok t') : name ∈ t'.colNames ∧ ∀ n ∈ t.colNames, n ∈ t'.colNames := by
  unfold loadColumnConfig at h
  obtain ⟨ms, -, h⟩ := (Res.bind_eq_ok _ _ _).1 h
  dsimp only at h
  cases hp : t.cachedColumnPosition name with
  | some n =>
    rw [hp] at h
    obtain ⟨hb, hg, x, hx, hk, -⟩ := get_of_lookup hp
    obtain ⟨⟨y, t1⟩, hy, rfl⟩ := map_eq_ok h
    obtain ⟨h1, h2⟩ := columnFold_columns ms hy
    dsimp only at h1 h2
    rw [hx] at h1
    have hc := h2.columns
    have key : ({ t1 with columns := t1.columns.set n y } : Table).colNames = t.colNames := by
      unfold Table.colNames
      dsimp only
      rw [hc]
      exact colNames_set hx h1.symm
    rw [key]
    refine ⟨?_, fun _ h => h⟩
    exact List.mem_map.2 ⟨x, List.mem_iff_getElem?.2 ⟨n, hx⟩, hk⟩
  | none =>
    rw [hp] at h
    obtain ⟨⟨y, t1⟩, hy, rfl⟩ := map_eq_ok h
    obtain ⟨h1, h2⟩ := columnFold_columns ms hy
    dsimp only at h1 h2
    have hc := h2.columns
    have key : (t1.appendColumn y).colNames = t.colNames ++ [name] := by
      unfold Table.colNames
      show (t1.columns ++ [y]).map Column.columnName = _
      rw [hc, List.map_append, List.map_singleton, ← h1]
    rw [key]
    exact ⟨by simp, fun n hn => by simp [hn]⟩

theorem loadFields_names {num : Str → Bool} {d : Dialect} (fs : List FieldDecl) {t : Table} {r : Table × Bool}
    (h : loadFields num d t fs = .ok r) : (∀ n ∈ t.colNames, n ∈ r.1.colNames) ∧
      (r.2 = false → ∀ name type tag, FieldDecl.column name type tag ∈ fs → name ∈ r.1.colNames) := by
  induction fs generalizing t with
  | nil => cases h; exact ⟨fun _ h => h, fun _ _ _ _ h => by cases h⟩
  | cons f fs ih =>
    rw [loadFields] at h
    obtain ⟨⟨t1, stop⟩, h1, h2⟩ := (Res.bind_eq_ok _ _ _).1 h
    have k1 : (∀ n ∈ t.colNames, n ∈ t1.colNames) ∧ ∀ name type tag, f = .column name type tag → name ∈ t1.colNames := by
      cases f with
      | other tag =>
        obtain ⟨t2, ht2, he⟩ := map_eq_ok h1
        cases he
        unfold loadTableConfig at ht2
        obtain ⟨ms, -, ht2⟩ := (Res.bind_eq_ok _ _ _).1 ht2
        have hc : t1.columns = t.columns := by
          refine (foldRes_inv _ (fun a b : Table => a.columns = b.columns) (fun _ => rfl) (fun _ _ _ => Eq.trans) (fun a b a' hh => ?_) ms _ _ ht2).symm
          unfold tableModifier at hh
          split at hh
          · cases hh; rfl
          split at hh
          · split at hh
            · obtain ⟨⟨v, ms⟩, -, rfl⟩ := map_eq_ok hh; rfl
            · cases hh; rfl
          split at hh
          · cases hh; rfl
          · exact (declare_only hh).columns.symm
        refine ⟨fun n hn => ?_, fun _ _ _ h => by cases h⟩
        unfold Table.colNames at hn ⊢
        rw [hc]; exact hn
      | column name type tag =>
        rw [loadField] at h1
        split at h1
        · cases h1
        · obtain ⟨t2, ht2, he⟩ := map_eq_ok h1
          cases he
          have := loadColumnConfig_names ht2
          exact ⟨this.2, fun _ _ _ he => by cases he; exact this.1⟩
    dsimp only at h2
    cases stop with
    | true =>
      rw [if_pos rfl] at h2
      cases h2
      exact ⟨k1.1, fun h => by cases h⟩
    | false =>
      rw [if_neg (by simp)] at h2
      obtain ⟨i1, i2⟩ := ih h2
      refine ⟨fun n hn => i1 n (k1.1 n hn), fun hr name type tag hm => ?_⟩
      rcases List.mem_cons.1 hm with he | hm
      · exact i1 _ (k1.2 name type tag he.symm)
      · exact i2 hr name type tag hm

theorem modify_colNames {t : Table} {n : Nat} {f : Column → Column} (hf : ∀ c, (f c).columnName = c.columnName) :
    ({ t with columns := t.columns.modify n f } : Table).colNames = t.colNames := by
  unfold Table.colNames
  dsimp only
  apply List.ext_getElem?
  intro i
  rw [List.getElem?_map, List.getElem?_map, List.getElem?_modify]
  cases t.columns[i]? with
  | none => rfl
  | some c =>
    show some _ = some _
    split
    · exact congrArg some (hf c)
    · rfl

theorem markColumn_colNames (t : Table) (c : Constraint) : (markColumn t c).colNames = t.colNames := by
  unfold markColumn
  split
  · split
    · rfl
    · split
      · exact modify_colNames (fun _ => rfl)
      · exact modify_colNames (fun _ => rfl)
      · rfl
  · rfl

theorem putConstraint_columns {t t' : Table} {name : Str} {new : Constraint} {edit : Constraint × Table → Res (Constraint × Table)}
    (he : ∀ s r, edit s = .ok r → r.2.columns = s.2.columns) (h : t.putConstraint name new edit = .ok t') : t'.columns = t.columns := by
  unfold Table.putConstraint at h
  split at h
  · obtain ⟨r, hr, rfl⟩ := map_eq_ok h
    exact he _ _ hr
  · obtain ⟨r, hr, rfl⟩ := map_eq_ok h
    exact he _ _ hr

theorem putIndex_columns {t t' : Table} {name : Str} {new : Index} {edit : Index → Res Index}
    (h : t.putIndex name new edit = .ok t') : t'.columns = t.columns := by
  unfold Table.putIndex at h
  split at h
  · obtain ⟨r, hr, rfl⟩ := map_eq_ok h; rfl
  · obtain ⟨r, hr, rfl⟩ := map_eq_ok h; rfl

theorem declareConstraint_columns {d : Dialect} {t t' : Table} {kind : ConstraintType} {name : Str} {cols : List Str} {e : Str}
    {edit : Constraint → Constraint} (h : t.declareConstraint d kind name cols e edit = .ok t') : t'.columns = t.columns := by
  unfold Table.declareConstraint at h
  split at h
  · cases h
  · exact putConstraint_columns (fun s r hr => by cases hr; rfl) h

theorem colOp_colNames {d : Dialect} {n : Nat} {t t' : Table} {op : ColOp} (h : op.run d n t = .ok t') : t'.colNames = t.colNames := by
  have decl : ∀ {kind : ConstraintType} {name : Str} {cols : List Str}, t.declareConstraint d kind name cols [] id = .ok t' →
      t'.colNames = t.colNames := by
    intro kind name cols hh
    unfold Table.colNames
    rw [declareConstraint_columns hh]
  cases op with
  | primaryKey =>
    simp only [ColOp.run] at h
    split at h
    · exact decl h
    · cases h
  | unique =>
    simp only [ColOp.run] at h
    split at h
    · exact decl h
    · cases h
  | identity => cases h; exact modify_colNames (fun c => by split <;> rfl)
  | alwaysIdentity => cases h; exact modify_colNames (fun c => by split <;> rfl)
  | _ => cases h; exact modify_colNames (fun _ => rfl)

theorem tOp_colNames {d : Dialect} {t t' : Table} {op : TOp} (h : op.run d t = .ok t') : t'.colNames = t.colNames := by
  have lift : t'.columns = t.columns → t'.colNames = t.colNames := fun hh => by unfold Table.colNames; rw [hh]
  cases op with
  | ignore => cases h; rfl
  | virtualTable m args => cases h; rfl
  | column name ops =>
    simp only [TOp.run, runColumn] at h
    split at h
    · cases h
    · exact (foldRes_inv _ (fun a b : Table => a.colNames = b.colNames) (fun _ => rfl) (fun _ _ _ => Eq.trans)
        (fun a b a' hh => (colOp_colNames hh).symm) ops _ _ h).symm
  | constraint kind name cols e ops =>
    simp only [TOp.run] at h
    exact lift (declareConstraint_columns h)
  | exclude name it cols exprs ops' ops =>
    simp only [TOp.run] at h
    split at h
    · cases h
    split at h
    · cases h
    · exact lift (putConstraint_columns (fun s r hr => by cases hr; rfl) h)
  | index name cols exprs ops =>
    simp only [TOp.run] at h
    split at h
    · cases h
    · exact lift (putIndex_columns h)
  | trigger trg =>
    simp only [TOp.run] at h
    split at h
    · cases h
    split at h
    · cases h
    split at h
    · cases h; rfl
    · cases h; rfl

/-- C46: loading a struct that is not ignored gives a table with a column for every column field. -/
theorem C46_fields (num : Str → Bool) (dia : Dialect) (t : Table) (decl : TableDecl) (t' : Table) (h : t.load num dia decl = .ok t')
    (hi : t'.ignore = false) (name type tag : Str) (hf : .column name type tag ∈ decl.fields) : ∃ c ∈ t'.columns, c.columnName = name := by
  unfold Table.load at h
  split at h
  · cases h
  · dsimp only at h
    split at h
    · cases h
    · obtain ⟨⟨t1, stop⟩, h1, h2⟩ := (Res.bind_eq_ok _ _ _).1 h
      obtain ⟨-, k⟩ := loadFields_names _ h1
      have hstop : stop = true → t1.ignore = true := by
        intro hs
        have : ∀ (fs : List FieldDecl) (t : Table) (r : Table × Bool), loadFields num dia t fs = .ok r → r.2 = true → r.1.ignore = true := by
          intro fs
          induction fs with
          | nil => intro t r h hr; cases h; cases hr
          | cons f fs ih =>
            intro t r h hr
            rw [loadFields] at h
            obtain ⟨⟨t3, stop3⟩, h3, h4⟩ := (Res.bind_eq_ok _ _ _).1 h
            dsimp only at h4
            split at h4
            · cases h4
              cases f with
              | other tag =>
                obtain ⟨t2, -, he⟩ := map_eq_ok h3
                cases he
                exact hr
              | column name type tag =>
                rw [loadField] at h3
                split at h3
                · cases h3
                · obtain ⟨t2, -, he⟩ := map_eq_ok h3
                  cases he
                  cases hr
            · exact ih _ _ h4 hr
        exact this _ _ _ h1 hs
      dsimp only at h2
      cases stop with
      | true =>
        rw [if_pos rfl] at h2
        cases h2
        rw [hstop rfl] at hi; cases hi
      | false =>
        rw [if_neg (by simp)] at h2
        obtain ⟨t2, ht2, rfl⟩ := map_eq_ok h2
        have e1 : t2.colNames = t1.colNames := (foldRes_inv _ (fun a b : Table => a.colNames = b.colNames) (fun _ => rfl)
          (fun _ _ _ => Eq.trans) (fun a b a' hh => (tOp_colNames hh).symm) _ _ _ ht2).symm
        have e2 : (fts5Columns t2).colNames = t2.colNames := by unfold fts5Columns; split <;> rfl
        have e3 : ∀ (cs : List Constraint) (t : Table), (cs.foldl markColumn t).colNames = t.colNames := by
          intro cs
          induction cs with
          | nil => intro t; rfl
          | cons c cs ih => intro t; rw [List.foldl_cons, ih, markColumn_colNames]
        have := k rfl name type tag hf
        rw [← e1, ← e2, ← e3 t2.constraints] at this
        exact List.mem_map.1 this

/-! ### C46: introspected databases -/

section
variable {α : Type} [Entry α Str]

theorem fold_append_found (items : List α) (cache : Cache Str) (xs : List α) (h : AllFound items cache)
    (hb : ∀ x ∈ xs, Entry.blank α (Entry.key x) = false)
    (hd : xs.Pairwise fun a b => Entry.key a ≠ Entry.key b) (hn : ∀ x ∈ xs, find items (Entry.key x) = none) :
    AllFound (xs.foldl (fun p x => appendItem p.1 p.2 x) (items, cache)).1 (xs.foldl (fun p x => appendItem p.1 p.2 x) (items, cache)).2 ∧
      (xs.foldl (fun p x => appendItem p.1 p.2 x) (items, cache)).1 = items ++ xs := by
  induction xs generalizing items cache with
  | nil => exact ⟨h, by simp⟩
  | cons x xs ih =>
    rw [List.pairwise_cons] at hd
    have hl := h.lookup_none (hn x (by simp))
    have h1 := h.append (hb x (by simp)) hl
    obtain ⟨i1, i2⟩ := ih (appendItem items cache x).1 (appendItem items cache x).2 h1 (fun y hy => hb y (List.mem_cons_of_mem _ hy)) hd.2
      (fun y hy => by rw [h.find_append hl, if_neg (Ne.symm (hd.1 y hy))]; exact hn y (List.mem_cons_of_mem _ hy))
    refine ⟨i1, ?_⟩
    rw [List.foldl_cons]
    refine i2.trans ?_
    simp [appendItem]

end

/-- The parts of each table have distinct, nonempty names (on SQLite, which reports none, except for the constraints). -/
structure PartsOk (dia : Dialect) (r : Introspected) (t : Table) : Prop where
  bare : t.columns = [] ∧ t.constraints = [] ∧ t.indexes = [] ∧ t.triggers = []
  columns : ((r.columns.filter fun c => c.tableSchema = t.tableSchema ∧ c.tableName = t.tableName).map Column.columnName).Nodup
  constraints : dia ≠ .sqlite →
    ((r.constraints.filter fun c => c.tableSchema = t.tableSchema ∧ c.tableName = t.tableName).map Constraint.constraintName).Nodup
  indexes : ((r.indexes.filter fun c => c.tableSchema = t.tableSchema ∧ c.tableName = t.tableName).map Index.indexName).Nodup
  triggers : ((r.triggers.filter fun c => c.tableSchema = t.tableSchema ∧ c.tableName = t.tableName).map Trigger.triggerName).Nodup
  named : (∀ c ∈ r.columns, c.columnName ≠ []) ∧ (dia ≠ .sqlite → ∀ c ∈ r.constraints, c.constraintName ≠ []) ∧
    (∀ c ∈ r.indexes, c.indexName ≠ []) ∧ (∀ c ∈ r.triggers, c.triggerName ≠ [])

section
variable {α : Type} [Entry α Str]

/-- Appending to an empty list. -/
def appended (xs : List α) (cache : Cache Str) : Cache Str := (xs.foldl (fun p x => appendItem p.1 p.2 x) (([] : List α), cache)).2

theorem appended_found (xs : List α) (cache : Cache Str) (hb : ∀ x ∈ xs, Entry.blank α (Entry.key x) = false)
    (hd : (xs.map Entry.key).Nodup) : AllFound xs (appended xs cache) := by
  obtain ⟨i1, i2⟩ := fold_append_found [] cache xs (allFound_nil _) hb
    (by rw [List.nodup_iff_pairwise_ne, List.pairwise_map] at hd; exact hd) (fun x hx => rfl)
  rw [i2] at i1
  exact i1

theorem fold_append_items (xs : List α) (items : List α) (cache : Cache Str) :
    (xs.foldl (fun p x => appendItem p.1 p.2 x) (items, cache)).1 = items ++ xs := by
  induction xs generalizing items cache with
  | nil => simp
  | cons x xs ih => rw [List.foldl_cons]; refine (ih _ _).trans ?_; simp [appendItem]

end

theorem fold_appendColumn (cs : List Column) (t : Table) (h0 : t.columns = []) : cs.foldl Table.appendColumn t =
    { t with columns := cs, columnCache := appended cs t.columnCache } := by
  have key : ∀ (cs : List Column) (t : Table), cs.foldl Table.appendColumn t =
      { t with columns := (cs.foldl (fun p x => appendItem p.1 p.2 x) (t.columns, t.columnCache)).1
               columnCache := (cs.foldl (fun p x => appendItem p.1 p.2 x) (t.columns, t.columnCache)).2 } := by
    intro cs
    induction cs with
    | nil => intro t; rfl
    | cons c cs ih => intro t; rw [List.foldl_cons, ih]; rfl
  rw [key, fold_append_items, h0]; rfl

theorem fold_appendIndex (cs : List Index) (t : Table) (h0 : t.indexes = []) : cs.foldl Table.appendIndex t =
    { t with indexes := cs, indexCache := appended cs t.indexCache } := by
  have key : ∀ (cs : List Index) (t : Table), cs.foldl Table.appendIndex t =
      { t with indexes := (cs.foldl (fun p x => appendItem p.1 p.2 x) (t.indexes, t.indexCache)).1
               indexCache := (cs.foldl (fun p x => appendItem p.1 p.2 x) (t.indexes, t.indexCache)).2 } := by
    intro cs
    induction cs with
    | nil => intro t; rfl
    | cons c cs ih => intro t; rw [List.foldl_cons, ih]; rfl
  rw [key, fold_append_items, h0]; rfl

theorem fold_appendTrigger (cs : List Trigger) (t : Table) (h0 : t.triggers = []) : cs.foldl Table.appendTrigger t =
    { t with triggers := cs, triggerCache := appended cs t.triggerCache } := by
  have key : ∀ (cs : List Trigger) (t : Table), cs.foldl Table.appendTrigger t =
      { t with triggers := (cs.foldl (fun p x => appendItem p.1 p.2 x) (t.triggers, t.triggerCache)).1
               triggerCache := (cs.foldl (fun p x => appendItem p.1 p.2 x) (t.triggers, t.triggerCache)).2 } := by
    intro cs
    induction cs with
    | nil => intro t; rfl
    | cons c cs ih => intro t; rw [List.foldl_cons, ih]; rfl
  rw [key, fold_append_items, h0]; rfl

/-- What marking a column leaves alone. -/
theorem markColumn_parts (t : Table) (c : Constraint) : ∃ cols, markColumn t c = { t with columns := cols } ∧
    cols.map Column.columnName = t.colNames ∧ (AllFound t.columns t.columnCache → AllFound cols t.columnCache) := by
  unfold markColumn
  split
  · split
    · exact ⟨_, rfl, rfl, id⟩
    · rename_i hl
      split
      · exact ⟨_, rfl, modify_colNames (t := t) (fun _ => rfl), fun h => h.modify hl fun _ => rfl⟩
      · exact ⟨_, rfl, modify_colNames (t := t) (fun _ => rfl), fun h => h.modify hl fun _ => rfl⟩
      · exact ⟨_, rfl, rfl, id⟩
  · exact ⟨_, rfl, rfl, id⟩

theorem fold_addConstraint (cs : List Constraint) (t : Table) : ∃ cols,
    cs.foldl (fun t c => markColumn (t.appendConstraint c) c) t =
      { t with columns := cols, constraints := (cs.foldl (fun p x => appendItem p.1 p.2 x) (t.constraints, t.constraintCache)).1
               constraintCache := (cs.foldl (fun p x => appendItem p.1 p.2 x) (t.constraints, t.constraintCache)).2 } ∧
    cols.map Column.columnName = t.colNames ∧ (AllFound t.columns t.columnCache → AllFound cols t.columnCache) := by
  induction cs generalizing t with
  | nil => exact ⟨t.columns, rfl, rfl, id⟩
  | cons c cs ih =>
    obtain ⟨cols, he, hcols, hf⟩ := markColumn_parts (t.appendConstraint c) c
    obtain ⟨cols', i1, i2, i3⟩ := ih (markColumn (t.appendConstraint c) c)
    refine ⟨cols', ?_, ?_, fun h => ?_⟩
    · rw [List.foldl_cons, i1, he]; rfl
    · rw [i2, markColumn_colNames]; rfl
    · rw [he] at i3
      exact i3 (hf h)

/-- C46: metadata introspected with `WithDB`, from tables and views of distinct names whose parts have distinct names, is
well-formed; and the table found under a name has exactly the columns (up to the primary key and unique marks), constraints,
indexes and triggers the database reported for it. -/
theorem C46_with_db (dia : Dialect) (r : Introspected) (hr : RowsOk r) (hp : ∀ t ∈ r.tables, PartsOk dia r t) :
    MetaOk (withDB dia r) ∧
    (∀ s n, table? (withDB dia r) s n = none ↔ ∀ t ∈ r.tables, ¬ (t.tableSchema = s ∧ t.tableName = n)) ∧
    (∀ s n t, table? (withDB dia r) s n = some t →
      t.tableSchema = s ∧ t.tableName = n ∧
      t.columns.map Column.columnName = (r.columns.filter fun c => c.tableSchema = s ∧ c.tableName = n).map Column.columnName ∧
      t.constraints = (r.constraints.filter fun c => c.tableSchema = s ∧ c.tableName = n) ∧
      t.indexes = (r.indexes.filter fun c => c.tableSchema = s ∧ c.tableName = n) ∧
      t.triggers = (r.triggers.filter fun c => c.tableSchema = s ∧ c.tableName = n)) := by
  obtain ⟨h1, h2⟩ := withDB_table (dia := dia) hr
  have key : ∀ t ∈ r.tables, (TableOk (assemble r t) ∧ (dia ≠ .sqlite → ListOk (assemble r t).constraints (assemble r t).constraintCache)) ∧
      (assemble r t).tableSchema = t.tableSchema ∧ (assemble r t).tableName = t.tableName ∧
      (assemble r t).columns.map Column.columnName =
        (r.columns.filter fun c => c.tableSchema = t.tableSchema ∧ c.tableName = t.tableName).map Column.columnName ∧
      (assemble r t).constraints = (r.constraints.filter fun c => c.tableSchema = t.tableSchema ∧ c.tableName = t.tableName) ∧
      (assemble r t).indexes = (r.indexes.filter fun c => c.tableSchema = t.tableSchema ∧ c.tableName = t.tableName) ∧
      (assemble r t).triggers = (r.triggers.filter fun c => c.tableSchema = t.tableSchema ∧ c.tableName = t.tableName) := by
    intro t ht
    have hpt := hp t ht
    obtain ⟨b1, b2, b3, b4⟩ := hpt.bare
    have f1 := appended_found _ t.columnCache (fun x hx => by
      show decide (x.columnName = []) = false; simpa using hpt.named.1 x (List.mem_filter.1 hx).1) hpt.columns
    have f2 := fun hs => appended_found _ t.constraintCache (fun x hx => by
      show decide (x.constraintName = []) = false; simpa using hpt.named.2.1 hs x (List.mem_filter.1 hx).1) (hpt.constraints hs)
    have f3 := appended_found _ t.indexCache (fun x hx => by
      show decide (x.indexName = []) = false; simpa using hpt.named.2.2.1 x (List.mem_filter.1 hx).1) hpt.indexes
    have f4 := appended_found _ t.triggerCache (fun x hx => by
      show decide (x.triggerName = []) = false; simpa using hpt.named.2.2.2 x (List.mem_filter.1 hx).1) hpt.triggers
    unfold assemble
    dsimp only at f1 f2 f3 f4 ⊢
    rw [fold_appendColumn _ t b1]
    obtain ⟨cols, e, e2, e3⟩ := fold_addConstraint (r.constraints.filter fun c => decide (c.tableSchema = t.tableSchema ∧ c.tableName = t.tableName))
      { t with columns := r.columns.filter fun c => decide (c.tableSchema = t.tableSchema ∧ c.tableName = t.tableName)
               columnCache := appended (r.columns.filter fun c => decide (c.tableSchema = t.tableSchema ∧ c.tableName = t.tableName)) t.columnCache }
    rw [e, fold_append_items]
    dsimp only
    rw [b2, List.nil_append, fold_appendIndex _ _ (by exact b3), fold_appendTrigger _ _ (by exact b4)]
    exact ⟨⟨⟨(e3 f1).ok, f3.ok, f4.ok⟩, fun hs => (f2 hs).ok⟩, rfl, rfl, e2, rfl, rfl, rfl⟩
  have hfind : ∀ s n t, table? (withDB dia r) s n = some t → ∃ t0 ∈ r.tables, t0.tableSchema = s ∧ t0.tableName = n ∧ t = assemble r t0 := by
    intro s n t ht
    rw [h2] at ht
    obtain ⟨t0, ht0, rfl⟩ := Option.map_eq_some_iff.1 ht
    have hk := List.find?_some ht0
    simp only [decide_eq_true_eq] at hk
    exact ⟨t0, List.mem_of_find?_eq_some ht0, hk.1, hk.2, rfl⟩
  refine ⟨h1.ok (fun s n t ht => ?_) (fun hne s n t ht => ?_), fun s n => ?_, fun s n t ht => ?_⟩
  · obtain ⟨t0, ht0, -, -, rfl⟩ := hfind s n t ht
    exact (key t0 ht0).1.1
  · obtain ⟨t0, ht0, -, -, rfl⟩ := hfind s n t ht
    refine (key t0 ht0).1.2 fun hs => hne ?_
    rw [withDB_dialect, hs]
  · rw [h2, Option.map_eq_none_iff, List.find?_eq_none]
    simp
  · obtain ⟨t0, ht0, rfl, rfl, rfl⟩ := hfind s n t ht
    exact (key t0 ht0).2

/-! ### C47 -/

/-- A modifier meant for a dialect other than `d`: its name starts with the name of another dialect and a colon. -/
def ForOther (d : Dialect) (m : Str × Str) : Bool :=
  decide (':' ∈ m.1) && decide (some (m.1.takeWhile (· ≠ ':')) ≠ dialectName d)

theorem forOther_none {d : Dialect} {m : Str × Str} (h : ForOther d m = true) : forDialect d m.1 = none := by
  unfold ForOther at h
  simp only [Bool.and_eq_true, decide_eq_true_eq] at h
  unfold forDialect
  rw [if_pos h.1, if_neg h.2]

theorem foldRes_filter {α β : Type} (f : α → β → Res α) (p : β → Bool) (hp : ∀ a b, p b = true → f a b = .ok a) (bs : List β) (a : α) :
    foldRes f a (bs.filter fun b => !p b) = foldRes f a bs := by
  induction bs generalizing a with
  | nil => rfl
  | cons b bs ih =>
    cases hb : p b
    · rw [List.filter_cons_of_pos (by simp [hb]), foldRes, foldRes]
      congr 1
      funext a'
      exact ih a'
    · rw [List.filter_cons_of_neg (by simp [hb]), foldRes, hp a b hb, ih]
      rfl

theorem column_filter (num : Str → Bool) (d : Dialect) (t : Table) (name type tag tag' : Str) (ms : List (Str × Str))
    (h : Sq.lexModifiers false tag = .ok ms) (h' : Sq.lexModifiers false tag' = .ok (ms.filter fun m => !ForOther d m)) :
    loadColumnConfig num d t name type tag = loadColumnConfig num d t name type tag' := by
  have key : ∀ s, foldRes (columnModifier num d) s (ms.filter fun m => !ForOther d m) = foldRes (columnModifier num d) s ms := fun s =>
    foldRes_filter _ _ (fun a b hb => by unfold columnModifier; rw [forOther_none hb]) _ _
  unfold loadColumnConfig
  rw [h, h']
  show Res.bind (.ok ms) _ = Res.bind (.ok _) _
  simp only [Res.bind, key]

theorem table_filter (d : Dialect) (t : Table) (tag tag' : Str) (ms : List (Str × Str))
    (h : Sq.lexModifiers false tag = .ok ms) (h' : Sq.lexModifiers false tag' = .ok (ms.filter fun m => !ForOther d m)) :
    loadTableConfig d t tag = loadTableConfig d t tag' := by
  have key : ∀ s, foldRes (tableModifier d) s (ms.filter fun m => !ForOther d m) = foldRes (tableModifier d) s ms := fun s =>
    foldRes_filter _ _ (fun a b hb => by unfold tableModifier; rw [forOther_none hb]) _ _
  unfold loadTableConfig
  rw [h, h']
  show Res.bind (.ok ms) _ = Res.bind (.ok _) _
  simp only [Res.bind, key]

open Sq.Spec (Modifier Gap writeMods) in
/-- The tag without the modifiers for other dialects. -/
def onlyFor (d : Dialect) (ms : List (Str × Modifier)) : List (Str × Modifier) := ms.filter fun p => !ForOther d p.2.read

open Sq.Spec (Modifier Gap writeMods) in
theorem lex_onlyFor (d : Dialect) (ms : List (Str × Modifier)) (hg : ∀ p ∈ ms, Gap p.1) (hm : ∀ p ∈ ms, p.2.Ok) :
    Sq.lexModifiers false (writeMods (onlyFor d ms)) = .ok ((ms.map fun p => p.2.read).filter fun m => !ForOther d m) := by
  rw [Sq.C32_roundtrip false (onlyFor d ms) (fun p hp => hg p (List.mem_filter.1 hp).1) (fun p hp => hm p (List.mem_filter.1 hp).1)]
  unfold onlyFor
  rw [List.filter_map]
  rfl

open Sq.Spec (Modifier Gap writeMods) in
/-- C47: the tag of a column field, written as any list of modifiers, loads like the tag without the modifiers that begin with
the name of another dialect (or of no dialect) and a colon: same table or same error. -/
theorem C47_column (num : Str → Bool) (d : Dialect) (t : Table) (name type : Str) (ms : List (Str × Modifier))
    (hg : ∀ p ∈ ms, Gap p.1) (hm : ∀ p ∈ ms, p.2.Ok) :
    loadColumnConfig num d t name type (writeMods ms) = loadColumnConfig num d t name type (writeMods (onlyFor d ms)) :=
  column_filter num d t name type _ _ _ (Sq.C32_roundtrip false ms hg hm) (lex_onlyFor d ms hg hm)

open Sq.Spec (Modifier Gap writeMods) in
/-- C47: the same for the tag of a table. -/
theorem C47_table (d : Dialect) (t : Table) (ms : List (Str × Modifier)) (hg : ∀ p ∈ ms, Gap p.1) (hm : ∀ p ∈ ms, p.2.Ok) :
    loadTableConfig d t (writeMods ms) = loadTableConfig d t (writeMods (onlyFor d ms)) :=
  table_filter d t _ _ _ (Sq.C32_roundtrip false ms hg hm) (lex_onlyFor d ms hg hm)

/-- ` notnull postgres:type=BIGINT mysql:type={INT}` read for MySQL. -/
example :
    let ms : List (Str × Sq.Spec.Modifier) := [(" ".toList, ⟨"notnull".toList, none, false⟩), (" ".toList, ⟨"postgres:type".toList, some "BIGINT".toList, true⟩),
      (" ".toList, ⟨"mysql:type".toList, some "INT".toList, false⟩)]
    Sq.Spec.writeMods (onlyFor .mysql ms) = " notnull mysql:type={INT}".toList ∧
    (loadColumnConfig (fun _ => false) .mysql { tableName := "t".toList } "id".toList "BIGINT".toList (Sq.Spec.writeMods ms)).map (·.columns) =
      .ok [{ tableName := "t".toList, columnName := "id".toList, columnType := "INT".toList, isNotNull := true }] := by
  decide +kernel

/-! ### Examples -/

/-- A struct with a primary key, a reference and a `DDL` method. -/
def exampleDecl : TableDecl :=
  { name := "film".toList
    fields := [.other "unique={title,year}".toList, .column "film_id".toList "BIGINT".toList "primarykey notnull".toList,
      .column "title".toList "TEXT".toList "index notnull".toList, .column "year".toList "INT".toList [],
      .column "lang".toList "INT".toList "references={language.id onupdate=cascade} mysql:ignore".toList]
    ddl := fun _ => [.column "year".toList [.notNull, .default "2000".toList], .index none ["year".toList] [] [.unique]] }

/-- The hypotheses of `C46_with_tables` and `C46_with_tables_content` hold, loading succeeds, and the table has all its parts. -/
example : exampleDecl.Named ∧
    (withTables (fun _ => false) .postgres [exampleDecl] { dialect := some .postgres }).map (fun d =>
      (table? d [] "film".toList).map fun t => (t.columns.map Column.columnName, t.constraints.map Constraint.constraintName, t.indexes.map Index.indexName)) =
    .ok (some (["film_id".toList, "title".toList, "year".toList, "lang".toList],
      ["film_title_year_key".toList, "film_film_id_pkey".toList, "film_lang_fkey".toList],
      ["film_title_idx".toList, "film_year_idx".toList])) := by
  refine ⟨?_, by decide +kernel⟩
  intro d op hop
  simp only [exampleDecl, List.mem_cons, List.not_mem_nil, or_false] at hop
  rcases hop with rfl | rfl <;> trivial

/-- An introspected database with two tables meets the hypotheses of `C46_with_db`. -/
def exampleRows : Introspected :=
  { tables := [{ tableSchema := "public".toList, tableName := "film".toList }, { tableSchema := "public".toList, tableName := "lang".toList }]
    columns := [{ tableSchema := "public".toList, tableName := "film".toList, columnName := "id".toList },
      { tableSchema := "public".toList, tableName := "lang".toList, columnName := "id".toList },
      { tableSchema := "public".toList, tableName := "film".toList, columnName := "title".toList }]
    constraints := [{ tableSchema := "public".toList, tableName := "film".toList, constraintName := "film_pkey".toList, constraintType := .primaryKey, columns := ["id".toList] }] }

example : RowsOk exampleRows ∧ (∀ t ∈ exampleRows.tables, PartsOk .postgres exampleRows t) ∧
    ((table? (withDB .postgres exampleRows) "public".toList "film".toList).map fun t => t.columns.map fun c => (c.columnName, c.isPrimaryKey)) =
      some [("id".toList, true), ("title".toList, false)] := by
  refine ⟨⟨by decide, by decide, by decide, by decide⟩, ?_, by decide +kernel⟩
  intro t ht
  simp only [exampleRows, List.mem_cons, List.not_mem_nil, or_false] at ht
  rcases ht with rfl | rfl <;> exact ⟨by decide +kernel, by decide +kernel, by decide +kernel, by decide +kernel, by decide +kernel, by decide +kernel⟩

/-- So does a SQLite database, whose constraints have no names: here two on one table. -/
def exampleSqliteRows : Introspected :=
  { tables := [{ tableName := "film".toList }, { tableName := "lang".toList }]
    columns := [{ tableName := "film".toList, columnName := "id".toList },
      { tableName := "lang".toList, columnName := "id".toList },
      { tableName := "film".toList, columnName := "lang".toList }]
    constraints := [{ tableName := "film".toList, constraintType := .primaryKey, columns := ["id".toList] },
      { tableName := "film".toList, constraintType := .foreignKey, columns := ["lang".toList], referencesTable := "lang".toList, referencesColumns := ["id".toList] }] }

theorem exampleSqliteRows_ok : RowsOk exampleSqliteRows ∧ ∀ t ∈ exampleSqliteRows.tables, PartsOk .sqlite exampleSqliteRows t := by
  refine ⟨⟨by decide, by decide, by decide, by decide⟩, ?_⟩
  intro t ht
  simp only [exampleSqliteRows, List.mem_cons, List.not_mem_nil, or_false] at ht
  rcases ht with rfl | rfl <;>
    exact ⟨by decide +kernel, by decide +kernel, fun h => absurd rfl h, by decide +kernel, by decide +kernel,
      by decide +kernel, fun h => absurd rfl h, by decide +kernel, by decide +kernel⟩

example : ((table? (withDB .sqlite exampleSqliteRows) [] "film".toList).map fun t => (t.columns.map Column.columnName, t.constraints.length)) =
    some (["id".toList, "lang".toList], 2) := by
  decide +kernel

end Ddl
