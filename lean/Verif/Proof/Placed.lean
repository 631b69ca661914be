import Verif.Props.Load
/-
Metadata made by `WithDB` is placed: parts carry the names of their table, tables the name of their schema.
-/
namespace Ddl
open Spec

theorem mem_modify_of {α : Type} {l : List α} {n : Nat} {f : α → α} {x : α} (h : x ∈ l.modify n f) :
    x ∈ l ∨ ∃ y, l[n]? = some y ∧ x = f y := by
  obtain ⟨i, hi⟩ := List.mem_iff_getElem?.1 h
  rw [List.getElem?_modify] at hi
  split at hi
  · subst_vars
    cases hg : l[i]? with
    | none => simp [hg] at hi
    | some y =>
      rw [hg] at hi
      simp only [Option.map_eq_map, Option.map_some, Option.some.injEq] at hi
      exact .inr ⟨y, by rw [← hg], hi.symm⟩
  · exact .inl (List.mem_iff_getElem?.2 ⟨i, by simpa using hi⟩)

theorem placed_inSchema {d : DatabaseMetadata} (h : Placed d) (name : Str) (f : Schema → Schema)
    (hf : ∀ s, s.schemaName = name → PlacedSchema s → PlacedSchema (f s)) : Placed (d.inSchema name f) := by
  unfold DatabaseMetadata.inSchema
  split
  · rename_i n hn
    obtain ⟨x, hx, hk, -⟩ := cachedPosition_sound _ _ _ _ hn
    intro s hs
    rcases mem_modify_of hs with hs | ⟨y, hy, rfl⟩
    · exact h s hs
    · rw [hx] at hy
      cases hy
      exact hf _ hk (h _ (List.mem_iff_getElem?.2 ⟨n, hx⟩))
  · intro s hs
    unfold DatabaseMetadata.appendSchema appendItem at hs
    rcases List.mem_append.1 hs with hs | hs
    · exact h s hs
    · rw [List.mem_singleton.1 hs]
      exact hf _ rfl ⟨fun t ht => (by cases ht), fun t ht => (by cases ht), fun t ht => (by cases ht)⟩

theorem placed_inTable {d : DatabaseMetadata} (h : Placed d) (schema table : Str) (f : Table → Table)
    (hs : ∀ t, (f t).tableSchema = t.tableSchema) (hn : ∀ t, (f t).tableName = t.tableName)
    (hf : ∀ t, t.tableSchema = schema → t.tableName = table → PlacedTable t → PlacedTable (f t)) : Placed (d.inTable schema table f) := by
  unfold DatabaseMetadata.inTable
  split
  · exact h
  · rename_i n hpos
    obtain ⟨x, hx, hk, -⟩ := cachedPosition_sound _ _ _ _ hpos
    intro s hsm
    rcases mem_modify_of hsm with hsm | ⟨y, hy, rfl⟩
    · exact h s hsm
    rw [hx] at hy
    cases hy
    have hp := h _ (List.mem_iff_getElem?.2 ⟨n, hx⟩)
    split
    · exact hp
    · rename_i n2 hpos2
      obtain ⟨t, ht, htk, -⟩ := cachedPosition_sound _ _ _ _ hpos2
      refine ⟨fun u hu => ?_, hp.views, hp.functions⟩
      rcases mem_modify_of hu with hu | ⟨y, hy, rfl⟩
      · exact hp.tables u hu
      · rw [ht] at hy
        cases hy
        have := hp.tables _ (List.mem_iff_getElem?.2 ⟨n2, ht⟩)
        exact ⟨(hs _).trans this.1, hf _ (this.1.trans hk) htk this.2⟩

theorem placed_inView {d : DatabaseMetadata} (h : Placed d) (schema view : Str) (f : View → View)
    (hs : ∀ t, (f t).viewSchema = t.viewSchema) : Placed (d.inView schema view f) := by
  unfold DatabaseMetadata.inView
  split
  · exact h
  · intro s hsm
    rcases mem_modify_of hsm with hsm | ⟨y, hy, rfl⟩
    · exact h s hsm
    have hp := h _ (List.mem_iff_getElem?.2 ⟨_, hy⟩)
    unfold Schema.inView
    split
    · exact hp
    · refine ⟨hp.tables, fun u hu => ?_, hp.functions⟩
      rcases mem_modify_of hu with hu | ⟨z, hz, rfl⟩
      · exact hp.views u hu
      · exact (hs _).trans (hp.views _ (List.mem_iff_getElem?.2 ⟨_, hz⟩))

theorem placed_fold {α : Type} (add : DatabaseMetadata → α → DatabaseMetadata) (xs : List α)
    (hadd : ∀ d, Placed d → ∀ x ∈ xs, Placed (add d x)) {d : DatabaseMetadata} (h : Placed d) : Placed (xs.foldl add d) := by
  induction xs generalizing d with
  | nil => exact h
  | cons x xs ih =>
    exact ih (fun d hd y hy => hadd d hd y (List.mem_cons_of_mem _ hy)) (hadd d h x (List.mem_cons_self ..))

theorem markColumn_placed (t : Table) (c : Constraint) : (markColumn t c).tableSchema = t.tableSchema ∧ (markColumn t c).tableName = t.tableName ∧
    (markColumn t c).indexes = t.indexes ∧ (markColumn t c).triggers = t.triggers := by
  unfold markColumn
  repeat' split
  all_goals exact ⟨rfl, rfl, rfl, rfl⟩

/-- The rows of tables come without parts (they are separate rows). -/
def BareTables (r : Introspected) : Prop := ∀ t ∈ r.tables, t.indexes = [] ∧ t.triggers = []

theorem placed_addTrigger {d : DatabaseMetadata} (h : Placed d) (x : Trigger) : Placed (addTrigger d x) := by
  unfold addTrigger
  have h1 : Placed (d.inTable x.tableSchema x.tableName fun t => t.appendTrigger x) := ?_
  · exact placed_inView h1 _ _ _ (fun _ => rfl)
  refine placed_inTable h _ _ _ (fun _ => rfl) (fun _ => rfl) fun t h1 h2 hp => ⟨hp.indexes, fun y hy => ?_⟩
  rcases List.mem_append.1 hy with hy | hy
  · exact hp.triggers y hy
  · rw [List.mem_singleton.1 hy]; exact ⟨h1.symm, h2.symm⟩

theorem placed_addIndex {d : DatabaseMetadata} (h : Placed d) (x : Index) : Placed (addIndex d x) := by
  unfold addIndex
  split
  · refine placed_inTable h _ _ _ (fun _ => rfl) (fun _ => rfl) fun t h1 h2 hp => ⟨fun y hy => ?_, hp.triggers⟩
    rcases List.mem_append.1 hy with hy | hy
    · exact hp.indexes y hy
    · rw [List.mem_singleton.1 hy]; exact ⟨h1.symm, h2.symm⟩
  · exact placed_inView h _ _ _ (fun _ => rfl)

theorem placed_addConstraint {d : DatabaseMetadata} (h : Placed d) (x : Constraint) : Placed (addConstraint d x) := by
  refine placed_inTable h _ _ _ (fun t => (markColumn_placed _ x).1) (fun t => (markColumn_placed _ x).2.1) fun t h1 h2 hp => ?_
  obtain ⟨a, b, c, e⟩ := markColumn_placed (t.appendConstraint x) x
  refine ⟨?_, ?_⟩
  · rw [a, b, c]; exact hp.indexes
  · rw [a, b, e]; exact hp.triggers

theorem placed_addColumn {d : DatabaseMetadata} (h : Placed d) (x : Column) : Placed (addColumn d x) :=
  placed_inTable h _ _ _ (fun t => rfl) (fun t => rfl) fun t _ _ hp => ⟨hp.indexes, hp.triggers⟩

theorem placed_addView {d : DatabaseMetadata} (h : Placed d) (x : View) : Placed (addView d x) := by
  refine placed_inSchema h _ _ fun s hs hp => ⟨hp.tables, fun v hv => ?_, hp.functions⟩
  rcases List.mem_append.1 hv with hv | hv
  · exact hp.views v hv
  · rw [List.mem_singleton.1 hv]; exact hs.symm

theorem placed_addFunction {d : DatabaseMetadata} (h : Placed d) (x : Function) : Placed (addFunction d x) := by
  refine placed_inSchema h _ _ fun s hs hp => ⟨hp.tables, hp.views, fun v hv => ?_⟩
  rcases List.mem_append.1 hv with hv | hv
  · exact hp.functions v hv
  · rw [List.mem_singleton.1 hv]; exact hs.symm

theorem placed_addTable {d : DatabaseMetadata} (h : Placed d) (x : Table) (h1 : x.indexes = []) (h2 : x.triggers = []) : Placed (addTable d x) := by
  refine placed_inSchema h _ _ fun s hs hp => ⟨fun v hv => ?_, hp.views, hp.functions⟩
  rcases List.mem_append.1 hv with hv | hv
  · exact hp.tables v hv
  · rw [List.mem_singleton.1 hv]
    refine ⟨hs.symm, ?_, ?_⟩
    · rw [h1]; intro y hy; cases hy
    · rw [h2]; intro y hy; cases hy

theorem placed_withDB (dia : Dialect) (r : Introspected) (hb : BareTables r) : Placed (withDB dia r) := by
  unfold withDB
  dsimp only
  refine placed_fold _ _ (fun d hd x _ => placed_addTrigger hd x) ?_
  generalize hE : (if dia = .postgres then r.extensions else []) = E
  have h0 : Placed { dialect := some dia, currentSchema := r.currentSchema, extensions := E } :=
    fun s hs => by cases hs
  have h1 := placed_fold addTable r.tables (fun d hd x hx => placed_addTable hd x (hb x hx).1 (hb x hx).2) h0
  have h2 := placed_fold addView r.views (fun d hd x hx => placed_addView hd x) h1
  have h3 := placed_fold addColumn r.columns (fun d hd x hx => placed_addColumn hd x) h2
  have h4 := placed_fold addConstraint r.constraints (fun d hd x hx => placed_addConstraint hd x) h3
  have h5 := placed_fold addIndex r.indexes (fun d hd x hx => placed_addIndex hd x) h4
  by_cases hp : dia = .postgres
  · rw [if_pos hp]; exact placed_fold _ _ (fun d hd x _ => placed_addFunction hd x) h5
  · rw [if_neg hp]; exact h5

theorem putSchema_dialect {d d' : DatabaseMetadata} {n : Str} {f : Schema → Res Schema} (h : d.putSchema n f = .ok d') : d'.dialect = d.dialect := by
  unfold DatabaseMetadata.putSchema at h
  split at h
  · obtain ⟨s, -, rfl⟩ := map_eq_ok h; rfl
  · obtain ⟨s, -, rfl⟩ := map_eq_ok h; rfl

theorem withTables_dialect {num : Str → Bool} {dia : Dialect} (decls : List TableDecl) {d d' : DatabaseMetadata}
    (h : withTables num dia decls d = .ok d') : d'.dialect = d.dialect := by
  induction decls generalizing d with
  | nil => cases h; rfl
  | cons x xs ih =>
    obtain ⟨d1, h1, h2⟩ := (Res.bind_eq_ok _ _ _).1 h
    rw [ih h2]
    unfold DatabaseMetadata.loadTable at h1
    split at h1
    · cases h1
    · exact putSchema_dialect h1

/-- A property of views that survives appending indexes and triggers. -/
def ViewsAll (P : View → Prop) (d : DatabaseMetadata) : Prop := ∀ s ∈ d.schemas, ∀ v ∈ s.views, P v

theorem viewsAll_inSchema {P : View → Prop} {d : DatabaseMetadata} (h : ViewsAll P d) (n : Str) (f : Schema → Schema)
    (hf : ∀ s, (∀ v ∈ s.views, P v) → ∀ v ∈ (f s).views, P v) : ViewsAll P (d.inSchema n f) := by
  unfold DatabaseMetadata.inSchema
  split
  · intro s hs
    rcases mem_modify_of hs with hs | ⟨y, hy, rfl⟩
    · exact h s hs
    · exact hf _ (h _ (List.mem_iff_getElem?.2 ⟨_, hy⟩))
  · intro s hs
    rcases List.mem_append.1 hs with hs | hs
    · exact h s hs
    · rw [List.mem_singleton.1 hs]
      exact hf _ fun v hv => (by cases hv)

theorem viewsAll_inTable {P : View → Prop} {d : DatabaseMetadata} (h : ViewsAll P d) (n t : Str) (f : Table → Table) : ViewsAll P (d.inTable n t f) := by
  unfold DatabaseMetadata.inTable
  split
  · exact h
  · intro s hs
    rcases mem_modify_of hs with hs | ⟨y, hy, rfl⟩
    · exact h s hs
    · have := h _ (List.mem_iff_getElem?.2 ⟨_, hy⟩)
      split
      · exact this
      · exact this

theorem viewsAll_inView {P : View → Prop} {d : DatabaseMetadata} (h : ViewsAll P d) (n t : Str) (f : View → View)
    (hf : ∀ v, P v → P (f v)) : ViewsAll P (d.inView n t f) := by
  unfold DatabaseMetadata.inView
  split
  · exact h
  · intro s hs
    rcases mem_modify_of hs with hs | ⟨y, hy, rfl⟩
    · exact h s hs
    · have := h _ (List.mem_iff_getElem?.2 ⟨_, hy⟩)
      unfold Schema.inView
      split
      · exact this
      · intro v hv
        rcases mem_modify_of hv with hv | ⟨z, hz, rfl⟩
        · exact this v hv
        · exact hf _ (this _ (List.mem_iff_getElem?.2 ⟨_, hz⟩))

theorem viewsAll_fold {P : View → Prop} {α : Type} (add : DatabaseMetadata → α → DatabaseMetadata) (xs : List α)
    (hadd : ∀ d, ViewsAll P d → ∀ x ∈ xs, ViewsAll P (add d x)) {d : DatabaseMetadata} (h : ViewsAll P d) : ViewsAll P (xs.foldl add d) := by
  induction xs generalizing d with
  | nil => exact h
  | cons x xs ih =>
    exact ih (fun d hd y hy => hadd d hd y (List.mem_cons_of_mem _ hy)) (hadd d h x (List.mem_cons_self ..))

theorem withDB_views (P : View → Prop) (dia : Dialect) (r : Introspected) (hi : ∀ v x, P v → P (v.appendIndex x))
    (ht : ∀ v x, P v → P (v.appendTrigger x)) (hv : ∀ v ∈ r.views, P v) : ∀ s ∈ (withDB dia r).schemas, ∀ v ∈ s.views, P v := by
  change ViewsAll P (withDB dia r)
  unfold withDB
  dsimp only
  generalize hE : (if dia = .postgres then r.extensions else []) = E
  have h0 : ViewsAll P { dialect := some dia, currentSchema := r.currentSchema, extensions := E } := fun s hs => (by cases hs)
  have h1 := viewsAll_fold addTable r.tables (fun d hd x hx => viewsAll_inSchema hd _ _ fun s hs v hv => hs v hv) h0
  have h2 := viewsAll_fold addView r.views (fun d hd x hx => viewsAll_inSchema hd _ _ fun s hs v hv' => by
    rcases List.mem_append.1 hv' with hv' | hv'
    · exact hs v hv'
    · rw [List.mem_singleton.1 hv']; exact hv x hx) h1
  have h3 := viewsAll_fold addColumn r.columns (fun d hd x hx => viewsAll_inTable hd _ _ _) h2
  have h4 := viewsAll_fold addConstraint r.constraints (fun d hd x hx => viewsAll_inTable hd _ _ _) h3
  have h5 := viewsAll_fold addIndex r.indexes (fun d hd x hx => by
    unfold addIndex
    split
    · exact viewsAll_inTable hd _ _ _
    · exact viewsAll_inView hd _ _ _ fun v => hi v x) h4
  have h6 := viewsAll_fold addFunction r.functions (fun d hd x hx => viewsAll_inSchema hd _ _ fun s hs v hv => hs v hv) h5
  have h7 : ∀ d, ViewsAll P d → ViewsAll P (r.triggers.foldl addTrigger d) := fun d hd =>
    viewsAll_fold addTrigger r.triggers (fun d hd x hx => by
      have h1 := viewsAll_inTable (P := P) hd x.tableSchema x.tableName fun t => t.appendTrigger x
      unfold addTrigger
      exact viewsAll_inView h1 _ _ _ fun v => ht v x) hd
  refine h7 _ ?_
  by_cases hp : dia = .postgres
  · rw [if_pos hp]; exact h6
  · rw [if_neg hp]; exact h5

end Ddl
