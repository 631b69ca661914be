import Verif.Proof.LoadDb
/-
What `WithDB` assembles.
-/
namespace Ddl
open Spec

/-! ### Single steps -/

theorem inSchema_ok {d : DatabaseMetadata} (h : DbInv d) (n : Str) (f : Schema → Schema) (hi : SchInv (f (schemaOrNew d n)))
    (hn : ∀ s, (f s).schemaName = s.schemaName) (hg : ∀ s, (f s).ignore = s.ignore) :
    DbInv (d.inSchema n f) ∧ ∀ k, find (d.inSchema n f).schemas k = if k = n then some (f (schemaOrNew d n)) else find d.schemas k := by
  obtain ⟨-, h2, h3⟩ := schemaOrNew_inv h n
  have hput : d.putSchema n (fun s => .ok (f s)) = .ok (d.inSchema n f) := by
    unfold DatabaseMetadata.putSchema DatabaseMetadata.inSchema
    cases hc : d.cachedSchemaPosition n with
    | none => rfl
    | some p =>
      obtain ⟨-, -, x, hx, -, -⟩ := get_of_lookup hc
      dsimp only
      rw [modify_eq_set _ _ _ _ hx, hx]
      rfl
  obtain ⟨s', hs', hs2⟩ := putSchema_ok h hput
  cases hs'
  exact hs2 hi (by rw [hn, h2]) (by rw [hg, h3])

/-- A table changed in place, if it is there. -/
theorem inTable_ok {d : DatabaseMetadata} (h : DbInv d) (sn tn : Str) (f : Table → Table)
    (hn : ∀ t, (f t).tableName = t.tableName) (hg : ∀ t, (f t).ignore = t.ignore) :
    DbInv (d.inTable sn tn f) ∧ (∀ s n, table? (d.inTable sn tn f) s n = if s = sn ∧ n = tn then (table? d s n).map f else table? d s n) ∧
    (∀ s n, view? (d.inTable sn tn f) s n = view? d s n) := by
  unfold DatabaseMetadata.inTable
  cases hc : d.cachedSchemaPosition sn with
  | none =>
    have hf : find d.schemas sn = none := by
      have := lookup_find h.schemas.ok sn
      rw [show (cachedPosition d.schemas d.schemaCache sn).1 = none from hc] at this
      exact this.symm
    refine ⟨h, fun s n => ?_, fun _ _ => rfl⟩
    dsimp only
    split
    · rename_i he
      unfold table?
      rw [he.1, hf]; rfl
    · rfl
  | some p =>
    obtain ⟨hb, hgt, x, hx, hk, hi⟩ := get_of_lookup hc
    have hf : find d.schemas sn = some x := by
      have := lookup_find h.schemas.ok sn
      rw [show (cachedPosition d.schemas d.schemaCache sn).1 = some p from hc] at this
      rw [← this]; exact hx
    obtain ⟨hxi, -, -, -⟩ := find_schema_inv h hf
    dsimp only
    rw [modify_eq_set _ _ _ _ hx]
    cases ht : x.cachedTablePosition tn with
    | none =>
      have hft : find x.tables tn = none := by
        have := lookup_find hxi.tables.ok tn
        rw [show (cachedPosition x.tables x.tableCache tn).1 = none from ht] at this
        exact this.symm
      have heq : d.schemas.set p x = d.schemas := by
        apply List.ext_getElem?
        intro i
        rw [List.getElem?_set]
        split
        · rename_i he; subst he
          obtain ⟨hl, hxx⟩ := List.getElem?_eq_some_iff.1 hx
          rw [if_pos hl]; exact hx.symm
        · rfl
      dsimp only
      rw [heq]
      refine ⟨h, fun s n => ?_, fun _ _ => rfl⟩
      split
      · rename_i he
        unfold table?
        dsimp only
        rw [he.1, hf, he.2, Option.bind_some, hft]; rfl
      · rfl
    | some q =>
      obtain ⟨hb', hg', y, hy, hyk, hyi⟩ := get_of_lookup ht
      have hft : find x.tables tn = some y := by
        have := lookup_find hxi.tables.ok tn
        rw [show (cachedPosition x.tables x.tableCache tn).1 = some q from ht] at this
        rw [← this]; exact hy
      dsimp only
      rw [modify_eq_set _ _ _ _ hy]
      have hkey : Entry.key (f y) = tn := (hn y).trans hyk
      have hset := hxi.tables.set hb' hg' hkey
      have hfind := hxi.tables.find_set ht hkey
      have hund : unlessIgnored (f y) = some (f y) := by
        unfold unlessIgnored
        rw [show Entry.ignore (f y) = false from (hg y).trans hyi]; rfl
      generalize hs' : ({ x with tables := x.tables.set q (f y) } : Schema) = s'
      have e1 : s'.tables = x.tables.set q (f y) := by rw [← hs']
      have e2 : s'.tableCache = x.tableCache := by rw [← hs']
      have e3 : s'.views = x.views := by rw [← hs']
      have e4 : s'.viewCache = x.viewCache := by rw [← hs']
      have e5 : s'.schemaName = sn := by rw [← hs']; exact hk
      have e6 : s'.ignore = false := by rw [← hs']; exact hi
      have hfs := h.schemas.find_set hc (y := s') e5
      have hunds : unlessIgnored s' = some s' := by
        unfold unlessIgnored
        rw [show Entry.ignore s' = false from e6]; rfl
      refine ⟨⟨h.schemas.set hb hgt e5, fun s hs => ?_⟩, fun s n => ?_, fun s n => ?_⟩
      · rcases List.mem_or_eq_of_mem_set hs with hs | rfl
        · exact h.schema s hs
        · exact ⟨by rw [e1, e2]; exact hset, by rw [e3, e4]; exact hxi.views⟩
      · unfold table?
        dsimp only
        rw [hfs]
        by_cases hs : s = sn
        · subst hs
          rw [if_pos rfl, hunds, Option.bind_some, e1, hfind, hf, Option.bind_some]
          by_cases hnn : n = tn
          · subst hnn
            rw [if_pos rfl, if_pos ⟨rfl, rfl⟩, hund, hft]; rfl
          · rw [if_neg hnn, if_neg (fun hh => hnn hh.2)]
        · rw [if_neg hs, if_neg (fun hh => hs hh.1)]
      · unfold view?
        dsimp only
        rw [hfs]
        by_cases hs : s = sn
        · subst hs
          rw [if_pos rfl, hunds, Option.bind_some, e3, hf]; rfl
        · rw [if_neg hs]

/-- A view changed in place: nothing moves. -/
theorem inView_ok {d : DatabaseMetadata} (h : DbInv d) (sn vn : Str) (f : View → View)
    (hn : ∀ v, (f v).viewName = v.viewName) :
    DbInv (d.inView sn vn f) ∧ ∀ s n, table? (d.inView sn vn f) s n = table? d s n := by
  unfold DatabaseMetadata.inView
  cases hc : d.cachedSchemaPosition sn with
  | none => exact ⟨h, fun _ _ => rfl⟩
  | some p =>
    obtain ⟨hb, hgt, x, hx, hk, hi⟩ := get_of_lookup hc
    have hf : find d.schemas sn = some x := by
      have := lookup_find h.schemas.ok sn
      rw [show (cachedPosition d.schemas d.schemaCache sn).1 = some p from hc] at this
      rw [← this]; exact hx
    obtain ⟨hxi, -, -, -⟩ := find_schema_inv h hf
    dsimp only
    rw [modify_eq_set _ _ _ _ hx]
    generalize hs' : x.inView vn f = s'
    unfold Schema.inView at hs'
    have key : SchInv s' ∧ s'.schemaName = sn ∧ s'.ignore = false ∧ s'.tables = x.tables := by
      cases hv : x.cachedViewPosition vn with
      | none => rw [hv] at hs'; dsimp only at hs'; subst hs'; exact ⟨hxi, hk, hi, rfl⟩
      | some q =>
        rw [hv] at hs'
        dsimp only at hs'
        subst hs'
        refine ⟨⟨hxi.tables, ?_⟩, hk, hi, rfl⟩
        exact hxi.views.modify hv hn
    obtain ⟨k1, k2, k3, k4⟩ := key
    have hfs := h.schemas.find_set hc (y := s') k2
    have hunds : unlessIgnored s' = some s' := by
      unfold unlessIgnored
      rw [show Entry.ignore s' = false from k3]; rfl
    refine ⟨⟨h.schemas.set hb hgt k2, fun s hs => ?_⟩, fun s n => ?_⟩
    · rcases List.mem_or_eq_of_mem_set hs with hs | rfl
      · exact h.schema s hs
      · exact k1
    · unfold table?
      dsimp only
      rw [hfs]
      by_cases hs : s = sn
      · subst hs
        rw [if_pos rfl, hunds, Option.bind_some, k4, hf]; rfl
      · rw [if_neg hs]

/-! ### Loops -/

/-- A loop over rows of parts: each row changes the table it names. -/
theorem fold_inTable {β : Type} (add : DatabaseMetadata → β → DatabaseMetadata) (sn tn : β → Str) (g : β → Table → Table)
    (hadd : ∀ d b, DbInv d → DbInv (add d b) ∧
      ∀ s n, table? (add d b) s n = if s = sn b ∧ n = tn b then (table? d s n).map (g b) else table? d s n)
    (bs : List β) (d : DatabaseMetadata) (h : DbInv d) :
    DbInv (bs.foldl add d) ∧ ∀ s n, table? (bs.foldl add d) s n =
      (table? d s n).map fun t => (bs.filter fun b => decide (sn b = s ∧ tn b = n)).foldl (fun t b => g b t) t := by
  induction bs generalizing d with
  | nil => exact ⟨h, fun s n => by simp⟩
  | cons b bs ih =>
    obtain ⟨h1, h2⟩ := hadd d b h
    obtain ⟨h3, h4⟩ := ih (add d b) h1
    refine ⟨h3, fun s n => ?_⟩
    rw [List.foldl_cons, h4, h2]
    by_cases hb : s = sn b ∧ n = tn b
    · rw [if_pos hb, List.filter_cons_of_pos (by simp [hb.1, hb.2]), Option.map_map]
      rfl
    · rw [if_neg hb, List.filter_cons_of_neg (by simpa using fun h1 h2 => hb ⟨h1.symm, h2.symm⟩)]

/-- The rows of tables. -/
theorem fold_addTable (ts : List Table) (d : DatabaseMetadata) (h : DbInv d)
    (hn : ∀ t ∈ ts, t.tableName ≠ [] ∧ t.ignore = false) (hp : ts.Pairwise fun a b => ¬ (a.tableSchema = b.tableSchema ∧ a.tableName = b.tableName))
    (hnew : ∀ t ∈ ts, table? d t.tableSchema t.tableName = none) :
    DbInv (ts.foldl addTable d) ∧ (∀ s n, table? (ts.foldl addTable d) s n =
      ((ts.find? fun t => decide (t.tableSchema = s ∧ t.tableName = n)) <|> table? d s n)) ∧
      (∀ s n, view? (ts.foldl addTable d) s n = view? d s n) := by
  induction ts generalizing d with
  | nil => exact ⟨h, fun s n => by simp, fun _ _ => rfl⟩
  | cons t ts ih =>
    rw [List.pairwise_cons] at hp
    have hnone : (cachedPosition (schemaOrNew d t.tableSchema).tables (schemaOrNew d t.tableSchema).tableCache t.tableName).1 = none := by
      refine (schemaOrNew_inv h t.tableSchema).1.tables.lookup_none ?_
      have := hnew t (by simp)
      unfold table? at this
      unfold schemaOrNew
      cases hf : find d.schemas t.tableSchema with
      | none => rfl
      | some s => rw [hf] at this; exact this
    obtain ⟨i1, -, -⟩ := schemaOrNew_inv h t.tableSchema
    have hSch : SchInv ((schemaOrNew d t.tableSchema).appendTable t) := by
      refine ⟨i1.tables.append ?_ hnone, i1.views⟩
      show decide (t.tableName = []) = false
      simpa using (hn t (by simp)).1
    obtain ⟨h1, h2⟩ := inSchema_ok h t.tableSchema (fun s => s.appendTable t) hSch (fun _ => rfl) (fun _ => rfl)
    have h1 : DbInv (addTable d t) := h1
    have hfa := i1.tables.find_append hnone
    have hund : unlessIgnored t = some t := by
      unfold unlessIgnored
      rw [show Entry.ignore t = false from (hn t (by simp)).2]; rfl
    have htab : ∀ s n, table? (addTable d t) s n = if t.tableSchema = s ∧ t.tableName = n then some t else table? d s n := by
      intro s n
      unfold table? addTable
      rw [h2]
      by_cases hs : s = t.tableSchema
      · subst hs
        rw [if_pos rfl, Option.bind_some]
        refine (hfa n).trans ?_
        rw [hund, show Entry.key t = t.tableName from rfl]
        by_cases hnn : n = t.tableName
        · rw [if_pos hnn, if_pos ⟨rfl, hnn.symm⟩]
        · rw [if_neg hnn, if_neg (fun hh => hnn hh.2.symm)]
          unfold schemaOrNew
          cases find d.schemas t.tableSchema <;> rfl
      · rw [if_neg hs, if_neg (fun hh => hs hh.1.symm)]
    have hview : ∀ s n, view? (addTable d t) s n = view? d s n := by
      intro s n
      unfold view? addTable
      rw [h2]
      by_cases hs : s = t.tableSchema
      · subst hs
        rw [if_pos rfl, Option.bind_some]
        unfold schemaOrNew
        cases find d.schemas t.tableSchema <;> rfl
      · rw [if_neg hs]
    obtain ⟨j1, j2, j3⟩ := ih (addTable d t) h1 (fun x hx => hn x (List.mem_cons_of_mem _ hx)) hp.2 (fun x hx => by
      rw [htab, if_neg (hp.1 x hx)]; exact hnew x (List.mem_cons_of_mem _ hx))
    refine ⟨j1, fun s n => ?_, fun s n => (j3 s n).trans (hview s n)⟩
    rw [List.foldl_cons, j2, htab]
    by_cases hc : t.tableSchema = s ∧ t.tableName = n
    · rw [if_pos hc, List.find?_cons_of_pos (by simpa using hc)]
      have : (ts.find? fun t => decide (t.tableSchema = s ∧ t.tableName = n)) = none := by
        rw [List.find?_eq_none]
        intro x hx
        simp only [decide_eq_true_eq]
        rintro ⟨ha, hb⟩
        exact hp.1 x hx ⟨hc.1.trans ha.symm, hc.2.trans hb.symm⟩
      rw [this]
      rfl
    · rw [if_neg hc, List.find?_cons_of_neg (by simpa using hc)]

/-- The rows of views. -/
theorem fold_addView (vs : List View) (d : DatabaseMetadata) (h : DbInv d)
    (hn : ∀ t ∈ vs, t.viewName ≠ [] ∧ t.ignore = false) (hp : vs.Pairwise fun a b => ¬ (a.viewSchema = b.viewSchema ∧ a.viewName = b.viewName))
    (hnew : ∀ t ∈ vs, view? d t.viewSchema t.viewName = none) :
    DbInv (vs.foldl addView d) ∧ ∀ s n, table? (vs.foldl addView d) s n = table? d s n := by
  induction vs generalizing d with
  | nil => exact ⟨h, fun _ _ => rfl⟩
  | cons t vs ih =>
    rw [List.pairwise_cons] at hp
    have hnone : (cachedPosition (schemaOrNew d t.viewSchema).views (schemaOrNew d t.viewSchema).viewCache t.viewName).1 = none := by
      refine (schemaOrNew_inv h t.viewSchema).1.views.lookup_none ?_
      have := hnew t (by simp)
      unfold view? at this
      unfold schemaOrNew
      cases hf : find d.schemas t.viewSchema with
      | none => rfl
      | some s => rw [hf] at this; exact this
    obtain ⟨i1, -, -⟩ := schemaOrNew_inv h t.viewSchema
    have hSch : SchInv ((schemaOrNew d t.viewSchema).appendView t) := by
      refine ⟨i1.tables, i1.views.append ?_ hnone⟩
      show decide (t.viewName = []) = false
      simpa using (hn t (by simp)).1
    obtain ⟨h1, h2⟩ := inSchema_ok h t.viewSchema (fun s => s.appendView t) hSch (fun _ => rfl) (fun _ => rfl)
    have h1 : DbInv (addView d t) := h1
    have hfa := i1.views.find_append hnone
    have hview : ∀ s n, ¬ (t.viewSchema = s ∧ t.viewName = n) → view? (addView d t) s n = view? d s n := by
      intro s n hne
      unfold view? addView
      rw [h2]
      by_cases hs : s = t.viewSchema
      · subst hs
        rw [if_pos rfl, Option.bind_some]
        refine (hfa n).trans ?_
        rw [if_neg (fun hh => hne ⟨rfl, hh.symm⟩)]
        unfold schemaOrNew
        cases find d.schemas t.viewSchema <;> rfl
      · rw [if_neg hs]
    have htab : ∀ s n, table? (addView d t) s n = table? d s n := by
      intro s n
      unfold table? addView
      rw [h2]
      by_cases hs : s = t.viewSchema
      · subst hs
        rw [if_pos rfl, Option.bind_some]
        unfold schemaOrNew
        cases find d.schemas t.viewSchema <;> rfl
      · rw [if_neg hs]
    obtain ⟨j1, j2⟩ := ih (addView d t) h1 (fun x hx => hn x (List.mem_cons_of_mem _ hx)) hp.2 (fun x hx => by
      rw [hview _ _ (hp.1 x hx)]; exact hnew x (List.mem_cons_of_mem _ hx))
    exact ⟨j1, fun s n => (j2 s n).trans (htab s n)⟩

theorem fold_addFunction (fs : List Function) (d : DatabaseMetadata) (h : DbInv d) :
    DbInv (fs.foldl addFunction d) ∧ ∀ s n, table? (fs.foldl addFunction d) s n = table? d s n := by
  induction fs generalizing d with
  | nil => exact ⟨h, fun _ _ => rfl⟩
  | cons f fs ih =>
    obtain ⟨i1, -, -⟩ := schemaOrNew_inv h f.functionSchema
    obtain ⟨h1, h2⟩ := inSchema_ok h f.functionSchema (fun s => s.appendFunction f) ⟨i1.tables, i1.views⟩ (fun _ => rfl) (fun _ => rfl)
    have h1 : DbInv (addFunction d f) := h1
    obtain ⟨j1, j2⟩ := ih (addFunction d f) h1
    refine ⟨j1, fun s n => (j2 s n).trans ?_⟩
    unfold table? addFunction
    rw [h2]
    by_cases hs : s = f.functionSchema
    · subst hs
      rw [if_pos rfl, Option.bind_some]
      unfold schemaOrNew
      cases find d.schemas f.functionSchema <;> rfl
    · rw [if_neg hs]

theorem markColumn_names (t : Table) (c : Constraint) :
    (markColumn t c).tableName = t.tableName ∧ (markColumn t c).ignore = t.ignore ∧ (markColumn t c).tableSchema = t.tableSchema := by
  unfold markColumn
  split
  · split
    · exact ⟨rfl, rfl, rfl⟩
    · split <;> exact ⟨rfl, rfl, rfl⟩
  · exact ⟨rfl, rfl, rfl⟩

theorem tableExists_iff {d : DatabaseMetadata} (h : DbInv d) (s n : Str) : d.tableExists s n = (table? d s n).isSome := by
  unfold DatabaseMetadata.tableExists table?
  have hl := lookup_find h.schemas.ok s
  cases hc : d.cachedSchemaPosition s with
  | none =>
    rw [show (cachedPosition d.schemas d.schemaCache s).1 = none from hc] at hl
    rw [← hl]; rfl
  | some p =>
    rw [show (cachedPosition d.schemas d.schemaCache s).1 = some p from hc] at hl
    dsimp only at hl ⊢
    rw [hl]
    cases hf : find d.schemas s with
    | none => rfl
    | some x => exact lookup_isSome (find_schema_inv h hf).1.tables.ok n

/-- The parts of one table, in the order `WithDB` adds them. -/
def assemble (r : Introspected) (t : Table) : Table :=
  let mine := fun (s n : Str) => decide (s = t.tableSchema ∧ n = t.tableName)
  let t := (r.columns.filter fun c => mine c.tableSchema c.tableName).foldl Table.appendColumn t
  let t := (r.constraints.filter fun c => mine c.tableSchema c.tableName).foldl (fun t c => markColumn (t.appendConstraint c) c) t
  let t := (r.indexes.filter fun c => mine c.tableSchema c.tableName).foldl Table.appendIndex t
  (r.triggers.filter fun c => mine c.tableSchema c.tableName).foldl Table.appendTrigger t

/-- The rows of an introspected database: tables and views have distinct names, none empty. -/
structure RowsOk (r : Introspected) : Prop where
  tables : ∀ t ∈ r.tables, t.tableName ≠ [] ∧ t.ignore = false
  tablesDistinct : r.tables.Pairwise fun a b => ¬ (a.tableSchema = b.tableSchema ∧ a.tableName = b.tableName)
  views : ∀ t ∈ r.views, t.viewName ≠ [] ∧ t.ignore = false
  viewsDistinct : r.views.Pairwise fun a b => ¬ (a.viewSchema = b.viewSchema ∧ a.viewName = b.viewName)

theorem withDB_table {dia : Dialect} {r : Introspected} (hr : RowsOk r) :
    DbInv (withDB dia r) ∧ ∀ s n, table? (withDB dia r) s n =
      (r.tables.find? fun t => decide (t.tableSchema = s ∧ t.tableName = n)).map (assemble r) := by
  have h0 := dbInv_empty (some dia) r.currentSchema (if dia = .postgres then r.extensions else [])
  obtain ⟨h1, t1, v1⟩ := fold_addTable r.tables _ h0 hr.tables hr.tablesDistinct (fun _ _ => rfl)
  obtain ⟨h2, t2⟩ := fold_addView r.views _ h1 hr.views hr.viewsDistinct (fun _ _ => by rw [v1]; rfl)
  obtain ⟨h3, t3⟩ := fold_inTable addColumn Column.tableSchema Column.tableName (fun c t => t.appendColumn c)
    (fun d c h => by
      obtain ⟨a, b, -⟩ := inTable_ok h c.tableSchema c.tableName (fun t => t.appendColumn c) (fun _ => rfl) (fun _ => rfl)
      exact ⟨a, b⟩) r.columns _ h2
  obtain ⟨h4, t4⟩ := fold_inTable addConstraint Constraint.tableSchema Constraint.tableName (fun c t => markColumn (t.appendConstraint c) c)
    (fun d c h => by
      obtain ⟨a, b, -⟩ := inTable_ok h c.tableSchema c.tableName (fun t => markColumn (t.appendConstraint c) c)
        (fun t => (markColumn_names _ c).1) (fun t => (markColumn_names _ c).2.1)
      exact ⟨a, b⟩) r.constraints _ h3
  obtain ⟨h5, t5⟩ := fold_inTable addIndex Index.tableSchema Index.tableName (fun c t => t.appendIndex c)
    (fun d c h => by
      unfold addIndex
      rw [tableExists_iff h]
      by_cases he : (table? d c.tableSchema c.tableName).isSome
      · rw [if_pos he]
        obtain ⟨a, b, -⟩ := inTable_ok h c.tableSchema c.tableName (fun t => t.appendIndex c) (fun _ => rfl) (fun _ => rfl)
        exact ⟨a, b⟩
      · rw [if_neg he]
        obtain ⟨a, b⟩ := inView_ok h c.tableSchema c.tableName (fun t => t.appendIndex c) (fun _ => rfl)
        refine ⟨a, fun s n => ?_⟩
        rw [b]
        split
        · rename_i hs
          rw [hs.1, hs.2, Option.not_isSome_iff_eq_none.1 he]; rfl
        · rfl) r.indexes _ h4
  have h6 : ∀ d, DbInv d → DbInv (if dia = .postgres then r.functions.foldl addFunction d else d) ∧
      ∀ s n, table? (if dia = .postgres then r.functions.foldl addFunction d else d) s n = table? d s n := by
    intro d h
    split
    · exact fold_addFunction _ _ h
    · exact ⟨h, fun _ _ => rfl⟩
  obtain ⟨h6, t6⟩ := h6 _ h5
  obtain ⟨h7, t7⟩ := fold_inTable addTrigger Trigger.tableSchema Trigger.tableName (fun c t => t.appendTrigger c)
    (fun d c h => by
      unfold addTrigger
      obtain ⟨a, b, -⟩ := inTable_ok h c.tableSchema c.tableName (fun t => t.appendTrigger c) (fun _ => rfl) (fun _ => rfl)
      obtain ⟨a', b'⟩ := inView_ok a c.tableSchema c.tableName (fun t => t.appendTrigger c) (fun _ => rfl)
      exact ⟨a', fun s n => by rw [b', b]⟩) r.triggers _ h6
  refine ⟨h7, fun s n => ?_⟩
  have := t7 s n
  refine Eq.trans this ?_
  rw [t6, t5, t4, t3, t2, t1]
  have hnone : table? ({ dialect := some dia, currentSchema := r.currentSchema, extensions := if dia = .postgres then r.extensions else [] } : DatabaseMetadata) s n = none := rfl
  rw [hnone]
  cases hf : r.tables.find? fun t => decide (t.tableSchema = s ∧ t.tableName = n) with
  | none => rfl
  | some t =>
    have hk := List.find?_some hf
    simp only [decide_eq_true_eq] at hk
    obtain ⟨rfl, rfl⟩ := hk
    rfl

/-! ### What `WithDB` keeps -/

theorem fold_field {α β : Type} (g : DatabaseMetadata → β) (add : DatabaseMetadata → α → DatabaseMetadata) (xs : List α)
    (h : ∀ d x, g (add d x) = g d) (d : DatabaseMetadata) : g (xs.foldl add d) = g d := by
  induction xs generalizing d with
  | nil => rfl
  | cons x xs ih => rw [List.foldl_cons, ih, h]

theorem inSchema_field (d : DatabaseMetadata) (n : Str) (f : Schema → Schema) :
    (d.inSchema n f).currentSchema = d.currentSchema ∧ (d.inSchema n f).dialect = d.dialect := by
  unfold DatabaseMetadata.inSchema
  split <;> exact ⟨rfl, rfl⟩
theorem inTable_field (d : DatabaseMetadata) (n t : Str) (f : Table → Table) :
    (d.inTable n t f).currentSchema = d.currentSchema ∧ (d.inTable n t f).dialect = d.dialect := by
  unfold DatabaseMetadata.inTable
  split <;> exact ⟨rfl, rfl⟩
theorem inView_field (d : DatabaseMetadata) (n t : Str) (f : View → View) :
    (d.inView n t f).currentSchema = d.currentSchema ∧ (d.inView n t f).dialect = d.dialect := by
  unfold DatabaseMetadata.inView
  split <;> exact ⟨rfl, rfl⟩
theorem addIndex_field (d : DatabaseMetadata) (x : Index) :
    (addIndex d x).currentSchema = d.currentSchema ∧ (addIndex d x).dialect = d.dialect := by
  unfold addIndex
  split
  · exact inTable_field ..
  · exact inView_field ..
theorem addTrigger_field (d : DatabaseMetadata) (x : Trigger) :
    (addTrigger d x).currentSchema = d.currentSchema ∧ (addTrigger d x).dialect = d.dialect := by
  unfold addTrigger
  exact ⟨(inView_field ..).1.trans (inTable_field ..).1, (inView_field ..).2.trans (inTable_field ..).2⟩

theorem withDB_field {β : Type} (g : DatabaseMetadata → β) (hg : ∀ d d' : DatabaseMetadata, d.currentSchema = d'.currentSchema ∧ d.dialect = d'.dialect → g d = g d')
    (dia : Dialect) (r : Introspected) : g (withDB dia r) = g { dialect := some dia, currentSchema := r.currentSchema } := by
  have h1 : ∀ d, g (r.tables.foldl addTable d) = g d := fold_field g _ _ fun d x => hg _ _ (inSchema_field ..)
  have h2 : ∀ d, g (r.views.foldl addView d) = g d := fold_field g _ _ fun d x => hg _ _ (inSchema_field ..)
  have h3 : ∀ d, g (r.columns.foldl addColumn d) = g d := fold_field g _ _ fun d x => hg _ _ (inTable_field ..)
  have h4 : ∀ d, g (r.constraints.foldl addConstraint d) = g d := fold_field g _ _ fun d x => hg _ _ (inTable_field ..)
  have h5 : ∀ d, g (r.indexes.foldl addIndex d) = g d := fold_field g _ _ fun d x => hg _ _ (addIndex_field ..)
  have h6 : ∀ d, g (r.functions.foldl addFunction d) = g d := fold_field g _ _ fun d x => hg _ _ (inSchema_field ..)
  have h7 : ∀ d, g (r.triggers.foldl addTrigger d) = g d := fold_field g _ _ fun d x => hg _ _ (addTrigger_field ..)
  unfold withDB
  dsimp only
  generalize hE : (if dia = .postgres then r.extensions else []) = E
  rw [h7]
  have h0 : g ({ dialect := some dia, currentSchema := r.currentSchema, extensions := E } : DatabaseMetadata) =
      g { dialect := some dia, currentSchema := r.currentSchema } := hg _ _ ⟨rfl, rfl⟩
  by_cases hp : dia = .postgres
  · rw [if_pos hp, h6, h5, h4, h3, h2, h1, h0]
  · rw [if_neg hp, h5, h4, h3, h2, h1, h0]

theorem withDB_currentSchema (dia : Dialect) (r : Introspected) : (withDB dia r).currentSchema = r.currentSchema :=
  withDB_field (fun d => d.currentSchema) (fun _ _ h => h.1) dia r
theorem withDB_dialect (dia : Dialect) (r : Introspected) : (withDB dia r).dialect = some dia :=
  withDB_field (fun d => d.dialect) (fun _ _ h => h.2) dia r

end Ddl
