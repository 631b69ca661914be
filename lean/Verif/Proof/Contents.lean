import Verif.Proof.Introspect
import Verif.Proof.Declared
/-
What `WithDB` assembles: views and functions.
-/
namespace Ddl
open Spec

/-- Changing a schema in place. -/
theorem modify_schema {d : DatabaseMetadata} (h : DbInv d) {n : Str} {p : Nat} (hc : d.cachedSchemaPosition n = some p) (f : Schema → Schema)
    (hn : ∀ s, (f s).schemaName = s.schemaName) (hg : ∀ s, (f s).ignore = s.ignore) (k : Str) :
    find (d.schemas.modify p f) k = if k = n then (find d.schemas k).map f else find d.schemas k := by
  obtain ⟨-, -, x, hx, hk, hi⟩ := get_of_lookup hc
  have hf : find d.schemas n = some x := by
    have := lookup_find h.schemas.ok n
    rw [show (cachedPosition d.schemas d.schemaCache n).1 = some p from hc] at this
    rw [← this]; exact hx
  rw [modify_eq_set _ _ _ _ hx]
  have hfs := h.schemas.find_set hc (y := f x) ((hn x).trans hk)
  have hu : unlessIgnored (f x) = some (f x) := by
    unfold unlessIgnored
    rw [show Entry.ignore (f x) = false from (hg x).trans hi]; rfl
  rw [hfs k, hu]
  by_cases hkn : k = n
  · subst hkn
    rw [if_pos rfl, if_pos rfl, hf]; rfl
  · rw [if_neg hkn, if_neg hkn]

theorem find_none_of_lookup {d : DatabaseMetadata} (h : DbInv d) {n : Str} (hc : d.cachedSchemaPosition n = none) : find d.schemas n = none := by
  have := lookup_find h.schemas.ok n
  rw [show (cachedPosition d.schemas d.schemaCache n).1 = none from hc] at this
  exact this.symm

/-- The functions of a schema. -/
def functionsOf (d : DatabaseMetadata) (s : Str) : List Function := ((find d.schemas s).map Schema.functions).getD []

theorem inTable_functions {d : DatabaseMetadata} (h : DbInv d) (sn tn : Str) (f : Table → Table) (s : Str) :
    functionsOf (d.inTable sn tn f) s = functionsOf d s := by
  unfold DatabaseMetadata.inTable
  cases hc : d.cachedSchemaPosition sn with
  | none => rfl
  | some p =>
    unfold functionsOf
    dsimp only
    rw [modify_schema h hc _ (fun s => by split <;> rfl) (fun s => by split <;> rfl)]
    by_cases hs : s = sn
    · subst hs
      rw [if_pos rfl, Option.map_map]
      congr 2
      funext x
      simp only [Function.comp]
      split <;> rfl
    · rw [if_neg hs]

theorem inView_name (vn : Str) (f : View → View) (s : Schema) : (s.inView vn f).schemaName = s.schemaName ∧ (s.inView vn f).ignore = s.ignore ∧
    (s.inView vn f).functions = s.functions ∧ (s.inView vn f).tables = s.tables := by
  unfold Schema.inView
  split <;> exact ⟨rfl, rfl, rfl, rfl⟩

theorem inView_functions {d : DatabaseMetadata} (h : DbInv d) (sn vn : Str) (f : View → View) (s : Str) :
    functionsOf (d.inView sn vn f) s = functionsOf d s := by
  unfold DatabaseMetadata.inView
  cases hc : d.cachedSchemaPosition sn with
  | none => rfl
  | some p =>
    unfold functionsOf
    dsimp only
    rw [modify_schema h hc _ (fun s => (inView_name vn f s).1) (fun s => (inView_name vn f s).2.1)]
    by_cases hs : s = sn
    · subst hs
      rw [if_pos rfl, Option.map_map]
      congr 2
      funext x
      exact (inView_name vn f x).2.2.1
    · rw [if_neg hs]

theorem schema_inView {s : Schema} (h : SchInv s) (vn : Str) (f : View → View) (hn : ∀ v, (f v).viewName = v.viewName) (hg : ∀ v, (f v).ignore = v.ignore)
    (n : Str) : find (s.inView vn f).views n = if n = vn then (find s.views n).map f else find s.views n := by
  unfold Schema.inView
  cases hc : s.cachedViewPosition vn with
  | none =>
    have hf : find s.views vn = none := by
      have := lookup_find h.views.ok vn
      rw [show (cachedPosition s.views s.viewCache vn).1 = none from hc] at this
      exact this.symm
    dsimp only
    split
    · rename_i he; rw [he, hf]; rfl
    · rfl
  | some q =>
    obtain ⟨-, -, x, hx, hk, hi⟩ := get_of_lookup hc
    have hf : find s.views vn = some x := by
      have := lookup_find h.views.ok vn
      rw [show (cachedPosition s.views s.viewCache vn).1 = some q from hc] at this
      rw [← this]; exact hx
    dsimp only
    rw [modify_eq_set _ _ _ _ hx, h.views.find_set hc (y := f x) ((hn x).trans hk)]
    have hu : unlessIgnored (f x) = some (f x) := by
      unfold unlessIgnored
      rw [show Entry.ignore (f x) = false from (hg x).trans hi]; rfl
    rw [hu]
    by_cases hnn : n = vn
    · subst hnn
      rw [if_pos rfl, if_pos rfl, hf]; rfl
    · rw [if_neg hnn, if_neg hnn]

theorem inView_view {d : DatabaseMetadata} (h : DbInv d) (sn vn : Str) (f : View → View) (hn : ∀ v, (f v).viewName = v.viewName)
    (hg : ∀ v, (f v).ignore = v.ignore) (s n : Str) :
    view? (d.inView sn vn f) s n = if s = sn ∧ n = vn then (view? d s n).map f else view? d s n := by
  unfold DatabaseMetadata.inView
  cases hc : d.cachedSchemaPosition sn with
  | none =>
    have hf := find_none_of_lookup h hc
    dsimp only
    split
    · rename_i he; unfold view?; rw [he.1, hf]; rfl
    · rfl
  | some p =>
    unfold view?
    dsimp only
    rw [modify_schema h hc _ (fun s => (inView_name vn f s).1) (fun s => (inView_name vn f s).2.1)]
    by_cases hs : s = sn
    · subst hs
      rw [if_pos rfl]
      cases hf : find d.schemas s with
      | none => simp
      | some x =>
        simp only [Option.map_some, Option.bind_some, true_and]
        exact schema_inView (find_schema_inv h hf).1 vn f hn hg n
    · rw [if_neg hs, if_neg fun hh => hs hh.1]

/-- The functions the queries reported, after the steps that touch them. -/
theorem inSchema_functions {d : DatabaseMetadata} (h : DbInv d) (n : Str) (f : Schema → Schema) (hi : SchInv (f (schemaOrNew d n)))
    (hn : ∀ s, (f s).schemaName = s.schemaName) (hg : ∀ s, (f s).ignore = s.ignore) (s : Str) :
    functionsOf (d.inSchema n f) s = if s = n then (f (schemaOrNew d n)).functions else functionsOf d s := by
  unfold functionsOf
  rw [(inSchema_ok h n f hi hn hg).2]
  split <;> rfl

theorem schemaOrNew_functions (d : DatabaseMetadata) (n : Str) : (schemaOrNew d n).functions = functionsOf d n := by
  unfold schemaOrNew functionsOf
  cases find d.schemas n <;> rfl

/-- The rows of views, with the functions. -/
theorem fold_addView_view (vs : List View) (d : DatabaseMetadata) (h : DbInv d)
    (hn : ∀ t ∈ vs, t.viewName ≠ [] ∧ t.ignore = false) (hp : vs.Pairwise fun a b => ¬ (a.viewSchema = b.viewSchema ∧ a.viewName = b.viewName))
    (hnew : ∀ t ∈ vs, view? d t.viewSchema t.viewName = none) :
    (∀ s n, view? (vs.foldl addView d) s n = ((vs.find? fun t => decide (t.viewSchema = s ∧ t.viewName = n)) <|> view? d s n)) ∧
    ∀ s, functionsOf (vs.foldl addView d) s = functionsOf d s := by
  induction vs generalizing d with
  | nil => exact ⟨fun s n => by simp, fun _ => rfl⟩
  | cons t vs ih =>
    rw [List.pairwise_cons] at hp
    have hnone : (cachedPosition (schemaOrNew d t.viewSchema).views (schemaOrNew d t.viewSchema).viewCache t.viewName).1 = none := by
      refine (schemaOrNew_inv h t.viewSchema).1.views.lookup_none ?_
      have := hnew t (by simp)
      unfold view? at this
      unfold schemaOrNew
      cases hf : find d.schemas t.viewSchema with
      | none => rfl
      | some s => rw [hf] at this; exact this
    obtain ⟨i1, -, -⟩ := schemaOrNew_inv h t.viewSchema
    have hSch : SchInv ((schemaOrNew d t.viewSchema).appendView t) := by
      refine ⟨i1.tables, i1.views.append ?_ hnone⟩
      show decide (t.viewName = []) = false
      simpa using (hn t (by simp)).1
    obtain ⟨h1, h2⟩ := inSchema_ok h t.viewSchema (fun s => s.appendView t) hSch (fun _ => rfl) (fun _ => rfl)
    have h1 : DbInv (addView d t) := h1
    have hfa := i1.views.find_append hnone
    have hund : unlessIgnored t = some t := by
      unfold unlessIgnored
      rw [show Entry.ignore t = false from (hn t (by simp)).2]; rfl
    have hview : ∀ s n, view? (addView d t) s n = if t.viewSchema = s ∧ t.viewName = n then some t else view? d s n := by
      intro s n
      unfold view? addView
      rw [h2]
      by_cases hs : s = t.viewSchema
      · subst hs
        rw [if_pos rfl, Option.bind_some]
        refine (hfa n).trans ?_
        rw [hund, show Entry.key t = t.viewName from rfl]
        by_cases hnn : n = t.viewName
        · rw [if_pos hnn, if_pos ⟨rfl, hnn.symm⟩]
        · rw [if_neg hnn, if_neg (fun hh => hnn hh.2.symm)]
          unfold schemaOrNew
          cases find d.schemas t.viewSchema <;> rfl
      · rw [if_neg hs, if_neg (fun hh => hs hh.1.symm)]
    have hfun : ∀ s, functionsOf (addView d t) s = functionsOf d s := by
      intro s
      unfold addView
      rw [inSchema_functions h t.viewSchema (fun s => s.appendView t) hSch (fun _ => rfl) (fun _ => rfl)]
      split
      · rename_i he; rw [he]; exact schemaOrNew_functions d _
      · rfl
    obtain ⟨j1, j2⟩ := ih (addView d t) h1 (fun x hx => hn x (List.mem_cons_of_mem _ hx)) hp.2 (fun x hx => by
      rw [hview, if_neg (hp.1 x hx)]; exact hnew x (List.mem_cons_of_mem _ hx))
    refine ⟨fun s n => ?_, fun s => (j2 s).trans (hfun s)⟩
    rw [List.foldl_cons, j1, hview]
    by_cases hc : t.viewSchema = s ∧ t.viewName = n
    · rw [if_pos hc, List.find?_cons_of_pos (by simpa using hc)]
      have : (vs.find? fun t => decide (t.viewSchema = s ∧ t.viewName = n)) = none := by
        rw [List.find?_eq_none]
        intro x hx
        simp only [decide_eq_true_eq]
        rintro ⟨ha, hb⟩
        exact hp.1 x hx ⟨hc.1.trans ha.symm, hc.2.trans hb.symm⟩
      rw [this]
      rfl
    · rw [if_neg hc, List.find?_cons_of_neg (by simpa using hc)]

theorem fold_addTable_functions (ts : List Table) (d : DatabaseMetadata) (h : DbInv d)
    (hn : ∀ t ∈ ts, t.tableName ≠ [] ∧ t.ignore = false) (hp : ts.Pairwise fun a b => ¬ (a.tableSchema = b.tableSchema ∧ a.tableName = b.tableName))
    (hnew : ∀ t ∈ ts, table? d t.tableSchema t.tableName = none) :
    ∀ s, functionsOf (ts.foldl addTable d) s = functionsOf d s := by
  induction ts generalizing d with
  | nil => exact fun _ => rfl
  | cons t ts ih =>
    rw [List.pairwise_cons] at hp
    have hone := fold_addTable [t] d h (fun x hx => hn x (by simp at hx; simp [hx])) (by simp) (fun x hx => hnew x (by simp at hx; simp [hx]))
    obtain ⟨h1, h2, -⟩ := hone
    have h1 : DbInv (addTable d t) := h1
    have h2 : ∀ s n, table? (addTable d t) s n = (([t].find? fun t => decide (t.tableSchema = s ∧ t.tableName = n)) <|> table? d s n) := h2
    have hnone : (cachedPosition (schemaOrNew d t.tableSchema).tables (schemaOrNew d t.tableSchema).tableCache t.tableName).1 = none := by
      refine (schemaOrNew_inv h t.tableSchema).1.tables.lookup_none ?_
      have := hnew t (by simp)
      unfold table? at this
      unfold schemaOrNew
      cases hf : find d.schemas t.tableSchema with
      | none => rfl
      | some s => rw [hf] at this; exact this
    obtain ⟨i1, -, -⟩ := schemaOrNew_inv h t.tableSchema
    have hSch : SchInv ((schemaOrNew d t.tableSchema).appendTable t) := by
      refine ⟨i1.tables.append ?_ hnone, i1.views⟩
      show decide (t.tableName = []) = false
      simpa using (hn t (by simp)).1
    intro s
    rw [List.foldl_cons, ih (addTable d t) h1 (fun x hx => hn x (List.mem_cons_of_mem _ hx)) hp.2 (fun x hx => by
      rw [h2, List.find?_cons_of_neg (by simpa using hp.1 x hx)]
      exact hnew x (List.mem_cons_of_mem _ hx))]
    unfold addTable
    rw [inSchema_functions h t.tableSchema (fun s => s.appendTable t) hSch (fun _ => rfl) (fun _ => rfl)]
    split
    · rename_i he; rw [he]; exact schemaOrNew_functions d _
    · rfl

/-- A loop over rows of parts, seen from the views: each row changes the view it names, or none. -/
theorem fold_inView {β : Type} (add : DatabaseMetadata → β → DatabaseMetadata) (g : β → View → View) (mine : β → Str → Str → Bool)
    (R : DatabaseMetadata → Prop)
    (hadd : ∀ d b, DbInv d → R d → DbInv (add d b) ∧ R (add d b) ∧
      (∀ s n, view? (add d b) s n = if mine b s n then (view? d s n).map (g b) else view? d s n) ∧ ∀ s, functionsOf (add d b) s = functionsOf d s)
    (bs : List β) (d : DatabaseMetadata) (h : DbInv d) (hr : R d) :
    DbInv (bs.foldl add d) ∧ R (bs.foldl add d) ∧ (∀ s n, view? (bs.foldl add d) s n =
      (view? d s n).map fun t => (bs.filter fun b => mine b s n).foldl (fun t b => g b t) t) ∧ ∀ s, functionsOf (bs.foldl add d) s = functionsOf d s := by
  induction bs generalizing d with
  | nil => exact ⟨h, hr, fun s n => by simp, fun _ => rfl⟩
  | cons b bs ih =>
    obtain ⟨h1, hr1, h2, hf⟩ := hadd d b h hr
    obtain ⟨h3, hr3, h4, hf'⟩ := ih (add d b) h1 hr1
    refine ⟨h3, hr3, fun s n => ?_, fun s => (hf' s).trans (hf s)⟩
    rw [List.foldl_cons, h4, h2]
    by_cases hb : mine b s n = true
    · rw [if_pos hb, List.filter_cons_of_pos (by exact hb), Option.map_map]
      rfl
    · rw [if_neg hb, List.filter_cons_of_neg (by exact hb)]

theorem fold_addFunction_functions (fs : List Function) (d : DatabaseMetadata) (h : DbInv d) :
    (∀ s, functionsOf (fs.foldl addFunction d) s = functionsOf d s ++ fs.filter fun f => decide (f.functionSchema = s)) ∧
    ∀ s n, view? (fs.foldl addFunction d) s n = view? d s n := by
  induction fs generalizing d with
  | nil => exact ⟨fun s => by simp, fun _ _ => rfl⟩
  | cons f fs ih =>
    obtain ⟨i1, -, -⟩ := schemaOrNew_inv h f.functionSchema
    obtain ⟨h1, h2⟩ := inSchema_ok h f.functionSchema (fun s => s.appendFunction f) ⟨i1.tables, i1.views⟩ (fun _ => rfl) (fun _ => rfl)
    have h1 : DbInv (addFunction d f) := h1
    obtain ⟨j1, j2⟩ := ih (addFunction d f) h1
    have hf : ∀ s, functionsOf (addFunction d f) s = if s = f.functionSchema then functionsOf d s ++ [f] else functionsOf d s := by
      intro s
      unfold addFunction
      rw [inSchema_functions h f.functionSchema (fun s => s.appendFunction f) ⟨i1.tables, i1.views⟩ (fun _ => rfl) (fun _ => rfl)]
      split
      · rename_i he
        rw [he, ← schemaOrNew_functions d]; rfl
      · rfl
    refine ⟨fun s => ?_, fun s n => (j2 s n).trans ?_⟩
    · rw [List.foldl_cons, j1, hf]
      by_cases hs : s = f.functionSchema
      · rw [if_pos hs, List.filter_cons_of_pos (by simp [hs]), List.append_assoc]; rfl
      · rw [if_neg hs, List.filter_cons_of_neg (by simpa using Ne.symm hs)]
    · unfold view? addFunction
      rw [h2]
      by_cases hs : s = f.functionSchema
      · subst hs
        rw [if_pos rfl, Option.bind_some]
        unfold schemaOrNew
        cases find d.schemas f.functionSchema <;> rfl
      · rw [if_neg hs]

/-- The parts of one view. -/
def assembleView (r : Introspected) (v : View) : View :=
  let s := v.viewSchema
  let n := v.viewName
  let taken := r.tables.any fun t => decide (t.tableSchema = s ∧ t.tableName = n)
  let v := (if taken then [] else r.indexes.filter fun x => decide (x.tableSchema = s ∧ x.tableName = n)).foldl View.appendIndex v
  (r.triggers.filter fun x => decide (x.tableSchema = s ∧ x.tableName = n)).foldl View.appendTrigger v

theorem inTable_isSome {d : DatabaseMetadata} (h : DbInv d) (sn tn : Str) (f : Table → Table)
    (hn : ∀ t, (f t).tableName = t.tableName) (hg : ∀ t, (f t).ignore = t.ignore) (s n : Str) :
    (table? (d.inTable sn tn f) s n).isSome = (table? d s n).isSome := by
  rw [(inTable_ok h sn tn f hn hg).2.1]
  split
  · rw [Option.isSome_map]
  · rfl

/-- The tables are those of the first query. -/
def Taken (r : Introspected) (d : DatabaseMetadata) : Prop :=
  ∀ s n, (table? d s n).isSome = r.tables.any fun t => decide (t.tableSchema = s ∧ t.tableName = n)

theorem addColumn_step (r : Introspected) (d : DatabaseMetadata) (c : Column) (h : DbInv d) (hR : Taken r d) :
    DbInv (addColumn d c) ∧ Taken r (addColumn d c) ∧
      (∀ s n, view? (addColumn d c) s n = if false then (view? d s n).map (fun v => v) else view? d s n) ∧ ∀ s, functionsOf (addColumn d c) s = functionsOf d s := by
  obtain ⟨a, -, b⟩ := inTable_ok h c.tableSchema c.tableName (fun t => t.appendColumn c) (fun _ => rfl) (fun _ => rfl)
  have e := inTable_isSome h c.tableSchema c.tableName (fun t => t.appendColumn c) (fun _ => rfl) (fun _ => rfl)
  exact ⟨a, fun s n => (e s n).trans (hR s n), fun s n => b s n, inTable_functions h _ _ _⟩

theorem addConstraint_step (r : Introspected) (d : DatabaseMetadata) (c : Constraint) (h : DbInv d) (hR : Taken r d) :
    DbInv (addConstraint d c) ∧ Taken r (addConstraint d c) ∧
      (∀ s n, view? (addConstraint d c) s n = if false then (view? d s n).map (fun v => v) else view? d s n) ∧
      ∀ s, functionsOf (addConstraint d c) s = functionsOf d s := by
  have n1 := fun t : Table => (markColumn_names (t.appendConstraint c) c).1
  have n2 := fun t : Table => (markColumn_names (t.appendConstraint c) c).2.1
  obtain ⟨a, -, b⟩ := inTable_ok h c.tableSchema c.tableName (fun t => markColumn (t.appendConstraint c) c) n1 n2
  have e := inTable_isSome h c.tableSchema c.tableName (fun t => markColumn (t.appendConstraint c) c) n1 n2
  exact ⟨a, fun s n => (e s n).trans (hR s n), fun s n => b s n, inTable_functions h _ _ _⟩

/-- An index belongs to the view if there is no table of that name. -/
def ofView (r : Introspected) (x : Index) (s n : Str) : Bool :=
  decide (s = x.tableSchema ∧ n = x.tableName) && !(r.tables.any fun t => decide (t.tableSchema = x.tableSchema ∧ t.tableName = x.tableName))

theorem addIndex_step (r : Introspected) (d : DatabaseMetadata) (x : Index) (h : DbInv d) (hR : Taken r d) :
    DbInv (addIndex d x) ∧ Taken r (addIndex d x) ∧
      (∀ s n, view? (addIndex d x) s n = if ofView r x s n then (view? d s n).map (fun v => v.appendIndex x) else view? d s n) ∧
      ∀ s, functionsOf (addIndex d x) s = functionsOf d s := by
  unfold addIndex
  rw [tableExists_iff h]
  have hRx := hR x.tableSchema x.tableName
  by_cases he : (table? d x.tableSchema x.tableName).isSome
  · rw [if_pos he]
    rw [he] at hRx
    obtain ⟨a, -, b⟩ := inTable_ok h x.tableSchema x.tableName (fun t => t.appendIndex x) (fun _ => rfl) (fun _ => rfl)
    have e := inTable_isSome h x.tableSchema x.tableName (fun t => t.appendIndex x) (fun _ => rfl) (fun _ => rfl)
    refine ⟨a, fun s n => (e s n).trans (hR s n), fun s n => ?_, inTable_functions h _ _ _⟩
    unfold ofView
    rw [← hRx, b]
    simp
  · rw [if_neg he]
    rw [Bool.not_eq_true] at he
    rw [he] at hRx
    obtain ⟨a, b⟩ := inView_ok h x.tableSchema x.tableName (fun t => t.appendIndex x) (fun _ => rfl)
    refine ⟨a, fun s n => by rw [b]; exact hR s n, fun s n => ?_, inView_functions h _ _ _⟩
    unfold ofView
    rw [← hRx, inView_view h x.tableSchema x.tableName (fun t => t.appendIndex x) (fun _ => rfl) (fun _ => rfl)]
    simp

theorem addTrigger_step (r : Introspected) (d : DatabaseMetadata) (c : Trigger) (h : DbInv d) (hR : Taken r d) :
    DbInv (addTrigger d c) ∧ Taken r (addTrigger d c) ∧
      (∀ s n, view? (addTrigger d c) s n = if decide (s = c.tableSchema ∧ n = c.tableName) then (view? d s n).map (fun v => v.appendTrigger c) else view? d s n) ∧
      ∀ s, functionsOf (addTrigger d c) s = functionsOf d s := by
  unfold addTrigger
  obtain ⟨a, b, e⟩ := inTable_ok h c.tableSchema c.tableName (fun t => t.appendTrigger c) (fun _ => rfl) (fun _ => rfl)
  have e' := inTable_isSome h c.tableSchema c.tableName (fun t => t.appendTrigger c) (fun _ => rfl) (fun _ => rfl)
  obtain ⟨a', b'⟩ := inView_ok a c.tableSchema c.tableName (fun t => t.appendTrigger c) (fun _ => rfl)
  refine ⟨a', fun s n => by rw [b']; exact (e' s n).trans (hR s n), fun s n => ?_, fun s => ?_⟩
  · rw [inView_view a c.tableSchema c.tableName (fun t => t.appendTrigger c) (fun _ => rfl) (fun _ => rfl), e]
    simp
  · rw [inView_functions a, inTable_functions h]

theorem functions_step (dia : Dialect) (r : Introspected) (d : DatabaseMetadata) (h : DbInv d) (hR : Taken r d) :
    DbInv (if dia = .postgres then r.functions.foldl addFunction d else d) ∧
      Taken r (if dia = .postgres then r.functions.foldl addFunction d else d) ∧
      (∀ s n, view? (if dia = .postgres then r.functions.foldl addFunction d else d) s n = view? d s n) ∧
      ∀ s, functionsOf (if dia = .postgres then r.functions.foldl addFunction d else d) s =
        functionsOf d s ++ if dia = .postgres then r.functions.filter fun f => decide (f.functionSchema = s) else [] := by
  split
  · obtain ⟨a, b⟩ := fold_addFunction r.functions d h
    obtain ⟨c, e⟩ := fold_addFunction_functions r.functions d h
    exact ⟨a, fun s n => by rw [b]; exact hR s n, e, c⟩
  · exact ⟨h, hR, fun _ _ => rfl, fun s => by simp⟩

theorem fold_id (β : Type) (xs : List β) (v : View) : xs.foldl (fun t _ => t) v = v := by
  induction xs generalizing v with
  | nil => rfl
  | cons x xs ih => exact ih v

theorem view_indexes (r : Introspected) (s n : Str) : (r.indexes.filter fun x => ofView r x s n) =
    if (r.tables.any fun t => decide (t.tableSchema = s ∧ t.tableName = n)) then []
    else r.indexes.filter fun x => decide (x.tableSchema = s ∧ x.tableName = n) := by
  unfold ofView
  split
  · rename_i ht
    rw [List.filter_eq_nil_iff]
    intro x _
    simp only [Bool.and_eq_true, decide_eq_true_eq, Bool.not_eq_true']
    rintro ⟨⟨e1, e2⟩, h3⟩
    rw [← e1, ← e2, ht] at h3
    cases h3
  · rename_i ht
    apply List.filter_congr
    intro x _
    by_cases hx : s = x.tableSchema ∧ n = x.tableName
    · rw [Bool.not_eq_true] at ht
      rw [hx.1, hx.2] at ht
      rw [hx.1, hx.2, ht]
      simp [eq_comm]
    · have : ¬ (x.tableSchema = s ∧ x.tableName = n) := fun h => hx ⟨h.1.symm, h.2.symm⟩
      simp only [hx, this, decide_false, Bool.false_and]

theorem withDB_view {dia : Dialect} {r : Introspected} (hr : RowsOk r) :
    (∀ s n, view? (withDB dia r) s n = (r.views.find? fun t => decide (t.viewSchema = s ∧ t.viewName = n)).map (assembleView r)) ∧
    ∀ s, functionsOf (withDB dia r) s = if dia = .postgres then r.functions.filter fun f => decide (f.functionSchema = s) else [] := by
  have h0 := dbInv_empty (some dia) r.currentSchema (if dia = .postgres then r.extensions else [])
  obtain ⟨h1, t1, v1⟩ := fold_addTable r.tables _ h0 hr.tables hr.tablesDistinct (fun _ _ => rfl)
  have f1 := fold_addTable_functions r.tables _ h0 hr.tables hr.tablesDistinct (fun _ _ => rfl)
  obtain ⟨h2, t2⟩ := fold_addView r.views _ h1 hr.views hr.viewsDistinct (fun _ _ => by rw [v1]; rfl)
  obtain ⟨v2, f2⟩ := fold_addView_view r.views _ h1 hr.views hr.viewsDistinct (fun _ _ => by rw [v1]; rfl)
  have r2 : Taken r (r.views.foldl addView (r.tables.foldl addTable
      { dialect := some dia, currentSchema := r.currentSchema, extensions := if dia = .postgres then r.extensions else [] })) := by
    intro s n
    rw [t2, t1]
    have hnone : table? ({ dialect := some dia, currentSchema := r.currentSchema, extensions := if dia = .postgres then r.extensions else [] } : DatabaseMetadata) s n = none := rfl
    rw [hnone]
    cases hf : r.tables.find? fun t => decide (t.tableSchema = s ∧ t.tableName = n) with
    | none =>
      rw [List.find?_eq_none] at hf
      have : (r.tables.any fun t => decide (t.tableSchema = s ∧ t.tableName = n)) = false := by
        rw [List.any_eq_false]; exact hf
      rw [this]; rfl
    | some t =>
      have : (r.tables.any fun t => decide (t.tableSchema = s ∧ t.tableName = n)) = true :=
        List.any_eq_true.2 ⟨t, List.mem_of_find?_eq_some hf, List.find?_some (p := fun t : Table => decide (t.tableSchema = s ∧ t.tableName = n)) hf⟩
      rw [this]; rfl
  obtain ⟨h3, r3, v3, f3⟩ := fold_inView addColumn (fun _ v => v) (fun _ _ _ => false) (Taken r) (addColumn_step r) r.columns _ h2 r2
  obtain ⟨h4, r4, v4, f4⟩ := fold_inView addConstraint (fun _ v => v) (fun _ _ _ => false) (Taken r) (addConstraint_step r) r.constraints _ h3 r3
  obtain ⟨h5, r5, v5, f5⟩ := fold_inView addIndex (fun x v => v.appendIndex x) (ofView r) (Taken r) (addIndex_step r) r.indexes _ h4 r4
  obtain ⟨h6, r6, v6, f6⟩ := functions_step dia r _ h5 r5
  obtain ⟨h7, r7, v7, f7⟩ := fold_inView addTrigger (fun x v => v.appendTrigger x) (fun x s n => decide (s = x.tableSchema ∧ n = x.tableName)) (Taken r)
    (addTrigger_step r) r.triggers _ h6 r6
  refine ⟨fun s n => ?_, fun s => ?_⟩
  · refine Eq.trans (v7 s n) ?_
    rw [v6, v5, v4, v3, v2, v1]
    have hnone : view? ({ dialect := some dia, currentSchema := r.currentSchema, extensions := if dia = .postgres then r.extensions else [] } : DatabaseMetadata) s n = none := rfl
    rw [hnone]
    clear v7 v6 v5 v4 v3 v2 v1 f7 f6 f5 f4 f3 f2 f1 h7 h6 h5 h4 h3 h2 h1 r7 r6 r5 r4 r3 r2 t1 t2 h0
    cases hf : r.views.find? fun t => decide (t.viewSchema = s ∧ t.viewName = n) with
    | none => rfl
    | some v =>
      have hk := List.find?_some hf
      simp only [decide_eq_true_eq] at hk
      obtain ⟨rfl, rfl⟩ := hk
      have htr : (r.triggers.filter fun x => decide (v.viewSchema = x.tableSchema ∧ v.viewName = x.tableName)) =
          r.triggers.filter fun x => decide (x.tableSchema = v.viewSchema ∧ x.tableName = v.viewName) := by
        apply List.filter_congr
        intro x _
        simp only [eq_comm]
      show some _ = some _
      rw [view_indexes, htr]
      dsimp only
      rw [fold_id, fold_id]
      rfl
  · refine Eq.trans (f7 s) ?_
    rw [f6, f5, f4, f3, f2, f1]
    rfl

end Ddl
