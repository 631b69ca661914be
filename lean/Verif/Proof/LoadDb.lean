import Verif.Proof.Load
/-
Whole databases: what `find` answers after each step of loading.
-/
namespace Ddl
open Spec

section generic
variable {α κ : Type} [DecidableEq κ] [Entry α κ]

theorem find?_set_of_false {p : α → Bool} {items : List α} {n : Nat} {x y : α} (hx : items[n]? = some x) (h1 : p x = false) (h2 : p y = false) :
    (items.set n y).find? p = items.find? p := by
  induction items generalizing n with
  | nil => rfl
  | cons z items ih =>
    cases n with
    | zero =>
      simp only [List.getElem?_cons_zero, Option.some.injEq] at hx
      subst hx
      simp [h1, h2]
    | succ n =>
      simp only [List.set_cons_succ, List.find?_cons]
      split
      · rfl
      · exact ih (by simpa using hx)

/-- The found element, or its absence, when it carries the flag. -/
def unlessIgnored (y : α) : Option α := if Entry.ignore y then none else some y

theorem AllFound.find_set {items : List α} {cache : Cache κ} (h : AllFound items cache) {k : κ} {n : Nat}
    (hl : (cachedPosition items cache k).1 = some n) {y : α} (hy : Entry.key y = k) (k' : κ) :
    find (items.set n y) k' = if k' = k then unlessIgnored y else find items k' := by
  obtain ⟨hb, hg, x, hx, hk, hi⟩ := get_of_lookup hl
  split
  · rename_i he
    subst he
    have hnew := h.set hb hg hy
    unfold unlessIgnored
    split
    · rename_i hyi
      rw [find_none]
      intro z hz hzk
      rw [mem_active] at hz
      obtain ⟨q, hq⟩ := List.mem_iff_getElem?.1 hz.1
      have := (hnew q z hq hz.2).2
      rw [hzk, hg] at this
      cases this
      obtain ⟨hlt, -⟩ := List.getElem?_eq_some_iff.1 hx
      rw [List.getElem?_set_self hlt] at hq
      cases hq
      rw [hyi] at hz; cases hz.2
    · rename_i hyi
      have hm : y ∈ active (items.set n y) := by
        rw [mem_active]
        obtain ⟨hlt, -⟩ := List.getElem?_eq_some_iff.1 hx
        exact ⟨List.mem_iff_getElem?.2 ⟨n, List.getElem?_set_self hlt⟩, by simpa using hyi⟩
      have := find_eq_some hnew.ok.unique hm
      rw [hy] at this
      exact this
  · rename_i he
    refine find?_set_of_false hx ?_ ?_
    · simp [hk, Ne.symm he]
    · simp [hy, Ne.symm he]

theorem AllFound.find_append {items : List α} {cache : Cache κ} (h : AllFound items cache) {y : α}
    (hl : (cachedPosition items cache (Entry.key y)).1 = none) (k' : κ) :
    find (appendItem items cache y).1 k' = if k' = Entry.key y then unlessIgnored y else find items k' := by
  have hnone : find items (Entry.key y) = none := by
    have := lookup_find h.ok (Entry.key y)
    rw [hl] at this; exact this.symm
  show (items ++ [y]).find? _ = _
  rw [List.find?_append]
  split
  · rename_i he
    subst he
    have : (items.find? fun x => decide (Entry.key x = Entry.key y) && !Entry.ignore x) = none := hnone
    rw [this]
    unfold unlessIgnored
    cases hi : Entry.ignore y <;> simp [hi]
  · rename_i he
    have : ([y].find? fun x => decide (Entry.key x = k') && !Entry.ignore x) = none := by simp [Ne.symm he]
    rw [this, Option.or_none]
    rfl

theorem AllFound.lookup_none {items : List α} {cache : Cache κ} (h : AllFound items cache) {k : κ} (hf : find items k = none) :
    (cachedPosition items cache k).1 = none := by
  have := lookup_isNone h.ok k
  rw [hf] at this
  simpa using this

theorem AllFound.lookup_some {items : List α} {cache : Cache κ} (h : AllFound items cache) {k : κ} {x : α} (hf : find items k = some x) :
    ∃ n, (cachedPosition items cache k).1 = some n ∧ items[n]? = some x := by
  have := lookup_find h.ok k
  rw [hf] at this
  cases hp : (cachedPosition items cache k).1 with
  | none => rw [hp] at this; cases this
  | some n => rw [hp] at this; exact ⟨n, rfl, this⟩

end generic

/-! ### The invariant of the upper levels -/

/-- The tables and views of a schema can be found. -/
structure SchInv (s : Schema) : Prop where
  tables : AllFound s.tables s.tableCache
  views : AllFound s.views s.viewCache

/-- So can the schemas. -/
structure DbInv (d : DatabaseMetadata) : Prop where
  schemas : AllFound d.schemas d.schemaCache
  schema : ∀ s ∈ d.schemas, SchInv s

theorem schInv_new (n : Str) : SchInv { schemaName := n } := ⟨allFound_nil _, allFound_nil _⟩

theorem dbInv_empty (dia : Option Dialect) (cur : Str) (exts : List Str) :
    DbInv { dialect := dia, currentSchema := cur, extensions := exts } :=
  ⟨allFound_nil _, fun s hs => by cases hs⟩

/-- Well-formed, given the tables are. -/
theorem DbInv.ok {d : DatabaseMetadata} (h : DbInv d) (ht : ∀ s n t, table? d s n = some t → TableOk t)
    (hc : d.dialect ≠ some .sqlite → ∀ s n t, table? d s n = some t → ListOk t.constraints t.constraintCache) : MetaOk d := by
  have key : ∀ s ∈ active d.schemas, ∀ t ∈ active s.tables, table? d s.schemaName t.tableName = some t := by
    intro s hs t htm
    unfold table?
    rw [show find d.schemas s.schemaName = some s from find_eq_some h.schemas.ok.unique hs]
    exact find_eq_some (h.schema s (mem_active.1 hs).1).tables.ok.unique htm
  exact ⟨h.schemas.ok, fun s hs => ⟨(h.schema s (mem_active.1 hs).1).tables.ok, (h.schema s (mem_active.1 hs).1).views.ok,
    fun t htm => ht _ _ t (key s hs t htm)⟩, fun hne s hs t htm => hc hne _ _ t (key s hs t htm)⟩

theorem find_schema_inv {d : DatabaseMetadata} (h : DbInv d) {n : Str} {s : Schema} (hf : find d.schemas n = some s) :
    SchInv s ∧ s.schemaName = n ∧ s.ignore = false ∧ s ∈ d.schemas := by
  obtain ⟨h1, h2⟩ := find_some hf
  rw [mem_active] at h1
  exact ⟨h.schema s h1.1, h2, h1.2, h1.1⟩

/-- The schema a step works on: the one of that name, or a new one. -/
def schemaOrNew (d : DatabaseMetadata) (n : Str) : Schema := (find d.schemas n).getD { schemaName := n }

theorem schemaOrNew_inv {d : DatabaseMetadata} (h : DbInv d) (n : Str) :
    SchInv (schemaOrNew d n) ∧ (schemaOrNew d n).schemaName = n ∧ (schemaOrNew d n).ignore = false := by
  unfold schemaOrNew
  cases hf : find d.schemas n with
  | none => exact ⟨schInv_new n, rfl, rfl⟩
  | some s => exact ⟨(find_schema_inv h hf).1, (find_schema_inv h hf).2.1, (find_schema_inv h hf).2.2.1⟩

theorem putSchema_ok {d d' : DatabaseMetadata} (h : DbInv d) {n : Str} {f : Schema → Res Schema} (hp : d.putSchema n f = .ok d') :
    ∃ s', f (schemaOrNew d n) = .ok s' ∧ (SchInv s' → s'.schemaName = n → s'.ignore = false →
      DbInv d' ∧ ∀ k, find d'.schemas k = if k = n then some s' else find d.schemas k) := by
  unfold DatabaseMetadata.putSchema at hp
  cases hc : d.cachedSchemaPosition n with
  | some p =>
    rw [hc] at hp
    obtain ⟨s', hs', rfl⟩ := map_eq_ok hp
    obtain ⟨hb, hg, x, hx, hk, hi⟩ := get_of_lookup hc
    have hfx : find d.schemas n = some x := by
      have hm : x ∈ active d.schemas := mem_active.2 ⟨List.mem_iff_getElem?.2 ⟨p, hx⟩, hi⟩
      have := find_eq_some h.schemas.ok.unique hm
      rw [hk] at this; exact this
    refine ⟨s', ?_, fun i1 i2 i3 => ⟨⟨h.schemas.set hb hg i2, fun s hs => ?_⟩, fun k => ?_⟩⟩
    · unfold schemaOrNew; rw [hfx]; rw [hx] at hs'; exact hs'
    · rcases List.mem_or_eq_of_mem_set hs with hs | rfl
      · exact h.schema s hs
      · exact i1
    · rw [h.schemas.find_set hc i2]
      unfold unlessIgnored
      rw [show Entry.ignore s' = false from i3]
      rfl
  | none =>
    rw [hc] at hp
    obtain ⟨s', hs', rfl⟩ := map_eq_ok hp
    have hfx : find d.schemas n = none := by
      have := lookup_find h.schemas.ok n
      rw [show (cachedPosition d.schemas d.schemaCache n).1 = none from hc] at this
      exact this.symm
    refine ⟨s', ?_, fun i1 i2 i3 => ⟨⟨h.schemas.append rfl ?_, fun s hs => ?_⟩, fun k => ?_⟩⟩
    · unfold schemaOrNew; rw [hfx]; exact hs'
    · rw [show Entry.key s' = n from i2]; exact hc
    · have hs : s ∈ d.schemas ++ [s'] := hs
      rcases List.mem_append.1 hs with hs | hs
      · exact h.schema s hs
      · rw [List.mem_singleton.1 hs]; exact i1
    · refine (h.schemas.find_append (y := s') (by rw [show Entry.key s' = n from i2]; exact hc) k).trans ?_
      rw [show Entry.key s' = n from i2]
      unfold unlessIgnored
      rw [show Entry.ignore s' = false from i3]
      rfl

/-- The table a step works on. -/
def tableOrNew (s : Schema) (n : Str) (new : Table) : Table := (find s.tables n).getD new

theorem putTable_ok {s s' : Schema} (h : SchInv s) {n : Str} (hn : n ≠ []) {new : Table} {f : Table → Res Table}
    (hp : s.putTable n new f = .ok s') :
    ∃ t', f (tableOrNew s n new) = .ok t' ∧ (t'.tableName = n → SchInv s' ∧ s'.schemaName = s.schemaName ∧ s'.ignore = s.ignore ∧
      ∀ k, find s'.tables k = if k = n then unlessIgnored t' else find s.tables k) := by
  unfold Schema.putTable at hp
  cases hc : s.cachedTablePosition n with
  | some p =>
    rw [hc] at hp
    obtain ⟨t', ht', rfl⟩ := map_eq_ok hp
    obtain ⟨hb, hg, x, hx, hk, hi⟩ := get_of_lookup hc
    have hfx : find s.tables n = some x := by
      have hm : x ∈ active s.tables := mem_active.2 ⟨List.mem_iff_getElem?.2 ⟨p, hx⟩, hi⟩
      have := find_eq_some h.tables.ok.unique hm
      rw [hk] at this; exact this
    refine ⟨t', ?_, fun i2 => ⟨⟨h.tables.set hb hg i2, h.views⟩, rfl, rfl, fun k => h.tables.find_set hc i2 k⟩⟩
    unfold tableOrNew; rw [hfx]; rw [hx] at ht'; exact ht'
  | none =>
    rw [hc] at hp
    obtain ⟨t', ht', rfl⟩ := map_eq_ok hp
    have hfx : find s.tables n = none := by
      have := lookup_find h.tables.ok n
      rw [show (cachedPosition s.tables s.tableCache n).1 = none from hc] at this
      exact this.symm
    refine ⟨t', ?_, fun i2 => ⟨⟨h.tables.append ?_ ?_, h.views⟩, rfl, rfl, fun k => ?_⟩⟩
    · unfold tableOrNew; rw [hfx]; exact ht'
    · show decide (t'.tableName = []) = false
      rw [i2]; simpa using hn
    · show (cachedPosition s.tables s.tableCache t'.tableName).1 = none
      rw [i2]; exact hc
    · refine (h.tables.find_append (y := t') ?_ k).trans ?_
      · show (cachedPosition s.tables s.tableCache t'.tableName).1 = none
        rw [i2]; exact hc
      · rw [show Entry.key t' = n from i2]

/-! ### WithTables -/

/-- The table a declaration starts from. -/
def freshTable (decl : TableDecl) : Table := { tableSchema := decl.schema, tableName := decl.name }

theorem tabInv_fresh (a b : Str) : TabInv { tableSchema := a, tableName := b } :=
  ⟨allFound_nil _, allFound_nil _, allFound_nil _, allFound_nil _⟩

/-- Every table that can be found is well-formed. -/
def TablesInv (d : DatabaseMetadata) : Prop := ∀ s n t, table? d s n = some t → TabInv t

theorem loadTable_ok {num : Str → Bool} {dia : Dialect} {d d' : DatabaseMetadata} (h : DbInv d) (ht : TablesInv d) {decl : TableDecl}
    (hn : decl.Named) (hl : d.loadTable num dia decl = .ok d') :
    decl.name ≠ [] ∧ DbInv d' ∧ TablesInv d' ∧
    ∃ t', ((table? d decl.schema decl.name).getD (freshTable decl)).load num dia decl = .ok t' ∧ TabInv t' ∧
      ∀ s n, table? d' s n = if s = decl.schema ∧ n = decl.name then unlessIgnored t' else table? d s n := by
  unfold DatabaseMetadata.loadTable at hl
  split at hl
  · cases hl
  · rename_i hne
    obtain ⟨s', hs', hs2⟩ := putSchema_ok h hl
    obtain ⟨hi, hname, hign⟩ := schemaOrNew_inv h decl.schema
    obtain ⟨t', ht', ht2⟩ := putTable_ok hi hne hs'
    have heq : tableOrNew (schemaOrNew d decl.schema) decl.name { tableSchema := decl.schema, tableName := decl.name } =
        (table? d decl.schema decl.name).getD (freshTable decl) := by
      unfold tableOrNew schemaOrNew table?
      cases find d.schemas decl.schema <;> rfl
    rw [heq] at ht'
    have hinv : TabInv ((table? d decl.schema decl.name).getD (freshTable decl)) := by
      cases hf : table? d decl.schema decl.name with
      | none => exact tabInv_fresh _ _
      | some t => exact ht _ _ _ hf
    obtain ⟨hi', hn', hsc'⟩ := load_inv hn ht' hinv
    obtain ⟨j1, j2, j3, j4⟩ := ht2 hn'
    obtain ⟨k1, k2⟩ := hs2 j1 (j2.trans hname) (j3.trans hign)
    have key : ∀ s n, table? d' s n = if s = decl.schema ∧ n = decl.name then unlessIgnored t' else table? d s n := by
      intro s n
      unfold table?
      rw [k2]
      by_cases hs : s = decl.schema
      · subst hs
        rw [if_pos rfl, Option.bind_some, j4]
        by_cases hnn : n = decl.name
        · rw [if_pos hnn, if_pos ⟨rfl, hnn⟩]
        · rw [if_neg hnn, if_neg (fun hh => hnn hh.2)]
          unfold schemaOrNew
          cases find d.schemas decl.schema <;> rfl
      · rw [if_neg hs, if_neg (fun hh => hs hh.1)]
    refine ⟨hne, k1, ?_, t', ht', hi', key⟩
    intro s n t hst
    rw [key] at hst
    split at hst
    · unfold unlessIgnored at hst
      split at hst
      · cases hst
      · cases hst; exact hi'
    · exact ht s n t hst

theorem withTables_inv {num : Str → Bool} {dia : Dialect} (decls : List TableDecl) (hn : ∀ x ∈ decls, x.Named) {d d' : DatabaseMetadata}
    (h : DbInv d) (ht : TablesInv d) (hl : withTables num dia decls d = .ok d') : DbInv d' ∧ TablesInv d' := by
  induction decls generalizing d with
  | nil => cases hl; exact ⟨h, ht⟩
  | cons x decls ih =>
    unfold withTables at hl
    rw [foldRes] at hl
    obtain ⟨d1, h1, h2⟩ := (Res.bind_eq_ok _ _ _).1 hl
    obtain ⟨-, i1, i2, -⟩ := loadTable_ok h ht (hn x (by simp)) h1
    exact ih (fun y hy => hn y (List.mem_cons_of_mem _ hy)) i1 i2 h2

/-- Tables other than those declared are as before. -/
theorem withTables_other {num : Str → Bool} {dia : Dialect} (decls : List TableDecl) (hn : ∀ x ∈ decls, x.Named) {d d' : DatabaseMetadata}
    (h : DbInv d) (ht : TablesInv d) (hl : withTables num dia decls d = .ok d') (s n : Str)
    (ho : ∀ x ∈ decls, ¬ (s = x.schema ∧ n = x.name)) : table? d' s n = table? d s n := by
  induction decls generalizing d with
  | nil => cases hl; rfl
  | cons x decls ih =>
    unfold withTables at hl
    rw [foldRes] at hl
    obtain ⟨d1, h1, h2⟩ := (Res.bind_eq_ok _ _ _).1 hl
    obtain ⟨-, i1, i2, t', -, -, hk⟩ := loadTable_ok h ht (hn x (by simp)) h1
    rw [ih (fun y hy => hn y (List.mem_cons_of_mem _ hy)) i1 i2 h2 (fun y hy => ho y (List.mem_cons_of_mem _ hy)), hk,
      if_neg (ho x (by simp))]

/-- Each of the declared tables, when no two declarations are of the same table. -/
theorem withTables_content {num : Str → Bool} {dia : Dialect} (decls : List TableDecl) (hn : ∀ x ∈ decls, x.Named)
    (hd : decls.Pairwise fun x y => ¬ (x.schema = y.schema ∧ x.name = y.name)) {d d' : DatabaseMetadata}
    (h : DbInv d) (ht : TablesInv d) (hl : withTables num dia decls d = .ok d') (x : TableDecl) (hx : x ∈ decls) :
    ∃ t', ((table? d x.schema x.name).getD (freshTable x)).load num dia x = .ok t' ∧ table? d' x.schema x.name = unlessIgnored t' := by
  induction decls generalizing d with
  | nil => cases hx
  | cons y decls ih =>
    unfold withTables at hl
    rw [foldRes] at hl
    obtain ⟨d1, h1, h2⟩ := (Res.bind_eq_ok _ _ _).1 hl
    obtain ⟨-, i1, i2, t', ht', -, hk⟩ := loadTable_ok h ht (hn y (by simp)) h1
    rw [List.pairwise_cons] at hd
    rcases List.mem_cons.1 hx with rfl | hx
    · refine ⟨t', ht', ?_⟩
      rw [withTables_other decls (fun y hy => hn y (List.mem_cons_of_mem _ hy)) i1 i2 h2 _ _ (fun z hz hh => hd.1 z hz hh), hk,
        if_pos ⟨rfl, rfl⟩]
    · obtain ⟨t2, ht2, he⟩ := ih (fun y hy => hn y (List.mem_cons_of_mem _ hy)) hd.2 i1 i2 h2 hx
      refine ⟨t2, ?_, he⟩
      rw [hk, if_neg (fun hh => hd.1 x hx ⟨hh.1.symm, hh.2.symm⟩)] at ht2
      exact ht2

end Ddl
