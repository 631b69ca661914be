import Verif.Model.Load
import Verif.Props.Migrate
/-
Metadata built by the package is well-formed: every element that is not ignored is found at its own position.
-/
namespace Ddl
open Spec

section generic
variable {α κ : Type} [DecidableEq κ] [Entry α κ]

/-- Every element that is not ignored has a name, and the cache knows its position. -/
def AllFound (items : List α) (cache : Cache κ) : Prop :=
  ∀ p x, items[p]? = some x → Entry.ignore x = false → Entry.blank α (Entry.key x) = false ∧ cache.get (Entry.key x) = some p

theorem allFound_nil (cache : Cache κ) : AllFound ([] : List α) cache := by intro p x h; simp at h

theorem AllFound.ok {items : List α} {cache : Cache κ} (h : AllFound items cache) : ListOk items cache := by
  refine ⟨?_, ?_, ?_⟩
  · intro k p hb
    rw [cachedPosition_iff]
    constructor
    · rintro ⟨-, hg, x, hx, hk, hi⟩
      refine ⟨⟨x, hx, hk, hi⟩, fun q y hq hy hyk => ?_⟩
      cases hyi : Entry.ignore y
      · have := (h q y hy hyi).2
        rw [hyk, hg] at this
        cases this
        omega
      · rfl
    · rintro ⟨⟨x, hx, hk, hi⟩, -⟩
      refine ⟨hb, ?_, x, hx, hk, hi⟩
      rw [← hk]; exact (h p x hx hi).2
  · unfold Unique active List.Nodup
    rw [List.pairwise_map, List.pairwise_filter, List.pairwise_iff_getElem]
    intro i j hi hj hij h1 h2 hk
    have e1 := (h i _ (List.getElem?_eq_getElem hi) (by simpa using h1)).2
    have e2 := (h j _ (List.getElem?_eq_getElem hj) (by simpa using h2)).2
    rw [hk, e2] at e1
    cases e1
    omega
  · intro x hx
    rw [mem_active] at hx
    obtain ⟨p, hp⟩ := List.mem_iff_getElem?.1 hx.1
    exact (h p x hp hx.2).1

theorem AllFound.set {items : List α} {cache : Cache κ} (h : AllFound items cache) {k : κ} {n : Nat} (hb : Entry.blank α k = false)
    (hg : cache.get k = some n) {y : α} (hy : Entry.key y = k) : AllFound (items.set n y) cache := by
  intro p x hx hi
  rw [List.getElem?_set] at hx
  split at hx
  · rename_i he
    split at hx
    · cases hx
      rw [hy, ← he]; exact ⟨hb, hg⟩
    · cases hx
  · exact h p x hx hi

theorem AllFound.append {items : List α} {cache : Cache κ} (h : AllFound items cache) {x : α} (hb : Entry.blank α (Entry.key x) = false)
    (hn : (cachedPosition items cache (Entry.key x)).1 = none) :
    AllFound (appendItem items cache x).1 (appendItem items cache x).2 := by
  intro p z hz hi
  simp only [appendItem] at hz ⊢
  by_cases hp : p < items.length
  · rw [List.getElem?_append_left hp] at hz
    obtain ⟨h1, h2⟩ := h p z hz hi
    refine ⟨h1, ?_⟩
    rw [Cache.get_put]
    split
    · rename_i he
      have : (cachedPosition items cache (Entry.key x)).1 = some p :=
        (cachedPosition_iff items cache (Entry.key x) p).2 ⟨hb, by rw [← he]; exact h2, z, hz, he, hi⟩
      rw [hn] at this; cases this
    · exact h2
  · have hp' : items.length ≤ p := by omega
    rw [List.getElem?_append_right hp'] at hz
    have : p = items.length := by
      have := List.getElem?_eq_some_iff.1 hz
      obtain ⟨hl, -⟩ := this
      simp at hl; omega
    subst this
    simp only [Nat.sub_self, List.getElem?_cons_zero, Option.some.injEq] at hz
    subst hz
    refine ⟨hb, ?_⟩
    rw [Cache.get_put, if_pos rfl]

theorem get_of_lookup {items : List α} {cache : Cache κ} {k : κ} {n : Nat} (h : (cachedPosition items cache k).1 = some n) :
    Entry.blank α k = false ∧ cache.get k = some n ∧ ∃ x, items[n]? = some x ∧ Entry.key x = k ∧ Entry.ignore x = false :=
  (cachedPosition_iff items cache k n).1 h

theorem modify_eq_set (items : List α) (n : Nat) (f : α → α) (x : α) (h : items[n]? = some x) : items.modify n f = items.set n (f x) := by
  apply List.ext_getElem?
  intro i
  rw [List.getElem?_modify, List.getElem?_set]
  by_cases hi : n = i
  · subst hi
    obtain ⟨hl, he⟩ := List.getElem?_eq_some_iff.1 h
    simp [hl, he]
  · simp [hi]

theorem AllFound.modify {items : List α} {cache : Cache κ} (h : AllFound items cache) {k : κ} {n : Nat}
    (hl : (cachedPosition items cache k).1 = some n) {f : α → α} (hf : ∀ x, Entry.key (f x) = Entry.key x) :
    AllFound (items.modify n f) cache := by
  obtain ⟨hb, hg, x, hx, hk, -⟩ := get_of_lookup hl
  rw [modify_eq_set _ _ _ _ hx]
  exact h.set hb hg (by rw [hf, hk])

end generic

/-! ### Tables -/

/-- A table whose parts can all be found. -/
structure TabInv (t : Table) : Prop where
  columns : AllFound t.columns t.columnCache
  constraints : AllFound t.constraints t.constraintCache
  indexes : AllFound t.indexes t.indexCache
  triggers : AllFound t.triggers t.triggerCache

theorem TabInv.ok {t : Table} (h : TabInv t) : TableOk t :=
  ⟨h.columns.ok, h.indexes.ok, h.triggers.ok⟩

/-- Only the indexes changed. -/
structure IdxOnly (t t' : Table) : Prop where
  eq : t' = { t with indexes := t'.indexes, indexCache := t'.indexCache }
  inv : TabInv t → TabInv t'

/-- Only the indexes and constraints changed. -/
structure DeclOnly (t t' : Table) : Prop where
  eq : t' = { t with indexes := t'.indexes, indexCache := t'.indexCache, constraints := t'.constraints, constraintCache := t'.constraintCache }
  inv : TabInv t → TabInv t'

theorem IdxOnly.refl (t : Table) : IdxOnly t t := ⟨rfl, id⟩
theorem DeclOnly.refl (t : Table) : DeclOnly t t := ⟨rfl, id⟩

theorem IdxOnly.trans {a b c : Table} (h : IdxOnly a b) (h' : IdxOnly b c) : IdxOnly a c := by
  refine ⟨?_, fun i => h'.inv (h.inv i)⟩
  rw [h'.eq, h.eq]

theorem DeclOnly.trans {a b c : Table} (h : DeclOnly a b) (h' : DeclOnly b c) : DeclOnly a c := by
  refine ⟨?_, fun i => h'.inv (h.inv i)⟩
  rw [h'.eq, h.eq]

theorem IdxOnly.decl {a b : Table} (h : IdxOnly a b) : DeclOnly a b := by
  refine ⟨?_, h.inv⟩
  have := h.eq
  rw [this]

theorem foldRes_inv {α β : Type} (f : α → β → Res α) (R : α → α → Prop) (hr : ∀ a, R a a) (ht : ∀ a b c, R a b → R b c → R a c)
    (hf : ∀ a b a', f a b = .ok a' → R a a') (bs : List β) : ∀ a a', foldRes f a bs = .ok a' → R a a' := by
  induction bs with
  | nil => intro a a' h; cases h; exact hr a
  | cons b bs ih =>
    intro a a' h
    rw [foldRes] at h
    obtain ⟨a1, h1, h2⟩ := (Res.bind_eq_ok _ _ _).1 h
    exact ht _ _ _ (hf _ _ _ h1) (ih _ _ h2)

theorem map_eq_ok {α β : Type} {r : Res α} {f : α → β} {b : β} (h : r.map f = .ok b) : ∃ a, r = .ok a ∧ f a = b := by
  cases r with
  | ok a => cases h; exact ⟨a, rfl, rfl⟩
  | err e => cases h
  | panic => cases h
  | hang => cases h

theorem indexModifier_key (d : Dialect) (x : Index) (m : Str × Str) (x' : Index) (h : indexModifier d x m = .ok x') :
    x.indexName = x'.indexName := by
  unfold indexModifier at h
  repeat' split at h
  all_goals first | (cases h; rfl) | cases h

theorem putIndex_only {t t' : Table} {name : Str} {new : Index} {edit : Index → Res Index} (hn : name ≠ []) (hnew : new.indexName = name)
    (he : ∀ x x', edit x = .ok x' → x.indexName = x'.indexName) (h : t.putIndex name new edit = .ok t') : IdxOnly t t' := by
  unfold Table.putIndex at h
  cases hp : t.cachedIndexPosition name with
  | some n =>
    rw [hp] at h
    obtain ⟨hb, hg, x, hx, hk, -⟩ := get_of_lookup hp
    obtain ⟨y, hy, rfl⟩ := map_eq_ok h
    refine ⟨rfl, fun i => ⟨i.columns, i.constraints, i.indexes.set hb hg ?_, i.triggers⟩⟩
    have := he _ _ hy
    rw [hx] at this
    exact this.symm.trans hk
  | none =>
    rw [hp] at h
    obtain ⟨y, hy, rfl⟩ := map_eq_ok h
    have hk : y.indexName = name := (he _ _ hy).symm.trans hnew
    refine ⟨rfl, fun i => ⟨i.columns, i.constraints, i.indexes.append ?_ ?_, i.triggers⟩⟩
    · show decide (y.indexName = []) = false
      rw [hk]; simpa using hn
    · show (cachedPosition t.indexes t.indexCache y.indexName).1 = none
      rw [hk]; exact hp

theorem generateName_ne (k : NameKind) (hk : k ≠ .other) (t : Str) (cs : List Str) : generateName k t cs ≠ [] := by
  have hs : nameSuffix k ≠ [] := by cases k <;> first | exact absurd rfl hk | (intro h; cases h)
  unfold generateName
  dsimp only
  split
  · intro h; exact hs (List.append_eq_nil_iff.1 h).2
  · intro h; exact hs (List.append_eq_nil_iff.1 h).2

theorem loadIndexConfig_only {d : Dialect} {t t' : Table} {cols : List Str} {config : Str} (h : loadIndexConfig d t cols config = .ok t') :
    IdxOnly t t' := by
  unfold loadIndexConfig at h
  obtain ⟨⟨v, ms⟩, -, h⟩ := (Res.bind_eq_ok _ _ _).1 h
  dsimp only at h
  generalize (if v ≠ ".".toList ∧ v ≠ [] then splitOn ',' v else cols) = cols' at h
  by_cases hc : cols' = []
  · rw [if_pos hc] at h; cases h
  · rw [if_neg hc] at h
    refine putIndex_only ?_ ?_ (fun x x' hx => ?_) h
    rotate_left
    · rfl
    rotate_left
    · split
      · exact generateName_ne _ (by simp) _ _
      · assumption
    · exact foldRes_inv _ (fun a b => a.indexName = b.indexName) (fun _ => rfl) (fun _ _ _ => Eq.trans) (indexModifier_key d) ms _ _ hx

theorem putConstraint_only {t t' : Table} {name : Str} {new : Constraint} {edit : Constraint × Table → Res (Constraint × Table)}
    (hn : name ≠ []) (hnew : new.constraintName = name)
    (he : ∀ s r, edit s = .ok r → s.1.constraintName = r.1.constraintName ∧ IdxOnly s.2 r.2)
    (h : t.putConstraint name new edit = .ok t') : DeclOnly t t' := by
  unfold Table.putConstraint at h
  cases hp : t.cachedConstraintPosition name with
  | some n =>
    rw [hp] at h
    obtain ⟨hb, hg, x, hx, hk, -⟩ := get_of_lookup hp
    obtain ⟨⟨y, t1⟩, hy, rfl⟩ := map_eq_ok h
    obtain ⟨h1, h2⟩ := he _ _ hy
    dsimp only at h1 h2
    rw [hx] at h1
    have e := h2.eq
    refine ⟨by dsimp only; rw [e], fun i => ?_⟩
    have i1 := h2.inv i
    refine ⟨i1.columns, ?_, i1.indexes, i1.triggers⟩
    refine i1.constraints.set hb ?_ (h1.symm.trans hk)
    rw [e]; exact hg
  | none =>
    rw [hp] at h
    obtain ⟨⟨y, t1⟩, hy, rfl⟩ := map_eq_ok h
    obtain ⟨h1, h2⟩ := he _ _ hy
    dsimp only at h1 h2
    have e := h2.eq
    have hk : y.constraintName = name := h1.symm.trans hnew
    refine ⟨by simp only [Table.appendConstraint]; rw [e], fun i => ?_⟩
    have i1 := h2.inv i
    refine ⟨i1.columns, i1.constraints.append ?_ ?_, i1.indexes, i1.triggers⟩
    · show decide (y.constraintName = []) = false
      rw [hk]; simpa using hn
    · show (cachedPosition t1.constraints t1.constraintCache y.constraintName).1 = none
      rw [hk, e]; exact hp

theorem setReferences_key (c : Constraint) (cols : List Str) (v : Str) : (setReferences c cols v).constraintName = c.constraintName := by
  unfold setReferences
  split <;> rfl

theorem constraintModifier_only {d : Dialect} {cols : List Str} {s r : Constraint × Table} {m : Str × Str}
    (h : constraintModifier d cols s m = .ok r) : s.1.constraintName = r.1.constraintName ∧ IdxOnly s.2 r.2 := by
  unfold constraintModifier at h
  split at h
  · cases h; exact ⟨rfl, .refl _⟩
  split at h
  · cases h; exact ⟨(setReferences_key _ _ _).symm, .refl _⟩
  split at h
  · split at h
    · cases h; exact ⟨rfl, .refl _⟩
    · cases h
  split at h
  · split at h
    · cases h; exact ⟨rfl, .refl _⟩
    · cases h
  split at h
  · cases h
    refine ⟨?_, .refl _⟩
    dsimp only
    split <;> rfl
  split at h
  · cases h
    refine ⟨?_, .refl _⟩
    dsimp only
    split <;> rfl
  split at h
  · cases h; exact ⟨rfl, .refl _⟩
  split at h
  · obtain ⟨t, ht, rfl⟩ := map_eq_ok h
    exact ⟨rfl, loadIndexConfig_only ht⟩
  · cases h

theorem loadConstraintConfig_only {d : Dialect} {t t' : Table} {kind : ConstraintType} {isRef : Bool} {cols : List Str} {config : Str}
    (hk : kind.nameKind ≠ .other) (h : loadConstraintConfig d t kind isRef cols config = .ok t') : DeclOnly t t' := by
  unfold loadConstraintConfig at h
  obtain ⟨⟨v, ms⟩, -, h⟩ := (Res.bind_eq_ok _ _ _).1 h
  dsimp only at h
  generalize (if (!isRef) = true ∧ v ≠ ".".toList ∧ v ≠ [] then splitOn ',' v else cols) = cols' at h
  by_cases hc : cols' = []
  · rw [if_pos hc] at h; cases h
  · rw [if_neg hc] at h
    refine putConstraint_only ?_ ?_ (fun s r hs => ?_) h
    rotate_left
    · rfl
    rotate_left
    · split
      · exact generateName_ne _ hk _ _
      · assumption
    · have := foldRes_inv _ (fun (a b : Constraint × Table) => a.1.constraintName = b.1.constraintName ∧ IdxOnly a.2 b.2)
        (fun _ => ⟨rfl, .refl _⟩) (fun _ _ _ h1 h2 => ⟨h1.1.trans h2.1, h1.2.trans h2.2⟩)
        (fun a b a' hh => constraintModifier_only hh) ms _ _ hs
      refine ⟨?_, this.2⟩
      rw [← this.1]
      split
      · rw [setReferences_key]
      · rfl

theorem declare_only {d : Dialect} {t t' : Table} {cols : List Str} {k v : Str} (h : declare d t cols k v = .ok t') : DeclOnly t t' := by
  unfold declare at h
  split at h
  · exact loadConstraintConfig_only (by simp [ConstraintType.nameKind]) h
  split at h
  · exact loadConstraintConfig_only (by simp [ConstraintType.nameKind]) h
  split at h
  · exact loadConstraintConfig_only (by simp [ConstraintType.nameKind]) h
  split at h
  · exact loadConstraintConfig_only (by simp [ConstraintType.nameKind]) h
  split at h
  · exact (loadIndexConfig_only h).decl
  · cases h

theorem ite_some_elim {α : Type} {p : Prop} [Decidable p] {a b c : Option α} {q : Prop} (h : (if p then a else b) = c)
    (h1 : a = c → q) (h2 : b = c → q) : q := by
  by_cases hp : p
  · rw [if_pos hp] at h; exact h1 h
  · rw [if_neg hp] at h; exact h2 h

theorem columnEdit_key {num : Str → Bool} {d : Dialect} {k v : Str} {f : Column → Column} (h : columnEdit num d k v = some f) (c : Column) :
    (f c).columnName = c.columnName := by
  unfold columnEdit at h
  iterate 12
    refine ite_some_elim h (fun h => ?_) (fun h => ?_)
    · cases h
      first | rfl | (dsimp only; split <;> rfl)
  cases h

theorem columnModifier_only {num : Str → Bool} {d : Dialect} {s r : Column × Table} {m : Str × Str}
    (h : columnModifier num d s m = .ok r) : s.1.columnName = r.1.columnName ∧ DeclOnly s.2 r.2 := by
  unfold columnModifier at h
  split at h
  · cases h; exact ⟨rfl, .refl _⟩
  · split at h
    · rename_i hf
      cases h; exact ⟨(columnEdit_key hf _).symm, .refl _⟩
    · obtain ⟨t, ht, rfl⟩ := map_eq_ok h
      exact ⟨rfl, declare_only ht⟩

theorem loadColumnConfig_inv {num : Str → Bool} {d : Dialect} {t t' : Table} {name type config : Str} (hn : name ≠ [])
    (h : loadColumnConfig num d t name type config = .ok t') (i : TabInv t) :
    TabInv t' ∧ t'.tableName = t.tableName ∧ t'.tableSchema = t.tableSchema := by
  unfold loadColumnConfig at h
  obtain ⟨ms, -, h⟩ := (Res.bind_eq_ok _ _ _).1 h
  dsimp only at h
  have fold : ∀ s r, foldRes (columnModifier num d) s ms = .ok r → s.1.columnName = r.1.columnName ∧ DeclOnly s.2 r.2 := fun s r hs =>
    foldRes_inv _ (fun (a b : Column × Table) => a.1.columnName = b.1.columnName ∧ DeclOnly a.2 b.2)
        (fun _ => ⟨rfl, .refl _⟩) (fun _ _ _ h1 h2 => ⟨h1.1.trans h2.1, h1.2.trans h2.2⟩)
        (fun a b a' hh => columnModifier_only hh) ms _ _ hs
  cases hp : t.cachedColumnPosition name with
  | some n =>
    rw [hp] at h
    obtain ⟨hb, hg, x, hx, hk, -⟩ := get_of_lookup hp
    obtain ⟨⟨y, t1⟩, hy, rfl⟩ := map_eq_ok h
    obtain ⟨h1, h2⟩ := fold _ _ hy
    dsimp only at h1 h2
    rw [hx] at h1
    have e := h2.eq
    have i1 := h2.inv i
    refine ⟨⟨?_, i1.constraints, i1.indexes, i1.triggers⟩, by dsimp only; rw [e], by dsimp only; rw [e]⟩
    refine i1.columns.set hb ?_ (h1.symm.trans hk)
    rw [e]; exact hg
  | none =>
    rw [hp] at h
    obtain ⟨⟨y, t1⟩, hy, rfl⟩ := map_eq_ok h
    obtain ⟨h1, h2⟩ := fold _ _ hy
    dsimp only at h1 h2
    have e := h2.eq
    have i1 := h2.inv i
    have hk : y.columnName = name := h1.symm
    refine ⟨⟨i1.columns.append ?_ ?_, i1.constraints, i1.indexes, i1.triggers⟩,
      by simp only [Table.appendColumn]; rw [e], by simp only [Table.appendColumn]; rw [e]⟩
    · show decide (y.columnName = []) = false
      rw [hk]; simpa using hn
    · show (cachedPosition t1.columns t1.columnCache y.columnName).1 = none
      rw [hk, e]; exact hp

theorem tableModifier_inv {d : Dialect} {t t' : Table} {m : Str × Str} (h : tableModifier d t m = .ok t') :
    (TabInv t → TabInv t') ∧ t'.tableName = t.tableName ∧ t'.tableSchema = t.tableSchema := by
  unfold tableModifier at h
  split at h
  · cases h; exact ⟨id, rfl, rfl⟩
  split at h
  · split at h
    · obtain ⟨⟨v, ms⟩, -, rfl⟩ := map_eq_ok h
      exact ⟨fun i => ⟨i.columns, i.constraints, i.indexes, i.triggers⟩, rfl, rfl⟩
    · cases h; exact ⟨id, rfl, rfl⟩
  split at h
  · cases h
    exact ⟨fun i => ⟨i.columns, i.constraints, i.indexes, i.triggers⟩, rfl, rfl⟩
  · have := declare_only h
    exact ⟨this.inv, by rw [this.eq], by rw [this.eq]⟩

/-! ### The builder -/

/-- The names given explicitly are not empty (SQLite would accept an unnamed CHECK constraint), and the constraint kinds are
those of the builder. -/
def TOp.Named : TOp → Prop
  | .constraint kind name _ _ _ => kind.nameKind ≠ .other ∧ name ≠ some []
  | .trigger trg => trg.triggerName ≠ []
  | _ => True

/-- Same name and schema, and the invariant is kept. -/
def Keeps (t t' : Table) : Prop := (TabInv t → TabInv t') ∧ t'.tableName = t.tableName ∧ t'.tableSchema = t.tableSchema

theorem Keeps.refl (t : Table) : Keeps t t := ⟨id, rfl, rfl⟩
theorem Keeps.trans {a b c : Table} (h : Keeps a b) (h' : Keeps b c) : Keeps a c :=
  ⟨fun i => h'.1 (h.1 i), h'.2.1.trans h.2.1, h'.2.2.trans h.2.2⟩
theorem DeclOnly.keeps {a b : Table} (h : DeclOnly a b) : Keeps a b := ⟨h.inv, by rw [h.eq], by rw [h.eq]⟩
theorem IdxOnly.keeps {a b : Table} (h : IdxOnly a b) : Keeps a b := h.decl.keeps

theorem declareConstraint_only {d : Dialect} {t t' : Table} {kind : ConstraintType} {name : Str} {cols : List Str} {e : Str}
    {edit : Constraint → Constraint} (hn : name ≠ []) (he : ∀ c, c.constraintName = name → (edit c).constraintName = name)
    (h : t.declareConstraint d kind name cols e edit = .ok t') : DeclOnly t t' := by
  unfold Table.declareConstraint at h
  split at h
  · cases h
  · unfold Table.putConstraint at h
    cases hp : t.cachedConstraintPosition name with
    | some n =>
      rw [hp] at h
      obtain ⟨hb, hg, x, hx, hk, -⟩ := get_of_lookup hp
      obtain ⟨⟨y, t1⟩, hy, rfl⟩ := map_eq_ok h
      cases hy
      refine ⟨rfl, fun i => ⟨i.columns, i.constraints.set hb hg ?_, i.indexes, i.triggers⟩⟩
      refine he _ ?_
      rw [hx]; exact hk
    | none =>
      rw [hp] at h
      obtain ⟨⟨y, t1⟩, hy, rfl⟩ := map_eq_ok h
      cases hy
      have hk := he { constraintName := name, tableSchema := t.tableSchema, tableName := t.tableName, constraintType := kind, columns := cols, checkExpr := e } rfl
      refine ⟨rfl, fun i => ⟨i.columns, i.constraints.append ?_ ?_, i.indexes, i.triggers⟩⟩
      · show decide (Constraint.constraintName _ = []) = false
        rw [hk]; simpa using hn
      · show (cachedPosition t.constraints t.constraintCache (Constraint.constraintName _)).1 = none
        rw [hk]; exact hp

theorem consOp_fold_key (d : Dialect) (name s tn : Str) (ops : List ConsOp) (c : Constraint) (hc : c.constraintName = name) :
    (ops.foldl (ConsOp.run d name s tn) c).constraintName = name := by
  induction ops generalizing c with
  | nil => exact hc
  | cons op ops ih =>
    refine ih _ ?_
    cases op <;> simp only [ConsOp.run] <;> first | exact hc | rfl | (split <;> exact hc)

theorem idxOp_fold_key (name s tn : Str) (ops : List IdxOp) (c : Index) (hc : c.indexName = name) :
    (ops.foldl (IdxOp.run name s tn) c).indexName = name := by
  induction ops generalizing c with
  | nil => exact hc
  | cons op ops ih =>
    refine ih _ ?_
    cases op <;> simp only [IdxOp.run] <;> first | exact hc | rfl

/-- The column handle stays valid: its position is the cached one. -/
def Handle (n : Nat) (k : Str) (t : Table) : Prop :=
  t.columnCache.get k = some n ∧ ∃ c, t.columns[n]? = some c ∧ c.columnName = k

theorem colOp_run {d : Dialect} {n : Nat} {k : Str} (hk : k ≠ []) {t t' : Table} {op : ColOp} (hh : Handle n k t)
    (h : op.run d n t = .ok t') : Keeps t t' ∧ Handle n k t' := by
  obtain ⟨hg, c, hc, hck⟩ := hh
  have edit : ∀ f : Column → Column, (∀ c, (f c).columnName = c.columnName) →
      Keeps t { t with columns := t.columns.modify n f } ∧ Handle n k { t with columns := t.columns.modify n f } := by
    intro f hf
    rw [modify_eq_set _ _ _ _ hc]
    refine ⟨⟨fun i => ⟨i.columns.set (k := k) (by show decide (k = []) = false; simpa using hk) hg ((hf c).trans hck),
      i.constraints, i.indexes, i.triggers⟩, rfl, rfl⟩, hg, f c, ?_, (hf c).trans hck⟩
    obtain ⟨hl, -⟩ := List.getElem?_eq_some_iff.1 hc
    simp [List.getElem?_set, hl]
  have decl : ∀ (kind : ConstraintType), kind.nameKind ≠ .other →
      t.declareConstraint d kind (generateName kind.nameKind t.tableName [c.columnName]) [c.columnName] [] id = .ok t' →
      Keeps t t' ∧ Handle n k t' := by
    intro kind hkind h
    have := declareConstraint_only (generateName_ne _ hkind _ _) (fun _ h => h) h
    refine ⟨this.keeps, ?_⟩
    rw [this.eq]
    exact ⟨hg, c, hc, hck⟩
  cases op with
  | primaryKey => simp only [ColOp.run, hc] at h; exact decl .primaryKey (by simp [ConstraintType.nameKind]) h
  | unique => simp only [ColOp.run, hc] at h; exact decl .unique (by simp [ConstraintType.nameKind]) h
  | identity => cases h; exact edit _ (fun c => by split <;> rfl)
  | alwaysIdentity => cases h; exact edit _ (fun c => by split <;> rfl)
  | _ => cases h; exact edit _ (fun c => rfl)

theorem runColumn_keeps {d : Dialect} {t t' : Table} {name : Str} {ops : List ColOp} (h : runColumn d t name ops = .ok t') : Keeps t t' := by
  unfold runColumn at h
  cases hp : t.cachedColumnPosition name with
  | none => rw [hp] at h; cases h
  | some n =>
    rw [hp] at h
    obtain ⟨hb, hg, c, hc, hk, -⟩ := get_of_lookup hp
    have hne : name ≠ [] := by
      have : decide (name = []) = false := hb
      simpa using this
    have hh : Handle n name t := ⟨hg, c, hc, hk⟩
    clear hp hb hg hc hk
    dsimp only at h
    induction ops generalizing t with
    | nil => cases h; exact .refl _
    | cons op ops ih =>
      rw [foldRes] at h
      obtain ⟨t1, h1, h2⟩ := (Res.bind_eq_ok _ _ _).1 h
      obtain ⟨k1, hh1⟩ := colOp_run hne hh h1
      exact k1.trans (ih h2 hh1)

theorem tOp_keeps {d : Dialect} {t t' : Table} {op : TOp} (hop : op.Named) (h : op.run d t = .ok t') : Keeps t t' := by
  cases op with
  | ignore => cases h; exact ⟨fun i => ⟨i.columns, i.constraints, i.indexes, i.triggers⟩, rfl, rfl⟩
  | virtualTable m args => cases h; exact ⟨fun i => ⟨i.columns, i.constraints, i.indexes, i.triggers⟩, rfl, rfl⟩
  | column name ops => exact runColumn_keeps h
  | constraint kind name cols e ops =>
    have hn : name.getD (generateName kind.nameKind t.tableName cols) ≠ [] := by
      cases name with
      | none => exact generateName_ne _ hop.1 _ _
      | some n => intro he; exact hop.2 (by rw [show n = [] from he])
    exact (declareConstraint_only hn (fun c hc => consOp_fold_key _ _ _ _ _ _ hc) h).keeps
  | exclude name it cols exprs ops' ops =>
    simp only [TOp.run] at h
    split at h
    · cases h
    split at h
    · cases h
    · rename_i hn
      unfold Table.putConstraint at h
      cases hp : t.cachedConstraintPosition (name.getD (generateName .exclude t.tableName cols)) with
      | some n =>
        rw [hp] at h
        obtain ⟨hb, hg, x, hx, hk, -⟩ := get_of_lookup hp
        obtain ⟨⟨y, t1⟩, hy, rfl⟩ := map_eq_ok h
        cases hy
        refine ⟨fun i => ⟨i.columns, i.constraints.set hb hg ?_, i.indexes, i.triggers⟩, rfl, rfl⟩
        refine consOp_fold_key _ _ _ _ _ _ ?_
        rw [hx]; exact hk
      | none =>
        rw [hp] at h
        obtain ⟨⟨y, t1⟩, hy, rfl⟩ := map_eq_ok h
        cases hy
        have hk := fun c hc => consOp_fold_key d (name.getD (generateName .exclude t.tableName cols)) t.tableSchema t.tableName ops c hc
        refine ⟨fun i => ⟨i.columns, i.constraints.append ?_ ?_, i.indexes, i.triggers⟩, rfl, rfl⟩
        · show decide (Constraint.constraintName _ = []) = false
          rw [hk _ rfl]; simpa using hn
        · show (cachedPosition t.constraints t.constraintCache (Constraint.constraintName _)).1 = none
          rw [hk _ rfl]; exact hp
  | index name cols exprs ops =>
    simp only [TOp.run] at h
    split at h
    · cases h
    · rename_i hn
      unfold Table.putIndex at h
      have hk := fun c hc => idxOp_fold_key (name.getD (generateName .index t.tableName cols)) t.tableSchema t.tableName ops c hc
      cases hp : t.cachedIndexPosition (name.getD (generateName .index t.tableName cols)) with
      | some n =>
        rw [hp] at h
        obtain ⟨hb, hg, x, hx, hkx, -⟩ := get_of_lookup hp
        cases h
        refine ⟨fun i => ⟨i.columns, i.constraints, i.indexes.set hb hg ?_, i.triggers⟩, rfl, rfl⟩
        refine hk _ ?_
        rw [hx]; exact hkx
      | none =>
        rw [hp] at h
        cases h
        refine ⟨fun i => ⟨i.columns, i.constraints, i.indexes.append ?_ ?_, i.triggers⟩, rfl, rfl⟩
        · show decide (Index.indexName _ = []) = false
          rw [hk _ rfl]; simpa using hn
        · show (cachedPosition t.indexes t.indexCache (Index.indexName _)).1 = none
          rw [hk _ rfl]; exact hp
  | trigger trg =>
    simp only [TOp.run] at h
    split at h
    · cases h
    split at h
    · cases h
    · cases hp : t.cachedTriggerPosition trg.triggerName with
      | some n =>
        rw [hp] at h
        cases h
        exact ⟨fun i => ⟨i.columns, i.constraints, i.indexes, i.triggers.modify hp (fun _ => rfl)⟩, rfl, rfl⟩
      | none =>
        rw [hp] at h
        cases h
        refine ⟨fun i => ⟨i.columns, i.constraints, i.indexes, i.triggers.append ?_ hp⟩, rfl, rfl⟩
        show decide (trg.triggerName = []) = false
        simpa [TOp.Named] using hop

theorem markColumn_keeps (t : Table) (c : Constraint) : Keeps t (markColumn t c) := by
  unfold markColumn
  split
  · split
    · exact .refl _
    · rename_i n hp
      split
      · exact ⟨fun i => ⟨i.columns.modify hp (fun _ => rfl), i.constraints, i.indexes, i.triggers⟩, rfl, rfl⟩
      · exact ⟨fun i => ⟨i.columns.modify hp (fun _ => rfl), i.constraints, i.indexes, i.triggers⟩, rfl, rfl⟩
      · exact .refl _
  · exact .refl _

theorem fold_markColumn (cs : List Constraint) (t : Table) : Keeps t (cs.foldl markColumn t) := by
  induction cs generalizing t with
  | nil => exact .refl _
  | cons c cs ih => exact (markColumn_keeps t c).trans (ih _)

theorem fts5_keeps (t : Table) : Keeps t (fts5Columns t) := by
  unfold fts5Columns
  split
  · exact ⟨fun i => ⟨i.columns, i.constraints, i.indexes, i.triggers⟩, rfl, rfl⟩
  · exact .refl _

theorem loadFields_keeps {num : Str → Bool} {d : Dialect} (fs : List FieldDecl) {t : Table} {r : Table × Bool}
    (h : loadFields num d t fs = .ok r) : Keeps t r.1 := by
  induction fs generalizing t with
  | nil => cases h; exact .refl _
  | cons f fs ih =>
    rw [loadFields] at h
    obtain ⟨⟨t1, stop⟩, h1, h2⟩ := (Res.bind_eq_ok _ _ _).1 h
    have k1 : Keeps t t1 := by
      cases f with
      | other tag =>
        obtain ⟨t2, ht2, he⟩ := map_eq_ok h1
        cases he
        unfold loadTableConfig at ht2
        obtain ⟨ms, -, ht2⟩ := (Res.bind_eq_ok _ _ _).1 ht2
        exact foldRes_inv _ Keeps .refl (fun _ _ _ => .trans) (fun _ _ _ hh => tableModifier_inv hh) ms _ _ ht2
      | column name type tag =>
        rw [loadField] at h1
        split at h1
        · cases h1
        · rename_i hn
          obtain ⟨t2, ht2, he⟩ := map_eq_ok h1
          cases he
          have hni := loadColumnConfig_inv hn ht2
          by_cases hi : TabInv t
          · exact ⟨fun _ => (hni hi).1, (hni hi).2⟩
          · refine ⟨fun i => absurd i hi, ?_⟩
            unfold loadColumnConfig at ht2
            obtain ⟨ms, -, ht2⟩ := (Res.bind_eq_ok _ _ _).1 ht2
            dsimp only at ht2
            have fold : ∀ s r, foldRes (columnModifier num d) s ms = .ok r → DeclOnly s.2 r.2 := fun s r hs =>
              foldRes_inv _ (fun (a b : Column × Table) => DeclOnly a.2 b.2)
                (fun _ => .refl _) (fun _ _ _ h1 h2 => h1.trans h2) (fun a b a' hh => (columnModifier_only hh).2) ms _ _ hs
            split at ht2
            · obtain ⟨⟨y, t3⟩, hy, rfl⟩ := map_eq_ok ht2
              have e := (fold _ _ hy).eq
              dsimp only at e ⊢
              rw [e]; exact ⟨rfl, rfl⟩
            · obtain ⟨⟨y, t3⟩, hy, rfl⟩ := map_eq_ok ht2
              have e := (fold _ _ hy).eq
              simp only [Table.appendColumn] at e ⊢
              rw [e]; exact ⟨rfl, rfl⟩
    split at h2
    · cases h2; exact k1
    · exact k1.trans (ih h2)

/-- The declarations of a table give names where the builder is told a name. -/
def TableDecl.Named (decl : TableDecl) : Prop := ∀ d, ∀ op ∈ decl.ddl d, op.Named

theorem foldTOps_keeps {d : Dialect} (ops : List TOp) (hn : ∀ op ∈ ops, op.Named) {t t' : Table} (h : foldRes (TOp.run d) t ops = .ok t') :
    Keeps t t' := by
  induction ops generalizing t with
  | nil => cases h; exact .refl _
  | cons op ops ih =>
    rw [foldRes] at h
    obtain ⟨t1, h1, h2⟩ := (Res.bind_eq_ok _ _ _).1 h
    exact (tOp_keeps (hn op (by simp)) h1).trans (ih (fun o ho => hn o (List.mem_cons_of_mem _ ho)) h2)

theorem load_inv {num : Str → Bool} {d : Dialect} {t t' : Table} {decl : TableDecl} (hn : decl.Named) (h : t.load num d decl = .ok t')
    (i : TabInv t) : TabInv t' ∧ t'.tableName = decl.name ∧ t'.tableSchema = decl.schema := by
  unfold Table.load at h
  split at h
  · cases h
  · dsimp only at h
    split at h
    · cases h
    · obtain ⟨⟨t1, stop⟩, h1, h2⟩ := (Res.bind_eq_ok _ _ _).1 h
      have k1 := loadFields_keeps _ h1
      have i1 : TabInv t1 := k1.1 ⟨i.columns, i.constraints, i.indexes, i.triggers⟩
      dsimp only at h2
      split at h2
      · cases h2; exact ⟨i1, k1.2⟩
      · obtain ⟨t2, ht2, rfl⟩ := map_eq_ok h2
        have k := (foldTOps_keeps _ (hn d) ht2).trans ((fts5_keeps t2).trans (fold_markColumn t2.constraints _))
        exact ⟨k.1 i1, k.2.1.trans k1.2.1, k.2.2.trans k1.2.2⟩

end Ddl
