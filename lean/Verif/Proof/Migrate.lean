import Verif.Spec.Migrate
/-
Lookups in terms of the specification, and projections of concatenated migrations.
-/
namespace Ddl
open Spec

variable {α κ : Type} [DecidableEq κ] [Entry α κ]

theorem mem_active {items : List α} {x : α} : x ∈ active items ↔ x ∈ items ∧ Entry.ignore x = false := by
  simp [active]

theorem exists_last (items : List α) (k : κ) (h : ∃ x ∈ active items, Entry.key x = k) : ∃ p, IsLast items k p := by
  induction items with
  | nil => obtain ⟨x, hx, -⟩ := h; cases hx
  | cons y items ih =>
    by_cases ht : ∃ x ∈ active items, Entry.key x = k
    · obtain ⟨p, ⟨x, h1, h2⟩, h3⟩ := ih ht
      refine ⟨p + 1, ⟨x, by simpa using h1, h2⟩, fun q z hq hz => ?_⟩
      obtain ⟨q, rfl⟩ : ∃ r, q = r + 1 := ⟨q - 1, by omega⟩
      exact h3 q z (by omega) (by simpa using hz)
    · obtain ⟨x, hx, hk⟩ := h
      rw [mem_active] at hx
      rcases List.mem_cons.1 hx.1 with rfl | hm
      · refine ⟨0, ⟨x, by simp, hk, hx.2⟩, fun q z hq hz hzk => ?_⟩
        obtain ⟨q, rfl⟩ : ∃ r, q = r + 1 := ⟨q - 1, by omega⟩
        have hzm : z ∈ items := List.mem_iff_getElem?.2 ⟨q, by simpa using hz⟩
        cases hi : Entry.ignore z
        · exact absurd ⟨z, mem_active.2 ⟨hzm, hi⟩, hzk⟩ ht
        · rfl
      · exact absurd ⟨x, mem_active.2 ⟨hm, hx.2⟩, hk⟩ ht

theorem find_some {items : List α} {k : κ} {x : α} (h : find items k = some x) : x ∈ active items ∧ Entry.key x = k := by
  have h1 := List.find?_some h
  simp only [Bool.and_eq_true, decide_eq_true_eq, Bool.not_eq_true'] at h1
  exact ⟨mem_active.2 ⟨List.mem_of_find?_eq_some h, h1.2⟩, h1.1⟩

theorem find_none {items : List α} {k : κ} : find items k = none ↔ ∀ x ∈ active items, Entry.key x ≠ k := by
  unfold find
  rw [List.find?_eq_none]
  constructor
  · intro h x hx hk
    rw [mem_active] at hx
    exact h x hx.1 (by simp [hk, hx.2])
  · intro h x hx
    simp only [Bool.and_eq_true, decide_eq_true_eq, Bool.not_eq_true', not_and]
    exact fun hk hi => h x (mem_active.2 ⟨hx, hi⟩) hk

theorem Spec.Unique.eq {items : List α} (hu : Unique items) : ∀ x ∈ active items, ∀ y ∈ active items, Entry.key x = Entry.key y → x = y :=
  by
  unfold Unique at hu
  generalize active items = l at hu
  induction l with
  | nil => intro x hx; cases hx
  | cons a l ih =>
    rw [List.map_cons, List.nodup_cons] at hu
    intro x hx y hy hk
    have hin : ∀ z ∈ l, Entry.key z ≠ Entry.key a := fun z hz he => hu.1 (List.mem_map.2 ⟨z, hz, he⟩)
    rcases List.mem_cons.1 hx with hx | hx
    · rcases List.mem_cons.1 hy with hy | hy
      · rw [hx, hy]
      · exact absurd (by rw [← hk, hx]) (hin y hy)
    · rcases List.mem_cons.1 hy with hy | hy
      · exact absurd (by rw [hk, hy]) (hin x hx)
      · exact ih hu.2 x hx y hy hk

theorem find_eq_some {items : List α} (hu : Unique items) {x : α} (hx : x ∈ active items) : find items (Entry.key x) = some x := by
  cases h : find items (Entry.key x) with
  | none => exact absurd rfl (find_none.1 h x hx)
  | some y =>
    obtain ⟨hy, hk⟩ := find_some h
    rw [hu.eq y hy x hx hk]

/-- The element a lookup leads to. -/
theorem lookup_find {items : List α} {cache : Cache κ} (h : ListOk items cache) (k : κ) :
    (match (cachedPosition items cache k).1 with | some n => items[n]? | none => none) = find items k := by
  cases hp : (cachedPosition items cache k).1 with
  | some p =>
    obtain ⟨x, hx, hk, hi⟩ := cachedPosition_sound _ _ _ _ hp
    have hm : x ∈ active items := mem_active.2 ⟨List.mem_iff_getElem?.2 ⟨p, hx⟩, hi⟩
    have := find_eq_some h.unique hm
    rw [hk] at this
    rw [this]; exact hx
  | none =>
    symm
    dsimp only
    rw [find_none]
    intro x hx hk
    obtain ⟨p, hl⟩ := exists_last items k ⟨x, hx, hk⟩
    have := (h.complete k p (by rw [← hk]; exact h.named x hx)).2 hl
    rw [hp] at this; cases this

theorem lookup_isSome {items : List α} {cache : Cache κ} (h : ListOk items cache) (k : κ) :
    (cachedPosition items cache k).1.isSome = (find items k).isSome := by
  rw [← lookup_find h k]
  cases hp : (cachedPosition items cache k).1 with
  | some p =>
    obtain ⟨x, hx, -⟩ := cachedPosition_sound _ _ _ _ hp
    simp [hx]
  | none => rfl

theorem lookup_isNone {items : List α} {cache : Cache κ} (h : ListOk items cache) (k : κ) :
    (cachedPosition items cache k).1.isNone = (find items k).isNone := by
  have := lookup_isSome h k
  rw [← Option.not_isSome, ← Option.not_isSome, this]

/-- A lookup in the empty list fails. -/
theorem lookup_nil (cache : Cache κ) (k : κ) : (cachedPosition ([] : List α) cache k).1 = none := by
  cases h : (cachedPosition ([] : List α) cache k).1 with
  | none => rfl
  | some p =>
    obtain ⟨x, hx, -⟩ := cachedPosition_sound _ _ _ _ h
    simp at hx

/-! ### Projections of concatenations -/

theorem concat_proj {β : Type} (f : Migration → List β) (h0 : f {} = []) (ha : ∀ a b, f (a.append b) = f a ++ f b)
    (ms : List Migration) : f (Migration.concat ms) = ms.flatMap f := by
  induction ms with
  | nil => simpa [Migration.concat] using h0
  | cons m ms ih => simp [Migration.concat, ha, ih]

theorem migrate_ok {mode : Mode} {got want : DatabaseMetadata} {m : Migration} (h : migrate mode got want = .ok m) :
    ∃ d, migrateDialect got want = .ok d ∧ ∃ exts dexts,
      ((has mode CreateMissing = true ∧ d = .postgres ∧ wantExtensions got want.extensions = .ok exts) ∨
        (¬ (has mode CreateMissing = true ∧ d = .postgres) ∧ exts = [])) ∧
      ((has mode DropExtraneous = true ∧ dropExtensions want got.extensions = .ok dexts) ∨
        (has mode DropExtraneous = false ∧ dexts = [])) ∧
      m = ({ dialect := some d, currentSchema := got.currentSchema, createExtensionCmds := exts } : Migration).append
        ((if has mode CreateMissing || has mode UpdateExisting then
            Migration.concat ((want.schemas.filter fun s => !s.ignore).map (wantSchema mode d got)) else {}).append
          (if has mode DropExtraneous then dropPhase mode d got want dexts else {})) := by
  unfold migrate at h
  obtain ⟨d, hd, h⟩ := (Res.bind_eq_ok _ _ _).1 h
  obtain ⟨exts, he, h⟩ := (Res.bind_eq_ok _ _ _).1 h
  obtain ⟨drops, hdr, h⟩ := (Res.bind_eq_ok _ _ _).1 h
  refine ⟨d, hd, exts, ?_⟩
  have h1 : (has mode CreateMissing = true ∧ d = .postgres ∧ wantExtensions got want.extensions = .ok exts) ∨
        (¬ (has mode CreateMissing = true ∧ d = .postgres) ∧ exts = []) := by
    by_cases hc : has mode CreateMissing = true ∧ d = .postgres
    · rw [if_pos (by simp [hc.1, hc.2])] at he
      exact .inl ⟨hc.1, hc.2, he⟩
    · rw [if_neg (by simp only [Bool.and_eq_true, decide_eq_true_eq]; rintro ⟨⟨-, h1⟩, h2⟩; exact hc ⟨h2, h1⟩)] at he
      cases he
      exact .inr ⟨hc, rfl⟩
  cases hx : has mode DropExtraneous with
  | false =>
    rw [hx] at hdr
    cases hdr
    refine ⟨[], h1, .inr ⟨rfl, rfl⟩, ?_⟩
    cases h
    rfl
  | true =>
    rw [hx] at hdr
    rw [if_pos rfl] at hdr
    cases hde : dropExtensions want got.extensions with
    | ok dexts =>
      rw [hde] at hdr
      cases hdr
      refine ⟨dexts, h1, .inl ⟨rfl, rfl⟩, ?_⟩
      cases h
      rfl
    | err e => rw [hde] at hdr; cases hdr
    | panic => rw [hde] at hdr; cases hdr
    | hang => rw [hde] at hdr; cases hdr

end Ddl
