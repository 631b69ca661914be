import Verif.Model.Meta
/-
C33: position caches.
-/
namespace Ddl

variable {α κ : Type} [DecidableEq κ] [Entry α κ]

/-! ### Histories -/

/-- What can happen to a list of metadata and its cache.  `edit` is any direct change of the exported slice: renaming an
element, setting its Ignore flag, deleting, reordering, replacing the slice. -/
inductive CacheOp (α κ : Type) where
  | append (x : α)
  | refresh
  | lookup (k : κ)
  | edit (f : List α → List α)

def CacheOp.run : List α × Cache κ → CacheOp α κ → List α × Cache κ
  | (items, c), .append x => appendItem items c x
  | (items, c), .refresh => (items, refreshCache items c)
  | (items, c), .lookup k => (items, (cachedPosition items c k).2)
  | (items, c), .edit f => (f items, c)

/-- The state after a history, starting from nothing. -/
def history (ops : List (CacheOp α κ)) : List α × Cache κ := ops.foldl CacheOp.run ([], [])

/-! ### Maps -/

namespace Cache

theorem get_del (c : Cache κ) (k k' : κ) : (c.del k).get k' = if k' = k then none else c.get k' := by
  unfold get del
  induction c with
  | nil => simp
  | cons e c ih =>
    by_cases h1 : e.1 = k
    · rw [List.filter_cons_of_neg (by simpa using h1), ih]
      by_cases h2 : k' = k
      · rw [if_pos h2, if_pos h2]
      · rw [if_neg h2, if_neg h2, List.find?_cons_of_neg (by subst h1; simpa using fun h => h2 h.symm)]
    · rw [List.filter_cons_of_pos (by simpa using h1)]
      by_cases h2 : e.1 = k'
      · rw [List.find?_cons_of_pos (by simpa using h2), List.find?_cons_of_pos (by simpa using h2),
          if_neg (by rw [← h2]; exact h1)]
      · rw [List.find?_cons_of_neg (by simpa using h2), List.find?_cons_of_neg (by simpa using h2), ih]

theorem get_put (c : Cache κ) (k k' : κ) (v : Nat) : (c.put k v).get k' = if k' = k then some v else c.get k' := by
  by_cases h : k' = k
  · subst h
    rw [if_pos rfl]
    simp [put, get]
  · rw [if_neg h]
    have := get_del c k k'
    rw [if_neg h] at this
    rw [← this]
    unfold put get
    rw [List.find?_cons_of_neg (by simpa using fun e => h e.symm)]

end Cache

/-! ### Soundness -/

theorem cachedPosition_sound (items : List α) (c : Cache κ) (k : κ) (p : Nat) (h : (cachedPosition items c k).1 = some p) :
    ∃ x, items[p]? = some x ∧ Entry.key x = k ∧ Entry.ignore x = false := by
  unfold cachedPosition at h
  split at h
  · cases h
  · split at h
    · cases h
    · split at h
      · cases h
      · rename_i x hx
        split at h
        · cases h
        · rename_i hk
          cases h
          simp only [ne_eq, not_or, Bool.not_eq_true, Decidable.not_not] at hk
          exact ⟨x, hx, hk.1, hk.2⟩

/-- **C33.** After every history of appends, refreshes, lookups and arbitrary direct edits of the list, a lookup that returns
a position returns one whose element has the requested name and is not ignored. -/
theorem C33_sound (ops : List (CacheOp α κ)) (k : κ) (p : Nat) :
    let st := history ops
    (cachedPosition st.1 st.2 k).1 = some p → ∃ x, st.1[p]? = some x ∧ Entry.key x = k ∧ Entry.ignore x = false :=
  fun h => cachedPosition_sound _ _ k p h

/-- What a lookup answers, in terms of the map's content. -/
theorem cachedPosition_iff (items : List α) (c : Cache κ) (k : κ) (p : Nat) :
    (cachedPosition items c k).1 = some p ↔
      Entry.blank α k = false ∧ c.get k = some p ∧ ∃ x, items[p]? = some x ∧ Entry.key x = k ∧ Entry.ignore x = false := by
  constructor
  · intro h
    refine ⟨?_, ?_, cachedPosition_sound items c k p h⟩
    · unfold cachedPosition at h
      split at h
      · cases h
      · rename_i hb; simpa using hb
    · unfold cachedPosition at h
      split at h
      · cases h
      · split at h
        · cases h
        · rename_i n hn
          split at h
          · cases h
          · split at h
            · cases h
            · cases h; exact hn
  · rintro ⟨hb, hg, x, hx, hk, hi⟩
    unfold cachedPosition
    rw [if_neg (by simp [hb]), hg]
    dsimp only
    rw [hx]
    dsimp only
    rw [if_neg (by simp [hk, hi])]

/-- A lookup changes no later answer: the entries it deletes are those a lookup would reject. -/
theorem C33_lookup_pure (items : List α) (c : Cache κ) (k k' : κ) :
    (cachedPosition items (cachedPosition items c k).2 k').1 = (cachedPosition items c k').1 := by
  have key : ∀ n, c.get k = some n → (∀ x, items[n]? = some x → Entry.key x ≠ k ∨ Entry.ignore x = true) →
      (cachedPosition items (c.del k) k').1 = (cachedPosition items c k').1 := by
    intro n hn hx
    refine Option.ext fun p => ?_
    rw [cachedPosition_iff, cachedPosition_iff, Cache.get_del]
    by_cases h : k' = k
    · subst h
      rw [if_pos rfl, hn]
      constructor
      · rintro ⟨_, h, _⟩; cases h
      · rintro ⟨_, h, x, h1, h2, h3⟩
        cases h
        rcases hx x h1 with h | h
        · exact absurd h2 h
        · rw [h] at h3; cases h3
    · rw [if_neg h]
  have cases2 : (cachedPosition items c k).2 = c ∨ ((cachedPosition items c k).2 = c.del k ∧ ∃ n, c.get k = some n ∧
      ∀ x, items[n]? = some x → Entry.key x ≠ k ∨ Entry.ignore x = true) := by
    unfold cachedPosition
    split
    · exact .inl rfl
    · split
      · exact .inl rfl
      · rename_i n hn
        split
        · rename_i hx
          exact .inr ⟨rfl, n, hn, fun x h => by rw [hx] at h; cases h⟩
        · rename_i x hx
          split
          · rename_i hk
            exact .inr ⟨rfl, n, hn, fun y h => by rw [hx] at h; cases h; exact hk⟩
          · exact .inl rfl
  rcases cases2 with h | ⟨h, n, hn, hx⟩
  · rw [h]
  · rw [h]; exact key n hn hx

/-! ### Completeness -/

/-- `p` is the last position of a non-ignored element named `k`. -/
def IsLast (items : List α) (k : κ) (p : Nat) : Prop :=
  (∃ x, items[p]? = some x ∧ Entry.key x = k ∧ Entry.ignore x = false) ∧
    ∀ q x, p < q → items[q]? = some x → Entry.key x = k → Entry.ignore x = true

theorem refreshFrom_get (xs : List α) (i : Nat) (c : Cache κ) (k : κ) (p : Nat) :
    (refreshFrom xs i c).get k = some p ↔
      (∃ j, p = i + j ∧ IsLast xs k j) ∨ ((∀ x ∈ xs, Entry.key x = k → Entry.ignore x = true) ∧ c.get k = some p) := by
  induction xs generalizing i c with
  | nil =>
    simp only [refreshFrom]
    constructor
    · intro h; exact .inr ⟨by simp, h⟩
    · rintro (⟨j, -, ⟨x, h, -⟩, -⟩ | ⟨-, h⟩)
      · simp at h
      · exact h
  | cons x xs ih =>
    rw [refreshFrom, ih]
    have hlast : ∀ j, IsLast (x :: xs) k (j + 1) ↔ IsLast xs k j := by
      intro j
      constructor
      · rintro ⟨⟨y, h1, h2⟩, h3⟩
        exact ⟨⟨y, by simpa using h1, h2⟩, fun q y hq hy => h3 (q + 1) y (by omega) (by simpa using hy)⟩
      · rintro ⟨⟨y, h1, h2⟩, h3⟩
        refine ⟨⟨y, by simpa using h1, h2⟩, fun q y hq hy => ?_⟩
        obtain ⟨q, rfl⟩ : ∃ r, q = r + 1 := ⟨q - 1, by omega⟩
        exact h3 q y (by omega) (by simpa using hy)
    have hzero : IsLast (x :: xs) k 0 ↔ (Entry.key x = k ∧ Entry.ignore x = false) ∧ ∀ y ∈ xs, Entry.key y = k → Entry.ignore y = true := by
      constructor
      · rintro ⟨⟨y, h1, h2⟩, h3⟩
        simp only [List.getElem?_cons_zero, Option.some.injEq] at h1
        subst h1
        refine ⟨h2, fun y hy => ?_⟩
        obtain ⟨q, hq⟩ := List.mem_iff_getElem?.1 hy
        exact h3 (q + 1) y (by omega) (by simpa using hq)
      · rintro ⟨h1, h2⟩
        refine ⟨⟨x, by simp, h1⟩, fun q y hq hy => ?_⟩
        obtain ⟨q, rfl⟩ : ∃ r, q = r + 1 := ⟨q - 1, by omega⟩
        exact h2 y (List.mem_iff_getElem?.2 ⟨q, by simpa using hy⟩)
    constructor
    · rintro (⟨j, rfl, hj⟩ | ⟨h1, h2⟩)
      · exact .inl ⟨j + 1, by omega, (hlast j).2 hj⟩
      · by_cases hi : Entry.ignore x = true
        · rw [if_pos hi] at h2
          refine .inr ⟨?_, h2⟩
          intro y hy
          rcases List.mem_cons.1 hy with rfl | hy
          · exact fun _ => hi
          · exact h1 y hy
        · rw [if_neg hi, Cache.get_put] at h2
          split at h2
          · rename_i hk
            cases h2
            exact .inl ⟨0, by omega, hzero.2 ⟨⟨hk.symm, by simpa using hi⟩, h1⟩⟩
          · rename_i hk
            refine .inr ⟨?_, h2⟩
            intro y hy
            rcases List.mem_cons.1 hy with rfl | hy
            · exact fun e => absurd e.symm hk
            · exact h1 y hy
    · rintro (⟨j, rfl, hj⟩ | ⟨h1, h2⟩)
      · cases j with
        | succ j => exact .inl ⟨j, by omega, (hlast j).1 hj⟩
        | zero =>
          obtain ⟨⟨hk, hi⟩, h⟩ := hzero.1 hj
          refine .inr ⟨h, ?_⟩
          rw [if_neg (by simp [hi]), Cache.get_put, if_pos hk.symm]; rfl
      · refine .inr ⟨fun y hy => h1 y (by simp [hy]), ?_⟩
        by_cases hi : Entry.ignore x = true
        · rw [if_pos hi]; exact h2
        · rw [if_neg hi, Cache.get_put, if_neg ?_]
          · exact h2
          · rintro rfl
            exact hi (h1 x (by simp) rfl)

/-- **C33.** After a refresh, whatever happened before, a lookup of a (nonblank) name finds the last element of that name that
is not ignored, and nothing if there is none. -/
theorem C33_complete_after_refresh (items : List α) (c : Cache κ) (k : κ) (hb : Entry.blank α k = false) (p : Nat) :
    (cachedPosition items (refreshCache items c) k).1 = some p ↔ IsLast items k p := by
  rw [cachedPosition_iff, refreshCache, refreshFrom_get]
  constructor
  · rintro ⟨-, ⟨j, rfl, hj⟩ | ⟨h1, -⟩, x, hx, hk, hi⟩
    · simpa using hj
    · have := h1 x (List.mem_iff_getElem?.2 ⟨p, hx⟩) hk
      rw [this] at hi; cases hi
  · intro h
    exact ⟨hb, .inl ⟨p, by omega, h⟩, h.1⟩

/-- The cache finds every element. -/
def Complete (items : List α) (c : Cache κ) : Prop :=
  ∀ k p, Entry.blank α k = false → ((cachedPosition items c k).1 = some p ↔ IsLast items k p)

theorem complete_nil : Complete ([] : List α) ([] : Cache κ) := by
  intro k p _
  rw [cachedPosition_iff]
  constructor
  · rintro ⟨_, h, _⟩; cases h
  · rintro ⟨⟨x, h, _⟩, _⟩; simp at h

theorem complete_append (items : List α) (c : Cache κ) (x : α) (hx : Entry.ignore x = false) (h : Complete items c) :
    Complete (appendItem items c x).1 (appendItem items c x).2 := by
  intro k p hb
  have hk := h k p hb
  rw [cachedPosition_iff] at hk ⊢
  simp only [appendItem, Cache.get_put]
  have hget : ∀ q, q < items.length → (items ++ [x])[q]? = items[q]? := fun q hq => List.getElem?_append_left hq
  have hlen : (items ++ [x])[items.length]? = some x := by simp
  by_cases hkx : k = Entry.key x
  · rw [if_pos hkx]
    constructor
    · rintro ⟨-, h1, -⟩
      cases h1
      refine ⟨⟨x, hlen, hkx.symm, hx⟩, fun q y hq hy => ?_⟩
      rw [List.getElem?_eq_none (by simp; omega)] at hy; cases hy
    · rintro ⟨⟨y, hy, hyk, hyi⟩, h2⟩
      have hp : p = items.length := by
        have hlt : p < (items ++ [x]).length := (List.getElem?_eq_some_iff.1 hy).1
        simp only [List.length_append, List.length_singleton] at hlt
        rcases Nat.lt_or_ge p items.length with hl | hl
        · have := h2 items.length x hl hlen hkx.symm
          rw [hx] at this; cases this
        · omega
      subst hp
      exact ⟨hb, rfl, x, hlen, hkx.symm, hx⟩
  · rw [if_neg hkx]
    constructor
    · rintro ⟨-, h1, y, hy, hyk, hyi⟩
      have hlt : p < items.length := by
        have hlt : p < (items ++ [x]).length := (List.getElem?_eq_some_iff.1 hy).1
        simp only [List.length_append, List.length_singleton] at hlt
        rcases Nat.lt_or_ge p items.length with hl | hl
        · exact hl
        · obtain rfl : p = items.length := by omega
          rw [hlen] at hy; cases hy; exact absurd hyk.symm hkx
      rw [hget p hlt] at hy
      obtain ⟨h3, h4⟩ := hk.1 ⟨hb, h1, y, hy, hyk, hyi⟩
      refine ⟨⟨y, by rw [hget p hlt]; exact hy, hyk, hyi⟩, fun q z hq hz hzk => ?_⟩
      rcases Nat.lt_or_ge q items.length with hl | hl
      · rw [hget q hl] at hz; exact h4 q z hq hz hzk
      · have hlt : q < (items ++ [x]).length := (List.getElem?_eq_some_iff.1 hz).1
        simp only [List.length_append, List.length_singleton] at hlt
        obtain rfl : q = items.length := by omega
        rw [hlen] at hz; cases hz; exact absurd hzk.symm hkx
    · rintro ⟨⟨y, hy, hyk, hyi⟩, h2⟩
      have hlt : p < items.length := by
        have hlt : p < (items ++ [x]).length := (List.getElem?_eq_some_iff.1 hy).1
        simp only [List.length_append, List.length_singleton] at hlt
        rcases Nat.lt_or_ge p items.length with hl | hl
        · exact hl
        · obtain rfl : p = items.length := by omega
          rw [hlen] at hy; cases hy; exact absurd hyk.symm hkx
      have hy' := hy
      rw [hget p hlt] at hy
      obtain ⟨-, h5, -⟩ := hk.2 ⟨⟨y, hy, hyk, hyi⟩, fun q z hq hz hzk => by
        have hql : q < items.length := (List.getElem?_eq_some_iff.1 hz).1
        exact h2 q z hq (by rw [hget q hql]; exact hz) hzk⟩
      exact ⟨hb, h5, y, hy', hyk, hyi⟩

theorem complete_lookup (items : List α) (c : Cache κ) (k : κ) (h : Complete items c) :
    Complete items (cachedPosition items c k).2 := by
  intro k' p hb
  rw [C33_lookup_pure]
  exact h k' p hb

/-- An operation that keeps caches complete: anything but a direct edit or appending an ignored element. -/
def CacheOp.Plain : CacheOp α κ → Prop
  | .append x => Entry.ignore x = false
  | .refresh => True
  | .lookup _ => True
  | .edit _ => False

/-- **C33.** As long as the list is changed through the package's append functions only (with elements that are not ignored),
a lookup of a nonblank name finds the last element of that name, and nothing only if there is none. -/
theorem C33_complete (ops : List (CacheOp α κ)) (h : ∀ op ∈ ops, op.Plain) (k : κ) (hb : Entry.blank α k = false) (p : Nat) :
    let st := history ops
    (cachedPosition st.1 st.2 k).1 = some p ↔ IsLast st.1 k p := by
  have : ∀ (ops : List (CacheOp α κ)) (st : List α × Cache κ), (∀ op ∈ ops, op.Plain) → Complete st.1 st.2 →
      Complete (ops.foldl CacheOp.run st).1 (ops.foldl CacheOp.run st).2 := by
    intro ops
    induction ops with
    | nil => intro st _ h; exact h
    | cons op ops ih =>
      intro st hp hst
      refine ih _ (fun o ho => hp o (by simp [ho])) ?_
      have hop := hp op (by simp)
      cases op with
      | append x => exact complete_append _ _ _ hop hst
      | refresh => exact fun k p hb => C33_complete_after_refresh _ _ k hb p
      | lookup k => exact complete_lookup _ _ _ hst
      | edit f => exact hop.elim
  exact this ops ([], []) h complete_nil k p hb

/-- **C33, the limit.** Appending an ignored duplicate hides the element until the next refresh. -/
theorem C33_ignored_duplicate_hides :
    let t : Table := { tableName := "t".toList }
    let st := history (κ := Str) [.append t, .append { t with ignore := true }]
    (cachedPosition st.1 st.2 "t".toList).1 = none ∧ (cachedPosition st.1 (refreshCache st.1 st.2) "t".toList).1 = some 0 := by
  decide

/-- A history with a direct edit: the table is renamed, so the old name is no longer found (nor the new one, before a
refresh). -/
example :
    let t : Table := { tableName := "t".toList }
    let st := history (κ := Str) [.append t, .lookup "t".toList, .edit fun l => l.map fun x => { x with tableName := "u".toList }]
    (cachedPosition st.1 st.2 "t".toList).1 = none ∧ (cachedPosition st.1 st.2 "u".toList).1 = none ∧
      (cachedPosition st.1 (refreshCache st.1 st.2) "u".toList).1 = some 0 := by decide

/-- Functions: every position returned has the requested name … -/
theorem C33_functions (s : Schema) (n : Str) (p : Nat) (h : p ∈ s.cachedFunctionPositions n) :
    ∃ f, s.functions[p]? = some f ∧ f.functionName = n := by
  unfold Schema.cachedFunctionPositions at h
  split at h
  · cases h
  · obtain ⟨-, h⟩ := List.mem_filter.1 h
    split at h
    · cases h
    · rename_i f hf; exact ⟨f, hf, by simpa using h⟩

theorem fget_fput (c : List (Str × List Nat)) (k k' : Str) (v : List Nat) :
    fget (fput c k v) k' = if k' = k then v else fget c k' := by
  unfold fget fput
  grind

/-- The positions of the functions that pass a test, in ascending order. -/
def positionsFrom (p : Function → Bool) : List Function → Nat → List Nat
  | [], _ => []
  | f :: fs, i => (if p f then [i] else []) ++ positionsFrom p fs (i + 1)

theorem mem_positionsFrom (p : Function → Bool) (fs : List Function) (i j : Nat) :
    j ∈ positionsFrom p fs i ↔ ∃ f, i ≤ j ∧ fs[j - i]? = some f ∧ p f = true := by
  induction fs generalizing i with
  | nil => simp [positionsFrom]
  | cons f fs ih =>
    simp only [positionsFrom, List.mem_append, ih]
    constructor
    · rintro (h | ⟨g, h1, h2, h3⟩)
      · split at h
        · simp only [List.mem_cons, List.not_mem_nil, or_false] at h
          subst h
          exact ⟨f, Nat.le_refl _, by simp, by assumption⟩
        · cases h
      · refine ⟨g, by omega, ?_, h3⟩
        rw [show j - i = (j - (i + 1)) + 1 by omega]
        simpa using h2
    · rintro ⟨g, h1, h2, h3⟩
      rcases Nat.lt_or_ge i j with hl | hl
      · refine Or.inr ⟨g, hl, ?_, h3⟩
        rw [show j - i = (j - (i + 1)) + 1 by omega] at h2
        simpa using h2
      · obtain rfl : j = i := by omega
        simp only [Nat.sub_self, List.getElem?_cons_zero, Option.some.injEq] at h2
        subst h2
        exact Or.inl (by simp [h3])

theorem refresh_fget (fs : List Function) (i : Nat) (c : List (Str × List Nat)) (n : Str) :
    fget (refreshFunctionsFrom fs i c) n = fget c n ++ positionsFrom (fun f => !f.ignore && f.functionName == n) fs i := by
  induction fs generalizing i c with
  | nil => simp [refreshFunctionsFrom, positionsFrom]
  | cons f fs ih =>
    simp only [refreshFunctionsFrom, positionsFrom, ih]
    by_cases hi : f.ignore = true
    · simp [hi]
    · simp only [hi, Bool.false_eq_true, if_false, fget_fput, Bool.not_false, Bool.true_and, beq_iff_eq]
      by_cases hn : n = f.functionName
      · subst hn; simp
      · simp [hn, Ne.symm hn]

theorem fget_cleared (c : List (Str × List Nat)) (n : Str) : fget (c.map fun e => (e.1, [])) n = [] := by
  unfold fget
  induction c with
  | nil => simp
  | cons e c ih => grind

/-- After a refresh a function name stands for exactly the functions of that name that are not ignored, all overloads of them. -/
theorem C33_functions_refreshed (s : Schema) (n : Str) (hn : n ≠ []) (p : Nat) :
    p ∈ s.refreshFunctionCache.cachedFunctionPositions n ↔ ∃ f, s.functions[p]? = some f ∧ f.functionName = n ∧ f.ignore = false := by
  unfold Schema.cachedFunctionPositions
  rw [if_neg hn, List.mem_filter]
  simp only [Schema.refreshFunctionCache, refresh_fget, fget_cleared, List.nil_append, mem_positionsFrom]
  constructor
  · rintro ⟨⟨f, -, h2, h3⟩, -⟩
    simp only [Bool.and_eq_true, Bool.not_eq_true', beq_iff_eq] at h3
    exact ⟨f, h2, h3.2, h3.1⟩
  · rintro ⟨f, h1, h2, h3⟩
    refine ⟨⟨f, Nat.zero_le _, h1, by simp [h2, h3]⟩, ?_⟩
    simp only [h1]
    simpa using h2

theorem positionsFrom_append (p : Function → Bool) (fs gs : List Function) (i : Nat) :
    positionsFrom p (fs ++ gs) i = positionsFrom p fs i ++ positionsFrom p gs (i + fs.length) := by
  induction fs generalizing i with
  | nil => simp [positionsFrom]
  | cons f fs ih => simp [positionsFrom, ih, Nat.add_assoc, Nat.add_comm 1]

/-- Without a refresh: a schema filled by appending functions finds all overloads of a name (ignored ones included). -/
theorem C33_functions_appended (fs : List Function) (n : Str) (hn : n ≠ []) (p : Nat) :
    p ∈ (fs.foldl Schema.appendFunction {}).cachedFunctionPositions n ↔ ∃ f, fs[p]? = some f ∧ f.functionName = n := by
  have inv : ∀ (gs : List Function) (s : Schema),
      (∀ k, fget s.functionCache k = positionsFrom (fun f => f.functionName == k) s.functions 0) →
      (gs.foldl Schema.appendFunction s).functions = s.functions ++ gs ∧
      ∀ k, fget (gs.foldl Schema.appendFunction s).functionCache k =
        positionsFrom (fun f => f.functionName == k) (gs.foldl Schema.appendFunction s).functions 0 := by
    intro gs
    induction gs with
    | nil => intro s h; exact ⟨by simp, h⟩
    | cons g gs ih =>
      intro s h
      obtain ⟨h1, h2⟩ := ih (s.appendFunction g) (by
        intro k
        simp only [Schema.appendFunction, fget_fput, positionsFrom_append, positionsFrom, h, Nat.zero_add, List.append_nil, beq_iff_eq]
        by_cases hk : k = g.functionName
        · subst hk; simp
        · simp [hk, Ne.symm hk])
      exact ⟨by rw [List.foldl_cons, h1]; simp [Schema.appendFunction], h2⟩
  obtain ⟨h1, h2⟩ := inv fs {} (by intro k; rfl)
  unfold Schema.cachedFunctionPositions
  rw [if_neg hn, List.mem_filter, h2, mem_positionsFrom, h1]
  simp only [List.nil_append, Nat.sub_zero]
  constructor
  · rintro ⟨⟨f, -, h2, h3⟩, -⟩
    exact ⟨f, h2, by simpa using h3⟩
  · rintro ⟨f, h1, h2⟩
    exact ⟨⟨f, Nat.zero_le _, h1, by simp [h2]⟩, by simp [h1, h2]⟩

/-- Two overloads of `f`, one of them ignored, and another function. -/
example :
    let fs : List Function := [{ functionName := "f".toList }, { functionName := "g".toList }, { functionName := "f".toList, rawArgs := "int".toList },
      { functionName := "f".toList, ignore := true }]
    (fs.foldl Schema.appendFunction {}).cachedFunctionPositions "f".toList = [0, 2, 3] ∧
      (fs.foldl Schema.appendFunction {}).refreshFunctionCache.cachedFunctionPositions "f".toList = [0, 2] := by decide

/-- … but, unlike for all other lists, it may be an ignored one. -/
theorem C33_ignored_function_violated :
    let s := ({} : Schema).appendFunction { functionName := "f".toList, ignore := true }
    s.cachedFunctionPositions "f".toList = [0] := by decide

/-- **C33 fails for extensions.** An appended extension is not found when there are at most as many schemas as its position
(the bound is taken from the wrong list), a name is found at the position of a longer name, and the lookup may panic. -/
theorem C33_extensions_violated :
    let d := ({} : DatabaseMetadata).appendExtension "pgcrypto@1.3".toList
    d.cachedExtensionPosition "pgcrypto".toList = .ok none ∧
      ({ d with schemas := [{}], extensions := ["pgcrypto2".toList] } : DatabaseMetadata).cachedExtensionPosition "pgcrypto".toList = .ok (some 0) ∧
      ({ d with schemas := [{}], extensions := [] } : DatabaseMetadata).cachedExtensionPosition "pgcrypto".toList = .panic := by decide

end Ddl
