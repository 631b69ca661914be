import Verif.Model.Builder
import Verif.Spec.Builder
/-
C27: deriving queries from a common base.
-/
namespace Sq.Building
open Spec.Building

variable {α : Type} [Inhabited α]

/-! ### Heaps -/

theorem Heap.arr_append_left {h : Heap α} {a : Nat} (x : List (List α)) (ha : a < h.length) : Heap.arr (h ++ x) a = h.arr a := by
  simp [Heap.arr, List.getElem?_append_left ha]

theorem Heap.arr_append_new {h : Heap α} (x : List α) : Heap.arr (h ++ [x]) h.length = x := by simp [Heap.arr]

theorem Heap.arr_modify_ne {h : Heap α} {a b : Nat} (f : List α → List α) (hb : b ≠ a) : Heap.arr (h.modify a f) b = h.arr b := by
  simp [Heap.arr, List.getElem?_modify, Ne.symm hb]

theorem Heap.arr_modify_eq {h : Heap α} {a : Nat} (f : List α → List α) (ha : a < h.length) : Heap.arr (h.modify a f) a = f (h.arr a) := by
  simp [Heap.arr, List.getElem?_modify, ha]

/-- What is known about the references (slice and origin) into the heap. -/
structure Inv (h : Heap α) (R : Slice → Option Nat → Prop) (used : List Nat) : Prop where
  nil : 0 < h.length ∧ h.arr 0 = []
  valid : ∀ s v, R s v → s.arr < h.length ∧ s.len ≤ (h.arr s.arr).length
  tight : ∀ s, R s none → s.len = (h.arr s.arr).length
  zero : ∀ s v, R s v → s.arr = 0 → v = none
  shorter : ∀ s v s' v', R s v → R s' v' → s.arr = s'.arr → s.len < s'.len → ∃ n, v = some n ∧ n ∈ used
  uniq : ∀ s v s' v', R s v → R s' v' → s.arr = s'.arr → s.len = s'.len → v = v'

/-- The state after an effect, seen from the references before it. -/
structure Next (h : Heap α) (R : Slice → Option Nat → Prop) (h' : Heap α) (R' : Slice → Option Nat → Prop) (used' : List Nat) : Prop where
  inv : Inv h' R' used'
  mono : ∀ s v, R s v → R' s v
  same : ∀ s v, R s v → h'.read s = h.read s

theorem Inv.weaken {h : Heap α} {R} {used used' : List Nat} (i : Inv h R used) (hu : ∀ n ∈ used, n ∈ used') : Inv h R used' where
  nil := i.nil
  valid := i.valid
  tight := i.tight
  zero := i.zero
  shorter s v s' v' h1 h2 h3 h4 := by
    obtain ⟨n, hn, hm⟩ := i.shorter s v s' v' h1 h2 h3 h4
    exact ⟨n, hn, hu n hm⟩
  uniq := i.uniq

/-- A new array with one reference to all of it or to a part. -/
theorem Inv.alloc {h : Heap α} {R} {used : List Nat} (i : Inv h R used) (xs : List α) (n : Nat) (v : Option Nat)
    (hn : n ≤ xs.length) (hv : v = none → n = xs.length) :
    Next h R (h ++ [xs]) (fun s w => R s w ∨ (s = ⟨h.length, n⟩ ∧ w = v)) used where
  mono s w hs := Or.inl hs
  same s w hs := by
    have := (i.valid s w hs).1
    simp [Heap.read, Heap.arr_append_left _ this]
  inv :=
    { nil := by
        refine ⟨by simp, ?_⟩
        rw [Heap.arr_append_left _ i.nil.1]; exact i.nil.2
      valid := by
        rintro s w (hs | ⟨rfl, rfl⟩)
        · have := i.valid s w hs
          refine ⟨by simp; omega, ?_⟩
          rw [Heap.arr_append_left _ this.1]; exact this.2
        · exact ⟨by simp, by simpa [Heap.arr_append_new] using hn⟩
      tight := by
        rintro s (hs | ⟨rfl, hw⟩)
        · rw [Heap.arr_append_left _ (i.valid s _ hs).1]; exact i.tight s hs
        · simpa [Heap.arr_append_new] using hv hw.symm
      zero := by
        rintro s w (hs | ⟨rfl, rfl⟩) h0
        · exact i.zero s w hs h0
        · have := i.nil.1; simp at h0; subst h0; simp at this
      shorter := by
        rintro s w s' w' (hs | ⟨rfl, rfl⟩) (hs' | ⟨rfl, rfl⟩) ha hl
        · exact i.shorter s w s' w' hs hs' ha hl
        · have := (i.valid s w hs).1; simp at ha; omega
        · have := (i.valid s' w' hs').1; simp at ha; omega
        · simp at hl
      uniq := by
        rintro s w s' w' (hs | ⟨rfl, rfl⟩) (hs' | ⟨rfl, rfl⟩) ha hl
        · exact i.uniq s w s' w' hs hs' ha hl
        · have := (i.valid s w hs).1; simp at ha; omega
        · have := (i.valid s' w' hs').1; simp at ha; omega
        · rfl }

theorem Heap.read_fresh (h : Heap α) (xs : List α) : (h.fresh xs).1.read (h.fresh xs).2 = xs := by
  simp [Heap.fresh, Heap.read, Heap.arr_append_new]

/-- Reading the result of `append`. -/
theorem Heap.read_append (grow : Nat → Nat → Nat) {h : Heap α} {s : Slice} (xs : List α)
    (hv : s.arr < h.length ∧ s.len ≤ (h.arr s.arr).length) :
    (h.append grow s xs).1.read (h.append grow s xs).2 = h.read s ++ xs := by
  unfold Heap.append
  split
  · simp_all
  · split
    · simp only [Heap.read]
      rw [Heap.arr_modify_eq _ hv.1]
      have h1 : (List.take s.len (h.arr s.arr)).length = s.len := by simp; omega
      rw [List.append_assoc, List.take_append, h1, List.take_of_length_le (by omega : (List.take s.len (h.arr s.arr)).length ≤ _)]
      congr 1
      rw [show s.len + xs.length - s.len = xs.length by omega, List.take_left]
    · simp only [Heap.read]
      rw [Heap.arr_append_new, List.append_assoc]
      have h1 : (List.take s.len (h.arr s.arr)).length = s.len := by simp; omega
      rw [List.take_append, h1, List.take_of_length_le (by omega : (List.take s.len (h.arr s.arr)).length ≤ _)]
      congr 1
      rw [show s.len + xs.length - s.len = xs.length by omega, List.take_left]

/-- `append` to a slice whose origin has not been used before changes no other slice. -/
theorem Inv.append (grow : Nat → Nat → Nat) {h : Heap α} {R} {used used' : List Nat} (i : Inv h R used) {s : Slice} {o : Option Nat}
    (hs : R s o) (xs : List α) (t : Nat) (hx : xs ≠ [])
    (ho : (o = none → used' = used) ∧ ∀ n, o = some n → n ∉ used ∧ used' = n :: used) :
    Next h R (h.append grow s xs).1 (fun s' w => R s' w ∨ (s' = (h.append grow s xs).2 ∧ w = some t)) used' := by
  have hsub : ∀ n ∈ used, n ∈ used' := by
    intro n hn
    cases o with
    | none => rw [ho.1 rfl]; exact hn
    | some m => rw [(ho.2 m rfl).2]; exact List.mem_cons_of_mem _ hn
  have hlen : 0 < xs.length := List.length_pos_iff.mpr hx
  unfold Heap.append
  rw [if_neg hx]
  split
  · rename_i hcap
    -- in place: the origin is `some n`, unused
    cases o with
    | none => have := i.tight s hs; omega
    | some n =>
      obtain ⟨hn, rfl⟩ := ho.2 n rfl
      have hv := i.valid s _ hs
      have hle : ∀ s' w, R s' w → s'.arr = s.arr → s'.len ≤ s.len := by
        intro s' w hs' ha
        refine Classical.byContradiction fun hlt => ?_
        obtain ⟨m, hm, hm'⟩ := i.shorter s _ s' w hs hs' ha.symm (by omega)
        cases hm; exact hn hm'
      have hlen' : ∀ a, (Heap.arr (h.modify s.arr fun a => a.take s.len ++ xs ++ a.drop (s.len + xs.length)) a).length
          = (h.arr a).length := by
        intro a
        rcases Decidable.em (a = s.arr) with rfl | ha
        · rw [Heap.arr_modify_eq _ hv.1]; simp; omega
        · rw [Heap.arr_modify_ne _ ha]
      refine ⟨⟨?_, ?_, ?_, ?_, ?_, ?_⟩, fun _ _ h => Or.inl h, ?_⟩
      · refine ⟨by simpa using i.nil.1, ?_⟩
        have := hlen' 0
        rw [i.nil.2] at this
        exact List.length_eq_zero_iff.mp this
      · rintro s' w (hs' | ⟨rfl, rfl⟩)
        · have := i.valid s' w hs'
          rw [hlen']; simpa using this
        · rw [hlen']; exact ⟨by simpa using hv.1, hcap⟩
      · rintro s' (hs' | ⟨rfl, hw⟩)
        · rw [hlen']; exact i.tight s' hs'
        · exact nomatch hw
      · rintro s' w (hs' | ⟨rfl, rfl⟩) h0
        · exact i.zero s' w hs' h0
        · exact nomatch i.zero s _ hs h0
      · rintro s1 w1 s2 w2 (h1 | ⟨rfl, rfl⟩) (h2 | ⟨rfl, rfl⟩) ha hl
        · obtain ⟨m, hm, hm'⟩ := i.shorter s1 w1 s2 w2 h1 h2 ha hl
          exact ⟨m, hm, List.mem_cons_of_mem _ hm'⟩
        · simp only at ha hl
          have := hle s1 w1 h1 ha
          rcases Nat.lt_or_ge s1.len s.len with hlt | hge
          · obtain ⟨m, hm, hm'⟩ := i.shorter s1 w1 s _ h1 hs ha hlt
            exact ⟨m, hm, List.mem_cons_of_mem _ hm'⟩
          · have := i.uniq s1 w1 s _ h1 hs ha (by omega)
            exact ⟨n, this, List.mem_cons_self⟩
        · simp only at ha hl
          have := hle s2 w2 h2 ha.symm
          omega
        · simp at hl
      · rintro s1 w1 s2 w2 (h1 | ⟨rfl, rfl⟩) (h2 | ⟨rfl, rfl⟩) ha hl
        · exact i.uniq s1 w1 s2 w2 h1 h2 ha hl
        · simp only at ha hl
          have := hle s1 w1 h1 ha
          omega
        · simp only at ha hl
          have := hle s2 w2 h2 ha.symm
          omega
        · rfl
      · intro s' w hs'
        simp only [Heap.read]
        rcases Decidable.em (s'.arr = s.arr) with ha | ha
        · rw [ha, Heap.arr_modify_eq _ hv.1]
          have := hle s' w hs' ha
          rw [List.append_assoc, List.take_append_of_le_length (by simp; omega), List.take_take]
          congr 1; omega
        · rw [Heap.arr_modify_ne _ ha]
  · have := (i.weaken hsub).alloc (h.read s ++ xs ++ List.replicate (grow (h.arr s.arr).length (s.len + xs.length) - (s.len + xs.length)) default)
      (s.len + xs.length) (some t) (by
        have := (i.valid s _ hs).2
        simp [Heap.read]; omega) (fun h => nomatch h)
    exact this

/-! ### Effects on a tracked query -/

/-- The query struct has these contents. -/
def Shows (h : Heap α) (q : Query α) (v : Value α) : Prop :=
  q.kind = v.kind ∧ q.dialect = v.dialect ∧ q.slots = v.slots ∧ ∀ c, h.read (q.slices c) = v.clauses c

theorem Shows.keep {h h' : Heap α} {R R'} {used : List Nat} {q : Query α} {v : Value α} {o : Clause → Option Nat}
    (n : Next h R h' R' used) (hq : ∀ c, R (q.slices c) (o c)) (hs : Shows h q v) : Shows h' q v :=
  ⟨hs.1, hs.2.1, hs.2.2.1, fun c => by rw [n.same _ _ (hq c)]; exact hs.2.2.2 c⟩

/-- A copy whose clause `c` was given a new slice. -/
theorem Shows.setSlice {h : Heap α} {q : Query α} {v : Value α} (hs : Shows h q v) (c : Clause) (s : Slice) (xs : List α)
    (hr : h.read s = xs) : Shows h (q.setSlice c s) (v.setClause c xs) := by
  refine ⟨hs.1, hs.2.1, hs.2.2.1, fun c' => ?_⟩
  simp only [Query.setSlice, Value.setClause]
  split
  · exact hr
  · exact hs.2.2.2 c'

theorem Next.refl {h : Heap α} {R} {used : List Nat} (i : Inv h R used) : Next h R h R used := ⟨i, fun _ _ h => h, fun _ _ _ => rfl⟩

theorem Next.trans {h h' h'' : Heap α} {R R' R''} {u u' : List Nat} (a : Next h R h' R' u) (b : Next h' R' h'' R'' u') :
    Next h R h'' R'' u' :=
  ⟨b.inv, fun s v hs => b.mono s v (a.mono s v hs), fun s v hs => (b.same s v (a.mono s v hs)).trans (a.same s v hs)⟩

/-- What an allowed effect does. -/
def Allowed (h : Heap α) (R : Slice → Option Nat → Prop) (r : Heap α × Query α) (x' : Tracked α) (used' : List Nat) : Prop :=
  ∃ R', Next h R r.1 R' used' ∧ (∀ c, R' (r.2.slices c) (x'.origin c)) ∧ Shows r.1 r.2 x'.value

theorem append_allowed (grow : Nat → Nat → Nat) {h : Heap α} {R} {used used' : List Nat} (i : Inv h R used) {q : Query α}
    {x x' : Tracked α} {t : Nat} {c : Clause} {xs : List α} (hq : ∀ c, R (q.slices c) (x.origin c)) (hs : Shows h q x.value)
    (he : x.append t used c xs = some (x', used')) :
    Allowed h R ((h.append grow (q.slices c) xs).1, q.setSlice c (h.append grow (q.slices c) xs).2) x' used' := by
  unfold Tracked.append at he
  split at he
  · rename_i hx
    subst hx
    simp only [Option.some.injEq, Prod.mk.injEq] at he
    obtain ⟨rfl, rfl⟩ := he
    refine ⟨R, ?_, ?_, ?_⟩
    · simp only [Heap.append, if_true]; exact Next.refl i
    · intro c'
      simp only [Heap.append, if_true, Query.setSlice]
      split
      · rename_i hc; subst hc; exact hq c'
      · exact hq c'
    · simp only [Heap.append, if_true]
      refine ⟨hs.1, hs.2.1, hs.2.2.1, fun c' => ?_⟩
      simp only [Query.setSlice]
      split
      · rename_i hc; subst hc; exact hs.2.2.2 c'
      · exact hs.2.2.2 c'
  · rename_i hx
    have key : ((x.origin c = none → used' = used) ∧ ∀ n, x.origin c = some n → n ∉ used ∧ used' = n :: used) ∧
        x' = ⟨x.value.edit (.append c xs), fun c' => if c' = c then some t else x.origin c'⟩ := by
      revert he
      cases x.origin c with
      | none => simp only [Option.some.injEq, Prod.mk.injEq]; rintro ⟨rfl, rfl⟩; exact ⟨⟨fun _ => rfl, (fun _ h => nomatch h)⟩, rfl⟩
      | some n =>
        simp only
        split
        · intro h; exact nomatch h
        · rename_i hn
          simp only [Option.some.injEq, Prod.mk.injEq]; rintro ⟨rfl, rfl⟩; exact ⟨⟨(fun h => nomatch h), fun m hm => by cases hm; exact ⟨hn, rfl⟩⟩, rfl⟩
    obtain ⟨ho, rfl⟩ := key
    have nx := i.append grow (hq c) xs t hx ho
    refine ⟨_, nx, ?_, ?_⟩
    · intro c'
      simp only [Query.setSlice]
      by_cases hc : c' = c
      · simp [hc]
      · simp [hc, hq c']
    · have := (Shows.keep nx hq hs).setSlice c (h.append grow (q.slices c) xs).2 (x.value.clauses c ++ xs)
        (by rw [Heap.read_append grow xs (i.valid _ _ (hq c)), hs.2.2.2 c])
      exact this

theorem edit_allowed (grow : Nat → Nat → Nat) {h : Heap α} {R} {used used' : List Nat} (i : Inv h R used) {q : Query α}
    {x x' : Tracked α} {t : Nat} (e : Effect α) (hq : ∀ c, R (q.slices c) (x.origin c)) (hs : Shows h q x.value)
    (he : x.edit t used e = some (x', used')) : Allowed h R (e.run grow (h, q)) x' used' := by
  cases e with
  | append c xs => exact append_allowed grow i hq hs he
  | assign c a =>
    cases a with
    | spread s => exact nomatch he
    | list xs =>
      simp only [Tracked.edit, Option.some.injEq, Prod.mk.injEq] at he
      obtain ⟨rfl, rfl⟩ := he
      have nx := i.alloc xs xs.length none (Nat.le_refl _) (fun _ => rfl)
      refine ⟨_, nx, ?_, ?_⟩
      · intro c'
        simp only [Effect.run, Heap.fresh, Query.setSlice]
        by_cases hc : c' = c
        · simp [hc]
        · simp [hc, hq c']
      · exact (Shows.keep nx hq hs).setSlice c _ xs (Heap.read_fresh h xs)
  | set f v =>
    simp only [Tracked.edit, Option.some.injEq, Prod.mk.injEq] at he
    obtain ⟨rfl, rfl⟩ := he
    refine ⟨R, Next.refl i, hq, hs.1, hs.2.1, ?_, hs.2.2.2⟩
    simp only [Effect.run, Query.setSlot, Value.edit, hs.2.2.1]
  | flip f v =>
    simp only [Tracked.edit, Option.some.injEq, Prod.mk.injEq] at he
    obtain ⟨rfl, rfl⟩ := he
    refine ⟨R, Next.refl i, hq, hs.1, hs.2.1, ?_, hs.2.2.2⟩
    simp only [Effect.run, Query.flipSlot, Value.edit, hs.2.2.1]
    cases x.value.slots f <;> rfl
  | overwrite c v =>
    simp only [Tracked.edit] at he
    split at he
    · rename_i hempty
      have hz : (q.slices c).len = 0 := by
        have h1 := hs.2.2.2 c
        have h2 := (i.valid _ _ (hq c)).2
        rw [hempty] at h1
        have h3 := congrArg List.length h1
        rw [Heap.read, List.length_take, List.length_nil] at h3
        omega
      have := append_allowed grow i hq hs he
      simpa only [Effect.run, hz, if_true] using this
    · exact nomatch he

theorem edits_allowed (grow : Nat → Nat → Nat) (es : List (Effect α)) : ∀ {h : Heap α} {R} {used used' : List Nat} (_ : Inv h R used)
    {q : Query α} {x x' : Tracked α} {t : Nat} (_ : ∀ c, R (q.slices c) (x.origin c)) (_ : Shows h q x.value)
    (_ : x.edits t used es = some (x', used')), Allowed h R (runEffects grow es (h, q)) x' used' := by
  induction es with
  | nil =>
    intro h R used used' i q x x' t hq hs he
    simp only [Tracked.edits, Option.some.injEq, Prod.mk.injEq] at he
    obtain ⟨rfl, rfl⟩ := he
    exact ⟨R, Next.refl i, hq, hs⟩
  | cons e es ih =>
    intro h R used used' i q x x' t hq hs he
    simp only [Tracked.edits] at he
    cases hr : x.edit t used e with
    | none => rw [hr] at he; exact nomatch he
    | some r =>
      rw [hr] at he
      obtain ⟨R', nx, hq', hs'⟩ := edit_allowed grow i e hq hs hr
      obtain ⟨R'', nx', hq'', hs''⟩ := ih nx.inv hq' hs' he
      exact ⟨R'', nx.trans nx', hq'', hs''⟩

/-! ### Programs -/

/-- The memory and the tracked program agree, given the references in use. -/
structure Holds (R : Slice → Option Nat → Prop) (st : State α) (T : Tracking α) : Prop where
  inv : Inv st.heap R T.used
  length : st.queries.length = T.queries.length
  queries : ∀ (i : Nat) (q : Query α) (x : Tracked α), st.queries[i]? = some q → T.queries[i]? = some x →
    (∀ c, R (q.slices c) (x.origin c)) ∧ Shows st.heap q x.value
  clength : st.conflicts.length = T.conflicts.length
  conflicts : ∀ (i n : Nat) (x : Tracked α), st.conflicts[i]? = some n → T.conflicts[i]? = some (x, false) →
    ∃ q, st.cells[n]? = some q ∧ (∀ c, R (q.slices c) (x.origin c)) ∧ Shows st.heap q x.value
  apart : ∀ (i j n : Nat) (x y : Tracked α), st.conflicts[i]? = some n → st.conflicts[j]? = some n → T.conflicts[i]? = some (x, false) →
    T.conflicts[j]? = some (y, false) → i = j
  below : ∀ (i n : Nat), st.conflicts[i]? = some n → n < st.cells.length

theorem getElem?_snoc {β : Type} {l : List β} {b y : β} {i : Nat} (h : (l ++ [b])[i]? = some y) :
    l[i]? = some y ∨ (i = l.length ∧ y = b) := by
  rcases Nat.lt_or_ge i l.length with hi | hi
  · rw [List.getElem?_append_left hi] at h; exact Or.inl h
  · rw [List.getElem?_append_right hi] at h
    rcases Nat.eq_or_lt_of_le hi with he | hlt
    · rw [he, Nat.sub_self] at h
      simp at h
      exact Or.inr ⟨he.symm, h.symm⟩
    · rw [List.getElem?_eq_none (by simp; omega)] at h; exact nomatch h

theorem lookup_pair {β γ : Type} {l : List β} {l' : List γ} (hl : l.length = l'.length) (i : Nat) :
    (l[i]? = none ∧ l'[i]? = none) ∨ ∃ a b, l[i]? = some a ∧ l'[i]? = some b := by
  rcases Nat.lt_or_ge i l.length with h | h
  · exact Or.inr ⟨_, _, List.getElem?_eq_getElem h, List.getElem?_eq_getElem (hl ▸ h)⟩
  · exact Or.inl ⟨List.getElem?_eq_none h, List.getElem?_eq_none (hl ▸ h)⟩

/-- Two lists of the same length, extended by one element each. -/
theorem snoc_pair {β γ : Type} {l : List β} {l' : List γ} {a b : β} {a' b' : γ} {i : Nat} (hl : l.length = l'.length)
    (h : (l ++ [a])[i]? = some b) (h' : (l' ++ [a'])[i]? = some b') :
    (l[i]? = some b ∧ l'[i]? = some b') ∨ (i = l.length ∧ b = a ∧ b' = a') := by
  rcases getElem?_snoc h with h1 | ⟨h1, rfl⟩
  · rcases getElem?_snoc h' with h2 | ⟨h2, _⟩
    · exact Or.inl ⟨h1, h2⟩
    · have := (List.getElem?_eq_some_iff.mp h1).1; omega
  · rcases getElem?_snoc h' with h2 | ⟨_, rfl⟩
    · have := (List.getElem?_eq_some_iff.mp h2).1; omega
    · exact Or.inr ⟨h1, rfl, rfl⟩

/-- The heap moved on; nothing else changed. -/
theorem Holds.moved {R R' : Slice → Option Nat → Prop} {st : State α} {T : Tracking α} (a : Holds R st T) {h' : Heap α} {used' : List Nat}
    (nx : Next st.heap R h' R' used') : Holds R' { st with heap := h' } { T with used := used' } where
  inv := nx.inv
  length := a.length
  queries i q x h1 h2 := by
    have := a.queries i q x h1 h2
    exact ⟨fun c => nx.mono _ _ (this.1 c), Shows.keep nx this.1 this.2⟩
  clength := a.clength
  conflicts i n x h1 h2 := by
    obtain ⟨q, h3, h4, h5⟩ := a.conflicts i n x h1 h2
    exact ⟨q, h3, fun c => nx.mono _ _ (h4 c), Shows.keep nx h4 h5⟩
  apart := a.apart
  below := a.below

/-- One more query. -/
theorem Holds.addQuery {R : Slice → Option Nat → Prop} {st : State α} {T : Tracking α} (a : Holds R st T) {q : Query α} {x : Tracked α}
    (hq : ∀ c, R (q.slices c) (x.origin c)) (hs : Shows st.heap q x.value) :
    Holds R { st with queries := st.queries ++ [q] } { T with queries := T.queries ++ [x] } where
  inv := a.inv
  length := by simp [a.length]
  queries i q' x' h1 h2 := by
    rcases snoc_pair a.length h1 h2 with ⟨h1, h2⟩ | ⟨_, rfl, rfl⟩
    · exact a.queries i q' x' h1 h2
    · exact ⟨hq, hs⟩
  clength := a.clength
  conflicts := a.conflicts
  apart := a.apart
  below := a.below

/-- One more conflict value, pointing to a new struct. -/
theorem Holds.addConflict {R : Slice → Option Nat → Prop} {st : State α} {T : Tracking α} (a : Holds R st T) {q : Query α} {x : Tracked α}
    (hq : ∀ c, R (q.slices c) (x.origin c)) (hs : Shows st.heap q x.value) :
    Holds R { st with cells := st.cells ++ [q], conflicts := st.conflicts ++ [st.cells.length] }
      { T with conflicts := T.conflicts ++ [(x, false)] } where
  inv := a.inv
  length := a.length
  queries := a.queries
  clength := by simp [a.clength]
  conflicts i n x' h1 h2 := by
    rcases snoc_pair a.clength h1 h2 with ⟨h1, h2⟩ | ⟨_, rfl, h⟩
    · obtain ⟨q', h3, h4⟩ := a.conflicts i n x' h1 h2
      refine ⟨q', ?_, h4⟩
      rw [List.getElem?_append_left (a.below i n h1)]; exact h3
    · cases h
      exact ⟨q, by simp, hq, hs⟩
  apart i j n x' y' h1 h2 h3 h4 := by
    rcases snoc_pair a.clength h1 h3 with ⟨h1, h3⟩ | ⟨e1, e2, _⟩ <;> rcases snoc_pair a.clength h2 h4 with ⟨h2, h4⟩ | ⟨e3, e4, _⟩
    · exact a.apart i j n x' y' h1 h2 h3 h4
    · have := a.below i n h1; omega
    · have := a.below j n h2; omega
    · omega
  below i n h := by
    rcases getElem?_snoc h with h | ⟨_, rfl⟩
    · have := a.below i n h; simp; omega
    · simp

/-- A conflict value is used up; the struct it points to may now contain anything. -/
theorem Holds.spend {R : Slice → Option Nat → Prop} {st : State α} {T : Tracking α} (a : Holds R st T) {i n : Nat} {x : Tracked α}
    (h1 : st.conflicts[i]? = some n) (h2 : T.conflicts[i]? = some (x, false)) (q : Query α) :
    Holds R { st with cells := st.cells.set n q } (T.spend i x) where
  inv := a.inv
  length := a.length
  queries := a.queries
  clength := by simp [Tracking.spend, a.clength]
  conflicts j m y h3 h4 := by
    simp only [Tracking.spend, List.getElem?_set] at h4
    split at h4
    · split at h4 <;> exact nomatch h4
    · rename_i hij
      obtain ⟨q', h5, h6⟩ := a.conflicts j m y h3 h4
      refine ⟨q', ?_, h6⟩
      show (st.cells.set n q)[m]? = some q'
      rw [List.getElem?_set_ne (fun hnm => ?_)]
      · exact h5
      · subst hnm; exact hij (a.apart i j n x y h1 h3 h2 h4)
  apart j k m y z h3 h4 h5 h6 := by
    simp only [Tracking.spend, List.getElem?_set] at h5 h6
    split at h5
    · split at h5 <;> exact nomatch h5
    · split at h6
      · split at h6 <;> exact nomatch h6
      · exact a.apart j k m y z h3 h4 h5 h6
  below j m h := by
    have := a.below j m h
    simpa using this

/-- The next conflict value points to the struct of a spent one. -/
theorem Holds.repoint {R : Slice → Option Nat → Prop} {st : State α} {T : Tracking α} (a : Holds R st T) {i n : Nat} {x x' : Tracked α}
    {q : Query α} (h1 : st.conflicts[i]? = some n) (h2 : T.conflicts[i]? = some (x, false)) (hq : ∀ c, R (q.slices c) (x'.origin c))
    (hs : Shows st.heap q x'.value) :
    Holds R { st with cells := st.cells.set n q, conflicts := st.conflicts ++ [n] }
      { T.spend i x with conflicts := (T.spend i x).conflicts ++ [(x', false)] } := by
  have b := a.spend h1 h2 q
  have hn := a.below i n h1
  have hfree : ∀ (j : Nat) (y : Tracked α), st.conflicts[j]? = some n → (T.spend i x).conflicts[j]? = some (y, false) → False := by
    intro j y h3 h4
    simp only [Tracking.spend, List.getElem?_set] at h4
    split at h4
    · split at h4 <;> exact nomatch h4
    · rename_i hij
      exact hij (a.apart i j n x y h1 h3 h2 h4)
  refine ⟨b.inv, b.length, b.queries, by simp [b.clength], ?_, ?_, ?_⟩
  · intro j m y h3 h4
    rcases snoc_pair b.clength h3 h4 with ⟨h3, h4⟩ | ⟨_, rfl, h⟩
    · exact b.conflicts j m y h3 h4
    · cases h
      refine ⟨q, ?_, hq, hs⟩
      show (st.cells.set m q)[m]? = some q
      rw [List.getElem?_set_self hn]
  · intro j k m y z h3 h4 h5 h6
    rcases snoc_pair b.clength h3 h5 with ⟨h3, h5⟩ | ⟨e1, rfl, _⟩ <;> rcases snoc_pair b.clength h4 h6 with ⟨h4, h6⟩ | ⟨e3, e4, _⟩
    · exact b.apart j k m y z h3 h4 h5 h6
    · subst e4; exact (hfree j y h3 h5).elim
    · exact (hfree k z h4 h6).elim
    · omega
  · intro j m h
    rcases getElem?_snoc h with h | ⟨_, rfl⟩
    · exact b.below j m h
    · simpa using hn

/-- The nil slice may always be referred to. -/
theorem Holds.withNil {R : Slice → Option Nat → Prop} {st : State α} {T : Tracking α} (a : Holds R st T) :
    Holds (fun s v => R s v ∨ (s = nilSlice ∧ v = none)) st T := by
  have i := a.inv
  have nx : Next st.heap R st.heap (fun s v => R s v ∨ (s = nilSlice ∧ v = none)) T.used := by
    refine ⟨⟨i.nil, ?_, ?_, ?_, ?_, ?_⟩, fun _ _ h => Or.inl h, fun _ _ _ => rfl⟩
    · rintro s v (hs | ⟨rfl, rfl⟩)
      · exact i.valid s v hs
      · exact ⟨i.nil.1, by simp [nilSlice]⟩
    · rintro s (hs | ⟨rfl, _⟩)
      · exact i.tight s hs
      · simp [nilSlice, i.nil.2]
    · rintro s v (hs | ⟨rfl, rfl⟩) h0
      · exact i.zero s v hs h0
      · rfl
    · rintro s v s' v' (hs | ⟨rfl, rfl⟩) (hs' | ⟨rfl, rfl⟩) ha hlt
      · exact i.shorter s v s' v' hs hs' ha hlt
      · simp [nilSlice] at hlt
      · have := (i.valid s' v' hs').2
        rw [← ha, show nilSlice.arr = 0 from rfl, i.nil.2] at this
        simp [nilSlice] at this hlt; omega
      · simp at hlt
    · rintro s v s' v' (hs | ⟨rfl, rfl⟩) (hs' | ⟨rfl, rfl⟩) ha hle
      · exact i.uniq s v s' v' hs hs' ha hle
      · exact i.zero s v hs ha
      · exact (i.zero s' v' hs' ha.symm).symm
      · rfl
  exact a.moved nx

/-- The memory and the tracked program agree. -/
def Agree (st : State α) (T : Tracking α) : Prop := ∃ R, Holds R st T

theorem Agree.derive (grow : Nat → Nat → Nat) {st : State α} {T : Tracking α} {R} (a : Holds R st T) {q : Query α} {x : Tracked α}
    {t : Nat} (es : List (Effect α)) {r : Tracked α × List Nat} (hq : ∀ c, R (q.slices c) (x.origin c)) (hs : Shows st.heap q x.value)
    (he : x.edits t T.used es = some r) : Agree (st.derive grow q es) (T.query r) := by
  obtain ⟨R', nx, hr', hsh'⟩ := edits_allowed grow es a.inv hq hs (show x.edits t T.used es = some (r.1, r.2) from he)
  exact ⟨R', (a.moved nx).addQuery hr' hsh'⟩

theorem Agree.point (grow : Nat → Nat → Nat) {st : State α} {T : Tracking α} {R} (a : Holds R st T) {q : Query α} {x : Tracked α}
    {t : Nat} (e : Effect α) {r : Tracked α × List Nat} (hq : ∀ c, R (q.slices c) (x.origin c)) (hs : Shows st.heap q x.value)
    (he : x.edit t T.used e = some r) : Agree (st.point grow q [e]) (T.conflict r) := by
  obtain ⟨R', nx, hr', hsh'⟩ := edit_allowed grow a.inv e hq hs (show x.edit t T.used e = some (r.1, r.2) from he)
  exact ⟨R', (a.moved nx).addConflict hr' hsh'⟩

theorem Agree.again (grow : Nat → Nat → Nat) {st : State α} {T : Tracking α} {R} (a : Holds R st T) {i n : Nat} {x : Tracked α}
    {t : Nat} (e : Effect α) {r : Tracked α × List Nat} (h1 : st.conflicts[i]? = some n) (h2 : T.conflicts[i]? = some (x, false))
    (he : x.edit t T.used e = some r) :
    Agree { st.change grow n [e] with conflicts := (st.change grow n [e]).conflicts ++ [n] } ((T.spend i x).conflict r) := by
  obtain ⟨q, hc, hq, hs⟩ := a.conflicts i n x h1 h2
  obtain ⟨R', nx, hr', hsh'⟩ := edit_allowed grow a.inv e hq hs (show x.edit t T.used e = some (r.1, r.2) from he)
  refine ⟨R', ?_⟩
  simp only [State.change, hc, runEffects, List.foldl]
  exact (a.moved nx).repoint (T := { T with used := r.2 }) h1 h2 hr' hsh'

theorem Agree.finish (grow : Nat → Nat → Nat) {st : State α} {T : Tracking α} {R} (a : Holds R st T) {i n : Nat} {x : Tracked α}
    {t : Nat} (e : Effect α) {r : Tracked α × List Nat} (h1 : st.conflicts[i]? = some n) (h2 : T.conflicts[i]? = some (x, false))
    (he : x.edit t T.used e = some r) :
    Agree ((st.change grow n [e]).fetch n) ((T.spend i x).query r) := by
  obtain ⟨q, hc, hq, hs⟩ := a.conflicts i n x h1 h2
  obtain ⟨R', nx, hr', hsh'⟩ := edit_allowed grow a.inv e hq hs (show x.edit t T.used e = some (r.1, r.2) from he)
  have hn := a.below i n h1
  refine ⟨R', ?_⟩
  simp only [State.change, hc, runEffects, List.foldl, State.fetch, List.getElem?_set_self hn]
  exact ((a.moved nx).spend (T := { T with used := r.2 }) h1 h2 _).addQuery hr' hsh'

/-- One step of a careful program. -/
theorem Agree.step (grow : Nat → Nat → Nat) {st : State α} {T T' : Tracking α} (a : Agree st T) (t : Nat) (s : Step α)
    (hs : T.step t s = some T') : Agree (s.run grow st) T' := by
  obtain ⟨R, a⟩ := a
  have key : ∀ {o : Option (Tracked α × List Nat)} {f : Tracked α × List Nat → Tracking α}, o.map f = some T' →
      ∃ r, o = some r ∧ f r = T' := fun h => Option.map_eq_some_iff.mp h
  cases s with
  | start d s =>
    obtain ⟨r, he, rfl⟩ := key hs
    exact Agree.derive grow a.withNil _ (fun c => Or.inr ⟨rfl, rfl⟩)
      ⟨rfl, rfl, rfl, fun c => by simp [emptyQuery, nilSlice, Heap.read, Value.empty]⟩ he
  | call i m =>
    rcases lookup_pair a.length i with ⟨h1, h2⟩ | ⟨q, x, h1, h2⟩
    · simp only [Tracking.step, h2, Option.some.injEq] at hs; subst hs
      simp only [Step.run, h1]; exact ⟨R, a⟩
    · simp only [Tracking.step, h2] at hs
      obtain ⟨r, he, rfl⟩ := key hs
      obtain ⟨hq, hsh⟩ := a.queries i q x h1 h2
      simp only [Step.run, h1]
      rw [hsh.1, hsh.2.1]
      exact Agree.derive grow a _ hq hsh he
  | onConflict i fs =>
    rcases lookup_pair a.length i with ⟨h1, h2⟩ | ⟨q, x, h1, h2⟩
    · simp only [Tracking.step, h2, Option.some.injEq] at hs; subst hs
      simp only [Step.run, h1]; exact ⟨R, a⟩
    · simp only [Tracking.step, h2] at hs
      obtain ⟨r, he, rfl⟩ := key hs
      obtain ⟨hq, hsh⟩ := a.queries i q x h1 h2
      simp only [Step.run, h1]
      exact Agree.point grow a _ hq hsh he
  | onConflictOnConstraint i n =>
    rcases lookup_pair a.length i with ⟨h1, h2⟩ | ⟨q, x, h1, h2⟩
    · simp only [Tracking.step, h2, Option.some.injEq] at hs; subst hs
      simp only [Step.run, h1]; exact ⟨R, a⟩
    · simp only [Tracking.step, h2] at hs
      obtain ⟨r, he, rfl⟩ := key hs
      obtain ⟨hq, hsh⟩ := a.queries i q x h1 h2
      simp only [Step.run, h1]
      exact Agree.point grow a _ hq hsh he
  | conflictWhere i p =>
    rcases lookup_pair a.clength i with ⟨h1, h2⟩ | ⟨n, ⟨x, b⟩, h1, h2⟩
    · simp only [Tracking.step, h2, Option.some.injEq] at hs; subst hs
      simp only [Step.run, h1]; exact ⟨R, a⟩
    · simp only [Tracking.step, h2] at hs
      cases b with
      | true => exact nomatch hs
      | false =>
        rw [if_neg Bool.false_ne_true] at hs
        obtain ⟨r, he, rfl⟩ := key hs
        simp only [Step.run, h1]
        exact Agree.again grow a _ h1 h2 he
  | doNothing i v =>
    rcases lookup_pair a.clength i with ⟨h1, h2⟩ | ⟨n, ⟨x, b⟩, h1, h2⟩
    · simp only [Tracking.step, h2, Option.some.injEq] at hs; subst hs
      simp only [Step.run, h1]; exact ⟨R, a⟩
    · simp only [Tracking.step, h2] at hs
      cases b with
      | true => exact nomatch hs
      | false =>
        rw [if_neg Bool.false_ne_true] at hs
        obtain ⟨r, he, rfl⟩ := key hs
        simp only [Step.run, h1]
        exact Agree.finish grow a _ h1 h2 he
  | doUpdateSet i as =>
    rcases lookup_pair a.clength i with ⟨h1, h2⟩ | ⟨n, ⟨x, b⟩, h1, h2⟩
    · simp only [Tracking.step, h2, Option.some.injEq] at hs; subst hs
      simp only [Step.run, h1]; exact ⟨R, a⟩
    · simp only [Tracking.step, h2] at hs
      cases b with
      | true => exact nomatch hs
      | false =>
        rw [if_neg Bool.false_ne_true] at hs
        obtain ⟨r, he, rfl⟩ := key hs
        simp only [Step.run, h1]
        exact Agree.finish grow a _ h1 h2 he

theorem Agree.init : Agree ({} : State α) {} :=
  ⟨fun _ _ => False, ⟨⟨by simp, rfl⟩, nofun, nofun, nofun, nofun, nofun⟩, rfl, by simp, rfl, by simp, by simp, by simp⟩

theorem Agree.track (grow : Nat → Nat → Nat) : ∀ (steps : List (Step α)) (st : State α) (T T' : Tracking α) (t : Nat), Agree st T →
    track t T steps = some T' → Agree (steps.foldl (fun st s => s.run grow st) st) T' := by
  intro steps
  induction steps with
  | nil => intro st T T' t a h; cases h; exact a
  | cons s ss ih =>
    intro st T T' t a h
    simp only [Spec.Building.track, Option.bind_eq_some_iff] at h
    obtain ⟨T1, h1, h2⟩ := h
    exact ih _ T1 T' (t + 1) (a.step grow t s h1) h2

/-! ### The tracked values are the intended ones -/

theorem edit_value {x x' : Tracked α} {t : Nat} {used used' : List Nat} (e : Effect α) (h : x.edit t used e = some (x', used')) :
    x'.value = x.value.edit e := by
  have happ : ∀ (c : Clause) (xs : List α), x.append t used c xs = some (x', used') → x'.value = x.value.setClause c (x.value.clauses c ++ xs) := by
    intro c xs h
    unfold Tracked.append at h
    split at h
    · rename_i hx
      subst hx
      cases h
      simp only [Value.setClause, List.append_nil]
      cases x with
      | mk v o =>
        cases v with
        | mk k d cl sl =>
          simp only [Value.mk.injEq, true_and, and_true]
          funext c'
          split
          · rename_i hc; rw [hc]
          · rfl
    · simp only at h
      split at h
      · cases h; rfl
      · split at h
        · exact nomatch h
        · cases h; rfl
  cases e with
  | append c xs => exact happ c xs h
  | assign c a =>
    cases a with
    | spread s => exact nomatch h
    | list xs => cases h; rfl
  | set f v => cases h; rfl
  | flip f v => cases h; rfl
  | overwrite c v =>
    simp only [Tracked.edit] at h
    split at h
    · rename_i he
      rw [happ c [v] h, he]; rfl
    · exact nomatch h

theorem edits_value (es : List (Effect α)) : ∀ {x x' : Tracked α} {t : Nat} {used used' : List Nat}, x.edits t used es = some (x', used') →
    x'.value = x.value.edits es := by
  induction es with
  | nil => intro x x' t used used' h; cases h; rfl
  | cons e es ih =>
    intro x x' t used used' h
    simp only [Tracked.edits, Option.bind_eq_some_iff] at h
    obtain ⟨r, h1, h2⟩ := h
    rw [ih h2, edit_value e (show x.edit t used e = some (r.1, r.2) from h1)]
    rfl

/-- The store that a tracking state stands for. -/
def _root_.Spec.Building.Tracking.store (T : Tracking α) : Store α := ⟨T.queries.map Tracked.value, T.conflicts.map fun x => x.1.value⟩

theorem spend_store (T : Tracking α) (i : Nat) (x : Tracked α) (b : Bool) (h : T.conflicts[i]? = some (x, b)) :
    (T.spend i x).store = T.store := by
  simp only [Tracking.store, Tracking.spend, Store.mk.injEq, true_and]
  apply List.ext_getElem?
  intro j
  simp only [List.getElem?_map, List.getElem?_set]
  split
  · rename_i hij; subst hij
    split
    · rw [h]; rfl
    · rename_i hlt; rw [List.getElem?_eq_none (by omega)]
  · rfl

theorem step_store {T T' : Tracking α} {t : Nat} (s : Step α) (h : T.step t s = some T') : T'.store = T.store.step s := by
  have hq : ∀ (T : Tracking α) (r : Tracked α × List Nat), (T.query r).store = T.store.query r.1.value := by
    intro T r; simp [Tracking.store, Tracking.query, Store.query]
  have hc : ∀ (T : Tracking α) (r : Tracked α × List Nat), (T.conflict r).store = T.store.conflict r.1.value := by
    intro T r; simp [Tracking.store, Tracking.conflict, Store.conflict]
  have key : ∀ {o : Option (Tracked α × List Nat)} {f : Tracked α × List Nat → Tracking α}, o.map f = some T' →
      ∃ r, o = some r ∧ f r = T' := fun h => Option.map_eq_some_iff.mp h
  have lq : ∀ i : Nat, T.store.queries[i]? = (T.queries[i]?).map Tracked.value := fun i => by simp [Tracking.store]
  have lc : ∀ i : Nat, T.store.conflicts[i]? = (T.conflicts[i]?).map fun x => x.1.value := fun i => by simp [Tracking.store]
  cases s with
  | start d s =>
    obtain ⟨r, he, rfl⟩ := key h
    rw [hq, edits_value _ (show _ = some (r.1, r.2) from he)]; rfl
  | call i m =>
    simp only [Store.step, lq]
    cases hx : T.queries[i]? with
    | none => simp only [Tracking.step, hx] at h; cases h; rfl
    | some x =>
      simp only [Tracking.step, hx] at h
      obtain ⟨r, he, rfl⟩ := key h
      rw [hq, edits_value _ (show _ = some (r.1, r.2) from he)]; rfl
  | onConflict i fs =>
    simp only [Store.step, lq]
    cases hx : T.queries[i]? with
    | none => simp only [Tracking.step, hx] at h; cases h; rfl
    | some x =>
      simp only [Tracking.step, hx] at h
      obtain ⟨r, he, rfl⟩ := key h
      rw [hc, edit_value _ (show _ = some (r.1, r.2) from he)]; rfl
  | onConflictOnConstraint i n =>
    simp only [Store.step, lq]
    cases hx : T.queries[i]? with
    | none => simp only [Tracking.step, hx] at h; cases h; rfl
    | some x =>
      simp only [Tracking.step, hx] at h
      obtain ⟨r, he, rfl⟩ := key h
      rw [hc, edit_value _ (show _ = some (r.1, r.2) from he)]; rfl
  | conflictWhere i p =>
    simp only [Store.step, lc]
    cases hx : T.conflicts[i]? with
    | none => simp only [Tracking.step, hx] at h; cases h; rfl
    | some x =>
      obtain ⟨x, b⟩ := x
      simp only [Tracking.step, hx] at h
      cases b with
      | true => exact nomatch h
      | false =>
        rw [if_neg Bool.false_ne_true] at h
        obtain ⟨r, he, rfl⟩ := key h
        rw [hc, spend_store T i x false hx, edit_value _ (show _ = some (r.1, r.2) from he)]; rfl
  | doNothing i v =>
    simp only [Store.step, lc]
    cases hx : T.conflicts[i]? with
    | none => simp only [Tracking.step, hx] at h; cases h; rfl
    | some x =>
      obtain ⟨x, b⟩ := x
      simp only [Tracking.step, hx] at h
      cases b with
      | true => exact nomatch h
      | false =>
        rw [if_neg Bool.false_ne_true] at h
        obtain ⟨r, he, rfl⟩ := key h
        rw [hq, spend_store T i x false hx, edit_value _ (show _ = some (r.1, r.2) from he)]; rfl
  | doUpdateSet i as =>
    simp only [Store.step, lc]
    cases hx : T.conflicts[i]? with
    | none => simp only [Tracking.step, hx] at h; cases h; rfl
    | some x =>
      obtain ⟨x, b⟩ := x
      simp only [Tracking.step, hx] at h
      cases b with
      | true => exact nomatch h
      | false =>
        rw [if_neg Bool.false_ne_true] at h
        obtain ⟨r, he, rfl⟩ := key h
        rw [hq, spend_store T i x false hx, edit_value _ (show _ = some (r.1, r.2) from he)]; rfl

theorem track_store : ∀ (steps : List (Step α)) (T T' : Tracking α) (t : Nat), track t T steps = some T' →
    T'.store = steps.foldl Store.step T.store := by
  intro steps
  induction steps with
  | nil => intro T T' t h; cases h; rfl
  | cons s ss ih =>
    intro T T' t h
    simp only [track, Option.bind_eq_some_iff] at h
    obtain ⟨T1, h1, h2⟩ := h
    rw [ih T1 T' (t + 1) h2, step_store s h1]; rfl

/-! ### C27 -/

/-- The contents of a query struct. -/
def Query.contents (h : Heap α) (q : Query α) : Value α :=
  { kind := q.kind, dialect := q.dialect, clauses := fun c => h.read (q.slices c), slots := q.slots }

theorem Shows.eq {h : Heap α} {q : Query α} {v : Value α} (hs : Shows h q v) : q.contents h = v := by
  obtain ⟨h1, h2, h3, h4⟩ := hs
  cases v
  simp only [Query.contents, Value.mk.injEq]
  exact ⟨h1, h2, funext h4, h3⟩

/-- In a careful program, at the end every query built on the way has exactly the contents the chain of calls that built it says,
whatever was derived from it, or from its bases, in the meantime. -/
theorem C27_careful_partial (grow : Nat → Nat → Nat) (steps : List (Step α)) (h : Careful steps) :
    (runSteps grow steps).queries.map (Query.contents (runSteps grow steps).heap) = (Spec.Building.run steps).queries := by
  obtain ⟨T, hT⟩ := Option.isSome_iff_exists.mp h
  obtain ⟨R, a⟩ := Agree.track grow steps {} {} T 0 Agree.init hT
  have hst := track_store steps {} T 0 hT
  have : (Spec.Building.run steps).queries = T.queries.map Tracked.value := by
    have := congrArg Store.queries hst
    exact this.symm
  rw [this]
  apply List.ext_getElem?
  intro i
  simp only [List.getElem?_map]
  rcases lookup_pair a.length i with ⟨h1, h2⟩ | ⟨q, x, h1, h2⟩
  · have h1' : (runSteps grow steps).queries[i]? = none := h1
    rw [h1', h2]; rfl
  · have h1' : (runSteps grow steps).queries[i]? = some q := h1
    rw [h1', h2]
    exact congrArg some (a.queries i q x h1 h2).2.eq

/-! A careful program in which a base is used four times: two queries replace its ORDER BY-free clauses, one appends to WHERE, and an
INSERT with a conflict clause is built beside it. -/

/-- Go's growth: double (the exact size for the first element). -/
def double (cap need : Nat) : Nat := max need (2 * cap)

def branching : List (Step String) := [
  .start .postgres (.select (.list ["a", "b"])),        -- 0
  .call 0 (.from "t"),                                   -- 1
  .call 1 (.where ["x = 1"]),                            -- 2: the base
  .call 2 (.where ["y = 2"]),                            -- 3
  .call 2 (.orderBy (.list []) ["a"]),                   -- 4
  .call 2 (.limit "10"),                                 -- 5
  .call 3 (.where ["z = 3", "w = 4"]),                   -- 6
  .start .postgres (.insertInto "t"),                    -- 7
  .call 7 (.columns (.list ["a"])),                      -- 8
  .call 8 (.values "(1)"),                               -- 9
  .onConflict 9 (.list ["a"]),
  .conflictWhere 0 "p",
  .doUpdateSet 1 (.list ["a = 2"]),                      -- 10
  .call 9 (.values "(2)")]                               -- 11

example : Careful branching := show (track 0 {} branching).isSome = true by decide +kernel
example : ((runSteps double branching).queries.map fun q => (runSteps double branching).heap.read (q.slices .where_)) =
    [[], [], ["x = 1"], ["x = 1", "y = 2"], ["x = 1"], ["x = 1"], ["x = 1", "y = 2", "z = 3", "w = 4"], [], [], [], [], []] := by
  decide +kernel

/-! ### One step at a time -/

/-- No slice is passed with `xs...`. -/
def Effect.Listed (e : Effect α) : Prop := ∀ c s, e ≠ .assign c (.spread s)

def Step.Listed : Step α → Prop
  | .start d s => ∀ e ∈ s.effects d, e.Listed
  | .call _ m => ∀ k d, ∀ e ∈ m.effects k d, e.Listed
  | .onConflict _ fs => (Effect.assign .conflictFields fs).Listed
  | .doUpdateSet _ as => (Effect.assign .resolution as).Listed
  | _ => True

/-- A query whose slices lie in the heap. -/
def Placed (h : Heap α) (q : Query α) : Prop := ∀ c, (q.slices c).arr < h.length ∧ (q.slices c).len ≤ (h.arr (q.slices c).arr).length

/-- The old arrays stay where they are and keep their size. -/
def Ext (h h' : Heap α) : Prop := h.length ≤ h'.length ∧ ∀ a, a < h.length → (h'.arr a).length = (h.arr a).length

theorem Ext.refl (h : Heap α) : Ext h h := ⟨Nat.le_refl _, fun _ _ => rfl⟩
theorem Ext.trans {h h' h'' : Heap α} (a : Ext h h') (b : Ext h' h'') : Ext h h'' :=
  ⟨Nat.le_trans a.1 b.1, fun i hi => (b.2 i (Nat.lt_of_lt_of_le hi a.1)).trans (a.2 i hi)⟩
theorem Ext.alloc (h : Heap α) (xs : List α) : Ext h (h ++ [xs]) := ⟨by simp, fun a ha => by rw [Heap.arr_append_left _ ha]⟩
theorem Ext.modify {h : Heap α} {a : Nat} (f : List α → List α) (hf : (f (h.arr a)).length = (h.arr a).length) : Ext h (h.modify a f) := by
  refine ⟨by simp, fun b hb => ?_⟩
  rcases Decidable.em (b = a) with rfl | hne
  · rw [Heap.arr_modify_eq _ hb, hf]
  · rw [Heap.arr_modify_ne _ hne]

theorem Placed.ext {h h' : Heap α} {q : Query α} (p : Placed h q) (e : Ext h h') : Placed h' q := fun c => by
  have := p c
  rw [e.2 _ this.1]
  exact ⟨Nat.lt_of_lt_of_le this.1 e.1, this.2⟩

theorem Placed.setSlice {h : Heap α} {q : Query α} (p : Placed h q) (c : Clause) (s : Slice)
    (hs : s.arr < h.length ∧ s.len ≤ (h.arr s.arr).length) : Placed h (q.setSlice c s) := fun c' => by
  simp only [Query.setSlice]
  split
  · exact hs
  · exact p c'

theorem append_ext (grow : Nat → Nat → Nat) {h : Heap α} {s : Slice} (xs : List α) (hs : s.arr < h.length ∧ s.len ≤ (h.arr s.arr).length) :
    Ext h (h.append grow s xs).1 ∧ (h.append grow s xs).2.arr < (h.append grow s xs).1.length ∧
      (h.append grow s xs).2.len ≤ ((h.append grow s xs).1.arr (h.append grow s xs).2.arr).length := by
  unfold Heap.append
  split
  · exact ⟨Ext.refl h, hs⟩
  · split
    · rename_i hcap
      have e : Ext h (h.modify s.arr fun a => a.take s.len ++ xs ++ a.drop (s.len + xs.length)) :=
        Ext.modify _ (by simp; omega)
      refine ⟨e, Nat.lt_of_lt_of_le hs.1 e.1, ?_⟩
      show _ ≤ (Heap.arr (h.modify s.arr _) s.arr).length
      rw [e.2 _ hs.1]; exact hcap
    · refine ⟨Ext.alloc h _, by simp, ?_⟩
      show _ ≤ (Heap.arr (h ++ [_]) h.length).length
      rw [Heap.arr_append_new]
      simp [Heap.read]; omega

theorem run_placed (grow : Nat → Nat → Nat) {h : Heap α} {q : Query α} (e : Effect α) (hl : e.Listed) (p : Placed h q) :
    Ext h (e.run grow (h, q)).1 ∧ Placed (e.run grow (h, q)).1 (e.run grow (h, q)).2 := by
  cases e with
  | append c xs =>
    have := append_ext grow xs (p c)
    exact ⟨this.1, (p.ext this.1).setSlice c _ this.2⟩
  | assign c a =>
    cases a with
    | spread s => exact absurd rfl (hl c s)
    | list xs =>
      have e := Ext.alloc h xs
      refine ⟨e, (p.ext e).setSlice c _ ⟨by simp [Heap.fresh], ?_⟩⟩
      show xs.length ≤ (Heap.arr (h ++ [xs]) h.length).length
      rw [Heap.arr_append_new]; exact Nat.le_refl _
  | set f v => exact ⟨Ext.refl h, p⟩
  | flip f v => exact ⟨Ext.refl h, p⟩
  | overwrite c x =>
    simp only [Effect.run]
    split
    · have := append_ext grow [x] (p c)
      exact ⟨this.1, (p.ext this.1).setSlice c _ this.2⟩
    · rename_i hne
      have hpc := p c
      have e : Ext h (h.modify (q.slices c).arr fun a => x :: a.tail) := Ext.modify _ (by simp; omega)
      refine ⟨e, (p.ext e).setSlice c _ ⟨Nat.lt_of_lt_of_le hpc.1 e.1, ?_⟩⟩
      show 1 ≤ _
      rw [e.2 _ hpc.1]; omega

theorem runEffects_placed (grow : Nat → Nat → Nat) (es : List (Effect α)) : ∀ {h : Heap α} {q : Query α}, (∀ e ∈ es, e.Listed) → Placed h q →
    Ext h (runEffects grow es (h, q)).1 ∧ Placed (runEffects grow es (h, q)).1 (runEffects grow es (h, q)).2 := by
  induction es with
  | nil => intro h q _ p; exact ⟨Ext.refl h, p⟩
  | cons e es ih =>
    intro h q hl p
    have h1 := run_placed grow e (hl e List.mem_cons_self) p
    have h2 := ih (h := (e.run grow (h, q)).1) (q := (e.run grow (h, q)).2) (fun e he => hl e (List.mem_cons_of_mem _ he)) h1.2
    exact ⟨h1.1.trans h2.1, h2.2⟩

/-- Everything in memory lies in the heap. -/
structure Sound (st : State α) : Prop where
  pos : 0 < st.heap.length
  queries : ∀ q ∈ st.queries, Placed st.heap q
  cells : ∀ q ∈ st.cells, Placed st.heap q

theorem Sound.move {st : State α} (s : Sound st) {h' : Heap α} (e : Ext st.heap h') : Sound { st with heap := h' } :=
  ⟨Nat.lt_of_lt_of_le s.pos e.1, fun q hq => (s.queries q hq).ext e, fun q hq => (s.cells q hq).ext e⟩

theorem Sound.change {st : State α} (grow : Nat → Nat → Nat) (s : Sound st) (n : Nat) (es : List (Effect α)) (hl : ∀ e ∈ es, e.Listed) :
    Sound (st.change grow n es) := by
  unfold State.change
  split
  · exact s
  · rename_i q hq
    have := runEffects_placed grow es hl (s.cells q (List.mem_of_getElem? hq))
    refine ⟨Nat.lt_of_lt_of_le s.pos this.1.1, fun q hq => (s.queries q hq).ext this.1, fun q' hq' => ?_⟩
    rcases List.mem_or_eq_of_mem_set hq' with h | rfl
    · exact (s.cells q' h).ext this.1
    · exact this.2

theorem Sound.fetch {st : State α} (s : Sound st) (n : Nat) : Sound (st.fetch n) := by
  unfold State.fetch
  split
  · exact s
  · rename_i q hq
    refine ⟨s.pos, fun q' hq' => ?_, s.cells⟩
    rcases List.mem_append.mp hq' with h | h
    · exact s.queries q' h
    · rw [List.mem_singleton.mp h]; exact s.cells q (List.mem_of_getElem? hq)

theorem Sound.derive {st : State α} (grow : Nat → Nat → Nat) (s : Sound st) {q : Query α} (es : List (Effect α)) (hl : ∀ e ∈ es, e.Listed)
    (p : Placed st.heap q) : Sound (st.derive grow q es) := by
  have := runEffects_placed grow es hl p
  refine ⟨Nat.lt_of_lt_of_le s.pos this.1.1, fun q' hq' => ?_, fun q hq => (s.cells q hq).ext this.1⟩
  rcases List.mem_append.mp hq' with h | h
  · exact (s.queries q' h).ext this.1
  · rw [List.mem_singleton.mp h]; exact this.2

theorem Sound.point {st : State α} (grow : Nat → Nat → Nat) (s : Sound st) {q : Query α} (es : List (Effect α)) (hl : ∀ e ∈ es, e.Listed)
    (p : Placed st.heap q) : Sound (st.point grow q es) := by
  have := runEffects_placed grow es hl p
  refine ⟨Nat.lt_of_lt_of_le s.pos this.1.1, fun q hq => (s.queries q hq).ext this.1, fun q' hq' => ?_⟩
  rcases List.mem_append.mp hq' with h | h
  · exact (s.cells q' h).ext this.1
  · rw [List.mem_singleton.mp h]; exact this.2

theorem Sound.step {st : State α} (grow : Nat → Nat → Nat) (s : Sound st) (x : Step α) (hl : x.Listed) : Sound (x.run grow st) := by
  have one : ∀ {e : Effect α}, e.Listed → ∀ e' ∈ [e], e'.Listed := fun h e' he => by rw [List.mem_singleton.mp he]; exact h
  have hset : ∀ f (v : α), (Effect.set f v).Listed := fun f v c s h => nomatch h
  cases x with
  | start d x => exact s.derive grow _ hl fun c => ⟨s.pos, by simp [emptyQuery, nilSlice]⟩
  | call i m =>
    simp only [Step.run]; split
    · exact s
    · rename_i q hq; exact s.derive grow _ (hl _ _) (s.queries q (List.mem_of_getElem? hq))
  | onConflict i fs =>
    simp only [Step.run]; split
    · exact s
    · rename_i q hq; exact s.point grow _ (one hl) (s.queries q (List.mem_of_getElem? hq))
  | onConflictOnConstraint i n =>
    simp only [Step.run]; split
    · exact s
    · rename_i q hq; exact s.point grow _ (one (hset _ _)) (s.queries q (List.mem_of_getElem? hq))
  | conflictWhere i p =>
    simp only [Step.run]; split
    · exact s
    · have := s.change grow ‹Nat› _ (one (hset .conflictPredicate p))
      exact ⟨this.pos, this.queries, this.cells⟩
  | doNothing i v =>
    simp only [Step.run]; split
    · exact s
    · exact (s.change grow _ _ (one (hset _ _))).fetch _
  | doUpdateSet i as =>
    simp only [Step.run]; split
    · exact s
    · exact (s.change grow _ _ (one hl)).fetch _

theorem runSteps_sound (grow : Nat → Nat → Nat) (steps : List (Step α)) (hl : ∀ s ∈ steps, s.Listed) : Sound (runSteps grow steps) := by
  have : ∀ (steps : List (Step α)) (st : State α), Sound st → (∀ s ∈ steps, s.Listed) → Sound (steps.foldl (fun st s => s.run grow st) st) := by
    intro steps
    induction steps with
    | nil => intro st s _; exact s
    | cons x xs ih => intro st s hl; exact ih _ (s.step grow x (hl x List.mem_cons_self)) (fun y hy => hl y (List.mem_cons_of_mem _ hy))
  exact this steps {} ⟨by simp, by simp, by simp⟩ hl

/-- Reading a placed query after an allocation. -/
theorem contents_alloc {h : Heap α} {q : Query α} (p : Placed h q) (xs : List α) : q.contents (h ++ [xs]) = q.contents h := by
  simp only [Query.contents, Value.mk.injEq, true_and, and_true]
  funext c
  simp only [Heap.read]
  rw [Heap.arr_append_left _ (p c).1]

/-- Any method call on any query of any program leaves every query built so far as it was, if the clause it appends to is at its full
capacity, and it is not a `DeleteFrom` (SQLite, Postgres) on a query that has FROM tables. -/
theorem C27_full_capacity_partial (grow : Nat → Nat → Nat) (steps : List (Step α)) (hl : ∀ s ∈ steps, s.Listed) (i : Nat) (m : Method α)
    (q : Query α) (hq : (runSteps grow steps).queries[i]? = some q)
    (hfull : ∀ c xs, Effect.append c xs ∈ m.effects q.kind q.dialect →
      (q.slices c).len = ((runSteps grow steps).heap.arr (q.slices c).arr).length)
    (hdel : ∀ c x, Effect.overwrite c x ∈ m.effects q.kind q.dialect → (runSteps grow steps).heap.arr (q.slices c).arr = []) :
    ∀ (j : Nat) (q' : Query α), (runSteps grow steps).queries[j]? = some q' →
      (runSteps grow (steps ++ [.call i m])).queries[j]? = some q' ∧
      q'.contents (runSteps grow (steps ++ [.call i m])).heap = q'.contents (runSteps grow steps).heap := by
  intro j q' hj
  have hs := runSteps_sound grow steps hl
  have p := hs.queries q' (List.mem_of_getElem? hj)
  have hrun : runSteps grow (steps ++ [.call i m]) = (runSteps grow steps).derive grow q (m.effects q.kind q.dialect) := by
    have : runSteps grow (steps ++ [.call i m]) = Step.run grow (runSteps grow steps) (.call i m) := by
      simp only [runSteps, List.foldl_append, List.foldl]
    rw [this]; simp only [Step.run, hq]
  rw [hrun]
  have hjlt := (List.getElem?_eq_some_iff.mp hj).1
  refine ⟨by simp only [State.derive]; rw [List.getElem?_append_left hjlt]; exact hj, ?_⟩
  simp only [State.derive]
  have pq := hs.queries q (List.mem_of_getElem? hq)
  generalize (runSteps grow steps).heap = h at *
  -- appending to a full clause
  have happ : ∀ (c : Clause) (xs : List α), (q.slices c).len = (h.arr (q.slices c).arr).length →
      q'.contents (h.append grow (q.slices c) xs).1 = q'.contents h := by
    intro c xs hf
    unfold Heap.append
    split
    · rfl
    · rename_i hx
      have := List.length_pos_iff.mpr hx
      rw [if_neg (by omega)]
      exact contents_alloc p _
  have hasg : ∀ (c : Clause) (a : SliceArg α) (q : Query α), q'.contents (Effect.run grow (.assign c a) (h, q)).1 = q'.contents h := by
    intro c a q
    cases a with
    | list xs => exact contents_alloc p xs
    | spread s => rfl
  have hover : ∀ (c : Clause) (x : α), h.arr (q.slices c).arr = [] → (q.slices c).len = 0 →
      q'.contents (Effect.run grow (.overwrite c x) (h, q)).1 = q'.contents h := by
    intro c x he hz
    simp only [Effect.run, hz, if_true]
    exact happ c [x] (by rw [he, hz]; rfl)
  have hz : ∀ c, h.arr (q.slices c).arr = [] → (q.slices c).len = 0 := by
    intro c he
    have := (pq c).2
    rw [he] at this
    simpa using this
  cases m with
  | orderBy fs vals =>
    simp only [Method.effects] at *
    split
    · exact hasg _ _ _
    · rename_i hk; rw [if_neg hk] at hfull; exact happ _ _ (hfull _ _ List.mem_cons_self)
  | deleteFrom t ts =>
    simp only [Method.effects] at *
    split
    · exact hasg _ _ _
    · rename_i hk; rw [if_neg hk] at hdel
      have := hdel _ _ List.mem_cons_self
      exact hover _ _ this (hz _ this)
  | selectDistinct t fs => exact hasg _ _ _
  | selectOne o => exact hasg .selectFields (.list [o]) q
  | distinctOn fs => exact hasg _ _ _
  | columns fs => exact hasg _ _ _
  | asColumns fs => exact hasg _ _ _
  | onDuplicateKeyUpdate fs => exact hasg _ _ _
  | partitionBy fs => exact hasg _ _ _
  | windowOrderBy fs => exact hasg _ _ _
  | «with» x => exact happ _ _ (hfull _ _ List.mem_cons_self)
  | select x => exact happ _ _ (hfull _ _ List.mem_cons_self)
  | join x => exact happ _ _ (hfull _ _ List.mem_cons_self)
  | «where» x => exact happ _ _ (hfull _ _ List.mem_cons_self)
  | groupBy x => exact happ _ _ (hfull _ _ List.mem_cons_self)
  | having x => exact happ _ _ (hfull _ _ List.mem_cons_self)
  | values x => exact happ _ _ (hfull _ _ List.mem_cons_self)
  | returning x => exact happ _ _ (hfull _ _ List.mem_cons_self)
  | set x => exact happ _ _ (hfull _ _ List.mem_cons_self)
  | «from» x => rfl
  | limit x => rfl
  | offset x => rfl
  | insertInto x => rfl
  | valuesx x => rfl
  | asRow x => rfl
  | selectQuery x => rfl
  | update x => rfl
  | setx x => rfl
  | «using» x => rfl
  | append x => exact happ _ _ (hfull _ _ List.mem_cons_self)
  | when x => exact happ _ _ (hfull _ _ List.mem_cons_self)
  | not x => rfl
  | else_ x => rfl
  | alias_ x => rfl
  | frame x => rfl

/-! ### Where it fails -/

theorem read_in_place {h : Heap α} {s : Slice} (grow : Nat → Nat → Nat) (hs : s.arr < h.length) (hspare : s.len < (h.arr s.arr).length) (p : α) :
    (h.append grow s [p]).2 = ⟨s.arr, s.len + 1⟩ ∧ (h.append grow s [p]).1.length = h.length ∧
      (h.append grow s [p]).1.arr s.arr = (h.arr s.arr).take s.len ++ p :: (h.arr s.arr).drop (s.len + 1) := by
  simp only [Heap.append, List.cons_ne_nil, if_false, List.length_singleton]
  rw [if_pos (by omega)]
  refine ⟨rfl, by simp, ?_⟩
  rw [Heap.arr_modify_eq _ hs]; simp

/-- Two queries derived from the same base by a method that appends one element to a clause (`Where(p)`, `GroupBy(f)`, `Join(t, p)`, ...):
if the clause of the base has spare capacity, the second call replaces, in the query the first call returned, the element of the first
call by its own.  For every memory, base, clause and growth of capacities. -/
theorem C27_siblings_violated (grow : Nat → Nat → Nat) (st : State α) (i : Nat) (q : Query α) (hq : st.queries[i]? = some q)
    (c : Clause) (m m' : Method α) (p p' : α) (hm : m.effects q.kind q.dialect = [.append c [p]])
    (hm' : m'.effects q.kind q.dialect = [.append c [p']]) (hs : (q.slices c).arr < st.heap.length)
    (hspare : (q.slices c).len < (st.heap.arr (q.slices c).arr).length) :
    ∃ first : Query α,
      (Step.run grow st (.call i m)).queries[st.queries.length]? = some first ∧
      (Step.run grow (Step.run grow st (.call i m)) (.call i m')).queries[st.queries.length]? = some first ∧
      (Step.run grow st (.call i m)).heap.read (first.slices c) = st.heap.read (q.slices c) ++ [p] ∧
      (Step.run grow (Step.run grow st (.call i m)) (.call i m')).heap.read (first.slices c) = st.heap.read (q.slices c) ++ [p'] := by
  obtain ⟨h1, h2, h3⟩ := read_in_place grow hs hspare p
  have hi := (List.getElem?_eq_some_iff.mp hq).1
  have e1 : Step.run grow st (.call i m) =
      { st with heap := (st.heap.append grow (q.slices c) [p]).1, queries := st.queries ++ [q.setSlice c (st.heap.append grow (q.slices c) [p]).2] } := by
    simp only [Step.run, hq, State.derive, hm, runEffects, List.foldl, Effect.run]
  have e2 : Step.run grow (Step.run grow st (.call i m)) (.call i m') =
      { st with
        heap := ((st.heap.append grow (q.slices c) [p]).1.append grow (q.slices c) [p']).1
        queries := st.queries ++ [q.setSlice c (st.heap.append grow (q.slices c) [p]).2] ++
          [q.setSlice c ((st.heap.append grow (q.slices c) [p]).1.append grow (q.slices c) [p']).2] } := by
    rw [e1]
    simp only [Step.run, List.getElem?_append_left hi, hq, State.derive, hm', runEffects, List.foldl, Effect.run]
  have hspare' : (q.slices c).len < ((st.heap.append grow (q.slices c) [p]).1.arr (q.slices c).arr).length := by
    rw [h3]; simp; omega
  obtain ⟨_, _, h6⟩ := read_in_place grow (h2 ▸ hs) hspare' p'
  have htake : ∀ (a : List α) (x : α) (rest : List α), (q.slices c).len < a.length →
      (a.take (q.slices c).len ++ x :: rest).take ((q.slices c).len + 1) = a.take (q.slices c).len ++ [x] := by
    intro a x rest hlt
    have hl : (a.take (q.slices c).len).length = (q.slices c).len := by simp; omega
    rw [List.take_append, hl, List.take_of_length_le (by omega)]
    simp
  refine ⟨q.setSlice c (st.heap.append grow (q.slices c) [p]).2, ?_, ?_, ?_, ?_⟩
  · rw [e1]; simp
  · rw [e2]; simp
  · rw [e1]
    simp only [Query.setSlice, if_true, h1, Heap.read]
    rw [h3, htake _ _ _ hspare]
  · rw [e2]
    simp only [Query.setSlice, if_true, h1, Heap.read]
    rw [h6, htake _ _ _ hspare', h3]
    congr 1
    rw [List.take_append_of_le_length (by simp; omega), List.take_take]
    congr 1; omega

/-- The program from the README style of use: a base with three WHERE calls, and two queries derived from it. -/
def siblings : List (Step String) := [
  .start .postgres (.from "t"),
  .call 0 (.where ["a"]), .call 1 (.where ["b"]), .call 2 (.where ["c"]),
  .call 3 (.where ["x"]),
  .call 3 (.where ["y"])]

example : ((runSteps double siblings).queries.map fun q => (runSteps double siblings).heap.read (q.slices .where_)) =
    [[], ["a"], ["a", "b"], ["a", "b", "c"], ["a", "b", "c", "y"], ["a", "b", "c", "y"]] ∧
    ((Spec.Building.run siblings).queries.map fun v => v.clauses .where_) =
    [[], ["a"], ["a", "b"], ["a", "b", "c"], ["a", "b", "c", "x"], ["a", "b", "c", "y"]] := by decide +kernel

/-- `DeleteFrom` (SQLite, Postgres) on a query that has FROM tables changes the table of that query itself. -/
theorem C27_deleteFrom_violated (grow : Nat → Nat → Nat) (st : State α) (i : Nat) (q : Query α) (hq : st.queries[i]? = some q)
    (hd : q.dialect ≠ .mysql) (hs : (q.slices .fromTables).arr < st.heap.length) (hlen : 0 < (q.slices .fromTables).len)
    (t : α) (ts : SliceArg α) :
    (Step.run grow st (.call i (.deleteFrom t ts))).queries[i]? = some q ∧
      ((Step.run grow st (.call i (.deleteFrom t ts))).heap.read (q.slices .fromTables)).head? = some t := by
  have hi := (List.getElem?_eq_some_iff.mp hq).1
  have hne : ¬ (q.slices .fromTables).len = 0 := by omega
  have e1 : Step.run grow st (.call i (.deleteFrom t ts)) =
      { st with heap := st.heap.modify (q.slices .fromTables).arr fun a => t :: a.tail,
                queries := st.queries ++ [q.setSlice .fromTables ⟨(q.slices .fromTables).arr, 1⟩] } := by
    simp only [Step.run, hq, State.derive, Method.effects, hd, if_false, runEffects, List.foldl, Effect.run, hne]
  rw [e1]
  refine ⟨by simp [List.getElem?_append_left hi, hq], ?_⟩
  simp only [Heap.read]
  rw [Heap.arr_modify_eq _ hs]
  obtain ⟨n, hn⟩ : ∃ n, (q.slices .fromTables).len = n + 1 := ⟨_, (Nat.succ_pred_eq_of_pos hlen).symm⟩
  rw [hn]; rfl

example : ((runSteps double [.start .sqlite (.deleteFrom "t" (.list [])), .call 0 (.deleteFrom "u" (.list []))]).queries.map fun q =>
    (runSteps double [.start .sqlite (.deleteFrom "t" (.list [])), .call 0 (.deleteFrom "u" (.list []))]).heap.read (q.slices .fromTables)) =
    [["u"], ["u"]] := by decide +kernel

/-- A conflict value on which `DoNothing` was called keeps it: a later `DoUpdateSet` on the same value returns a query that is both. -/
theorem C27_conflict_violated (grow : Nat → Nat → Nat) (st : State α) (i n : Nat) (cell : Query α) (hi : st.conflicts[i]? = some n)
    (hn : st.cells[n]? = some cell) (t : α) (as : List α) :
    ∃ q : Query α, (Step.run grow (Step.run grow st (.doNothing i t)) (.doUpdateSet i (.list as))).queries.getLast? = some q ∧
      q.slots .doNothing = some t ∧
      (Step.run grow (Step.run grow st (.doNothing i t)) (.doUpdateSet i (.list as))).heap.read (q.slices .resolution) = as := by
  have hlt := (List.getElem?_eq_some_iff.mp hn).1
  have e1 : Step.run grow st (.doNothing i t) =
      { st with cells := st.cells.set n (cell.setSlot .doNothing t), queries := st.queries ++ [cell.setSlot .doNothing t] } := by
    simp only [Step.run, hi, State.change, hn, runEffects, List.foldl, Effect.run, State.fetch, List.getElem?_set_self hlt]
  rw [e1]
  simp only [Step.run, hi, State.change, runEffects, List.foldl, Effect.run, State.fetch]
  rw [List.getElem?_set_self hlt]
  simp only
  rw [List.getElem?_set_self (by simpa using hlt)]
  simp only
  refine ⟨_, List.getLast?_concat, ?_, ?_⟩
  · simp [Query.setSlice, Query.setSlot]
  · simp [Query.setSlice, Heap.read_fresh]

example : (runSteps double [.start .postgres (.insertInto "t"), .onConflict 0 (.list ["a"]), .doNothing 0 "true",
    .doUpdateSet 0 (.list ["a = 2"])]).queries.map (fun q => q.slots .doNothing) = [none, some "true", some "true"] ∧
    (Spec.Building.run [.start .postgres (.insertInto "t"), .onConflict 0 (.list ["a"]), .doNothing 0 "true",
    .doUpdateSet 0 (.list ["a = 2"])]).queries.map (fun q => q.slots .doNothing) = [none, some "true", none] := by decide +kernel

end Sq.Building
