import Verif.Model.Pool
/-
What a goroutine may do with pooled objects, the lock and the cache (`wp`), and why goroutines that keep to it do not disturb one another.
-/
namespace Sq.Conc

/-- An object obtained: `none` once it was given back; else the pool it came from and its contents. -/
abbrev Own := Option (Option Pool × Cell)

inductive Lk where
  | free | read | waiting | write
  deriving DecidableEq

section wp
variable {T R S : Type}

/-- Run alone from objects `o` with lock state `l`, the program keeps to the rules and ends in `post`. -/
def wp (valid : Str → T → Prop) (post : R → List Own → Lk → Prop) : Prog T R → List Own → Lk → Prop
  | .ret r, o, l => post r o l
  | .get p k, o, l => wp valid post (k o.length) (o ++ [some (p, {})]) l
  | .modify h f k, o, l => ∃ p c, o[h]? = some (some (p, c)) ∧ wp valid post k (o.set h (some (p, f c))) l
  | .read h k, o, l => ∃ p c, o[h]? = some (some (p, c)) ∧ wp valid post (k c) o l
  | .put p h k, o, l => o[h]? = some (some (some p, {})) ∧ wp valid post k (o.set h none) l
  | .rlock k, o, l => l = .free ∧ wp valid post k o .read
  | .runlock k, o, l => l = .read ∧ wp valid post k o .free
  | .lock k, o, l => l = .free ∧ wp valid post k o .write
  | .lockWait k, o, l => l = .waiting ∧ wp valid post k o .write
  | .unlock k, o, l => l = .write ∧ wp valid post k o .free
  | .lookup n k, o, l => (l = .read ∨ l = .write) ∧ ∀ t : Option T, (∀ x, t = some x → valid n x) → wp valid post (k t) o l
  | .store n t k, o, l => l = .write ∧ valid n t ∧ wp valid post k o l

theorem wp_mono {valid : Str → T → Prop} {post post' : R → List Own → Lk → Prop} (hp : ∀ r o l, post r o l → post' r o l) :
    ∀ (p : Prog T R) (o : List Own) (l : Lk), wp valid post p o l → wp valid post' p o l := by
  intro p
  induction p with
  | ret r => intro o l h; exact hp _ _ _ h
  | get p k ih => intro o l h; exact ih _ _ _ h
  | modify h f k ih => intro o l ⟨p, c, h1, h2⟩; exact ⟨p, c, h1, ih _ _ h2⟩
  | read h k ih => intro o l ⟨p, c, h1, h2⟩; exact ⟨p, c, h1, ih _ _ _ h2⟩
  | put p h k ih => intro o l ⟨h1, h2⟩; exact ⟨h1, ih _ _ h2⟩
  | rlock k ih | runlock k ih | lock k ih | lockWait k ih | unlock k ih => intro o l ⟨h1, h2⟩; exact ⟨h1, ih _ _ h2⟩
  | lookup n k ih => intro o l ⟨h1, h2⟩; exact ⟨h1, fun t ht => ih _ _ _ (h2 t ht)⟩
  | store n t k ih => intro o l ⟨h1, h2, h3⟩; exact ⟨h1, h2, ih _ _ h3⟩

theorem wp_bind {valid : Str → T → Prop} {post : S → List Own → Lk → Prop} (g : R → Prog T S) :
    ∀ (p : Prog T R) (o : List Own) (l : Lk), wp valid (fun r o l => wp valid post (g r) o l) p o l → wp valid post (p.bind g) o l := by
  intro p
  induction p with
  | ret r => intro o l h; exact h
  | get p k ih => intro o l h; exact ih _ _ _ h
  | modify h f k ih => intro o l ⟨p, c, h1, h2⟩; exact ⟨p, c, h1, ih _ _ h2⟩
  | read h k ih => intro o l ⟨p, c, h1, h2⟩; exact ⟨p, c, h1, ih _ _ _ h2⟩
  | put p h k ih => intro o l ⟨h1, h2⟩; exact ⟨h1, ih _ _ h2⟩
  | rlock k ih | runlock k ih | lock k ih | lockWait k ih | unlock k ih => intro o l ⟨h1, h2⟩; exact ⟨h1, ih _ _ h2⟩
  | lookup n k ih => intro o l ⟨h1, h2⟩; exact ⟨h1, fun t ht => ih _ _ _ (h2 t ht)⟩
  | store n t k ih => intro o l ⟨h1, h2, h3⟩; exact ⟨h1, h2, ih _ _ h3⟩

end wp

/-! ### The invariant -/

/-- Who has an object. -/
inductive Who where
  | nobody
  | pool (p : Pool)
  | thread (i h : Nat)

section inv
variable {T R : Type}

/-- What is known about goroutine `i`. -/
structure ThInv (valid : Str → T → Prop) (posts : Nat → R → Prop) (s : State T R) (who : Nat → Who) (i : Nat) (th : Thread T R)
    (o : List Own) (l : Lk) : Prop where
  len : o.length = th.env.length
  owns : ∀ h p c x, o[h]? = some (some (p, c)) → th.env[h]? = some x → who x = .thread i h ∧ s.heap x = c
  runs : wp valid (fun r _ l => posts i r ∧ l = .free) th.prog o l
  reads : l = .read ↔ i ∈ s.readers
  writes : (l = .write ∨ l = .waiting) ↔ s.writer = some i

structure Inv (valid : Str → T → Prop) (posts : Nat → R → Prop) (s : State T R) (who : Nat → Who) (own : Nat → List Own) (lk : Nat → Lk) : Prop where
  th : ∀ i th, s.threads[i]? = some th → ThInv valid posts s who i th (own i) (lk i)
  fresh : ∀ x, s.next ≤ x → who x = .nobody
  pooled : ∀ p x, x ∈ s.pool p → who x = .pool p ∧ s.heap x = {}
  nodup : ∀ p, (s.pool p).Nodup
  cache : ∀ n t, s.cache n = some t → valid n t
  rnodup : s.readers.Nodup
  rdom : ∀ i ∈ s.readers, i < s.threads.length
  wdom : ∀ i, s.writer = some i → i < s.threads.length
  excl : ∀ i th, s.threads[i]? = some th → lk i = .write → s.readers = []

theorem ThInv.other {valid : Str → T → Prop} {posts : Nat → R → Prop} {s s' : State T R} {who who' : Nat → Who} {j : Nat} {th : Thread T R} {o : List Own}
    {l : Lk} (h : ThInv valid posts s who j th o l) (hw : ∀ x h, who x = .thread j h → who' x = .thread j h ∧ s'.heap x = s.heap x)
    (hr : j ∈ s'.readers ↔ j ∈ s.readers) (hwr : s'.writer = some j ↔ s.writer = some j) : ThInv valid posts s' who' j th o l where
  len := h.len
  owns := fun h' p c x h1 h2 => by
    obtain ⟨a, b⟩ := h.owns h' p c x h1 h2
    obtain ⟨a', b'⟩ := hw x h' a
    exact ⟨a', b'.trans b⟩
  runs := h.runs
  reads := h.reads.trans hr.symm
  writes := h.writes.trans hwr.symm

/-- Goroutine `i` makes a step. -/
theorem Inv.step {valid : Str → T → Prop} {posts : Nat → R → Prop} {s s' : State T R} {who who' : Nat → Who} {own : Nat → List Own} {lk : Nat → Lk}
    {i : Nat} {th th' : Thread T R} {o' : List Own} {l' : Lk} (hi : Inv valid posts s who own lk) (hth : s.threads[i]? = some th)
    (hs : s'.threads = s.threads.set i th') (h' : ThInv valid posts s' who' i th' o' l')
    (hw : ∀ j x h, j ≠ i → who x = .thread j h → who' x = .thread j h ∧ s'.heap x = s.heap x)
    (hr : ∀ j, j ≠ i → (j ∈ s'.readers ↔ j ∈ s.readers)) (hwr : ∀ j, j ≠ i → (s'.writer = some j ↔ s.writer = some j))
    (hf : ∀ x, s'.next ≤ x → who' x = .nobody) (hp : ∀ p x, x ∈ s'.pool p → who' x = .pool p ∧ s'.heap x = {})
    (hn : ∀ p, (s'.pool p).Nodup) (hc : ∀ n t, s'.cache n = some t → valid n t) (hrn : s'.readers.Nodup)
    (hx : (∀ j, lk j = .write → j ≠ i → s.threads[j]? ≠ none → s'.readers = []) ∧ (l' = .write → s'.readers = [])) :
    Inv valid posts s' who' (upd own i o') (upd lk i l') := by
  have hlt : i < s.threads.length := (List.getElem?_eq_some_iff.1 hth).1
  have hlen : s'.threads.length = s.threads.length := by rw [hs, List.length_set]
  refine ⟨fun j tj hj => ?_, hf, hp, hn, hc, hrn, fun j hj => ?_, fun j hj => ?_, fun j tj hj hl => ?_⟩
  · rw [hs, List.getElem?_set] at hj
    by_cases e : i = j
    · subst e
      rw [if_pos rfl, if_pos hlt] at hj
      cases hj
      simpa [upd] using h'
    · rw [if_neg e] at hj
      have e' : j ≠ i := fun x => e x.symm
      simp only [upd, e', if_false]
      exact (hi.th j tj hj).other (fun x h => hw j x h e') (hr j e') (hwr j e')
  · rw [hlen]
    by_cases e : j = i
    · rw [e]; exact hlt
    · exact hi.rdom j ((hr j e).1 hj)
  · rw [hlen]
    by_cases e : j = i
    · rw [e]; exact hlt
    · exact hi.wdom j ((hwr j e).1 hj)
  · by_cases e : j = i
    · subst e
      simp [upd] at hl
      exact hx.2 hl
    · simp only [upd, e, if_false] at hl
      rw [hs, List.getElem?_set_ne (fun x => e x.symm)] at hj
      exact hx.1 j hl e (by rw [hj]; simp)

theorem upd_same {α β : Type} [DecidableEq α] (f : α → β) (a : α) (b : β) : upd f a b a = b := by simp [upd]
theorem upd_ne {α β : Type} [DecidableEq α] (f : α → β) (a : α) (b : β) {x : α} (h : x ≠ a) : upd f a b x = f x := by simp [upd, h]

theorem owned_lt {o : List Own} {env : List Nat} (h : o.length = env.length) {i : Nat} {x : Own} (hx : o[i]? = some x) : ∃ l, env[i]? = some l := by
  have := (List.getElem?_eq_some_iff.1 hx).1
  exact ⟨env[i]'(h ▸ this), by simp⟩

/-- Every step keeps the invariant. -/
theorem inv_step {valid : Str → T → Prop} {posts : Nat → R → Prop} {s s' : State T R} {who : Nat → Who} {own : Nat → List Own} {lk : Nat → Lk}
    (hi : Inv valid posts s who own lk) {who? : Option Nat} (hst : Step who? s s') : ∃ who' own' lk', Inv valid posts s' who' own' lk' := by
  cases hst with
  | reuse _ i env p k l hth hl =>
    have t := hi.th i _ hth
    have hr := t.runs
    simp only [wp] at hr
    obtain ⟨hl1, hl2⟩ := hi.pooled p l hl
    refine ⟨upd who l (.thread i env.length), _, _, hi.step hth rfl (o' := own i ++ [some (some p, ({} : Cell))]) (l' := lk i)
      ⟨?_, ?_, ?_, t.reads, t.writes⟩ ?_ (fun _ _ => Iff.rfl) (fun _ _ => Iff.rfl) ?_ ?_ ?_ hi.cache hi.rnodup ⟨fun j h1 h2 h3 => ?_, hi.excl i _ hth⟩⟩
    · simp [t.len]
    · intro h' q c x h1 h2
      have hlen : (own i).length = env.length := t.len
      rw [List.getElem?_append] at h1 h2
      by_cases hh : h' < env.length
      · rw [if_pos hh] at h2
        rw [if_pos (by omega)] at h1
        obtain ⟨a, b⟩ := t.owns h' q c x h1 h2
        have : x ≠ l := by rintro rfl; rw [hl1] at a; cases a
        exact ⟨by rw [upd_ne _ _ _ this]; exact a, b⟩
      · rw [if_neg hh] at h2
        rw [if_neg (by omega)] at h1
        have e : h' - env.length = 0 := by
          rcases Nat.eq_zero_or_pos (h' - env.length) with e | e
          · exact e
          · rw [List.getElem?_eq_none (by simp; omega)] at h2; cases h2
        have : h' = env.length := by omega
        subst this
        simp only [hlen, Nat.sub_self, List.getElem?_cons_zero] at h1 h2
        cases h1; cases h2
        exact ⟨upd_same _ _ _, hl2⟩
    · rw [t.len] at hr; exact hr
    · intro j x h hj hw
      have : x ≠ l := by rintro rfl; rw [hl1] at hw; cases hw
      exact ⟨by rw [upd_ne _ _ _ this]; exact hw, rfl⟩
    · intro x hx
      have := hi.fresh x hx
      have ne : x ≠ l := by rintro rfl; rw [hl1] at this; cases this
      rw [upd_ne _ _ _ ne]; exact this
    · intro q x hx
      change x ∈ upd s.pool p ((s.pool p).erase l) q at hx
      have : x ∈ s.pool q ∧ x ≠ l := by
        by_cases e : q = p
        · subst e
          rw [upd_same] at hx
          exact ⟨List.mem_of_mem_erase hx, fun e => by subst e; exact List.Nodup.not_mem_erase (hi.nodup q) hx⟩
        · rw [upd_ne _ _ _ e] at hx
          refine ⟨hx, fun e' => ?_⟩
          subst e'
          have := (hi.pooled q x hx).1
          rw [hl1] at this
          cases this
          exact e rfl
      rw [upd_ne _ _ _ this.2]
      exact hi.pooled q x this.1
    · intro q
      change (upd s.pool p ((s.pool p).erase l) q).Nodup
      by_cases e : q = p
      · subst e; rw [upd_same]; exact (hi.nodup q).erase l
      · rw [upd_ne _ _ _ e]; exact hi.nodup q
    · obtain ⟨tj, htj⟩ := Option.ne_none_iff_exists'.1 h3
      exact hi.excl j tj htj h1
  | fresh _ i env p k hth =>
    have t := hi.th i _ hth
    have hr := t.runs
    simp only [wp] at hr
    have hl1 := hi.fresh s.next (Nat.le_refl _)
    refine ⟨upd who s.next (.thread i env.length), _, _, hi.step hth rfl (o' := own i ++ [some (p, ({} : Cell))]) (l' := lk i)
      ⟨?_, ?_, ?_, t.reads, t.writes⟩ ?_ (fun _ _ => Iff.rfl) (fun _ _ => Iff.rfl) ?_ ?_ hi.nodup hi.cache hi.rnodup ⟨fun j h1 h2 h3 => ?_, hi.excl i _ hth⟩⟩
    · simp [t.len]
    · intro h' q c x h1 h2
      have hlen : (own i).length = env.length := t.len
      rw [List.getElem?_append] at h1 h2
      by_cases hh : h' < env.length
      · rw [if_pos hh] at h2
        rw [if_pos (by omega)] at h1
        obtain ⟨a, b⟩ := t.owns h' q c x h1 h2
        have : x ≠ s.next := by rintro rfl; rw [hl1] at a; cases a
        refine ⟨by rw [upd_ne _ _ _ this]; exact a, ?_⟩
        change upd s.heap s.next {} x = c
        rw [upd_ne _ _ _ this]; exact b
      · rw [if_neg hh] at h2
        rw [if_neg (by omega)] at h1
        have e : h' - env.length = 0 := by
          rcases Nat.eq_zero_or_pos (h' - env.length) with e | e
          · exact e
          · rw [List.getElem?_eq_none (by simp; omega)] at h2; cases h2
        have : h' = env.length := by omega
        subst this
        simp only [hlen, Nat.sub_self, List.getElem?_cons_zero] at h1 h2
        cases h1; cases h2
        exact ⟨upd_same _ _ _, upd_same _ _ _⟩
    · rw [t.len] at hr; exact hr
    · intro j x h hj hw
      have : x ≠ s.next := by rintro rfl; rw [hl1] at hw; cases hw
      refine ⟨by rw [upd_ne _ _ _ this]; exact hw, ?_⟩
      change upd s.heap s.next {} x = _
      rw [upd_ne _ _ _ this]
    · intro x hx
      change s.next + 1 ≤ x at hx
      rw [upd_ne _ _ _ (by omega)]
      exact hi.fresh x (by omega)
    · intro q x hx
      have h1 := hi.pooled q x hx
      have : x ≠ s.next := by rintro rfl; rw [hl1] at h1; cases h1.1
      refine ⟨by rw [upd_ne _ _ _ this]; exact h1.1, ?_⟩
      change upd s.heap s.next {} x = _
      rw [upd_ne _ _ _ this]; exact h1.2
    · obtain ⟨tj, htj⟩ := Option.ne_none_iff_exists'.1 h3
      exact hi.excl j tj htj h1
  | modify _ i env h f k l hth hl =>
    have t := hi.th i _ hth
    obtain ⟨p, c, h1, h2⟩ := t.runs
    obtain ⟨ho, hh⟩ := t.owns h p c l h1 hl
    refine ⟨who, _, _, hi.step hth rfl (o' := (own i).set h (some (p, f c))) (l' := lk i)
      ⟨?_, ?_, h2, t.reads, t.writes⟩ ?_ (fun _ _ => Iff.rfl) (fun _ _ => Iff.rfl) hi.fresh ?_ hi.nodup hi.cache hi.rnodup
      ⟨fun j h1 h2 h3 => ?_, hi.excl i _ hth⟩⟩
    · simp [t.len]
    · intro h' q c' x h3 h4
      rw [List.getElem?_set] at h3
      by_cases e : h = h'
      · subst e
        rw [if_pos rfl] at h3
        split at h3
        · cases h3
          change env[h]? = some x at h4
          rw [hl] at h4
          cases h4
          refine ⟨ho, ?_⟩
          change upd s.heap l (f (s.heap l)) l = _
          rw [upd_same, hh]
        · cases h3
      · rw [if_neg e] at h3
        obtain ⟨a, b⟩ := t.owns h' q c' x h3 h4
        have : x ≠ l := by rintro rfl; rw [ho] at a; cases a; exact e rfl
        refine ⟨a, ?_⟩
        change upd s.heap l (f (s.heap l)) x = _
        rw [upd_ne _ _ _ this]; exact b
    · intro j x h' hj hw
      have : x ≠ l := by rintro rfl; rw [ho] at hw; cases hw; exact hj rfl
      refine ⟨hw, ?_⟩
      change upd s.heap l (f (s.heap l)) x = _
      rw [upd_ne _ _ _ this]
    · intro q x hx
      have h3 := hi.pooled q x hx
      have : x ≠ l := by rintro rfl; rw [ho] at h3; cases h3.1
      refine ⟨h3.1, ?_⟩
      change upd s.heap l (f (s.heap l)) x = _
      rw [upd_ne _ _ _ this]; exact h3.2
    · obtain ⟨tj, htj⟩ := Option.ne_none_iff_exists'.1 h3
      exact hi.excl j tj htj h1
  | read _ i env h k l hth hl =>
    have t := hi.th i _ hth
    obtain ⟨p, c, h1, h2⟩ := t.runs
    obtain ⟨ho, hh⟩ := t.owns h p c l h1 hl
    refine ⟨who, _, _, hi.step hth rfl (o' := own i) (l' := lk i)
      ⟨t.len, t.owns, by rw [hh]; exact h2, t.reads, t.writes⟩ (fun _ _ _ _ hw => ⟨hw, rfl⟩) (fun _ _ => Iff.rfl) (fun _ _ => Iff.rfl) hi.fresh hi.pooled
      hi.nodup hi.cache hi.rnodup ⟨fun j h1 h2 h3 => ?_, hi.excl i _ hth⟩⟩
    obtain ⟨tj, htj⟩ := Option.ne_none_iff_exists'.1 h3
    exact hi.excl j tj htj h1
  | put _ i env p h k l hth hl =>
    have t := hi.th i _ hth
    obtain ⟨h1, h2⟩ := t.runs
    obtain ⟨ho, hh⟩ := t.owns h _ _ l h1 hl
    refine ⟨upd who l (.pool p), _, _, hi.step hth rfl (o' := (own i).set h none) (l' := lk i)
      ⟨?_, ?_, h2, t.reads, t.writes⟩ ?_ (fun _ _ => Iff.rfl) (fun _ _ => Iff.rfl) ?_ ?_ ?_ hi.cache hi.rnodup
      ⟨fun j h1 h2 h3 => ?_, hi.excl i _ hth⟩⟩
    · simp [t.len]
    · intro h' q c' x h3 h4
      rw [List.getElem?_set] at h3
      by_cases e : h = h'
      · subst e
        rw [if_pos rfl] at h3
        split at h3 <;> cases h3
      · rw [if_neg e] at h3
        obtain ⟨a, b⟩ := t.owns h' q c' x h3 h4
        have : x ≠ l := by rintro rfl; rw [ho] at a; cases a; exact e rfl
        exact ⟨by rw [upd_ne _ _ _ this]; exact a, b⟩
    · intro j x h' hj hw
      have : x ≠ l := by rintro rfl; rw [ho] at hw; cases hw; exact hj rfl
      exact ⟨by rw [upd_ne _ _ _ this]; exact hw, rfl⟩
    · intro x hx
      have := hi.fresh x hx
      have ne : x ≠ l := by rintro rfl; rw [ho] at this; cases this
      rw [upd_ne _ _ _ ne]; exact this
    · intro q x hx
      change x ∈ upd s.pool p (l :: s.pool p) q at hx
      by_cases ex : x = l
      · subst ex
        rw [upd_same]
        by_cases e : q = p
        · subst e; exact ⟨rfl, hh⟩
        · rw [upd_ne _ _ _ e] at hx
          have := (hi.pooled q x hx).1
          rw [ho] at this; cases this
      · rw [upd_ne _ _ _ ex]
        refine hi.pooled q x ?_
        by_cases e : q = p
        · subst e
          rw [upd_same] at hx
          exact (List.mem_cons.1 hx).resolve_left ex
        · rw [upd_ne _ _ _ e] at hx; exact hx
    · intro q
      change (upd s.pool p (l :: s.pool p) q).Nodup
      by_cases e : q = p
      · subst e
        rw [upd_same]
        refine List.nodup_cons.2 ⟨fun hx => ?_, hi.nodup q⟩
        have := (hi.pooled q l hx).1
        rw [ho] at this; cases this
      · rw [upd_ne _ _ _ e]; exact hi.nodup q
    · obtain ⟨tj, htj⟩ := Option.ne_none_iff_exists'.1 h3
      exact hi.excl j tj htj h1
  | drop _ p l hl =>
    obtain ⟨hl1, hl2⟩ := hi.pooled p l hl
    refine ⟨upd who l .nobody, own, lk, fun j tj hj => (hi.th j tj hj).other (fun x h hw => ?_) Iff.rfl Iff.rfl, fun x hx => ?_, fun q x hx => ?_, fun q => ?_,
      hi.cache, hi.rnodup, hi.rdom, hi.wdom, hi.excl⟩
    · have : x ≠ l := by rintro rfl; rw [hl1] at hw; cases hw
      exact ⟨by rw [upd_ne _ _ _ this]; exact hw, rfl⟩
    · by_cases e : x = l
      · subst e; exact upd_same _ _ _
      · rw [upd_ne _ _ _ e]; exact hi.fresh x hx
    · change x ∈ upd s.pool p ((s.pool p).erase l) q at hx
      have : x ∈ s.pool q ∧ x ≠ l := by
        by_cases e : q = p
        · subst e
          rw [upd_same] at hx
          exact ⟨List.mem_of_mem_erase hx, fun e => by subst e; exact List.Nodup.not_mem_erase (hi.nodup q) hx⟩
        · rw [upd_ne _ _ _ e] at hx
          refine ⟨hx, fun e' => ?_⟩
          subst e'
          have := (hi.pooled q x hx).1
          rw [hl1] at this
          cases this
          exact e rfl
      rw [upd_ne _ _ _ this.2]
      exact hi.pooled q x this.1
    · change (upd s.pool p ((s.pool p).erase l) q).Nodup
      by_cases e : q = p
      · subst e; rw [upd_same]; exact (hi.nodup q).erase l
      · rw [upd_ne _ _ _ e]; exact hi.nodup q
  | rlock _ i env k hth hwn =>
    have t := hi.th i _ hth
    obtain ⟨h1, h2⟩ := t.runs
    have hni : i ∉ s.readers := fun hh => by rw [t.reads.2 hh] at h1; cases h1
    refine ⟨who, _, _, hi.step hth rfl (o' := own i) (l' := .read)
      ⟨t.len, t.owns, h2, ⟨fun _ => List.mem_cons_self, fun _ => rfl⟩, ?_⟩ (fun _ _ _ _ hw => ⟨hw, rfl⟩) (fun j hj => ?_) (fun _ _ => Iff.rfl) hi.fresh hi.pooled
      hi.nodup hi.cache (List.nodup_cons.2 ⟨hni, hi.rnodup⟩) ⟨fun j h1 h2 h3 => ?_, fun h => by cases h⟩⟩
    · constructor
      · rintro (h | h) <;> cases h
      · intro h; change s.writer = _ at h; rw [hwn] at h; cases h
    · constructor
      · intro h; exact (List.mem_cons.1 h).resolve_left hj
      · exact List.mem_cons_of_mem _
    · obtain ⟨tj, htj⟩ := Option.ne_none_iff_exists'.1 h3
      have := (hi.th j tj htj).writes.1 (.inl h1)
      rw [hwn] at this; cases this
  | runlock _ i env k hth =>
    have t := hi.th i _ hth
    obtain ⟨h1, h2⟩ := t.runs
    refine ⟨who, _, _, hi.step hth rfl (o' := own i) (l' := .free)
      ⟨t.len, t.owns, h2, ⟨fun h => (by cases h), fun h => ?_⟩, ?_⟩ (fun _ _ _ _ hw => ⟨hw, rfl⟩) (fun j hj => ?_) (fun _ _ => Iff.rfl) hi.fresh hi.pooled
      hi.nodup hi.cache (hi.rnodup.erase i) ⟨fun j h1 h2 h3 => ?_, fun h => by cases h⟩⟩
    · exact absurd h (List.Nodup.not_mem_erase hi.rnodup)
    · constructor
      · rintro (h | h) <;> cases h
      · intro h
        have := t.writes.2 h
        rw [h1] at this
        rcases this with h | h <;> cases h
    · exact List.mem_erase_of_ne hj
    · obtain ⟨tj, htj⟩ := Option.ne_none_iff_exists'.1 h3
      have := hi.excl j tj htj h1
      change s.readers.erase i = []
      rw [this]; rfl
  | lock _ i env k hth hwn =>
    have t := hi.th i _ hth
    obtain ⟨h1, h2⟩ := t.runs
    refine ⟨who, _, _, hi.step hth rfl (o' := own i) (l' := .waiting)
      ⟨t.len, t.owns, ⟨rfl, h2⟩, ⟨fun h => (by cases h), fun h => ?_⟩, ⟨fun _ => rfl, fun _ => .inr rfl⟩⟩ (fun _ _ _ _ hw => ⟨hw, rfl⟩) (fun _ _ => Iff.rfl)
      (fun j hj => ?_) hi.fresh hi.pooled hi.nodup hi.cache hi.rnodup ⟨fun j h1 h2 h3 => ?_, fun h => by cases h⟩⟩
    · rw [t.reads.2 h] at h1; cases h1
    · rw [hwn]
      constructor
      · intro h; cases h; exact absurd rfl hj
      · intro h; cases h
    · obtain ⟨tj, htj⟩ := Option.ne_none_iff_exists'.1 h3
      exact hi.excl j tj htj h1
  | locked _ i env k hth hrn =>
    have t := hi.th i _ hth
    obtain ⟨h1, h2⟩ := t.runs
    refine ⟨who, _, _, hi.step hth rfl (o' := own i) (l' := .write)
      ⟨t.len, t.owns, h2, ⟨fun h => (by cases h), fun h => ?_⟩, ⟨fun _ => t.writes.1 (.inr h1), fun _ => .inl rfl⟩⟩ (fun _ _ _ _ hw => ⟨hw, rfl⟩) (fun _ _ => Iff.rfl)
      (fun _ _ => Iff.rfl) hi.fresh hi.pooled hi.nodup hi.cache hi.rnodup ⟨fun _ _ _ _ => hrn, fun _ => hrn⟩⟩
    rw [t.reads.2 h] at h1; cases h1
  | unlock _ i env k hth =>
    have t := hi.th i _ hth
    obtain ⟨h1, h2⟩ := t.runs
    have hwi := t.writes.1 (.inl h1)
    refine ⟨who, _, _, hi.step hth rfl (o' := own i) (l' := .free)
      ⟨t.len, t.owns, h2, ⟨fun h => (by cases h), fun h => ?_⟩, ?_⟩ (fun _ _ _ _ hw => ⟨hw, rfl⟩) (fun _ _ => Iff.rfl)
      (fun j hj => ?_) hi.fresh hi.pooled hi.nodup hi.cache hi.rnodup ⟨fun j h1 h2 h3 => ?_, fun h => by cases h⟩⟩
    · rw [t.reads.2 h] at h1; cases h1
    · constructor
      · rintro (h | h) <;> cases h
      · intro h; cases h
    · rw [hwi]
      constructor
      · intro h; cases h
      · intro h; cases h; exact absurd rfl hj
    · obtain ⟨tj, htj⟩ := Option.ne_none_iff_exists'.1 h3
      exact hi.excl j tj htj h1
  | lookup _ i env n k hth =>
    have t := hi.th i _ hth
    obtain ⟨h1, h2⟩ := t.runs
    refine ⟨who, _, _, hi.step hth rfl (o' := own i) (l' := lk i)
      ⟨t.len, t.owns, h2 _ (fun x hx => hi.cache n x hx), t.reads, t.writes⟩ (fun _ _ _ _ hw => ⟨hw, rfl⟩) (fun _ _ => Iff.rfl) (fun _ _ => Iff.rfl) hi.fresh
      hi.pooled hi.nodup hi.cache hi.rnodup ⟨fun j h1 h2 h3 => ?_, hi.excl i _ hth⟩⟩
    obtain ⟨tj, htj⟩ := Option.ne_none_iff_exists'.1 h3
    exact hi.excl j tj htj h1
  | store _ i env n x k hth =>
    have t := hi.th i _ hth
    obtain ⟨h1, h2, h3⟩ := t.runs
    refine ⟨who, _, _, hi.step hth rfl (o' := own i) (l' := lk i)
      ⟨t.len, t.owns, h3, t.reads, t.writes⟩ (fun _ _ _ _ hw => ⟨hw, rfl⟩) (fun _ _ => Iff.rfl) (fun _ _ => Iff.rfl) hi.fresh
      hi.pooled hi.nodup (fun m y hy => ?_) hi.rnodup ⟨fun j h1 h2 h3 => ?_, hi.excl i _ hth⟩⟩
    · change upd s.cache n (some x) m = some y at hy
      by_cases e : m = n
      · subst e; rw [upd_same] at hy; cases hy; exact h2
      · rw [upd_ne _ _ _ e] at hy; exact hi.cache m y hy
    · obtain ⟨tj, htj⟩ := Option.ne_none_iff_exists'.1 h3
      exact hi.excl j tj htj h1

theorem inv_start {valid : Str → T → Prop} {posts : Nat → R → Prop} (ps : List (Prog T R))
    (h : ∀ i p, ps[i]? = some p → wp valid (fun r _ l => posts i r ∧ l = .free) p [] .free) :
    Inv valid posts (start ps) (fun _ => .nobody) (fun _ => []) (fun _ => .free) := by
  refine ⟨fun i th hth => ?_, fun _ _ => rfl, fun _ _ h => by simp [start] at h, fun _ => List.nodup_nil, fun _ _ h => by simp [start] at h, List.nodup_nil,
    fun _ h => by simp [start] at h, fun _ h => by simp [start] at h, fun _ _ _ h => by cases h⟩
  simp only [start, List.getElem?_map, Option.map_eq_some_iff] at hth
  obtain ⟨p, hp, rfl⟩ := hth
  exact ⟨rfl, fun _ _ _ _ h => by simp at h, h i p hp, by simp [start], by simp [start]⟩

theorem inv_steps {valid : Str → T → Prop} {posts : Nat → R → Prop} {s s' : State T R} {who : Nat → Who} {own : Nat → List Own} {lk : Nat → Lk}
    (hi : Inv valid posts s who own lk) (hst : Steps s s') : ∃ who' own' lk', Inv valid posts s' who' own' lk' := by
  induction hst with
  | refl => exact ⟨_, _, _, hi⟩
  | tail _ h ih =>
    obtain ⟨_, _, _, h'⟩ := ih
    exact inv_step h' h

end inv
end Sq.Conc
