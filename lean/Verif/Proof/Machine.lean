import Verif.Model.Machine
/-
Invariants of the execution of effects; they hold for *every* sequence of effects.
-/
namespace Sq

@[simp] theorem exec_nil (d : Dialect) (s : St) : exec d [] s = s := rfl
@[simp] theorem exec_cons (d : Dialect) (i : Instr) (is : List Instr) (s : St) :
    exec d (i :: is) s = exec d is (exec1 d i s) := rfl
theorem exec_append (d : Dialect) (a b : List Instr) (s : St) :
    exec d (a ++ b) s = exec d b (exec d a s) := by simp [exec, List.foldl_append]

/-- An invariant of single steps is an invariant of executions. -/
theorem exec_ind {d : Dialect} {P : St → Prop} (h : ∀ i s, P s → P (exec1 d i s)) (is : List Instr) (s : St)
    (hs : P s) : P (exec d is s) := by
  induction is generalizing s with
  | nil => exact hs
  | cons i is ih => exact ih _ (h i s hs)

/-- As `exec_ind`, for effects satisfying `Q`. -/
theorem exec_ind' {d : Dialect} {P : St → Prop} {Q : Instr → Prop} (h : ∀ i s, Q i → P s → P (exec1 d i s))
    (is : List Instr) (s : St) (hq : ∀ i ∈ is, Q i) (hs : P s) : P (exec d is s) := by
  induction is generalizing s with
  | nil => exact hs
  | cons i is ih =>
    exact ih _ (fun j hj => hq j (List.mem_cons_of_mem _ hj)) (h i s (hq i (List.mem_cons_self)) hs)

/-- Numbered placeholders and recorded positions are in range. -/
structure InRange (s : St) : Prop where
  ph : ∀ n, Piece.ph n ∈ s.out → 1 ≤ n ∧ n ≤ s.args.length
  params : ∀ k i, i ∈ s.params k → i < s.args.length

theorem inRange_init : InRange {} := ⟨by simp, by simp⟩

theorem inRange_step (d : Dialect) (i : Instr) (s : St) (h : InRange s) : InRange (exec1 d i s) := by
  obtain ⟨h1, h2⟩ := h
  cases i with
  | text t =>
    refine ⟨?_, h2⟩
    intro n hn; simp [exec1] at hn; exact h1 n hn
  | bind pn v =>
    simp only [exec1]
    split
    · split
      · rename_i k ks heq
        have hk : k < s.args.length := by
          split at heq
          · simp at heq
          · exact h2 pn k (by simp [heq])
        refine ⟨?_, h2⟩
        intro n hn
        simp at hn ⊢
        rcases hn with hn | hn
        · exact h1 n hn
        · omega
      · refine ⟨?_, ?_⟩
        · intro n hn
          simp at hn ⊢
          rcases hn with hn | hn
          · have := h1 n hn; omega
          · omega
        · intro k i hi
          simp at hi ⊢
          split at hi
          · have := h2 k i hi; omega
          · simp only [Params.set] at hi
            split at hi
            · simp at hi; omega
            · have := h2 k i hi; omega
    · refine ⟨?_, ?_⟩
      · intro n hn
        simp at hn ⊢
        have := h1 n hn; omega
      · intro k i hi
        have := h2 k i hi
        simp; omega
  | named name v =>
    simp only [exec1]
    split
    · refine ⟨?_, ?_⟩
      · intro n hn
        simp at hn ⊢
        exact h1 n hn
      · intro k i hi
        simpa using h2 k i hi
    · refine ⟨?_, ?_⟩
      · intro n hn
        simp at hn ⊢
        have := h1 n hn; omega
      · intro k i hi
        simp only [Params.set] at hi
        simp
        split at hi
        · simp at hi; omega
        · have := h2 k i hi; omega
  | param name v =>
    simp only [exec1]
    split
    · split
      · rename_i k ks heq
        have hk : k < s.args.length := h2 name k (by simp [heq])
        refine ⟨?_, ?_⟩
        · intro n hn
          simp at hn ⊢
          rcases hn with hn | hn
          · exact h1 n hn
          · omega
        · intro k i hi
          simpa using h2 k i hi
      · refine ⟨?_, ?_⟩
        · intro n hn
          simp at hn ⊢
          rcases hn with hn | hn
          · have := h1 n hn; omega
          · omega
        · intro k i hi
          simp only [Params.set] at hi
          simp
          split at hi
          · simp at hi; omega
          · have := h2 k i hi; omega
    · refine ⟨?_, ?_⟩
      · intro n hn
        simp at hn ⊢
        have := h1 n hn; omega
      · intro k i hi
        simp only [Params.set] at hi
        simp
        split at hi
        · simp at hi
          rcases hi with hi | hi
          · have := h2 _ i hi; omega
          · omega
        · have := h2 k i hi; omega
  | forget ns =>
    refine ⟨h1, ?_⟩
    intro k i hi
    simp only [exec1, Params.erase] at hi
    split at hi
    · simp at hi
    · exact h2 k i hi

theorem inRange_exec (d : Dialect) (is : List Instr) : InRange (exec d is {}) :=
  exec_ind (inRange_step d) is {} inRange_init

theorem inRange_exec_from (d : Dialect) (is : List Instr) (s : St) (h : InRange s) : InRange (exec d is s) :=
  exec_ind (inRange_step d) is s h

/-- Every argument is used by some placeholder. -/
def AllUsed (s : St) : Prop :=
  ∀ k a, s.args[k]? = some a → Piece.ph (k + 1) ∈ s.out ∨ ∃ nm v, a = .named nm v ∧ Piece.ref nm ∈ s.out

theorem allUsed_step (d : Dialect) (hd : numbered d = true) (i : Instr) (s : St) (h : AllUsed s) :
    AllUsed (exec1 d i s) := by
  cases i with
  | text t =>
    intro k a ha
    simp only [exec1] at ha ⊢
    have := h k a ha
    simpa using this
  | bind pn v =>
    simp only [exec1, hd]
    intro k a
    split
    · simp; split
      · intro ha
        simp at ha ⊢
        have := h k a ha
        grind
      · intro ha
        simp [List.getElem?_append] at ha ⊢
        split at ha
        · have := h k a ha; grind
        · simp [List.getElem?_cons] at ha
          left; right; omega
    · contradiction
  | named name v =>
    simp only [exec1]
    intro k a
    split
    · intro ha
      simp [List.getElem?_set] at ha ⊢
      split at ha
      · split at ha
        · right; exact ⟨name, ⟨v, by simpa using ha.symm⟩, Or.inr rfl⟩
        · simp at ha
      · have := h k a ha; grind
    · intro ha
      simp [List.getElem?_append] at ha ⊢
      split at ha
      · have := h k a ha; grind
      · simp [List.getElem?_cons] at ha
        right; exact ⟨name, ⟨v, ha.2.symm⟩, Or.inr rfl⟩
  | param name v =>
    simp only [exec1, hd]
    intro k a
    split
    · split
      · intro ha
        simp [List.getElem?_set] at ha ⊢
        split at ha
        · left; right; omega
        · have := h k a ha; grind
      · intro ha
        simp [List.getElem?_append] at ha ⊢
        split at ha
        · have := h k a ha; grind
        · simp [List.getElem?_cons] at ha
          left; right; omega
    · contradiction
  | forget ns => exact h

theorem allUsed_exec (d : Dialect) (hd : numbered d = true) (is : List Instr) : AllUsed (exec d is {}) :=
  exec_ind (allUsed_step d hd) is {} (by simp [AllUsed])

/-- Number of anonymous placeholders. -/
def anonCount (ps : List Piece) : Nat := ps.countP (fun p => decide (p = .anon))
def refCount (ps : List Piece) : Nat := ps.countP (fun p => match p with | .ref _ => true | _ => false)

/-- Without numbered and named placeholders, the anonymous ones and the arguments are equally many. -/
theorem anon_step (d : Dialect) (hd : numbered d = false) (i : Instr) (s : St)
    (hi : ∀ n v, i ≠ .named n v) (h : anonCount s.out = s.args.length) :
    anonCount (exec1 d i s).out = (exec1 d i s).args.length := by
  cases i <;> simp_all [exec1, anonCount]

theorem no_named_of_no_ref (d : Dialect) (is : List Instr) (s : St)
    (h : ∀ nm, Piece.ref nm ∉ (exec d is s).out) : (∀ i ∈ is, ∀ n v, i ≠ .named n v) := by
  have mono : ∀ (js : List Instr) (s : St) p, p ∈ s.out → p ∈ (exec d js s).out := by
    intro js
    induction js with
    | nil => intro s p hp; exact hp
    | cons j js ih =>
      intro s p hp
      apply ih
      cases j <;> simp only [exec1] <;> (repeat' split) <;> simp [hp]
  induction is generalizing s with
  | nil => simp
  | cons i is ih =>
    intro j hj n v he
    rcases List.mem_cons.1 hj with rfl | hj
    · subst he
      apply h n
      show Piece.ref n ∈ (exec d is (exec1 d (.named n v) s)).out
      apply mono
      simp only [exec1]; split <;> simp
    · exact ih (exec1 d i s) h j hj n v he

/-- The buffer only grows at the end. -/
theorem exec_out_prefix (d : Dialect) (is : List Instr) (s : St) : s.out <+: (exec d is s).out := by
  induction is generalizing s with
  | nil => simp
  | cons i is ih =>
    refine List.IsPrefix.trans ?_ (ih _)
    cases i <;> (try simp only [exec1]) <;> (repeat' split) <;> simp

/-- Earlier arguments stay unless their position is owned by a recorded parameter. -/
theorem exec_args_keep (d : Dialect) (is : List Instr) (s : St) (k : Nat) (hk : k < s.args.length)
    (hfree : ∀ nm, k ∉ s.params nm) : (exec d is s).args[k]? = s.args[k]? := by
  have key : ∀ (is : List Instr) (t : St), k < t.args.length → (∀ nm, k ∉ t.params nm) →
      (exec d is t).args[k]? = t.args[k]? := by
    intro is
    induction is with
    | nil => intros; rfl
    | cons i is ih =>
      intro t hk hf
      have hstep : (exec1 d i t).args[k]? = t.args[k]? ∧ k < (exec1 d i t).args.length ∧
          (∀ nm, k ∉ (exec1 d i t).params nm) := by
        cases i with
        | text _ => exact ⟨rfl, hk, hf⟩
        | bind pn v =>
          simp only [exec1]
          split
          · split
            · exact ⟨rfl, hk, hf⟩
            · refine ⟨by simp [List.getElem?_append, hk], by simp; omega, ?_⟩
              intro nm; simp
              split
              · exact hf nm
              · simp only [Params.set]; split
                · simp; omega
                · exact hf nm
          · exact ⟨by simp [List.getElem?_append, hk], by simp; omega, hf⟩
        | named name v =>
          simp only [exec1]
          split
          · rename_i j js heq
            have : j ≠ k := by rintro rfl; exact hf name (by simp [heq])
            exact ⟨by simp [this], by simpa using hk, hf⟩
          · refine ⟨by simp [List.getElem?_append, hk], by simp; omega, ?_⟩
            intro nm; simp only [Params.set]; split
            · simp; omega
            · exact hf nm
        | param name v =>
          simp only [exec1]
          split
          · split
            · rename_i j js heq
              have : j ≠ k := by rintro rfl; exact hf name (by simp [heq])
              exact ⟨by simp [this], by simpa using hk, hf⟩
            · refine ⟨by simp [List.getElem?_append, hk], by simp; omega, ?_⟩
              intro nm; simp only [Params.set]; split
              · simp; omega
              · exact hf nm
          · refine ⟨by simp [List.getElem?_append, hk], by simp; omega, ?_⟩
            intro nm; simp only [Params.set]; split
            · simp; exact ⟨hf _, by omega⟩
            · exact hf nm
        | forget ns =>
          refine ⟨rfl, hk, ?_⟩
          intro nm; simp only [exec1, Params.erase]; split
          · simp
          · exact hf nm
      rw [exec_cons, ih _ hstep.2.1 hstep.2.2, hstep.1]
  exact key is s hk hfree

end Sq
