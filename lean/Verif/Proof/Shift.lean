import Verif.Proof.Machine
/-
Executing effects in a non-empty state: the same pieces with shifted placeholder numbers, the same arguments
appended, provided none of the parameter names used has been recorded before.
-/
namespace Sq

/-- A piece with its placeholder number moved by `k`. -/
def Piece.shift (k : Nat) : Piece → Piece
  | .ph n => .ph (n + k)
  | p => p

/-- The parameter names an effect looks up. -/
def Instr.names : Instr → List Str
  | .bind pn _ => if pn = [] then [] else [pn]
  | .named n _ => [n]
  | .param n _ => [n]
  | _ => []

theorem exec_shift (d : Dialect) (Nm : Str → Prop) (is : List Instr) (hn : ∀ i ∈ is, ∀ x ∈ i.names, Nm x) :
    ∀ (s u t : St), (∀ x, Nm x → t.params x = (u.params x).map (· + s.args.length)) →
      t.out = s.out ++ u.out.map (Piece.shift s.args.length) → t.args = s.args ++ u.args →
      (exec d is t).out = s.out ++ (exec d is u).out.map (Piece.shift s.args.length) ∧
      (exec d is t).args = s.args ++ (exec d is u).args ∧
      (∀ x, Nm x → (exec d is t).params x = ((exec d is u).params x).map (· + s.args.length)) := by
  induction is with
  | nil => intro s u t hp ho ha; exact ⟨ho, ha, hp⟩
  | cons i is ih =>
    intro s u t hp ho ha
    rw [exec_cons, exec_cons]
    have hi : ∀ x ∈ i.names, Nm x := hn i (by simp)
    suffices h : (∀ x, Nm x → (exec1 d i t).params x = ((exec1 d i u).params x).map (· + s.args.length)) ∧
        (exec1 d i t).out = s.out ++ (exec1 d i u).out.map (Piece.shift s.args.length) ∧
        (exec1 d i t).args = s.args ++ (exec1 d i u).args from
      ih (fun j hj => hn j (List.mem_cons_of_mem _ hj)) s _ _ h.1 h.2.1 h.2.2
    cases i with
    | text x => simp [exec1, ho, ha, Piece.shift]; exact hp
    | forget ns =>
      refine ⟨?_, ho, ha⟩
      intro x hx
      simp only [exec1, Params.erase]
      split
      · simp
      · exact hp x hx
    | bind pn v =>
      simp only [exec1]
      by_cases hd : numbered d = true
      · simp only [hd, if_true]
        by_cases hpn : pn = []
        · simp [hpn, ho, ha, Piece.shift]
          refine ⟨hp, by omega⟩
        · have hN := hi pn (by simp [Instr.names, hpn])
          have := hp pn hN
          cases hu : u.params pn with
          | nil =>
            rw [hu] at this; simp at this
            simp [hpn, this, hu, ho, ha, Piece.shift]
            refine ⟨?_, by omega⟩
            intro x hx
            simp only [Params.set]
            split
            · simp; omega
            · exact hp x hx
          | cons k ks =>
            rw [hu] at this; simp at this
            simp [hpn, this, hu, ho, ha, Piece.shift]
            refine ⟨hp, by omega⟩
      · simp [hd, ho, ha, Piece.shift]
        exact hp
    | named nm v =>
      simp only [exec1]
      have hN := hi nm (by simp [Instr.names])
      have := hp nm hN
      cases hu : u.params nm with
      | nil =>
        rw [hu] at this; simp at this
        simp [this, ho, ha, Piece.shift]
        intro x hx
        simp only [Params.set]
        split
        · simp; omega
        · exact hp x hx
      | cons k ks =>
        rw [hu] at this; simp at this
        simp [this, ho, ha, Piece.shift]
        exact hp
    | param nm v =>
      simp only [exec1]
      have hN := hi nm (by simp [Instr.names])
      have := hp nm hN
      by_cases hd : numbered d = true
      · simp only [hd, if_true]
        cases hu : u.params nm with
        | nil =>
          rw [hu] at this; simp at this
          simp [this, ho, ha, Piece.shift]
          refine ⟨?_, by omega⟩
          intro x hx
          simp only [Params.set]
          split
          · simp; omega
          · exact hp x hx
        | cons k ks =>
          rw [hu] at this; simp at this
          simp [this, ho, ha, Piece.shift]
          refine ⟨hp, by omega⟩
      · simp [hd, ho, ha, Piece.shift]
        intro x hx
        simp only [Params.set]
        split
        · rename_i hx'; subst hx'
          simp [hp _ hx]; omega
        · exact hp x hx

/-- From a state in which none of the names is recorded. -/
theorem exec_shift_fresh (d : Dialect) (Nm : Str → Prop) (is : List Instr) (hn : ∀ i ∈ is, ∀ x ∈ i.names, Nm x)
    (s : St) (hs : ∀ x, Nm x → s.params x = []) :
    (exec d is s).out = s.out ++ (exec d is {}).out.map (Piece.shift s.args.length) ∧
    (exec d is s).args = s.args ++ (exec d is {}).args := by
  have := exec_shift d Nm is hn s {} s (by intro x hx; simp [hs x hx]) (by simp) (by simp)
  exact ⟨this.1, this.2.1⟩

end Sq
