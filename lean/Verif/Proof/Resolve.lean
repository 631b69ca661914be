import Verif.Spec.Resolve
import Verif.Proof.Shift
namespace Sq
open Spec

theorem resolve_append (args : List Arg) (k : Nat) (ps qs : List Piece) :
    resolve args k (ps ++ qs) = resolve args k ps ++ resolve args (k + anonCount ps) qs := by
  induction ps generalizing k with
  | nil => simp [resolve, anonCount]
  | cons p ps ih =>
    cases p with
    | anon => simp [resolve, ih, anonCount, Nat.add_assoc, Nat.add_comm, Nat.add_left_comm]
    | _ => simp [resolve, ih, anonCount]

/-- Numbered placeholders in range keep their meaning when arguments are appended. -/
theorem resolve_args_append (args more : List Arg) (k : Nat) (ps : List Piece)
    (h : ∀ n, Piece.ph n ∈ ps → 1 ≤ n ∧ n ≤ args.length) (hr : ∀ nm, Piece.ref nm ∉ ps)
    (ha : k + anonCount ps ≤ args.length) : resolve (args ++ more) k ps = resolve args k ps := by
  induction ps generalizing k with
  | nil => simp [resolve]
  | cons p ps ih =>
    have h' := fun n hn => h n (List.mem_cons_of_mem p hn)
    have hr' : ∀ nm, Piece.ref nm ∉ ps := fun nm hn => hr nm (List.mem_cons_of_mem p hn)
    cases p with
    | text s => simp [resolve]; exact ih k h' hr' (by simpa [anonCount] using ha)
    | ph n =>
      have := h n (by simp)
      simp only [resolve]
      rw [ih k h' hr' (by simpa [anonCount] using ha), List.getElem?_append_left (by omega)]
    | anon =>
      simp only [resolve]
      have ha' : k + 1 + anonCount ps ≤ args.length := by simp [anonCount] at ha ⊢; omega
      rw [ih (k + 1) h' hr' ha', List.getElem?_append_left (by omega)]
    | ref nm => exact absurd (by simp) (hr nm)

/-- Shifted placeholders refer to the appended arguments. -/
theorem resolve_shift (pre args : List Arg) (k : Nat) (ps : List Piece)
    (h : ∀ n, Piece.ph n ∈ ps → 1 ≤ n) (hr : ∀ nm, Piece.ref nm ∉ ps) :
    resolve (pre ++ args) (k + pre.length) (ps.map (Piece.shift pre.length)) = resolve args k ps := by
  induction ps generalizing k with
  | nil => simp [resolve]
  | cons p ps ih =>
    have h' := fun n hn => h n (List.mem_cons_of_mem p hn)
    have hr' : ∀ nm, Piece.ref nm ∉ ps := fun nm hn => hr nm (List.mem_cons_of_mem p hn)
    cases p with
    | text s => simp [resolve, Piece.shift]; exact ih k h' hr'
    | ph n =>
      have := h n (by simp)
      simp only [List.map_cons, Piece.shift, resolve]
      rw [ih k h' hr', List.getElem?_append_right (by omega)]
      rw [if_neg (by omega), if_neg (by omega)]
      congr 3; omega
    | anon =>
      simp only [List.map_cons, Piece.shift, resolve]
      rw [show k + pre.length + 1 = (k + 1) + pre.length by omega, ih (k + 1) h' hr', List.getElem?_append_right (by omega)]
      congr 3; omega
    | ref nm => exact absurd (by simp) (hr nm)

/-- In numbered dialects nothing but numbered and named placeholders is written. -/
theorem no_anon_exec (d : Dialect) (hd : numbered d = true) (is : List Instr) (s : St) (h : anonCount s.out = 0) :
    anonCount (exec d is s).out = 0 := by
  refine exec_ind (P := fun s => anonCount s.out = 0) ?_ is s h
  intro i s hs
  cases i <;> simp only [exec1, hd, if_true] <;> (repeat' split) <;> simp_all [anonCount]

theorem no_ref_exec (d : Dialect) (is : List Instr) (s : St) (hi : ∀ i ∈ is, ∀ n v, i ≠ .named n v)
    (h : ∀ nm, Piece.ref nm ∉ s.out) : ∀ nm, Piece.ref nm ∉ (exec d is s).out := by
  refine exec_ind' (P := fun s => ∀ nm, Piece.ref nm ∉ s.out) (Q := fun i => ∀ n v, i ≠ .named n v) ?_ is s hi h
  intro i s hq hs
  cases i <;> simp only [exec1] <;> (repeat' split) <;> simp_all

theorem anon_exec (d : Dialect) (hd : numbered d = false) (is : List Instr) (s : St)
    (hi : ∀ i ∈ is, ∀ n v, i ≠ .named n v) (h : anonCount s.out = s.args.length) :
    anonCount (exec d is s).out = (exec d is s).args.length :=
  exec_ind' (P := fun s => anonCount s.out = s.args.length) (Q := fun i => ∀ n v, i ≠ .named n v)
    (fun i s hq hs => anon_step d hd i s hq hs) is s hi h

/-- What an effect means, independently of the dialect and of what was rendered before. -/
def Instr.denote : Instr → List RPiece
  | .text s => [.sql s]
  | .bind _ v => [.val v]
  | .param _ v => [.val v]
  | .named n v => [.val (.named n v)]
  | .forget _ => []

/-- Without numbered placeholders, the resolved query is the sequence of the bound values in order. -/
theorem resolve_unnumbered (d : Dialect) (hd : numbered d = false) (is : List Instr) (s : St)
    (hi : ∀ i ∈ is, ∀ n v, i ≠ .named n v) (hn : anonCount s.out = s.args.length)
    (hr : ∀ nm, Piece.ref nm ∉ s.out) (hp : ∀ n, Piece.ph n ∉ s.out) :
    resolve (exec d is s).args 0 (exec d is s).out = resolve s.args 0 s.out ++ is.flatMap Instr.denote := by
  induction is generalizing s with
  | nil => simp
  | cons i is ih =>
    rw [exec_cons]
    have hi0 := hi i (by simp)
    have step : resolve (exec1 d i s).args 0 (exec1 d i s).out = resolve s.args 0 s.out ++ i.denote ∧
        (∀ nm, Piece.ref nm ∉ (exec1 d i s).out) ∧ (∀ n, Piece.ph n ∉ (exec1 d i s).out) := by
      have hkeep : ∀ v, resolve (s.args ++ [v]) 0 s.out = resolve s.args 0 s.out := fun v =>
        resolve_args_append _ _ _ _ (fun n h => absurd h (hp n)) hr (by omega)
      cases i with
      | named n v => exact absurd rfl (hi0 n v)
      | text t => simp [exec1, resolve_append, resolve, Instr.denote, hr, hp]
      | bind pn v => simp [exec1, hd, resolve_append, resolve, hkeep, hn, Instr.denote, pick, hr, hp]
      | param pn v => simp [exec1, hd, resolve_append, resolve, hkeep, hn, Instr.denote, pick, hr, hp]
      | forget ns => simp [exec1, Instr.denote, hr, hp]
    rw [ih (exec1 d i s) (fun j hj => hi j (List.mem_cons_of_mem _ hj)) (anon_step d hd i s hi0 hn) step.2.1 step.2.2,
      step.1]
    simp

end Sq
