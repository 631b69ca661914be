import Verif.Model.Render
/-
Algebra of sequencing.
-/
namespace Sq

theorem seq_assoc (a b c : W) : (a ⨟ b) ⨟ c = a ⨟ b ⨟ c := by
  unfold W.seq
  cases ha : a.st <;> simp [ha]
  cases hb : b.st <;> simp [hb]

@[simp] theorem ok_seq (w : W) : (W.ok ⨟ w) = w := by simp [W.seq, W.ok]
@[simp] theorem seq_okW (w : W) : (w ⨟ W.ok) = w := by
  unfold W.seq W.ok
  obtain ⟨c, st⟩ := w
  cases st <;> simp
@[simp] theorem when_true (w : W) : W.when true w = w := rfl
@[simp] theorem when_false (w : W) : W.when false w = .ok := rfl

theorem seqAll_append (a b : List W) : seqAll (a ++ b) = seqAll a ⨟ seqAll b := by
  induction a with
  | nil => simp [seqAll, W.seq, W.ok]
  | cons x a ih => simp [seqAll, ih, seq_assoc]

theorem seq_ok {a b : W} (h : (a ⨟ b).st = .ok) : a.st = .ok ∧ b.st = .ok := by
  unfold W.seq at h
  split at h
  · rename_i ha; exact ⟨ha, h⟩
  · rename_i ha; exact absurd h ha

theorem when_ok {c : Bool} {a : W} (h : (W.when c a).st = .ok) (hc : c = true) : a.st = .ok := by
  subst hc; exact h

theorem ofRes_ok {α : Type} {r : Res α} {f : α → W} (h : (W.ofRes r f).st = .ok) : ∃ a, r = .ok a ∧ (f a).st = .ok := by
  cases r with
  | ok a => exact ⟨a, rfl, h⟩
  | err e => exact absurd h (by simp [W.ofRes, W.fail])
  | panic => exact absurd h (by simp [W.ofRes, W.panic])
  | hang => exact absurd h (by simp [W.ofRes, W.hang])

end Sq
