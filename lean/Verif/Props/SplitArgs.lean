import Verif.Model.SplitArgs
import Verif.Spec.Args
/-
C31: argument splitting.
-/
namespace Ddl
open Spec

theorem splitArgs_none {s : Str} (h : splitScan {} s = none) : splitArgs s = [s] := by
  rw [splitArgs]; split
  · rfl
  · rename_i h'; rw [h] at h'; exact nomatch h'

theorem splitArgs_some {s a r : Str} (h : splitScan {} s = some (a, r)) : splitArgs s = a :: splitArgs r := by
  rw [splitArgs]; split
  · rename_i h'; rw [h] at h'; exact nomatch h'
  · rename_i a' r' h'; rw [h] at h'; cases h'; rfl

/-- **C31, nothing is lost.** For every string the arguments joined with commas give the string back, and there is at
least one argument. -/
theorem C31_join (s : Str) : join (splitArgs s) = s ∧ splitArgs s ≠ [] := by
  generalize hn : s.length = n
  induction n using Nat.strongRecOn generalizing s with
  | ind n ih =>
    cases h : splitScan {} s with
    | none => rw [splitArgs_none h]; exact ⟨rfl, by simp⟩
    | some p =>
      obtain ⟨a, r⟩ := p
      have he := splitScan_eq h
      rw [splitArgs_some h]
      have hl : r.length < n := by
        have := congrArg List.length he
        simp at this; omega
      obtain ⟨h1, h2⟩ := ih _ hl r rfl
      refine ⟨?_, by simp⟩
      cases hr : splitArgs r with
      | nil => exact absurd hr h2
      | cons b bs => rw [hr] at h1; simp only [join]; rw [h1, he]

/-! ### Scanning well-formed arguments -/

/-- `splitScan` continues past `t` from state `s` to state `s'`. -/
def Pass (s s' : SplitSt) (t rest : Str) : Prop :=
  splitScan s (t ++ rest) = (splitScan s' rest).map (fun r => (t ++ r.1, r.2))

theorem Pass.nil (s : SplitSt) (rest : Str) : Pass s s [] rest := by
  unfold Pass; simp

theorem Pass.cons {s s' s'' : SplitSt} {c : Char} {t rest : Str} (h : splitStep s c (t ++ rest).head? = some s')
    (ht : Pass s' s'' t rest) : Pass s s'' (c :: t) rest := by
  unfold Pass at *
  simp only [List.cons_append, splitScan, h, ht, Option.map_map]
  rfl

theorem Pass.append {s s' s'' : SplitSt} {t u rest : Str} (h : Pass s s' t (u ++ rest)) (hu : Pass s' s'' u rest) :
    Pass s s'' (t ++ u) rest := by
  unfold Pass at *
  rw [List.append_assoc, h, hu, Option.map_map]
  congr 1; funext r; simp

theorem pass_paren (n : Nat) (t rest : Str) (k : Nat) (h : depth '(' ')' n t = some k) :
    Pass { br := n + 1 } { br := k + 1 } t rest := by
  induction t generalizing n with
  | nil => simp only [depth, Option.some.injEq] at h; subst h; exact .nil _ _
  | cons c cs ih =>
    simp only [depth] at h
    by_cases h1 : c = '('
    · rw [if_pos h1] at h
      refine .cons ?_ (ih _ h)
      subst h1; simp [splitStep]
    · rw [if_neg h1] at h
      by_cases h2 : c = ')'
      · rw [if_pos h2] at h
        cases n with
        | zero => exact nomatch h
        | succ n =>
          refine .cons ?_ (ih _ h)
          subst h2; simp [splitStep]
      · rw [if_neg h2] at h
        refine .cons ?_ (ih _ h)
        simp [splitStep, h1, h2]

theorem pass_array (n : Nat) (t rest : Str) (k : Nat) (h : depth '[' ']' n t = some k) :
    Pass { arr := n + 1 } { arr := k + 1 } t rest := by
  induction t generalizing n with
  | nil => simp only [depth, Option.some.injEq] at h; subst h; exact .nil _ _
  | cons c cs ih =>
    simp only [depth] at h
    by_cases h1 : c = '['
    · rw [if_pos h1] at h
      refine .cons ?_ (ih _ h)
      subst h1; simp [splitStep]
    · rw [if_neg h1] at h
      by_cases h2 : c = ']'
      · rw [if_pos h2] at h
        cases n with
        | zero => exact nomatch h
        | succ n =>
          refine .cons ?_ (ih _ h)
          subst h2; simp [splitStep]
      · rw [if_neg h2] at h
        refine .cons ?_ (ih _ h)
        simp [splitStep, h1, h2]

theorem pass_str (t rest : Str) (h : rest.head? ≠ some '\'') :
    Pass { str := true } {} (quoteBody t ++ ['\'']) rest := by
  induction t with
  | nil =>
    refine .cons ?_ (.nil _ _)
    simp [splitStep, h]
  | cons c cs ih =>
    simp only [quoteBody]
    split
    · rename_i hc
      refine .cons (s' := { str := true, skip := true }) ?_ (.cons (s' := { str := true }) ?_ ih)
      · simp [splitStep]
      · simp [splitStep]
    · rename_i hc
      refine .cons ?_ ih
      simp [splitStep, hc]

theorem pass_piece (p : Piece) (rest : Str) (hp : p.Ok) (h : p.isStr = true → rest.head? ≠ some '\'') :
    Pass {} {} p.write rest := by
  cases p with
  | plain c =>
    obtain ⟨h1, h2, h3, h4⟩ := hp
    refine .cons ?_ (.nil _ _)
    simp [splitStep, h1, h2, h3, h4]
  | str s =>
    refine .cons (s' := { str := true }) ?_ (pass_str s rest (h rfl))
    simp [splitStep]
  | paren s =>
    refine .cons (s' := { br := 1 }) ?_ (.append (pass_paren 0 s _ 0 hp) (.cons (s' := {}) ?_ (.nil _ _)))
    · simp [splitStep]
    · simp [splitStep]
  | array s =>
    refine .cons (s' := { arr := 1 }) ?_ (.append (pass_array 0 s _ 0 hp) (.cons (s' := {}) ?_ (.nil _ _)))
    · simp [splitStep]
    · simp [splitStep]

theorem write_head (p : Piece) (hp : p.Ok) (h : p.isStr = false) (r : Str) : (p.write ++ r).head? ≠ some '\'' := by
  cases p with
  | plain c => simpa [Piece.write] using hp.2.1
  | str s => exact nomatch h
  | paren s => simp [Piece.write]
  | array s => simp [Piece.write]

theorem pass_arg (ps : List Piece) (rest : Str) (hp : ArgOk ps) (hr : rest.head? ≠ some '\'') :
    Pass {} {} (writeArg ps) rest := by
  induction ps with
  | nil => exact .nil _ _
  | cons p ps ih =>
    obtain ⟨h1, h2, h3⟩ := hp
    show Pass {} {} (p.write ++ writeArg ps) rest
    refine .append (pass_piece p _ h1 ?_) (ih h3)
    intro hs
    cases ps with
    | nil => simpa [writeArg] using hr
    | cons q qs =>
      show ((q.write ++ writeArg qs) ++ rest).head? ≠ _
      rw [List.append_assoc]
      exact write_head q h3.1 (h2 hs q rfl) _

/-- **C31, exact splitting (partial).** For every non-empty list of arguments, each made of plain characters, string
literals, parenthesised and bracketed groups, splitting the comma-joined text gives exactly those arguments back.
Missing for the full property: groups that contain quoted parentheses or brackets (`C31_quoted_bracket_violated`). -/
theorem C31_split_partial (args : List (List Piece)) (h0 : args ≠ []) (h : ∀ a ∈ args, ArgOk a) :
    splitArgs (join (args.map writeArg)) = args.map writeArg := by
  induction args with
  | nil => exact absurd rfl h0
  | cons a as ih =>
    cases as with
    | nil =>
      simp only [List.map, join]
      apply splitArgs_none
      have := pass_arg a [] (h a (by simp)) (by simp)
      unfold Pass at this
      simpa [splitScan] using this
    | cons b bs =>
      have hp := pass_arg a (',' :: join ((b :: bs).map writeArg)) (h a (by simp)) (by simp)
      have : splitScan {} (join ((a :: b :: bs).map writeArg)) = some (writeArg a, join ((b :: bs).map writeArg)) := by
        unfold Pass at hp
        simp only [List.map, join] at hp ⊢
        rw [hp]
        simp [splitScan, splitStep]
      rw [splitArgs_some this, ih (by simp) (fun x hx => h x (by simp [hx]))]
      rfl

/-- Non-vacuity: `f(a, b), 'it''s, ok', [1, 2]`. -/
example : ∃ args : List (List Piece), args.length = 3 ∧ (∀ a ∈ args, ArgOk a) ∧
    join (args.map writeArg) = "f(a, b), 'it''s, ok', [1, 2]".toList := by
  refine ⟨[[.plain 'f', .paren "a, b"], [.plain ' ', .str "it's, ok"], [.plain ' ', .array "1, 2"]], rfl, ?_, by decide⟩
  intro a ha
  simp only [List.mem_cons, List.not_mem_nil, or_false] at ha
  rcases ha with rfl | rfl | rfl <;> simp [ArgOk, Piece.Ok, Piece.isStr, depth]

/-- **C31 (violated).** The two arguments `lower(')')` and `b` are not separated: a quoted parenthesis inside a group
counts as a parenthesis. -/
theorem C31_quoted_bracket_violated : splitArgs "lower(')'),b".toList = ["lower(')'),b".toList] := by decide +kernel

end Ddl
