import Verif.Basic
/-
Model of ddl/fmt.go:148-230 `splitArgs`.  The Go loop ranges over runes and looks at one following byte, which it
compares with the ASCII quote; here one `Char` is one rune.
-/
namespace Ddl

/-- The variables of the inner loop (ddl/fmt.go:150-151), reset for every argument (153-154).
`skip` says that the current position is `skipCharAt`. -/
structure SplitSt where
  skip : Bool := false
  arr : Nat := 0
  br : Nat := 0
  str : Bool := false
  deriving DecidableEq

/-- One iteration of the inner loop (ddl/fmt.go:155-217) on character `c`, `next` being the character after it.
`none`: the character is an argument delimiter. -/
def splitStep (s : SplitSt) (c : Char) (next : Option Char) : Option SplitSt :=
  if s.skip then some { s with skip := false }
  else if s.arr > 0 then
    some { s with arr := if c = ']' then s.arr - 1 else if c = '[' then s.arr + 1 else s.arr }
  else if s.br > 0 then
    some { s with br := if c = ')' then s.br - 1 else if c = '(' then s.br + 1 else s.br }
  else if s.str then
    if c = '\'' then (if next = some '\'' then some { s with skip := true } else some { s with str := false })
    else some s
  else if c = '[' then some { s with arr := s.arr + 1 }
  else if c = '(' then some { s with br := s.br + 1 }
  else if c = '\'' then some { s with str := true }
  else if c = ',' then none
  else some s

/-- The inner loop: the text before the first delimiter and the text after it, or `none` if there is no delimiter. -/
def splitScan : SplitSt → Str → Option (Str × Str)
  | _, [] => none
  | s, c :: cs =>
    match splitStep s c cs.head? with
    | none => some ([], cs)
    | some s' => (splitScan s' cs).map (fun r => (c :: r.1, r.2))

theorem splitScan_eq {s : SplitSt} {t a r : Str} (h : splitScan s t = some (a, r)) : t = a ++ ',' :: r := by
  induction t generalizing s a r with
  | nil => simp [splitScan] at h
  | cons c cs ih =>
    simp only [splitScan] at h
    split at h
    · rename_i hs
      simp only [Option.some.injEq, Prod.mk.injEq] at h
      obtain ⟨rfl, rfl⟩ := h
      have : c = ',' := by
        unfold splitStep at hs
        split at hs
        · exact nomatch hs
        · split at hs
          · exact nomatch hs
          · split at hs
            · exact nomatch hs
            · split at hs
              · split at hs
                · split at hs <;> exact nomatch hs
                · exact nomatch hs
              · split at hs
                · exact nomatch hs
                · split at hs
                  · exact nomatch hs
                  · split at hs
                    · exact nomatch hs
                    · split at hs
                      · assumption
                      · exact nomatch hs
      subst this; rfl
    · rename_i s' _
      cases hr : splitScan s' cs with
      | none => rw [hr] at h; exact nomatch h
      | some p =>
        rw [hr] at h
        simp only [Option.map_some, Option.some.injEq, Prod.mk.injEq] at h
        obtain ⟨rfl, rfl⟩ := h
        rw [ih hr]; rfl

/-- ddl/fmt.go:148-230 `splitArgs`. -/
def splitArgs (s : Str) : List Str :=
  match h : splitScan {} s with
  | none => [s]
  | some (a, r) => a :: splitArgs r
termination_by s.length
decreasing_by
  have := congrArg List.length (splitScan_eq h)
  simp at this; omega

end Ddl
