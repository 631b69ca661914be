import Verif.Model.Quote
import Verif.Spec.Scanner
/-
Helper lemmas for C01-C04.
-/
namespace Sq
open Spec

/-- What the database reads back from `EscapeQuote(s)`: `s` with every adjacent pair of quotes that
is followed by something collapsed (helper, only used to state the exact loss). -/
def readBack (q : Char) : Str → Str
  | [] => []
  | [c] => [c]
  | [c, d] => c :: readBack q [d]
  | c :: d :: e :: rest =>
    if c = q ∧ d = q then q :: readBack q (e :: rest) else c :: readBack q (d :: e :: rest)

theorem scan_cons_ne (q c : Char) (s : Str) (h : c ≠ q) :
    scan q (c :: s) = (scan q s).map (fun r => (c :: r.1, r.2)) := by
  cases s with
  | nil => simp [scan, h]
  | cons d s => simp [scan, h]

theorem scan_pair (q : Char) (s : Str) :
    scan q (q :: q :: s) = (scan q s).map (fun r => (q :: r.1, r.2)) := by
  simp [scan]

theorem scan_close (q : Char) (rest : Str) (h : rest.head? ≠ some q) :
    scan q (q :: rest) = some ([], rest) := by
  cases rest with
  | nil => simp [scan]
  | cons d s => simp at h; simp [scan, h]

/-- Exact form of C01/C02: the literal is closed at its own closing quote and denotes `readBack`. -/
theorem scan_escapeQuote (q : Char) (s rest : Str) (h : rest.head? ≠ some q) :
    scan q (escapeQuote q s ++ q :: rest) = some (readBack q s, rest) := by
  fun_induction escapeQuote q s with
  | case1 => simpa [readBack] using scan_close q rest h
  | case2 => 
    simp only [List.cons_append, List.nil_append, scan_pair, scan_close q rest h, readBack]; rfl
  | case3 c hc =>
    simp only [List.cons_append, List.nil_append, scan_cons_ne q c _ hc, scan_close q rest h, readBack]; rfl
  | case4 d ih =>
    simp only [List.cons_append, scan_pair, ih, readBack]; rfl
  | case5 c d hc ih =>
    simp only [List.cons_append, scan_cons_ne q c _ hc, ih, readBack]; rfl
  | case6 e r ih =>
    simp only [List.cons_append, scan_pair, ih, readBack]; simp
  | case7 d e r hd ih =>
    simp only [List.cons_append, scan_pair, ih, readBack]; simp [hd]
  | case8 c d e r hc ih =>
    simp only [List.cons_append, scan_cons_ne q c _ hc, ih, readBack]; simp [hc]

theorem readBack_length (q : Char) (s : Str) : (readBack q s).length ≤ s.length := by
  fun_induction readBack q s <;> simp_all <;> omega

theorem innerPair_cons (q c : Char) (s : Str) :
    InnerPair q (c :: s) ↔ (c = q ∧ ∃ e r, s = q :: e :: r) ∨ InnerPair q s := by
  constructor
  · rintro ⟨a, x, b, h⟩
    cases a with
    | nil => simp at h; exact Or.inl ⟨h.1, _, _, h.2⟩
    | cons y a => simp at h; exact Or.inr ⟨a, x, b, h.2⟩
  · rintro (⟨rfl, e, r, rfl⟩ | ⟨a, x, b, rfl⟩)
    · exact ⟨[], e, r, rfl⟩
    · exact ⟨c :: a, x, b, rfl⟩

theorem readBack_eq_iff (q : Char) (s : Str) : readBack q s = s ↔ ¬ InnerPair q s := by
  fun_induction readBack q s with
  | case1 => simp [InnerPair]
  | case2 => simp [InnerPair, List.cons_eq_append_iff]
  | case3 c d ih => rw [innerPair_cons]; simp [ih]
  | case4 c d e rest h ih =>
    obtain ⟨h1, h2⟩ := h
    subst h1; subst h2
    constructor
    · intro h
      have := readBack_length d (e :: rest)
      have h2 := congrArg List.length h
      simp at h2 this; omega
    · intro h; exact absurd ⟨[], e, rest, rfl⟩ h
  | case5 c d e rest h ih =>
    rw [innerPair_cons]
    simp only [List.cons.injEq, true_and, ih, not_or]
    constructor
    · intro h2
      refine ⟨?_, h2⟩
      rintro ⟨rfl, e', r', h3⟩
      exact h ⟨rfl, h3.1⟩
    · exact fun h2 => h2.2

theorem plainChar_iff_bareChar (c : Char) : plainChar c = bareChar c := by
  simp only [plainChar, bareChar, Char.isLower, Char.isDigit]
  simp only [Char.le_def]
  grind

/-- The identifiers returned bare are exactly the bare identifiers of the specification. -/
theorem needsQuoting_iff (s : Str) : needsQuoting s = !(isBareIdent s) := by
  cases s with
  | nil => rfl
  | cons c cs =>
    have hall : cs.all plainChar = cs.all bareChar := by
      congr 1; funext x; exact plainChar_iff_bareChar x
    simp only [needsQuoting, isBareIdent, hall, plainChar, Char.isLower, Char.le_def]
    have e0 : ('0' : Char).val = 48 := rfl
    have e9 : ('9' : Char).val = 57 := rfl
    have ea : ('a' : Char).val = 97 := rfl
    have ez : ('z' : Char).val = 122 := rfl
    have eu : (c = '_') ↔ c.val = 95 := by
      constructor
      · rintro rfl; rfl
      · intro h; exact Char.ext h
    have eb : (c == '_') = decide (c = '_') := by by_cases h : c = '_' <;> simp [h]
    rw [eb]; simp only [eu, e0, e9, ea, ez]
    grind

theorem takeWhile_append_stop {p : Char → Bool} (l rest : Str) (h : l.all p = true)
    (hr : ∀ c, rest.head? = some c → p c = false) :
    (l ++ rest).takeWhile p = l ∧ (l ++ rest).dropWhile p = rest := by
  induction l with
  | nil =>
    cases rest with
    | nil => simp
    | cons c r => simp [hr c rfl]
  | cons a l ih =>
    simp at h
    simp [h.1, ih (by simpa using h.2)]

theorem not_lower_of_open (d : Dialect) (c : Char) (h : c.isLower || c == '_') : c ≠ identOpen d := by
  rintro rfl
  revert h
  cases d <;> decide

theorem escapeQuote_length (q : Char) (s : Str) : s.length ≤ (escapeQuote q s).length := by
  fun_induction escapeQuote q s <;> simp_all <;> omega

theorem bare_no_close (d : Dialect) (x : Str) (h : isBareIdent x = true) : identClose d ∉ x := by
  have hc : bareChar (identClose d) = false := by cases d <;> decide
  cases x with
  | nil => simp
  | cons c cs =>
    simp only [isBareIdent, Bool.and_eq_true] at h
    intro hm
    rcases List.mem_cons.1 hm with rfl | hm
    · revert h; cases d <;> simp [identClose]
    · have := List.all_eq_true.1 h.2 _ hm
      simp [hc] at this

end Sq
