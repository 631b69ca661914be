import Verif.Proof.Quote
/-
C01-C04: quoting of text and identifiers.
-/
namespace Sq
open Spec

/-- **C01.** For every string `s`, quote byte `q` and following text `rest` (not starting with the quote
byte), the literal `q EscapeQuote(s,q) q` is closed exactly at its final quote: the scanner continues
with `rest`. -/
theorem C01_escape_closes (q : Char) (s rest : Str) (h : rest.head? ≠ some q) :
    ∃ text, scan q (escapeQuote q s ++ q :: rest) = some (text, rest) :=
  ⟨_, scan_escapeQuote q s rest h⟩

example : scan '\'' (escapeQuote '\'' "a'; DROP TABLE t; --" ++ '\'' :: " OR 1".toList)
    = some ("a'; DROP TABLE t; --".toList, " OR 1".toList) := by decide

/-- **C02 (full statement, violated).** It is *not* true that every string survives escaping: `a'b` and
`a''b` are sent as the same literal. -/
theorem C02_lossless_violated :
    ¬ ∀ (q : Char) (s rest : Str), rest.head? ≠ some q →
        scan q (escapeQuote q s ++ q :: rest) = some (s, rest) := by
  intro h
  exact absurd (h '\'' "a''b" [] (by decide)) (by decide)

/-- **C02 (partial, exact domain).** The literal denotes `s` if and only if `s` has no adjacent pair of
quotes followed by another byte.  Missing for the full property: the strings that do have one. -/
theorem C02_lossless_partial (q : Char) (s rest : Str) (h : rest.head? ≠ some q) :
    scan q (escapeQuote q s ++ q :: rest) = some (s, rest) ↔ ¬ InnerPair q s := by
  rw [scan_escapeQuote q s rest h]; simp [readBack_eq_iff]

/-- C02, injectivity form. -/
theorem C02_injective_partial (q : Char) (s t : Str) (hs : ¬ InnerPair q s) (ht : ¬ InnerPair q t)
    (h : escapeQuote q s = escapeQuote q t) : s = t := by
  have h1 := (C02_lossless_partial q s [] (by simp)).2 hs
  have h2 := (C02_lossless_partial q t [] (by simp)).2 ht
  rw [h] at h1; rw [h1] at h2; simpa using h2

example : ¬ InnerPair '\'' "O'Brien's".toList := by
  rw [← readBack_eq_iff]; decide

/-- With MySQL's default backslash escapes even C01 fails for string literals: the value `\' OR 1=1 -- `
closes the literal early and the rest runs as SQL. -/
theorem C01_mysql_backslash_violated :
    ∃ s, scanBackslash '\'' (escapeQuote '\'' s ++ '\'' :: []) = some ("'".toList, " OR 1=1 -- '".toList) :=
  ⟨"\\' OR 1=1 -- ", by decide⟩

/-- A text that cannot be glued to a preceding identifier token of dialect `d`. -/
def Separated (d : Dialect) (rest : Str) : Prop :=
  ∀ c, rest.head? = some c → c ≠ identClose d ∧ bareChar c = false

/-- **C03.** For every dialect and identifier, the result of `QuoteIdentifier` followed by any separated text is
scanned as exactly one identifier token, and it is left bare exactly when it is a bare identifier of the
specification. -/
theorem C03_one_identifier (d : Dialect) (x rest : Str) (h : Separated d rest) :
    (∃ y, readIdent d (quoteIdentifier d x ++ rest) = some (y, rest)) ∧
    (quoteIdentifier d x = x ↔ isBareIdent x = true) ∧
    (isBareIdent x = false →
      quoteIdentifier d x = identOpen d :: escapeQuote (identClose d) x ++ [identClose d]) := by
  have hq : isBareIdent x = false →
      quoteIdentifier d x = identOpen d :: escapeQuote (identClose d) x ++ [identClose d] := by
    intro hb
    unfold quoteIdentifier
    rw [needsQuoting_iff, hb]
    cases d <;> rfl
  refine ⟨?_, ?_, hq⟩
  · cases hb : isBareIdent x with
    | false =>
      rw [hq hb]
      refine ⟨readBack (identClose d) x, ?_⟩
      have := scan_escapeQuote (identClose d) x rest (fun hc => (h _ hc).1 rfl)
      simpa [readIdent] using this
    | true =>
      refine ⟨x, ?_⟩
      unfold quoteIdentifier
      rw [needsQuoting_iff, hb]
      cases x with
      | nil => simp [isBareIdent] at hb
      | cons c cs =>
        simp only [isBareIdent, Bool.and_eq_true] at hb
        have hne := not_lower_of_open d c hb.1
        have := takeWhile_append_stop cs rest hb.2 (fun c hc => (h c hc).2)
        simp [readIdent, hne, this, hb.1]
  · constructor
    · intro he
      cases hb : isBareIdent x with
      | true => rfl
      | false =>
        rw [hq hb] at he
        have := escapeQuote_length (identClose d) x
        have h2 := congrArg List.length he
        simp at h2; omega
    · intro hb
      unfold quoteIdentifier
      rw [needsQuoting_iff, hb]; rfl

/-- The premise of C03 is met by what usually follows an identifier. -/
example : Separated .postgres ".name = $1".toList := by
  intro c h; simp at h; subst h; decide
example : readIdent .sqlserver (quoteIdentifier .sqlserver "a]; DROP TABLE x" ++ " AS y".toList)
    = some ("a]; DROP TABLE x".toList, " AS y".toList) := by decide

/-- **C04 (full statement, violated).** Two different identifiers can be quoted to the same text. -/
theorem C04_injective_violated :
    ¬ ∀ (d : Dialect) (x y : Str), quoteIdentifier d x = quoteIdentifier d y → x = y := by
  intro h
  exact absurd (h .postgres "A\"B" "A\"\"B" (by decide)) (by decide)

/-- **C04 (partial, exact domain).** The identifier token denotes the identifier itself, unless the
identifier must be quoted and contains the doubled closing delimiter before its end. -/
theorem C04_denotes_partial (d : Dialect) (x rest : Str) (h : Separated d rest) :
    readIdent d (quoteIdentifier d x ++ rest) = some (x, rest) ↔ ¬ InnerPair (identClose d) x := by
  cases hb : isBareIdent x with
  | false =>
    rw [(C03_one_identifier d x rest h).2.2 hb]
    have := C02_lossless_partial (identClose d) x rest (fun hc => (h _ hc).1 rfl)
    simpa [readIdent] using this
  | true =>
    have hr : readIdent d (quoteIdentifier d x ++ rest) = some (x, rest) := by
      rw [(C03_one_identifier d x rest h).2.1.2 hb]
      cases x with
      | nil => simp [isBareIdent] at hb
      | cons c cs =>
        simp only [isBareIdent, Bool.and_eq_true] at hb
        have hne := not_lower_of_open d c hb.1
        have := takeWhile_append_stop cs rest hb.2 (fun c hc => (h c hc).2)
        simp [readIdent, hne, this, hb.1]
    simp only [hr, true_iff]
    rintro ⟨a, c, b, rfl⟩
    exact bare_no_close d _ hb (by simp)

/-- C04, injectivity on that domain. -/
theorem C04_injective_partial (d : Dialect) (x y : Str) (hx : ¬ InnerPair (identClose d) x)
    (hy : ¬ InnerPair (identClose d) y) (h : quoteIdentifier d x = quoteIdentifier d y) : x = y := by
  have h1 := (C04_denotes_partial d x [] (by simp [Separated])).2 hx
  have h2 := (C04_denotes_partial d y [] (by simp [Separated])).2 hy
  rw [h, h2] at h1; simpa using h1.symm

example : ¬ InnerPair (identClose .mysql) "select`s of `x".toList := by
  rw [← readBack_eq_iff]; decide

end Sq
