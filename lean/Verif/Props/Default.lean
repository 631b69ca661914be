import Verif.Props.Contents
/-
C70: column defaults on their way to a SQLite database and back.
-/
namespace Ddl.Default
open Ddl Ddl.Catalog

/-! ### Specification -/

/-- What SQLite reports (`pragma_table_xinfo.dflt_value`) for a column declared with `DEFAULT d`: the text of the expression, without the brackets around it
and the blanks inside them; anything else as it was written. -/
def sqliteReports (d : Str) (r : Str) : Prop :=
  (∃ a e b, d = '(' :: (a ++ e ++ b) ++ [')'] ∧ (∀ c ∈ a ++ b, c = ' ' ∨ c = '\t' ∨ c = '\n' ∨ c = '\r') ∧
    (∀ c, e.head? = some c → c ≠ ' ' ∧ c ≠ '\t' ∧ c ≠ '\n' ∧ c ≠ '\r') ∧ (∀ c, e.getLast? = some c → c ≠ ' ' ∧ c ≠ '\t' ∧ c ≠ '\n' ∧ c ≠ '\r') ∧ r = e) ∨
  (d.head? ≠ some '(' ∧ r = d)

/-- A text that stands for itself after DEFAULT: quoted, a keyword, or a number (`num`). -/
def Literal (num : Str → Bool) (s : Str) : Prop :=
  (∃ x, s = '\'' :: x ++ ['\'']) ∨ (∃ w ∈ ["TRUE", "FALSE", "CURRENT_DATE", "CURRENT_TIME", "CURRENT_TIMESTAMP", "NULL"], eqFold s w.toList = true) ∨ num s = true

/-- A text in brackets, or that looks like it. -/
def Bracketed (s : Str) : Prop := ∃ x, s = '(' :: x ++ [')']

/-- No blanks at the ends. -/
def Trimmed (s : Str) : Prop :=
  (∀ c, s.head? = some c → c ≠ ' ' ∧ c ≠ '\t' ∧ c ≠ '\n' ∧ c ≠ '\r') ∧ (∀ c, s.getLast? = some c → c ≠ ' ' ∧ c ≠ '\t' ∧ c ≠ '\n' ∧ c ≠ '\r')

/-! ### The functions -/

theorem enclosed_iff (a b : Char) (s : Str) : (s.length ≥ 2 ∧ s.head? = some a ∧ s.getLast? = some b) ↔ ∃ x, s = a :: x ++ [b] := by
  constructor
  · rintro ⟨h1, h2, h3⟩
    match s, h1, h2 with
    | c :: cs, h1, h2 =>
      simp only [List.head?_cons, Option.some.injEq] at h2
      subst h2
      have hne : cs ≠ [] := by rintro rfl; simp at h1
      rw [List.getLast?_cons_of_ne_nil hne] at h3
      refine ⟨cs.dropLast, ?_⟩
      rw [List.cons_append]
      congr 1
      rw [List.getLast?_eq_some_getLast hne, Option.some.injEq] at h3
      rw [← h3]; exact (List.dropLast_concat_getLast hne).symm
  · rintro ⟨x, rfl⟩
    refine ⟨by simp, rfl, ?_⟩
    rw [List.getLast?_append]
    simp

theorem words_iff (s : Str) (ws : List String) : (ws.any fun w => eqFold s w.toList) = true ↔ ∃ w ∈ ws, eqFold s w.toList = true := by
  simp

/-- **C70.** A default needs brackets exactly if it is neither a literal nor in brackets. -/
theorem C70_needs (num : Str → Bool) (s : Str) : needsExpressionBrackets num s = true ↔ ¬ Literal num s ∧ ¬ Bracketed s := by
  unfold needsExpressionBrackets Literal Bracketed
  rw [← enclosed_iff, ← enclosed_iff, ← words_iff]
  split
  · rename_i h; simp [h]
  · rename_i h1
    split
    · rename_i h; simp only [Bool.false_eq_true, false_iff]; exact fun hc => hc.1 (.inr (.inl h))
    · rename_i h2
      split
      · rename_i h; simp [h]
      · rename_i h3
        split
        · rename_i h4; simp only [Bool.false_eq_true, false_iff]; exact fun hc => hc.2 h4
        · rename_i h4
          refine iff_of_true rfl ⟨?_, h4⟩
          rintro (h | h | h)
          · exact h1 h
          · exact h2 h
          · exact h3 h

/-- **C70.** What is read from SQLite is kept if it is a literal or in brackets, and put in brackets otherwise. -/
theorem C70_to_expr (num : Str → Bool) (s : Str) :
    toExpr num .sqlite s = if needsExpressionBrackets num s then '(' :: (s ++ [')']) else s := by
  unfold toExpr needsExpressionBrackets
  split
  · rfl
  · split
    · rfl
    · split
      · rfl
      · split <;> rfl

theorem bracketed_needs (num : Str → Bool) (x : Str) : needsExpressionBrackets num ('(' :: (x ++ [')'])) = false := by
  cases h : needsExpressionBrackets num ('(' :: (x ++ [')'])) with
  | false => rfl
  | true => exact absurd ⟨x, rfl⟩ ((C70_needs num _).1 h).2

/-- **C70.** The default in the metadata can be written after DEFAULT as it is: it is a literal or in brackets; and reading it again changes nothing. -/
theorem C70_writable (num : Str → Bool) (s : Str) :
    (Literal num (toExpr num .sqlite s) ∨ Bracketed (toExpr num .sqlite s)) ∧ toExpr num .sqlite (toExpr num .sqlite s) = toExpr num .sqlite s := by
  have key : needsExpressionBrackets num (toExpr num .sqlite s) = false := by
    rw [C70_to_expr]
    cases h : needsExpressionBrackets num s with
    | true => exact bracketed_needs num s
    | false => simpa using h
  constructor
  · have := mt (C70_needs num (toExpr num .sqlite s)).2 (by rw [key]; simp)
    refine Classical.byContradiction fun hc => this ⟨fun h => hc (.inl h), fun h => hc (.inr h)⟩
  · rw [C70_to_expr num (toExpr num .sqlite s), key]
    simp

theorem reports_det {d r r' : Str} (h : sqliteReports d r) (h' : sqliteReports d r') : r = r' := by
  have blank : ∀ (a a' x x' : Str), (∀ c ∈ a, c = ' ' ∨ c = '\t' ∨ c = '\n' ∨ c = '\r') → (∀ c ∈ a', c = ' ' ∨ c = '\t' ∨ c = '\n' ∨ c = '\r') →
      (∀ c, x.head? = some c → c ≠ ' ' ∧ c ≠ '\t' ∧ c ≠ '\n' ∧ c ≠ '\r') → (∀ c, x'.head? = some c → c ≠ ' ' ∧ c ≠ '\t' ∧ c ≠ '\n' ∧ c ≠ '\r') →
      a ++ x = a' ++ x' → (x = [] ↔ x' = []) → x = x' := by
    intro a
    induction a with
    | nil =>
      intro a' x x' _ ha' hx hx' e hiff
      cases a' with
      | nil => exact e
      | cons c cs =>
        simp only [List.nil_append, List.cons_append] at e
        subst e
        have := hx c rfl
        have hc := ha' c (by simp)
        grind
    | cons c cs ih =>
      intro a' x x' ha ha' hx hx' e hiff
      cases a' with
      | nil =>
        simp only [List.nil_append, List.cons_append] at e
        subst e
        have := hx' c rfl
        have hc := ha c (by simp)
        grind
      | cons c' cs' =>
        simp only [List.cons_append, List.cons.injEq] at e
        exact ih cs' x x' (fun y hy => ha y (List.mem_cons_of_mem _ hy)) (fun y hy => ha' y (List.mem_cons_of_mem _ hy)) hx hx' e.2 hiff
  rcases h with ⟨a, e, b, hd, hab, h1, h2, rfl⟩ | ⟨hd, rfl⟩
  · rcases h' with ⟨a', e', b', hd', hab', h1', h2', rfl⟩ | ⟨hd', rfl⟩
    · rw [hd] at hd'
      simp only [List.cons_append, List.cons.injEq, true_and, List.append_left_inj] at hd'
      -- the part with the blanks behind it
      have allBlank : ∀ (a b : Str), (∀ c ∈ a ++ b, c = ' ' ∨ c = '\t' ∨ c = '\n' ∨ c = '\r') → ∀ c ∈ a ++ [] ++ b, c = ' ' ∨ c = '\t' ∨ c = '\n' ∨ c = '\r' := by
        intro a b h c hc; exact h c (by simpa using hc)
      have hemp : ∀ (a e b a' e' b' : Str), a ++ e ++ b = a' ++ e' ++ b' → (∀ c ∈ a ++ b, c = ' ' ∨ c = '\t' ∨ c = '\n' ∨ c = '\r') → e = [] →
          (∀ c, e'.head? = some c → c ≠ ' ' ∧ c ≠ '\t' ∧ c ≠ '\n' ∧ c ≠ '\r') → e' = [] := by
        intro a e b a' e' b' heq hb he h1'
        subst he
        cases e' with
        | nil => rfl
        | cons c cs =>
          have : c ∈ a ++ [] ++ b := by rw [heq]; simp
          have := allBlank a b hb c this
          have := h1' c rfl
          grind
      have hiff : r = [] ↔ r' = [] := ⟨fun h => hemp _ _ _ _ _ _ hd' hab h h1', fun h => hemp _ _ _ _ _ _ hd'.symm hab' h h1⟩
      by_cases hr : r = []
      · rw [hr, hiff.1 hr]
      have hr' : r' ≠ [] := fun h => hr (hiff.2 h)
      have s1 : r ++ b = r' ++ b' := by
        refine blank a a' (r ++ b) (r' ++ b') (fun c hc => hab c (by simp [hc])) (fun c hc => hab' c (by simp [hc])) ?_ ?_ ?_ ?_
        · intro c hc
          refine h1 c ?_
          cases r with
          | nil => exact absurd rfl hr
          | cons => simpa using hc
        · intro c hc
          refine h1' c ?_
          cases r' with
          | nil => exact absurd rfl hr'
          | cons => simpa using hc
        · simpa [List.append_assoc] using hd'
        · simp [hr, hr']
      have s2 : b.reverse ++ r.reverse = b'.reverse ++ r'.reverse := by
        rw [← List.reverse_append, ← List.reverse_append, s1]
      have := blank b.reverse b'.reverse r.reverse r'.reverse (fun c hc => hab c (by simp at hc; simp [hc])) (fun c hc => hab' c (by simp at hc; simp [hc]))
        (fun c hc => h2 c (by simpa using hc)) (fun c hc => h2' c (by simpa using hc)) s2 (by simp [hr, hr'])
      exact List.reverse_inj.1 this
    · rw [hd] at hd'
      exact absurd rfl hd'
  · rcases h' with ⟨a', e', b', hd', -⟩ | ⟨-, rfl⟩
    · rw [hd'] at hd
      exact absurd rfl hd
    · rfl

/-- The default declared with the text `s`: as `default=` in a tag and `Default` of the builder put it into the metadata. -/
theorem declared_default (num : Str → Bool) (s : Str) (c : Column) :
    ((columnEdit num .sqlite "default".toList s).map fun f => (f c).columnDefault) = some (if needsExpressionBrackets num s then '(' :: (s ++ [')']) else s) := by
  have : columnEdit num .sqlite "default".toList s = some fun c : Column =>
      { c with columnDefault := if needsExpressionBrackets num s && Dialect.sqlite ≠ .postgres then "(".toList ++ s ++ ")".toList else s } := rfl
  rw [this]
  cases needsExpressionBrackets num s <;> simp

/-- **C70 (partial).** A default that is a literal, or an expression without brackets around it, is the same in the metadata read from the database as in the metadata it
was declared in.  Missing: texts that begin and end with brackets, see `C70_bracketed` and `C70_violated`. -/
theorem C70_roundtrip_partial (num : Str → Bool) (hn : ∀ s, num s = true → s.head? ≠ some '(') (s : Str) (ht : Trimmed s) (hb : ¬ Bracketed s)
    (f : Column → Column) (hf : columnEdit num .sqlite "default".toList s = some f) (c : Column) (r : Str) (hr : sqliteReports (f c).columnDefault r) :
    toExpr num .sqlite r = (f c).columnDefault := by
  have hd := declared_default num s c
  rw [hf, Option.map_some, Option.some.injEq] at hd
  rw [hd] at hr ⊢
  by_cases h : needsExpressionBrackets num s = true
  · rw [if_pos h] at hr ⊢
    have : sqliteReports ('(' :: (s ++ [')'])) s := .inl ⟨[], s, [], by simp, by simp, ht.1, ht.2, rfl⟩
    rw [reports_det hr this, C70_to_expr, if_pos h]
  · rw [if_neg h] at hr ⊢
    have hlit : Literal num s := Classical.byContradiction fun hl => h ((C70_needs num s).2 ⟨hl, hb⟩)
    have hh : s.head? ≠ some '(' := by
      rcases hlit with ⟨x, rfl⟩ | ⟨w, hw, he⟩ | hnum
      · simp
      · intro hh
        cases s with
        | nil => cases hh
        | cons a as =>
          simp only [List.head?_cons, Option.some.injEq] at hh
          subst hh
          simp only [List.mem_cons, List.not_mem_nil, or_false] at hw
          have key : ∀ w : Str, (∃ a as, w = a :: as ∧ a ≠ '(' ∧ a.toLower ≠ '(') → eqFold ('(' :: as) w = true → False := by
            rintro _ ⟨b, bs, rfl, h1, h2⟩ h
            simp [eqFold] at h
            exact h2 (h.1.symm.trans (by decide))
          rcases hw with rfl | rfl | rfl | rfl | rfl | rfl <;> exact key _ ⟨_, _, rfl, by decide, by decide⟩ he
      · exact hn s hnum
    have : sqliteReports s s := .inr ⟨hh, rfl⟩
    rw [reports_det hr this, C70_to_expr, if_neg h]

/-- **C70, texts in brackets.** They are read back as declared exactly if what is inside is an expression that is neither a literal nor looks bracketed. -/
theorem C70_bracketed (num : Str → Bool) (x : Str) (ht : Trimmed x) (f : Column → Column)
    (hf : columnEdit num .sqlite "default".toList ('(' :: x ++ [')']) = some f) (c : Column) (r : Str) (hr : sqliteReports (f c).columnDefault r) :
    toExpr num .sqlite r = (f c).columnDefault ↔ ¬ Literal num x ∧ ¬ Bracketed x := by
  have hd := declared_default num ('(' :: x ++ [')']) c
  have hb : needsExpressionBrackets num ('(' :: x ++ [')']) = false := bracketed_needs num x
  rw [hf, Option.map_some, Option.some.injEq, hb] at hd
  simp only [Bool.false_eq_true, if_false] at hd
  rw [hd] at hr ⊢
  have : sqliteReports ('(' :: x ++ [')']) x := .inl ⟨[], x, [], by simp, by simp, ht.1, ht.2, rfl⟩
  rw [reports_det hr this, C70_to_expr, ← C70_needs]
  cases needsExpressionBrackets num x with
  | true => simp
  | false =>
    simp only [Bool.false_eq_true, if_false, iff_false]
    intro h
    have := congrArg List.length h
    simp at this
    omega

/-- `strconv` on the texts of the examples. -/
def digits (s : Str) : Bool := s ≠ [] && s.all Char.isDigit

/-- A default given as an expression with brackets at both ends is taken to be in brackets: SQLite rejects `DEFAULT (a)+(b)`; given with another pair it is
accepted, but read back without.  A bracketed literal is read back without brackets.  Two quoted texts joined by an operator are taken for a literal. -/
theorem C70_violated :
    (columnEdit digits .sqlite "default".toList "(1)+(2)".toList).map (fun f => (f {}).columnDefault) = some "(1)+(2)".toList ∧
    (columnEdit digits .sqlite "default".toList "((1)+(2))".toList).map (fun f => (f {}).columnDefault) = some "((1)+(2))".toList ∧
    toExpr digits .sqlite "(1)+(2)".toList = "(1)+(2)".toList ∧
    (columnEdit digits .sqlite "default".toList "(1)".toList).map (fun f => (f {}).columnDefault) = some "(1)".toList ∧
    toExpr digits .sqlite "1".toList = "1".toList ∧
    (columnEdit digits .sqlite "default".toList "'a' || 'b'".toList).map (fun f => (f {}).columnDefault) = some "'a' || 'b'".toList := by
  decide +kernel

example : (columnEdit digits .sqlite "default".toList "abs(random())+1".toList).map (fun f => (f {}).columnDefault) = some "(abs(random())+1)".toList ∧
    toExpr digits .sqlite "abs(random())+1".toList = "(abs(random())+1)".toList ∧
    (columnEdit digits .sqlite "default".toList "current_timestamp".toList).map (fun f => (f {}).columnDefault) = some "current_timestamp".toList ∧
    toExpr digits .sqlite "current_timestamp".toList = "current_timestamp".toList := by decide +kernel

example : Trimmed "abs(random())+1".toList ∧ ¬ Bracketed "abs(random())+1".toList := by
  refine ⟨⟨?_, ?_⟩, ?_⟩
  · intro c h; simp at h; subst h; decide
  · intro c h; simp at h; subst h; decide
  · rintro ⟨x, h⟩
    have := congrArg List.head? h
    simp at this

/-- **C70, MySQL.** `toExpr` keeps a literal or an expression in brackets; any other text becomes one string literal, which the database reads as that text if the
text has no two quotes in a row (followed by something: `C02_lossless_violated`). -/
theorem C70_mysql (num : Str → Bool) (s rest : Str) (hr : rest.head? ≠ some '\'') :
    (Literal num s ∨ Bracketed s → toExpr num .mysql s = s) ∧
    (¬ Literal num s ∧ ¬ Bracketed s → ∃ body text, toExpr num .mysql s = '\'' :: body ∧ _root_.Spec.scan '\'' (body ++ rest) = some (text, rest) ∧
      (text = s ↔ ¬ _root_.Spec.InnerPair '\'' s)) := by
  have key : toExpr num .mysql s = if needsExpressionBrackets num s then '\'' :: (Sq.escapeQuote '\'' s ++ ['\'']) else s := by
    unfold toExpr needsExpressionBrackets
    split
    · rfl
    · split
      · rfl
      · split
        · rfl
        · split <;> rfl
  constructor
  · intro h
    have : needsExpressionBrackets num s = false := by
      cases hn : needsExpressionBrackets num s with
      | false => rfl
      | true =>
        have := (C70_needs num s).1 hn
        rcases h with h | h
        · exact absurd h this.1
        · exact absurd h this.2
    rw [key, this]; rfl
  · intro h
    rw [key, (C70_needs num s).2 h]
    refine ⟨_, Sq.readBack '\'' s, rfl, ?_, Sq.readBack_eq_iff '\'' s⟩
    rw [List.append_assoc]
    exact Sq.scan_escapeQuote '\'' s rest hr

example : toExpr (fun _ => false) .mysql "it's".toList = "'it''s'".toList := by decide +kernel

/-- The default of a PostgreSQL column is read as it is. -/
theorem C70_postgres (num : Str → Bool) (s : Str) : toExpr num .postgres s = s := by
  unfold toExpr
  split
  · rfl
  · split
    · rfl
    · split
      · rfl
      · split <;> rfl

end Ddl.Default
