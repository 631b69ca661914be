import Verif.Spec.Lexer
import Verif.Model.Command
import Verif.Proof.Quote
/-
How the tokens of a text follow from those of its parts.
-/
namespace Ddl
open Spec (Tok At tokRun tokStep tokTop tokEnd tokens isWord isBlank closerFor opt)
open Sq (quoteIdentifier escapeQuote)

theorem tokRun_append (d : Dialect) (s : At) (a b : Str) (x : List Tok) (s' : At) (h : tokRun d s a = some (x, s')) :
    tokRun d s (a ++ b) = (tokRun d s' b).map fun r => (x ++ r.1, r.2) := by
  induction a generalizing s x with
  | nil =>
    cases h
    rw [List.nil_append]
    cases tokRun d _ b <;> simp
  | cons c a ih =>
    rw [tokRun] at h
    rw [List.cons_append, tokRun]
    cases hs : tokStep d s c with
    | none => rw [hs] at h; cases h
    | some r =>
      rw [hs] at h
      obtain ⟨o, s1⟩ := r
      simp only [Option.bind_some] at h ⊢
      cases hr : tokRun d s1 a with
      | none => rw [hr] at h; cases h
      | some r' =>
        rw [hr] at h
        obtain ⟨o', s2⟩ := r'
        cases h
        rw [ih s1 o' hr]
        cases hb : tokRun d s2 b <;> simp [hb]

/-- The characters that end a bare word and are not quotes. -/
def isBreak (c : Char) : Bool := c == ' ' || c == '\n' || c == '(' || c == ')' || c == ',' || c == '.'

theorem isBreak_cases (c : Char) (h : isBreak c = true) : c = ' ' ∨ c = '\n' ∨ c = '(' ∨ c = ')' ∨ c = ',' ∨ c = '.' := by
  unfold isBreak at h
  simp only [Bool.or_eq_true, beq_iff_eq] at h
  rcases h with ((((h | h) | h) | h) | h) | h <;> simp [h]

/-- A quote closes only what a quote opened. -/
def isCloser (q : Char) : Bool := q == '\'' || q == '"' || q == '`' || q == ']'

/-- Places reached from the top have such quotes. -/
def At.Sane : At → Prop
  | .quoted q _ => isCloser q = true
  | .closing q _ => isCloser q = true
  | .escaped q _ => isCloser q = true
  | _ => True

theorem lexSane_top (d : Dialect) (c : Char) (r : List Tok × At) (h : tokTop d c = some r) : At.Sane r.2 := by
  unfold tokTop at h
  split at h
  · cases h; trivial
  split at h
  · cases h; trivial
  split at h
  · rename_i q hq
    cases h
    unfold closerFor at hq
    split at hq
    · cases hq; rfl
    split at hq
    · cases hq; rfl
    split at hq
    · split at hq
      · cases hq
      · cases hq; rfl
    split at hq
    · split at hq
      · cases hq; rfl
      · cases hq
    · cases hq
  split at h
  · cases h; trivial
  split at h
  · cases h; trivial
  split at h
  · cases h
  split at h
  · cases h
  · cases h; trivial

theorem lexSane_step (d : Dialect) (s : At) (hs : At.Sane s) (c : Char) (r : List Tok × At) (h : tokStep d s c = some r) : At.Sane r.2 := by
  have keyMap : ∀ t : Tok, (tokTop d c).map (fun r => (t :: r.1, r.2)) = some r → At.Sane r.2 := by
    intro t ht
    cases hc : tokTop d c with
    | none => rw [hc] at ht; cases ht
    | some r' => rw [hc] at ht; cases ht; exact lexSane_top d c r' hc
  cases s with
  | top => exact lexSane_top d c r h
  | word w =>
    simp only [tokStep] at h
    split at h
    · cases h; trivial
    · exact keyMap _ h
  | quoted q x =>
    simp only [tokStep] at h
    split at h
    · cases h; exact hs
    split at h
    · cases h; exact hs
    · cases h; exact hs
  | closing q x =>
    simp only [tokStep] at h
    split at h
    · cases h; exact hs
    · exact keyMap _ h
  | escaped q x => simp only [tokStep] at h; cases h; exact hs
  | dash =>
    simp only [tokStep] at h
    split at h
    · cases h
    · exact keyMap _ h
  | slash =>
    simp only [tokStep] at h
    split at h
    · cases h
    · exact keyMap _ h

theorem lexSane_run (d : Dialect) (s : At) (hs : At.Sane s) (t : Str) (r : List Tok × At) (h : tokRun d s t = some r) : At.Sane r.2 := by
  induction t generalizing s r with
  | nil => cases h; exact hs
  | cons c t ih =>
    rw [tokRun] at h
    cases hc : tokStep d s c with
    | none => rw [hc] at h; cases h
    | some r1 =>
      rw [hc] at h
      simp only [Option.bind_some] at h
      cases h2 : tokRun d r1.2 t with
      | none => rw [h2] at h; cases h
      | some r2 =>
        rw [h2] at h
        cases h
        exact ih r1.2 (lexSane_step d s hs c r1 hc) r2 h2

theorem break_top (d : Dialect) (c : Char) (h : isBreak c = true) : ∃ x, tokTop d c = some (x, .top) := by
  rcases isBreak_cases c h with rfl | rfl | rfl | rfl | rfl | rfl
  · exact ⟨[], by cases d <;> rfl⟩
  · exact ⟨[], by cases d <;> rfl⟩
  · exact ⟨[.sym '('], by cases d <;> rfl⟩
  · exact ⟨[.sym ')'], by cases d <;> rfl⟩
  · exact ⟨[.sym ','], by cases d <;> rfl⟩
  · exact ⟨[.sym '.'], by cases d <;> rfl⟩

/-- After a break the reader has completed the token before it. -/
theorem step_break (d : Dialect) (s : At) (hs : At.Sane s) (c : Char) (hc : isBreak c = true) (e : List Tok) (he : tokEnd s = some e) :
    tokStep d s c = (tokTop d c).map fun r => (e ++ r.1, r.2) := by
  cases s with
  | top =>
    cases he
    show tokTop d c = _
    cases tokTop d c <;> simp
  | word w =>
    cases he
    have : isWord c = false := by
      rcases isBreak_cases c hc with rfl | rfl | rfl | rfl | rfl | rfl <;> decide
    simp only [tokStep, this]
    rfl
  | quoted q x => cases he
  | closing q x =>
    cases he
    have : c ≠ q := by
      have hq : isCloser q = true := hs
      rintro rfl
      rcases isBreak_cases c hc with rfl | rfl | rfl | rfl | rfl | rfl <;> revert hq <;> decide
    simp only [tokStep, if_neg this]
    rfl
  | escaped q x => cases he
  | dash =>
    cases he
    have : c ≠ '-' := by rcases isBreak_cases c hc with rfl | rfl | rfl | rfl | rfl | rfl <;> decide
    simp only [tokStep, if_neg this]
    rfl
  | slash =>
    cases he
    have : c ≠ '*' := by rcases isBreak_cases c hc with rfl | rfl | rfl | rfl | rfl | rfl <;> decide
    simp only [tokStep, if_neg this]
    rfl

/-- Complete texts. -/
def Ends (d : Dialect) (t : Str) (x : List Tok) : Prop := tokRun d .top t = some (x, .top)

theorem tokens_of_ends {d : Dialect} {t : Str} {x : List Tok} (h : Ends d t x) : tokens d t = some x := by
  unfold tokens; rw [h]; simp [tokEnd]

theorem ends_append {d : Dialect} {a b : Str} {x y : List Tok} (ha : Ends d a x) (hb : Ends d b y) : Ends d (a ++ b) (x ++ y) := by
  unfold Ends at *
  rw [tokRun_append d _ a b x _ ha, hb]; rfl

theorem tokens_append_ends {d : Dialect} {a b : Str} {x y : List Tok} (ha : Ends d a x) (hb : tokens d b = some y) :
    tokens d (a ++ b) = some (x ++ y) := by
  unfold tokens at *
  rw [tokRun_append d _ a b x _ ha]
  cases hr : tokRun d .top b with
  | none => rw [hr] at hb; cases hb
  | some r =>
    rw [hr] at hb
    simp only [Option.bind_some, Option.map_some] at hb ⊢
    cases he : tokEnd r.2 with
    | none => rw [he] at hb; cases hb
    | some e =>
      rw [he] at hb
      cases hb
      simp

/-- The text is empty or starts with a break. -/
def Breaks (t : Str) : Prop := t = [] ∨ ∃ c cs, t = c :: cs ∧ isBreak c = true

theorem tokens_append_breaks {d : Dialect} {a b : Str} {x y : List Tok} (ha : tokens d a = some x) (hb : tokens d b = some y)
    (h : Breaks b) : tokens d (a ++ b) = some (x ++ y) := by
  rcases h with rfl | ⟨c, cs, rfl, hc⟩
  · cases hb; simp [ha]
  · unfold tokens at ha
    cases hr : tokRun d .top a with
    | none => rw [hr] at ha; cases ha
    | some r =>
      obtain ⟨o, s⟩ := r
      rw [hr] at ha
      simp only [Option.bind_some] at ha
      cases he : tokEnd s with
      | none => rw [he] at ha; cases ha
      | some e =>
        rw [he] at ha
        cases ha
        obtain ⟨z, hz⟩ := break_top d c hc
        have hs : At.Sane s := lexSane_run d .top trivial a (o, s) hr
        unfold tokens at hb ⊢
        rw [tokRun_append d _ a _ o s hr]
        rw [tokRun, step_break d s hs c hc e he, hz]
        rw [tokRun, show tokStep d .top c = some (z, .top) from hz] at hb
        simp only [Option.map_some, Option.bind_some] at hb ⊢
        cases h2 : tokRun d .top cs with
        | none => rw [h2] at hb; cases hb
        | some r2 =>
          rw [h2] at hb
          simp only [Option.map_some, Option.bind_some] at hb ⊢
          cases h3 : tokEnd r2.2 with
          | none => rw [h3] at hb; cases hb
          | some e3 => rw [h3] at hb; cases hb; simp

/-- A complete text after a break-separated one. -/
theorem ends_append_breaks {d : Dialect} {a b : Str} {x y : List Tok} (ha : tokens d a = some x) (hb : Ends d b y)
    (h : Breaks b) (hne : b ≠ []) : Ends d (a ++ b) (x ++ y) := by
  rcases h with rfl | ⟨c, cs, rfl, hc⟩
  · exact absurd rfl hne
  · unfold tokens at ha
    cases hr : tokRun d .top a with
    | none => rw [hr] at ha; cases ha
    | some r =>
      obtain ⟨o, s⟩ := r
      rw [hr] at ha
      simp only [Option.bind_some] at ha
      cases he : tokEnd s with
      | none => rw [he] at ha; cases ha
      | some e =>
        rw [he] at ha
        cases ha
        obtain ⟨z, hz⟩ := break_top d c hc
        have hs : At.Sane s := lexSane_run d .top trivial a (o, s) hr
        unfold Ends at hb ⊢
        rw [tokRun_append d _ a _ o s hr]
        rw [tokRun, step_break d s hs c hc e he, hz]
        rw [tokRun, show tokStep d .top c = some (z, .top) from hz] at hb
        simp only [Option.map_some, Option.bind_some] at hb ⊢
        cases h2 : tokRun d .top cs with
        | none => rw [h2] at hb; cases hb
        | some r2 =>
          rw [h2] at hb
          obtain ⟨o2, s2⟩ := r2
          cases hb; simp

/-! ### Names -/

/-- What a quoted text denotes after `escapeQuote`. -/
def unq (q : Char) : Str → Str
  | [] => []
  | [c] => [c]
  | [c, d] => c :: unq q [d]
  | c :: d :: e :: rest =>
    if c = q ∧ d = q then q :: unq q (e :: rest) else c :: unq q (d :: e :: rest)

theorem unq_faithful (q : Char) (s : Str) (h : ¬ Spec.InnerPair q s) : unq q s = s := by
  fun_induction unq q s with
  | case1 => rfl
  | case2 => rfl
  | case3 c d ih =>
    rw [ih]
    rintro ⟨a, c', b, hb⟩
    have := congrArg List.length hb
    simp at this; omega
  | case4 c d e rest hcd ih =>
    exfalso; apply h
    exact ⟨[], e, rest, by rw [hcd.1, hcd.2]; rfl⟩
  | case5 c d e rest hcd ih =>
    rw [ih]
    rintro ⟨a, c', b, hb⟩
    exact h ⟨c :: a, c', b, by rw [hb]; rfl⟩

theorem tokRun_escape (d : Dialect) (q : Char) (hb : ¬(d = .mysql ∧ q ≠ '`')) (s acc : Str) :
    tokRun d (.quoted q acc) (escapeQuote q s) = some ([], .quoted q (acc ++ unq q s)) := by
  have pair : ∀ acc t, tokRun d (.quoted q acc) (q :: q :: t) = tokRun d (.quoted q (acc ++ [q])) t := by
    intro acc t
    rw [tokRun]
    have h1 : tokStep d (.quoted q acc) q = some ([], .closing q acc) := by simp [tokStep]
    rw [h1]
    simp only [Option.bind_some]
    rw [tokRun]
    have h2 : tokStep d (.closing q acc) q = some ([], .quoted q (acc ++ [q])) := by simp [tokStep]
    rw [h2]
    simp only [Option.bind_some]
    cases tokRun d (.quoted q (acc ++ [q])) t <;> simp
  have single : ∀ acc c t, c ≠ q → tokRun d (.quoted q acc) (c :: t) = tokRun d (.quoted q (acc ++ [c])) t := by
    intro acc c t hc
    rw [tokRun]
    have h1 : tokStep d (.quoted q acc) c = some ([], .quoted q (acc ++ [c])) := by
      simp only [tokStep, if_neg hc]
      rw [if_neg]
      rintro ⟨_, h2⟩
      exact hb h2
    rw [h1]
    simp only [Option.bind_some]
    cases tokRun d (.quoted q (acc ++ [c])) t <;> simp
  fun_induction escapeQuote q s generalizing acc with
  | case1 => simp [unq, tokRun]
  | case2 => rw [pair]; rfl
  | case3 c hc => rw [single acc c _ hc]; rfl
  | case4 d' ih => rw [pair, ih]; simp [unq]
  | case5 c d' hc ih => rw [single acc c _ hc, ih]; simp [unq]
  | case6 e rest ih => rw [pair, ih]; simp [unq]
  | case7 d' e rest hd ih => rw [pair, ih]; simp [unq, hd]
  | case8 c d' e rest hc ih => rw [single acc c _ hc, ih]; simp [unq, hc]

theorem tokens_quoted (d : Dialect) (o q : Char) (ho : tokTop d o = some ([], .quoted q [])) (hb : ¬(d = .mysql ∧ q ≠ '`'))
    (s : Str) : tokens d (o :: escapeQuote q s ++ [q]) = some [.quoted q (unq q s)] := by
  unfold tokens
  rw [List.cons_append, tokRun, show tokStep d .top o = _ from ho]
  simp only [Option.bind_some]
  rw [tokRun_append d _ _ _ _ _ (tokRun_escape d q hb s [])]
  simp [tokRun, tokStep, tokEnd]

theorem tokRun_word (d : Dialect) (w t : Str) (h : t.all isWord = true) : tokRun d (.word w) t = some ([], .word (w ++ t)) := by
  induction t generalizing w with
  | nil => simp [tokRun]
  | cons c t ih =>
    rw [List.all_cons, Bool.and_eq_true] at h
    rw [tokRun]
    have : tokStep d (.word w) c = some ([], .word (w ++ [c])) := by simp [tokStep, h.1]
    rw [this]
    simp only [Option.bind_some]
    rw [ih _ h.2]
    simp

theorem tokens_word (d : Dialect) (t : Str) (hne : t ≠ []) (h : t.all isWord = true) : tokens d t = some [.word t] := by
  cases t with
  | nil => exact absurd rfl hne
  | cons c t =>
    rw [List.all_cons, Bool.and_eq_true] at h
    have hb : isBlank c = false := by
      cases hc : isBlank c with
      | false => rfl
      | true =>
        unfold isBlank at hc
        simp only [Bool.or_eq_true, beq_iff_eq] at hc
        have := h.1
        rcases hc with ((hc | hc) | hc) | hc <;> subst hc <;> revert this <;> decide
    unfold tokens
    rw [tokRun]
    have : tokStep d .top c = some ([], .word [c]) := by
      show tokTop d c = _
      unfold tokTop
      rw [hb, h.1]; rfl
    rw [this]
    simp only [Option.bind_some]
    rw [tokRun_word d _ _ h.2]
    simp [tokEnd]

theorem word_of_plain (c : Char) (h : Sq.plainChar c = true) : isWord c = true := by
  unfold Sq.plainChar at h
  simp only [Bool.or_eq_true, Bool.and_eq_true, decide_eq_true_eq] at h
  unfold isWord Char.isAlphanum Char.isAlpha Char.isLower Char.isDigit
  rcases h with (h | h) | h
  · simp [h]
  · have h1 : c.val ≥ 48 := h.1
    have h2 : c.val ≤ 57 := h.2
    simp [h1, h2]
  · have h1 : c.val ≥ 97 := h.1
    have h2 : c.val ≤ 122 := h.2
    simp [h1, h2]

/-- The token of a name. -/
def nameTok (d : Dialect) (x : Str) : Tok :=
  if Sq.needsQuoting x then .quoted (Spec.identClose d) (unq (Spec.identClose d) x) else .word x

theorem tokens_ident (d : Dialect) (x : Str) : tokens d (quoteIdentifier d x) = some [nameTok d x] := by
  unfold quoteIdentifier nameTok
  by_cases hn : Sq.needsQuoting x = true
  · rw [if_pos hn, if_pos hn]
    cases d with
    | mysql => exact tokens_quoted .mysql '`' '`' rfl (by simp) x
    | sqlserver => exact tokens_quoted .sqlserver '[' ']' rfl (by simp) x
    | sqlite => exact tokens_quoted .sqlite '"' '"' rfl (by simp) x
    | postgres => exact tokens_quoted .postgres '"' '"' rfl (by simp) x
    | oracle => exact tokens_quoted .oracle '"' '"' rfl (by simp) x
    | other => exact tokens_quoted .other '"' '"' rfl (by simp) x
  · rw [if_neg hn, if_neg hn]
    cases x with
    | nil => exact absurd rfl hn
    | cons c cs =>
      simp only [Sq.needsQuoting, Bool.not_eq_true, Bool.or_eq_false_iff, Bool.not_eq_false'] at hn
      refine tokens_word d _ (by simp) ?_
      rw [List.all_cons, word_of_plain c hn.1.2, Bool.true_and, List.all_eq_true]
      intro z hz
      exact word_of_plain z (List.all_eq_true.1 hn.2 z hz)

theorem bare_of_plain (x : Str) (h : ¬ Sq.needsQuoting x = true) : Spec.isBareIdent x = true := by
  have key : ∀ c, Sq.plainChar c = true → Spec.bareChar c = true := by
    intro c h
    unfold Sq.plainChar at h
    simp only [Bool.or_eq_true, Bool.and_eq_true, decide_eq_true_eq] at h
    unfold Spec.bareChar Char.isLower Char.isDigit
    rcases h with (h | h) | h
    · simp [h]
    · have h1 : c.val ≥ 48 := h.1
      have h2 : c.val ≤ 57 := h.2
      simp [h1, h2]
    · have h1 : c.val ≥ 97 := h.1
      have h2 : c.val ≤ 122 := h.2
      simp [h1, h2]
  cases x with
  | nil => exact absurd rfl h
  | cons c cs =>
    simp only [Sq.needsQuoting, Bool.not_eq_true, Bool.or_eq_false_iff, Bool.not_eq_false', Bool.and_eq_false_iff, decide_eq_false_iff_not] at h
    unfold Spec.isBareIdent
    rw [Bool.and_eq_true]
    refine ⟨?_, List.all_eq_true.2 fun z hz => key z (List.all_eq_true.1 h.2 z hz)⟩
    have hp := key c h.1.2
    unfold Spec.bareChar at hp
    simp only [Bool.or_eq_true] at hp ⊢
    rcases hp with (hp | hp) | hp
    · exact .inl hp
    · exfalso
      unfold Char.isDigit at hp
      simp only [Bool.and_eq_true, decide_eq_true_eq] at hp
      rcases h.1.1 with h1 | h1
      · exact h1 hp.1
      · exact h1 hp.2
    · exact .inr hp

theorem nameTok_denotes (d : Dialect) (x : Str) (h : ¬ Spec.InnerPair (Spec.identClose d) x) : Spec.Denotes d (nameTok d x) x := by
  unfold nameTok
  by_cases hn : Sq.needsQuoting x = true
  · rw [if_pos hn, unq_faithful _ _ h]; exact .inl rfl
  · rw [if_neg hn]; exact .inr ⟨rfl, bare_of_plain x hn⟩

end Ddl
