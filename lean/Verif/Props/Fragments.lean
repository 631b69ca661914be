import Verif.Spec.Fragments
import Verif.Props.Script
/-
C40: which commands are single statements.
-/
namespace Ddl
open Spec
open _root_.Spec (reader lexStep lexTop Lex)
open Sq (quoteIdentifier escapeQuote isSpace)

/-! ### Neutral and tidy texts -/

theorem run_append (R : _root_.Spec.Reader) (s s' : R.σ) (a b : Str) (h : R.run s a = some s') : R.run s (a ++ b) = R.run s' b := by
  induction a generalizing s with
  | nil => cases h; rfl
  | cons c a ih =>
    rw [_root_.Spec.Reader.run] at h
    rw [List.cons_append, _root_.Spec.Reader.run]
    cases hs : R.step s c with
    | none => rw [hs] at h; cases h
    | some s1 => rw [hs] at h; exact ih s1 h

theorem neutral_append (R : _root_.Spec.Reader) (a b : Str) (ha : R.Neutral a) (hb : R.Neutral b) : R.Neutral (a ++ b) := by
  unfold _root_.Spec.Reader.Neutral at *
  rw [run_append R _ _ a b ha]; exact hb

theorem neutral_nil (R : _root_.Spec.Reader) : R.Neutral [] := rfl

theorem dropWhile_nil {α : Type} (p : α → Bool) (l : List α) : l.dropWhile p = [] ↔ ∀ x ∈ l, p x = true := by
  induction l with
  | nil => simp
  | cons a l ih =>
    rw [List.dropWhile_cons]
    by_cases h : p a = true
    · rw [if_pos h, ih]; simp [h]
    · rw [if_neg h]; simp [h]

theorem chop_append (a b : Str) : chop (a ++ b) = if b.all isSpace then chop a else a ++ chop b := by
  unfold chop
  rw [List.reverse_append]
  by_cases h : b.all isSpace = true
  · rw [if_pos h, List.dropWhile_append]
    have : b.reverse.dropWhile isSpace = [] := by
      rw [dropWhile_nil]
      intro x hx
      exact List.all_eq_true.1 h x (List.mem_reverse.1 hx)
    rw [this]; rfl
  · rw [if_neg h, List.dropWhile_append]
    have : (b.reverse.dropWhile isSpace).isEmpty = false := by
      cases hb : b.reverse.dropWhile isSpace with
      | nil =>
        exfalso; apply h
        rw [dropWhile_nil] at hb
        exact List.all_eq_true.2 fun x hx => hb x (List.mem_reverse.2 hx)
      | cons => rfl
    rw [this]
    simp

theorem tidy_append (d : Dialect) (a b : Str) (ha : Tidy d a) (hb : Tidy d b) : Tidy d (a ++ b) := by
  refine ⟨neutral_append _ a b ha.1 hb.1, ?_⟩
  rw [chop_append]
  by_cases h : b.all isSpace = true
  · rw [if_pos h]; exact ha.2
  · rw [if_neg h]; exact neutral_append _ a _ ha.1 hb.2

theorem tidy_nil (d : Dialect) : Tidy d [] := ⟨rfl, rfl⟩

/-- A text that does not end in a blank. -/
theorem chop_self (t : Str) (c : Char) (h : t.getLast? = some c) (hc : isSpace c = false) : chop t = t := by
  rcases List.eq_nil_or_concat t with rfl | ⟨l, x, rfl⟩
  · rfl
  · rw [List.concat_eq_append] at h ⊢
    rw [List.getLast?_concat] at h
    obtain rfl := Option.some.inj h
    simp [chop, hc]

def endsTop (o : Option Lex) : Bool := decide (o = some .top)

def tidyLit (t : Str) : Bool :=
  [Dialect.sqlite, .postgres, .mysql, .sqlserver, .oracle, .other].all fun d =>
    endsTop ((reader d).run Lex.top t) && endsTop ((reader d).run Lex.top (chop t))

theorem tidy_lit (d : Dialect) (t : Str) (h : tidyLit t = true) : Tidy d t := by
  unfold tidyLit at h
  rw [List.all_eq_true] at h
  have := h d (by cases d <;> simp)
  simp only [endsTop, Bool.and_eq_true, decide_eq_true_eq] at this
  exact this

/-! ### Quoted texts -/

theorem run_bare (d : Dialect) (t : Str) (h : t.all Sq.plainChar = true) : (reader d).run .top t = some Lex.top := by
  induction t with
  | nil => rfl
  | cons c t ih =>
    rw [List.all_cons, Bool.and_eq_true] at h
    show ((lexTop d c).bind fun s' => (reader d).run s' t) = _
    have hs : lexTop d c = some Lex.top := by
      have hc := h.1
      have hne : ∀ x : Char, Sq.plainChar x = false → c ≠ x := by rintro x hx rfl; rw [hx] at hc; cases hc
      unfold lexTop
      rw [if_neg (hne ';' (by decide)), if_neg (hne '-' (by decide)), if_neg (hne '/' (by decide)), if_neg (hne '\'' (by decide)),
        if_neg (hne '"' (by decide)), if_neg (hne '`' (by decide)), if_neg (hne '#' (by decide)), if_neg (hne '$' (by decide))]
    rw [hs]; exact ih h.2

/-- Inside a quoted token no character but the quote matters (no backslash escapes). -/
theorem run_escape (d : Dialect) (q : Char) (hq : lexTop d q = some (.quoted q)) (hb : d ≠ .mysql ∨ q = '`') (s : Str) :
    (reader d).run (.quoted q) (escapeQuote q s) = some (Lex.quoted q) := by
  have pair : ∀ t, (reader d).run (.quoted q) (q :: q :: t) = (reader d).run (.quoted q) t := by
    intro t
    show ((lexStep d (.quoted q) q).bind fun s' => (reader d).run s' (q :: t)) = _
    have h1 : lexStep d (.quoted q) q = some .top := by simp [lexStep]
    rw [h1]
    show ((lexStep d .top q).bind fun s' => (reader d).run s' t) = _
    have h2 : lexStep d .top q = some (.quoted q) := hq
    rw [h2]; rfl
  have single : ∀ c t, c ≠ q → (reader d).run (.quoted q) (c :: t) = (reader d).run (.quoted q) t := by
    intro c t hc
    show ((lexStep d (.quoted q) c).bind fun s' => (reader d).run s' t) = _
    have h1 : lexStep d (.quoted q) c = some (.quoted q) := by
      show (if c = q then _ else _) = _
      rw [if_neg hc, if_neg]
      rintro ⟨_, h2, h3⟩
      rcases hb with hb | hb
      · exact hb h2
      · exact h3 hb
    rw [h1]; rfl
  fun_induction escapeQuote q s with
  | case1 => rfl
  | case2 => rw [pair]; rfl
  | case3 c hc => rw [single c _ hc]; rfl
  | case4 _ ih => rw [pair]; exact ih
  | case5 c d' hc ih => rw [single c _ hc]; exact ih
  | case6 _ _ ih => rw [pair]; exact ih
  | case7 _ _ _ _ ih => rw [pair]; exact ih
  | case8 c _ _ _ hc ih => rw [single c _ hc]; exact ih

theorem tidy_quoted (d : Dialect) (q : Char) (hq : lexTop d q = some (.quoted q)) (hb : d ≠ .mysql ∨ q = '`') (hs : isSpace q = false)
    (s : Str) : Tidy d (q :: escapeQuote q s ++ [q]) := by
  have hn : (reader d).Neutral (q :: escapeQuote q s ++ [q]) := by
    show (reader d).run .top (q :: (escapeQuote q s ++ [q])) = _
    show ((lexTop d q).bind fun s' => (reader d).run s' (escapeQuote q s ++ [q])) = _
    rw [hq]
    show (reader d).run (.quoted q) (escapeQuote q s ++ [q]) = _
    rw [run_append _ _ _ _ _ (run_escape d q hq hb s)]
    show ((lexStep d (.quoted q) q).bind fun s' => (reader d).run s' []) = _
    have h1 : lexStep d (.quoted q) q = some .top := by simp [lexStep]
    rw [h1]; rfl
  refine ⟨hn, ?_⟩
  rw [chop_self _ q (List.getLast?_concat) hs]
  exact hn

theorem plain_not_space (c : Char) (h : Sq.plainChar c = true) : isSpace c = false := by
  unfold Sq.plainChar at h
  simp only [Bool.or_eq_true, Bool.and_eq_true, decide_eq_true_eq, Char.le_def, UInt32.le_iff_toNat_le] at h
  have hlt : c.val.toNat ≤ 122 ∧ 48 ≤ c.val.toNat := by
    rcases h with (h | h) | h
    · rw [h]; decide
    · have h1 : '0'.val.toNat = 48 := rfl
      have h2 : '9'.val.toNat = 57 := rfl
      omega
    · have h1 : 'a'.val.toNat = 97 := rfl
      have h2 : 'z'.val.toNat = 122 := rfl
      omega
  have hv : ∀ x : Char, (x.val.toNat < 48 ∨ 122 < x.val.toNat) → c ≠ x := by
    rintro x hx rfl; omega
  unfold isSpace Sq.trimSpace
  have hn : ∀ n : UInt32, (n.toNat < 48 ∨ 122 < n.toNat) → c.val ≠ n := by
    rintro n hn rfl; omega
  simp only [hv ' ' (by decide), hv '\t' (by decide), hv '\n' (by decide), hv '\x0b' (by decide), hv '\x0c' (by decide), hv '\r' (by decide),
    hv '\u0085' (by decide), hv '\u00A0' (by decide), hn 0x1680 (by decide), hn 0x2028 (by decide), hn 0x2029 (by decide),
    hn 0x202f (by decide), hn 0x205f (by decide), hn 0x3000 (by decide), decide_false, Bool.or_false, Bool.false_or, Bool.or_self]
  rw [Bool.and_eq_false_iff]
  left
  rw [decide_eq_false_iff_not, UInt32.le_iff_toNat_le]
  have : (0x2000 : UInt32).toNat = 8192 := rfl
  omega

theorem tidy_plain (d : Dialect) (t : Str) (h : t.all Sq.plainChar = true) : Tidy d t := by
  refine ⟨run_bare d t h, ?_⟩
  rcases List.eq_nil_or_concat t with rfl | ⟨l, x, rfl⟩
  · rfl
  · rw [List.concat_eq_append] at h ⊢
    rw [chop_self _ x List.getLast?_concat]
    · exact run_bare d _ h
    · exact plain_not_space x (List.all_eq_true.1 h x (by simp))

theorem tidy_ident (d : Dialect) (hd : d ≠ .sqlserver) (x : Str) : Tidy d (quoteIdentifier d x) := by
  unfold quoteIdentifier
  by_cases hn : Sq.needsQuoting x = true
  · rw [if_pos hn]
    cases d with
    | mysql => exact tidy_quoted .mysql '`' rfl (.inr rfl) (by decide) x
    | sqlserver => exact absurd rfl hd
    | sqlite => exact tidy_quoted .sqlite '"' rfl (.inl (by simp)) (by decide) x
    | postgres => exact tidy_quoted .postgres '"' rfl (.inl (by simp)) (by decide) x
    | oracle => exact tidy_quoted .oracle '"' rfl (.inl (by simp)) (by decide) x
    | other => exact tidy_quoted .other '"' rfl (.inl (by simp)) (by decide) x
  · rw [if_neg hn]
    apply tidy_plain
    cases x with
    | nil => rfl
    | cons c cs =>
      simp only [Sq.needsQuoting, Bool.not_eq_true, Bool.or_eq_false_iff, Bool.not_eq_false'] at hn
      rw [List.all_cons, hn.1.2, hn.2]; rfl

/-! ### Commands -/

/-- If the command has a text, it is tidy. -/
structure T (d : Dialect) (r : Res Str) : Prop where
  tidy : ∀ t, r = .ok t → Tidy d t

theorem T_txt {d : Dialect} {s : Str} (h : Tidy d s) : T d (txt s) := ⟨by rintro t h'; cases h'; exact h⟩
theorem T_lit {d : Dialect} {s : String} (h : tidyLit s.toList = true) : T d (lit s) := T_txt (tidy_lit d _ h)
theorem T_err {d : Dialect} {e : Str} : T d (.err e) := ⟨by rintro t h; cases h⟩
theorem T_panic {d : Dialect} : T d .panic := ⟨by rintro t h; cases h⟩
theorem T_append {d : Dialect} {a b : Res Str} (ha : T d a) (hb : T d b) : T d (a +++ b) := by
  refine ⟨?_⟩
  intro t h
  cases a with
  | ok x =>
    cases b with
    | ok y => cases h; exact tidy_append d x y (ha.tidy x rfl) (hb.tidy y rfl)
    | err e => cases h
    | panic => cases h
    | hang => cases h
  | err e => cases h
  | panic => cases h
  | hang => cases h
theorem T_nil {d : Dialect} : T d (.ok []) := T_txt (tidy_nil d)
theorem T_when {d : Dialect} {b : Bool} {r : Res Str} (h : b = true → T d r) : T d (when b r) := by
  unfold when; cases b
  · exact T_nil
  · exact h rfl
theorem T_failIf {d : Dialect} {b : Bool} {s : String} : T d (failIf b s) := by
  unfold failIf; cases b
  · exact T_nil
  · exact T_err
theorem T_ite {d : Dialect} {p : Prop} [Decidable p] {a b : Res Str} (ha : p → T d a) (hb : ¬p → T d b) : T d (if p then a else b) := by
  by_cases h : p
  · rw [if_pos h]; exact ha h
  · rw [if_neg h]; exact hb h

theorem tidy_ite {d : Dialect} {p : Prop} [Decidable p] {a b : Str} (ha : Tidy d a) (hb : Tidy d b) : Tidy d (if p then a else b) := by
  by_cases h : p
  · rw [if_pos h]; exact ha
  · rw [if_neg h]; exact hb

theorem tidy_joinComma (d : Dialect) (xs : List Str) (h : ∀ x ∈ xs, Tidy d x) : Tidy d (joinComma xs) := by
  match xs with
  | [] => exact tidy_nil d
  | [x] => exact h x List.mem_cons_self
  | x :: y :: xs =>
    exact tidy_append d _ _ (tidy_append d _ _ (h x List.mem_cons_self) (tidy_lit d _ (by decide +kernel)))
      (tidy_joinComma d (y :: xs) fun z hz => h z (List.mem_cons_of_mem _ hz))

theorem tidy_joinLines (d : Dialect) (xs : List Str) (h : ∀ x ∈ xs, Tidy d x) : Tidy d (joinLines xs) := by
  match xs with
  | [] => exact tidy_nil d
  | [x] => exact h x List.mem_cons_self
  | x :: y :: xs =>
    exact tidy_append d _ _ (tidy_append d _ _ (h x List.mem_cons_self) (tidy_lit d _ (by decide +kernel)))
      (tidy_joinLines d (y :: xs) fun z hz => h z (List.mem_cons_of_mem _ hz))

theorem tidy_flatMap {α : Type} (d : Dialect) (xs : List α) (f : α → Str) (h : ∀ x ∈ xs, Tidy d (f x)) : Tidy d (xs.flatMap f) := by
  induction xs with
  | nil => exact tidy_nil d
  | cons x xs ih =>
    rw [List.flatMap_cons]
    exact tidy_append d _ _ (h x List.mem_cons_self) (ih fun y hy => h y (List.mem_cons_of_mem _ hy))

theorem tidy_qualified (d : Dialect) (hd : d ≠ .sqlserver) (a b : Str) : Tidy d (qualified d a b) := by
  unfold qualified
  exact tidy_append d _ _ (tidy_ite (tidy_nil d) (tidy_append d _ _ (tidy_ident d hd a) (tidy_lit d _ (by decide +kernel))))
    (tidy_ident d hd b)

theorem T_writeLines (d : Dialect) (xs : List (Res Str)) (i : Nat) (h : ∀ x ∈ xs, T d x) : T d (writeLines xs i) := by
  induction xs generalizing i with
  | nil => exact T_nil
  | cons x xs ih =>
    rw [writeLines]
    exact T_append (T_ite (fun _ => T_lit (by decide +kernel)) (fun _ => T_lit (by decide +kernel)))
      (T_append (h x List.mem_cons_self) (ih _ fun y hy => h y (List.mem_cons_of_mem _ hy)))

theorem T_concatRes (d : Dialect) (xs : List (Res Str)) (h : ∀ x ∈ xs, T d x) : T d (concatRes xs) := by
  induction xs with
  | nil => exact T_nil
  | cons x xs ih => exact T_append (h x List.mem_cons_self) (ih fun y hy => h y (List.mem_cons_of_mem _ hy))

/-- Closes goals built from literals, quoted names and assumptions. -/
macro "tidy" : tactic => `(tactic| repeat' first
  | with_reducible assumption
  | with_reducible exact T_failIf
  | with_reducible exact T_err
  | with_reducible exact T_panic
  | with_reducible exact T_nil
  | with_reducible refine T_lit ?_; decide +kernel
  | with_reducible exact tidy_nil _
  | with_reducible refine tidy_lit _ (String.toList _) ?_; decide +kernel
  | with_reducible exact tidy_ident _ (by assumption) _
  | with_reducible exact tidy_qualified _ (by assumption) _ _
  | with_reducible apply T_append
  | with_reducible refine T_when (fun _ => ?_)
  | with_reducible refine T_ite (fun _ => ?_) (fun _ => ?_)
  | with_reducible apply T_txt
  | with_reducible apply tidy_append
  | with_reducible apply tidy_ite)

end Ddl
