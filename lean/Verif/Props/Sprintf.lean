import Verif.Spec.Literal
import Verif.Proof.Quote
/-
C14, C15: `Sprintf`.
-/
namespace Sq
open Sq.SqlText

def Res.toOption' {α : Type} : Res α → Option α
  | .ok a => some a
  | _ => none

/-- The literal `Sprint` gives for a value, if it gives one. -/
def literal (d : Dialect) (v : Val) : Option Str := Res.toOption' (sprint d false v)

theorem toOpt_pre (t : Str) (r : Res Str) : Res.toOption' (pre t r) = (Res.toOption' r).map (t ++ ·) := by
  cases r <;> rfl
theorem toOpt_bind (r : Res Str) (f : Str → Res Str) :
    Res.toOption' (r.bind f) = (Res.toOption' r).bind (fun x => Res.toOption' (f x)) := by
  cases r <;> rfl

theorem pre_append (a b : Str) (r : Res Str) : pre (a ++ b) r = pre a (pre b r) := by
  cases r <;> simp [pre, Res.map]

theorem quoteStart_iff (d : Dialect) (c : Char) : quoteStart d c = true ↔ opens d c := by
  simp [quoteStart, opens, or_assoc]

/-- What starts a placeholder for the code: `paramStart`, or `?` except on Postgres. -/
theorem sigil_iff (d : Dialect) (c : Char) : (paramStart d c = true ∨ (c = '?' ∧ d ≠ .postgres)) ↔ sigil d c := by
  cases d <;> simp [paramStart, sigil] <;> grind

theorem separator_nameEnd {c : Char} (h : separator c) : nameEnd c = true := by
  simp only [separator, List.mem_cons, List.not_mem_nil, or_false] at h
  rcases h with rfl | rfl | rfl | rfl | rfl | rfl | rfl | rfl | rfl | rfl | rfl | rfl | rfl | rfl | rfl | rfl <;> rfl

theorem separator_not_opens {d : Dialect} {c : Char} (h : separator c) : ¬ opens d c := by
  simp only [separator, List.mem_cons, List.not_mem_nil, or_false] at h
  rcases h with rfl | rfl | rfl | rfl | rfl | rfl | rfl | rfl | rfl | rfl | rfl | rfl | rfl | rfl | rfl | rfl <;>
    simp [opens]

/-- Outside quotes and names. -/
abbrev out (k : Nat) : FSt := { idx := k }

theorem go_text (d : Dialect) (args : List Val) (k : Nat) (s rest : Str) (h : ∀ c ∈ s, ¬ opens d c ∧ ¬ sigil d c) :
    sprintfGo d args (out k) (s ++ rest) = pre s (sprintfGo d args (out k) rest) := by
  induction s with
  | nil => simp only [List.nil_append]; cases sprintfGo d args (out k) rest <;> rfl
  | cons c cs ih =>
    obtain ⟨h1, h2⟩ := h c (by simp)
    have h2' := mt (sigil_iff d c).1 h2
    rw [not_or] at h2'
    rw [List.cons_append, sprintfGo]
    rw [if_neg (by simp)]
    simp only
    rw [if_neg (mt (quoteStart_iff d c).1 h1), if_neg (by simp), if_neg h2'.1, if_neg h2'.2, ih (fun x hx => h x (by simp [hx]))]
    cases sprintfGo d args (out k) rest <;> rfl

theorem go_body (d : Dialect) (args : List Val) (k : Nat) (q : Char) (body rest : Str) (h : rest.head? ≠ some (close q)) :
    sprintfGo d args { idx := k, quote := some q } (double (close q) body ++ close q :: rest) =
      pre (double (close q) body ++ [close q]) (sprintfGo d args (out k) rest) := by
  induction body with
  | nil =>
    simp only [double, List.nil_append]
    rw [sprintfGo, if_neg (by simp)]
    dsimp only
    rw [if_pos (show close q = closing q from rfl), if_neg (show ¬ rest.head? = some (closing q) from h)]
  | cons c cs ih =>
    simp only [double]
    split
    · rename_i hc
      simp only [List.cons_append]
      rw [sprintfGo, if_neg (by simp)]
      dsimp only
      rw [if_pos (show close q = closing q from rfl),
        if_pos (show (close q :: (double (close q) cs ++ close q :: rest)).head? = some (closing q) from rfl),
        sprintfGo, if_pos rfl, ih]
      cases sprintfGo d args (out k) rest <;> rfl
    · rename_i hc
      simp only [List.cons_append]
      rw [sprintfGo, if_neg (by simp)]
      dsimp only
      rw [if_neg (show ¬ c = closing q from hc), ih]
      cases sprintfGo d args (out k) rest <;> rfl

theorem go_quoted (d : Dialect) (args : List Val) (k : Nat) (q : Char) (body rest : Str) (ho : opens d q)
    (h : rest.head? ≠ some (close q)) :
    sprintfGo d args (out k) (Item.write d (.quoted q body) ++ rest) =
      pre (Item.write d (.quoted q body)) (sprintfGo d args (out k) rest) := by
  simp only [Item.write, List.cons_append]
  rw [sprintfGo, if_neg (by simp)]
  simp only
  rw [if_pos ((quoteStart_iff d q).2 ho)]
  have := go_body d args k q body rest h
  simp only [List.append_assoc, List.singleton_append] at this ⊢
  rw [this]
  cases sprintfGo d args (out k) rest <;> rfl

/-- Reading a name: characters that are neither quotes nor terminators are collected. -/
theorem go_name (d : Dialect) (args : List Val) (k : Nat) (p x rest : Str) (hp : p ≠ [])
    (hx : ∀ c ∈ x, quoteStart d c = false ∧ nameEnd c = false) :
    sprintfGo d args { idx := k, param := p } (x ++ rest) = sprintfGo d args { idx := k, param := p ++ x } rest := by
  induction x generalizing p with
  | nil => simp
  | cons c cs ih =>
    obtain ⟨h1, h2⟩ := hx c (by simp)
    rw [List.cons_append, sprintfGo, if_neg (by simp)]
    simp only
    rw [if_neg (by simp [h1]), if_pos hp, if_neg (by simp [h2]), ih (p ++ [c]) (by simp) (fun y hy => hx y (by simp [hy]))]
    simp

/-- The end of a name: the placeholder is replaced. -/
theorem go_end (d : Dialect) (args : List Val) (k : Nat) (p rest : Str) (hp : p ≠ [])
    (hr : ∀ c, rest.head? = some c → separator c ∧ ¬ sigil d c) :
    sprintfGo d args { idx := k, param := p } rest =
      (lookupParam d args p k).bind fun v => pre v (sprintfGo d args (out (if p = ['?'] then k + 1 else k)) rest) := by
  cases rest with
  | nil =>
    simp only [sprintfGo, if_pos hp]
    cases lookupParam d args p k <;> simp [pre]
  | cons c cs =>
    obtain ⟨h1, h3⟩ := hr c rfl
    have h2 := separator_not_opens (d := d) h1
    have h3 := mt (sigil_iff d c).1 h3
    rw [not_or] at h3
    rw [sprintfGo, if_neg (by simp)]
    simp only
    rw [if_neg (mt (quoteStart_iff d c).1 h2), if_pos hp, if_pos (separator_nameEnd h1)]
    congr 1; funext v
    conv => rhs; rw [sprintfGo, if_neg (by simp)]
    dsimp only
    rw [if_neg (mt (quoteStart_iff d c).1 h2), if_neg (show ¬ (([] : Str) ≠ []) by simp), if_neg h3.1, if_neg h3.2]
    rw [pre_append]

/-! ### Placeholders -/

theorem namedArg_eq (args : List Val) (x : Str) : namedArg args x = args.reverse.find? (isNamed x) := by
  unfold namedArg
  rw [← List.foldr_reverse]
  generalize args.reverse = l
  induction l with
  | nil => rfl
  | cons v vs ih =>
    simp only [List.foldr, List.find?, ih]
    cases v <;> simp only [isNamed]
    split <;> simp [*]

theorem digitsVal_append (a : Str) (c : Char) : digitsVal (a ++ [c]) = 10 * digitsVal a + (c.toNat - '0'.toNat) := by
  simp [digitsVal]

theorem digitChar_toNat {n : Nat} (h : n < 10) : n.digitChar.toNat - '0'.toNat = n := by
  have : n = 0 ∨ n = 1 ∨ n = 2 ∨ n = 3 ∨ n = 4 ∨ n = 5 ∨ n = 6 ∨ n = 7 ∨ n = 8 ∨ n = 9 := by omega
  rcases this with rfl | rfl | rfl | rfl | rfl | rfl | rfl | rfl | rfl | rfl <;> rfl

/-- Decimal digits read back. -/
theorem digitsVal_toDigits (n : Nat) : digitsVal (Nat.toDigits 10 n) = n := by
  induction n using Nat.strongRecOn with
  | ind n ih =>
    by_cases h : n < 10
    · rw [Nat.toDigits_of_lt_base h]
      show 10 * 0 + _ = n
      rw [digitChar_toNat h]; omega
    · rw [Nat.toDigits_of_base_le (by omega) (by omega), digitsVal_append, ih _ (by omega), digitChar_toNat (by omega)]
      omega

theorem toDigits_digit {n : Nat} {c : Char} (h : c ∈ Nat.toDigits 10 n) : c.isDigit = true :=
  Nat.isDigit_of_mem_toDigits (by decide) (by decide) h

theorem toDigits_ne (n : Nat) : Nat.toDigits 10 n ≠ [] := by
  rw [Nat.toDigits_eq_if (by decide)]; split <;> simp

theorem atoi_digits {ds : Str} (h0 : ds ≠ []) (h : ds.all Char.isDigit = true) (hb : digitsVal ds < 2^63) :
    atoi ds = some (digitsVal ds : Int) := by
  unfold atoi
  cases ds with
  | nil => exact absurd rfl h0
  | cons c cs =>
    have hc : c.isDigit = true := by simp at h; exact h.1
    have h1 : c ≠ '-' := by rintro rfl; revert hc; decide
    have h2 : c ≠ '+' := by rintro rfl; revert hc; decide
    split
    rename_i neg ds heq
    split at heq
    · rename_i e; cases e; exact absurd rfl h1
    · rename_i e; cases e; exact absurd rfl h2
    · cases heq
      rw [if_pos ⟨by simp, h⟩]
      simp only [Bool.false_eq_true, if_false]
      rw [if_pos hb]

theorem atoi_toDigits (n : Nat) (h : n < 2^63) : atoi (Nat.toDigits 10 n) = some (n : Int) := by
  rw [atoi_digits (toDigits_ne n) (by simp only [List.all_eq_true]; intro c hc; exact toDigits_digit hc)
    (by rw [digitsVal_toDigits]; exact h), digitsVal_toDigits]

/-- A text with a character that is not a digit, not starting with a sign, is not a number. -/
theorem atoi_none {x : Str} {c : Char} (hc : c ∈ x) (hd : c.isDigit = false) (h1 : x.head? ≠ some '-') (h2 : x.head? ≠ some '+') :
    atoi x = none := by
  unfold atoi
  split
  rename_i neg ds heq
  split at heq
  · exact absurd rfl h1
  · exact absurd rfl h2
  · cases heq
    rw [if_neg]
    rintro ⟨_, h⟩
    simp only [List.all_eq_true] at h
    rw [h c hc] at hd; exact nomatch hd

theorem word_char {d : Dialect} {c : Char} (h : c.isAlphanum = true ∨ c = '_') : quoteStart d c = false ∧ nameEnd c = false := by
  have key : ∀ x : Char, x.isAlphanum = false → x ≠ '_' → c ≠ x := by
    intro x h1 h2 e; subst e
    rcases h with h | h
    · rw [h1] at h; exact nomatch h
    · exact h2 h
  constructor
  · simp only [quoteStart]
    have h1 := key '\'' (by decide) (by decide)
    have h2 := key '"' (by decide) (by decide)
    have h3 := key '`' (by decide) (by decide)
    have h4 := key '[' (by decide) (by decide)
    simp [h1, h2, h3, h4]
  · simp only [nameEnd]
    have := key ',' (by decide) (by decide)
    have := key '(' (by decide) (by decide)
    have := key ')' (by decide) (by decide)
    have := key ';' (by decide) (by decide)
    have := key '=' (by decide) (by decide)
    have := key '>' (by decide) (by decide)
    have := key '<' (by decide) (by decide)
    have := key '+' (by decide) (by decide)
    have := key '-' (by decide) (by decide)
    have := key '*' (by decide) (by decide)
    have := key '/' (by decide) (by decide)
    have := key '\t' (by decide) (by decide)
    have := key '\n' (by decide) (by decide)
    have := key '\x0b' (by decide) (by decide)
    have := key '\x0c' (by decide) (by decide)
    have := key '\r' (by decide) (by decide)
    have := key ' ' (by decide) (by decide)
    have := key '\u0085' (by decide) (by decide)
    have := key '\u00A0' (by decide) (by decide)
    have := key ':' (by decide) (by decide)
    simp [*]

theorem digit_char {d : Dialect} {c : Char} (h : c.isDigit = true) : quoteStart d c = false ∧ nameEnd c = false :=
  word_char (.inl (by simp [Char.isAlphanum, h]))

theorem not_opens_sigil {d : Dialect} {c : Char} (h : sigil d c) : quoteStart d c = false := by
  cases hq : quoteStart d c with
  | false => rfl
  | true =>
    have := (quoteStart_iff d c).1 hq
    unfold opens at this
    unfold sigil at h
    cases d <;> grind

/-- The start of a parameter name. -/
theorem go_start (d : Dialect) (args : List Val) (k : Nat) (c : Char) (rest : Str) (hs : sigil d c)
    (h : c = '?' → d = .sqlite) :
    sprintfGo d args (out k) (c :: rest) = sprintfGo d args { idx := k, param := [c] } rest := by
  rw [sprintfGo, if_neg (by simp)]
  dsimp only
  rw [if_neg (by simp [not_opens_sigil hs]), if_neg (by simp)]
  by_cases hp : paramStart d c = true
  · rw [if_pos hp]
  · rw [if_neg hp]
    have hq : c = '?' ∧ d ≠ .postgres := by
      rcases (sigil_iff d c).2 hs with h' | h'
      · exact absurd h' hp
      · exact h'
    rw [if_pos hq, if_pos (h hq.1)]

theorem alpha_not_digit {c : Char} (h : c.isAlpha = true ∨ c = '_') : c.isDigit = false := by
  rcases h with h | rfl
  · have h3 : c.isUpper = true ∨ c.isLower = true := by simpa [Char.isAlpha] using h
    cases hd : c.isDigit with
    | false => rfl
    | true =>
      simp only [Char.isDigit, Char.isUpper, Char.isLower, Bool.and_eq_true, decide_eq_true_eq] at hd h3
      have := hd.2
      rcases h3 with h3 | h3
      · have h4 : (65 : Nat) ≤ c.val.toNat := h3.1
        have h5 : c.val.toNat ≤ 57 := this
        omega
      · have h4 : (97 : Nat) ≤ c.val.toNat := h3.1
        have h5 : c.val.toNat ≤ 57 := this
        omega
  · rfl

theorem lookup_ord (d : Dialect) (args : List Val) (sg : Char) (n k : Nat) (h : PhOk d sg (.ord n)) :
    Res.toOption' (lookupParam d args (sg :: ((if d = .sqlserver then ['p'] else []) ++ Nat.toDigits 10 n)) k) =
      (resolve args k (.ord n)).bind (literal d) := by
  have hm : (if sg = '@' ∧ d = .sqlserver ∧ (((if d = .sqlserver then ['p'] else []) ++ Nat.toDigits 10 n).head? = some 'p' ∨
      ((if d = .sqlserver then ['p'] else []) ++ Nat.toDigits 10 n).head? = some 'P') then
      ((if d = .sqlserver then ['p'] else []) ++ Nat.toDigits 10 n).tail
      else ((if d = .sqlserver then ['p'] else []) ++ Nat.toDigits 10 n)) = Nat.toDigits 10 n := by
    by_cases hd : d = .sqlserver
    · subst hd
      have hsg : sg = '@' := h.2
      simp [hsg]
    · simp [hd]
  unfold lookupParam
  dsimp only
  rw [hm, if_neg (toDigits_ne n)]
  simp only [resolve]
  rw [atoi_toDigits n h.1]
  simp only
  by_cases h0 : n = 0
  · subst h0; rfl
  · rw [if_neg (by omega), if_neg h0, show ((n : Int) - 1).toNat = n - 1 by omega]
    cases args[n - 1]? <;> rfl

theorem lookup_name (d : Dialect) (args : List Val) (sg : Char) (x : Str) (k : Nat) (h : PhOk d sg (.name x)) :
    Res.toOption' (lookupParam d args (sg :: x) k) = (resolve args k (.name x)).bind (literal d) := by
  obtain ⟨⟨⟨c, cs, rfl, hc⟩, hall, hsq⟩, hd⟩ := h
  have hcd := alpha_not_digit hc
  have hnm : ¬ (d = .postgres ∨ d = .mysql) := by
    rintro (rfl | rfl) <;> exact hd
  unfold lookupParam
  dsimp only
  have hfin : Res.toOption' (if d = .postgres ∨ d = .mysql then Res.err "dialect does not support named parameters".toList
      else match namedArg args (c :: cs) with
        | none => .err "named parameter not provided"
        | some v => sprint d false v) = (resolve args k (.name (c :: cs))).bind (literal d) := by
    rw [if_neg hnm]
    simp only [resolve, ← namedArg_eq]
    cases namedArg args (c :: cs) <;> rfl
  have sgn : ∀ x : Str, (∀ c ∈ x, c.isAlphanum = true ∨ c = '_') → x.head? ≠ some '-' ∧ x.head? ≠ some '+' := by
    intro x hx
    constructor
    · intro e
      have := hx '-' (List.mem_of_mem_head? e)
      exact absurd this (by decide)
    · intro e
      have := hx '+' (List.mem_of_mem_head? e)
      exact absurd this (by decide)
  by_cases hp : sg = '@' ∧ d = .sqlserver ∧ ((c :: cs).head? = some 'p' ∨ (c :: cs).head? = some 'P')
  · rw [if_pos hp]
    obtain ⟨_, hss, hpp⟩ := hp
    have : ∃ y ∈ cs, y.isDigit = false := by
      apply hsq hss
      rcases hpp with hpp | hpp <;> simp at hpp <;> subst hpp
      · exact .inl rfl
      · exact .inr rfl
    obtain ⟨y, hy, hyd⟩ := this
    rw [if_neg (show ¬ (c :: cs).tail = [] by simp only [List.tail_cons]; rintro rfl; simp at hy)]
    have hs := sgn cs (fun z hz => hall z (by simp [hz]))
    rw [show (c :: cs).tail = cs from rfl, atoi_none hy hyd hs.1 hs.2]
    exact hfin
  · rw [if_neg hp, if_neg (show ¬ c :: cs = [] by simp)]
    have hs := sgn (c :: cs) hall
    rw [atoi_none (List.mem_cons_self ..) hcd hs.1 hs.2]
    exact hfin

theorem toOpt_lookup (r : Res Str) (o : Option Val) (f : Val → Option Str) (k : Res Str)
    (h : Res.toOption' r = o.bind f) :
    Res.toOption' (r.bind fun v => pre v k) = o.bind fun v => (f v).bind fun t => (Res.toOption' k).map (t ++ ·) := by
  rw [toOpt_bind, h, Option.bind_assoc]
  simp only [toOpt_pre]

/-- One placeholder. -/
theorem go_ph (d : Dialect) (args : List Val) (k : Nat) (sg : Char) (r : Ref) (rest : Str) (h : PhOk d sg r)
    (hf : Follows d (.ph sg r) rest) :
    Res.toOption' (sprintfGo d args (out k) (Item.write d (.ph sg r) ++ rest)) =
      (resolve args k r).bind fun v => (literal d v).bind fun t =>
        (Res.toOption' (sprintfGo d args (out (bump k r)) rest)).map (t ++ ·) := by
  cases r with
  | anon =>
    obtain ⟨rfl, hd⟩ := h
    simp only [Item.write, List.cons_append, List.nil_append]
    by_cases hs : d = .sqlite
    · subst hs
      have hf' : ∀ c, rest.head? = some c → separator c ∧ ¬ sigil .sqlite c := by
        rcases hf with hf | hf
        · exact absurd rfl hf.2
        · exact hf
      rw [go_start _ _ _ _ _ (show sigil .sqlite '?' from .inl rfl) (fun _ => rfl), go_end _ _ _ _ _ (by simp) hf']
      refine toOpt_lookup _ _ _ _ ?_
      simp only [lookupParam, resolve]
      rw [if_neg (show ¬ ('?' = '@' ∧ Dialect.sqlite = .sqlserver ∧ (([] : Str).head? = some 'p' ∨ ([] : Str).head? = some 'P')) by
        simp), if_pos rfl, if_neg (by simp)]
      cases args[k]? <;> rfl
    · rw [sprintfGo, if_neg (by simp)]
      dsimp only
      have hsg : sigil d '?' := by cases d <;> simp_all [sigil]
      have hps : paramStart d '?' = false := by simp [paramStart]
      rw [if_neg (by simp [not_opens_sigil hsg]), if_neg (by simp), if_neg (by simp [hps]), if_pos ⟨rfl, hd⟩, if_neg hs]
      simp only [resolve]
      cases hv : args[k]? with
      | none => rfl
      | some v => exact toOpt_lookup _ (some v) (literal d) _ rfl
  | ord n =>
    have hf' : ∀ c, rest.head? = some c → separator c ∧ ¬ sigil d c := by
      rcases hf with hf | hf
      · exact nomatch hf.1
      · exact hf
    have hsg : sigil d sg := by
      have := h.2
      cases d <;> simp only [sigil] at this ⊢ <;> grind
    have hq : sg = '?' → d = .sqlite := by
      have := h.2
      cases d <;> simp only at this <;> grind
    simp only [Item.write, List.cons_append]
    rw [go_start _ _ _ _ _ hsg hq, go_name _ _ _ _ _ _ (by simp), go_end _ _ _ _ _ (by simp) hf', List.singleton_append]
    · rw [if_neg (show ¬ sg :: ((if d = .sqlserver then ['p'] else []) ++ Nat.toDigits 10 n) = ['?'] by
        have := toDigits_ne n
        simp [this])]
      exact toOpt_lookup _ _ _ _ (lookup_ord d args sg n k h)
    · intro c hc
      rcases List.mem_append.1 hc with hc | hc
      · split at hc
        · simp at hc; subst hc; exact word_char (.inl (by decide))
        · simp at hc
      · exact digit_char (toDigits_digit hc)
  | name x =>
    have hf' : ∀ c, rest.head? = some c → separator c ∧ ¬ sigil d c := by
      rcases hf with hf | hf
      · exact nomatch hf.1
      · exact hf
    have hsg : sigil d sg := by
      have := h.2
      cases d <;> simp only [sigil] at this ⊢ <;> grind
    have hq : sg = '?' → d = .sqlite := by
      have := h.2
      cases d <;> simp only at this <;> grind
    simp only [Item.write, List.cons_append]
    rw [go_start _ _ _ _ _ hsg hq, go_name _ _ _ _ _ _ (by simp) (fun c hc => word_char (h.1.2.1 c hc)),
      go_end _ _ _ _ _ (by simp) hf', List.singleton_append]
    rw [if_neg (show ¬ sg :: x = ['?'] by obtain ⟨c, cs, rfl, _⟩ := h.1.1; simp)]
    exact toOpt_lookup _ _ _ _ (lookup_name d args sg x k h)

/-- The loop on well-formed query text. -/
theorem go_items (d : Dialect) (args : List Val) (k : Nat) (is : List Item) (h : ItemsOk d is) :
    Res.toOption' (sprintfGo d args (out k) (write d is)) = interpolate d (literal d) args k is := by
  induction is generalizing k with
  | nil => rfl
  | cons i is ih =>
    obtain ⟨h1, h2, h3⟩ := h
    show Res.toOption' (sprintfGo d args (out k) (i.write d ++ write d is)) = _
    cases i with
    | text s => rw [show Item.write d (.text s) = s from rfl, go_text _ _ _ _ _ h1, toOpt_pre, ih k h3]; rfl
    | quoted q body => rw [go_quoted _ _ _ _ _ _ h1 h2, toOpt_pre, ih k h3]; rfl
    | ph sg r => rw [go_ph _ _ _ _ _ _ h1 h2, ih _ h3]; rfl

/-- **C14 (partial).** For every dialect, every argument list and every query that starts with a piece of ordinary text and
consists of ordinary text, quoted strings/identifiers and placeholders: `Sprintf` returns the query with every placeholder
replaced by the literal of its argument, all other text (in particular everything in quotes) unchanged; and it fails
exactly when some placeholder has no argument or its argument no literal.
Missing for the full property: queries whose first character belongs to a placeholder or a quoted text
(`C14_first_char_violated`), and placeholders directly followed by a quote (`C14_quote_after_param_violated`). -/
theorem C14_sprintf_partial (d : Dialect) (args : List Val) (c : Char) (s : Str) (is : List Item) (h0 : args ≠ [])
    (h : ItemsOk d (.text (c :: s) :: is)) :
    Res.toOption' (sprintf d (write d (.text (c :: s) :: is)) args) =
      interpolate d (literal d) args 0 (.text (c :: s) :: is) := by
  have hgo := go_items d args 0 _ h
  rw [← hgo]
  unfold sprintf
  rw [if_neg h0]
  show Res.toOption' (sprintfGo d args { must := true } (c :: (s ++ write d is))) =
    Res.toOption' (sprintfGo d args (out 0) (c :: (s ++ write d is)))
  obtain ⟨h1, h2⟩ := h.1 c (by simp)
  have h2' := mt (sigil_iff d c).1 h2
  rw [not_or] at h2'
  rw [sprintfGo, if_pos rfl]
  conv => rhs; rw [sprintfGo, if_neg (by simp)]
  dsimp only
  rw [if_neg (mt (quoteStart_iff d c).1 h1), if_neg (show ¬ (([] : Str) ≠ []) by simp), if_neg h2'.1, if_neg h2'.2]

/-- Non-vacuity: `SELECT "a ?" WHERE x = $1 AND y = 'it''s $2'`, and its result. -/
example : ∃ is, ItemsOk .postgres is ∧ write .postgres is = "SELECT \"a ?\" WHERE x = $1 AND y = 'it''s $2'".toList ∧
    interpolate .postgres (literal .postgres) [.str "O'Brien"] 0 is =
      some "SELECT \"a ?\" WHERE x = 'O''Brien' AND y = 'it''s $2'".toList := by
  refine ⟨[.text "SELECT ", .quoted '"' "a ?", .text " WHERE x = ", .ph '$' (.ord 1), .text " AND y = ", .quoted '\'' "it's $2"],
    ?_, by decide +kernel, by decide +kernel⟩
  simp [ItemsOk, Item.Ok, Follows, write, Item.write, PhOk, opens, sigil, close, separator]

/-- **C14 (violated).** The first character is always copied: a query that starts with a placeholder keeps it, and one that
starts with a quoted identifier is read with quoted and unquoted text exchanged. -/
theorem C14_first_char_violated :
    sprintf .postgres "$1 > 0" [.int 5] = .ok "$1 > 0".toList ∧
    sprintf .postgres "\"x\" > $1" [.int 5] = .err "unclosed string or identifier" := by decide +kernel

/-- **C14 (violated).** A quote directly after a placeholder is written before the placeholder's value. -/
theorem C14_quote_after_param_violated :
    sprintf .sqlite "SELECT $1\"x\"" [.int 5] = .ok "SELECT \"x\"5".toList := by decide +kernel

/-! ### C15 -/

/-- Values whose own methods behave: every `Value()` method returns (possibly with an error), and no nil pointer has a
`Value` method. -/
def Val.Calm : Val → Prop
  | .named _ v | .ptr v => Val.Calm v
  | .nilPtr b => b = false
  | .valuer r => r ≠ .panic ∧ r ≠ .hang
  | _ => True

def Calm {α : Type} (r : Res α) : Prop := r ≠ .panic ∧ r ≠ .hang

theorem calm_ok {α : Type} (a : α) : Calm (.ok a) := ⟨nofun, nofun⟩
theorem calm_err {α : Type} (e : Str) : Calm (.err e : Res α) := ⟨nofun, nofun⟩
theorem calm_bind {α β : Type} {r : Res α} {f : α → Res β} (h : Calm r) (hf : ∀ a, Calm (f a)) : Calm (r.bind f) := by
  cases r with
  | ok a => exact hf a
  | err e => exact calm_err e
  | panic => exact absurd rfl h.1
  | hang => exact absurd rfl h.2
theorem calm_pre {t : Str} {r : Res Str} (h : Calm r) : Calm (pre t r) := by
  cases r with
  | ok a => exact calm_ok _
  | err e => exact calm_err e
  | panic => exact absurd rfl h.1
  | hang => exact absurd rfl h.2

theorem sprintDVal_calm (v : DVal) : Calm (sprintDVal v) := by
  cases v <;> simp only [sprintDVal] <;> first | exact calm_ok _ | exact calm_err _

theorem sprint_calm (d : Dialect) (b : Bool) (v : Val) (h : v.Calm) : Calm (sprint d b v) := by
  induction v generalizing b with
  | nil | bool _ | str _ | time _ | int _ | float _ => exact calm_ok _
  | bytes x => simp only [sprint]; split <;> exact calm_ok _
  | named n v ih => simp only [sprint]; exact ih _ h
  | null v => cases v with
    | none => exact calm_ok _
    | some v => exact sprintDVal_calm v
  | valuer r => simp only [sprint]; exact calm_bind h sprintDVal_calm
  | ptr v ih =>
    by_cases hb : b = false ∧ v = .null none
    · obtain ⟨rfl, rfl⟩ := hb
      exact sprintDVal_calm _
    · have : sprint d b (.ptr v) = sprint d true v := by
        rw [sprint]
        intro h1 h2; exact hb ⟨h1, h2⟩
      rw [this]; exact ih _ h
  | nilPtr v =>
    cases h
    simp only [sprint]
    exact calm_err _
  | chan | func | other => exact calm_err _

theorem namedArg_mem {args : List Val} {x : Str} {v : Val} (h : namedArg args x = some v) : v ∈ args := by
  rw [namedArg_eq] at h
  have := List.mem_of_find?_eq_some h
  simpa using this

theorem lookup_calm (d : Dialect) (args : List Val) (p : Str) (k : Nat) (hp : p ≠ []) (ha : ∀ v ∈ args, v.Calm)
    (hk : p.head? = some '?' → k < args.length) : Calm (lookupParam d args p k) := by
  cases p with
  | nil => exact absurd rfl hp
  | cons c name =>
    unfold lookupParam
    dsimp only
    generalize (if c = '@' ∧ d = .sqlserver ∧ (name.head? = some 'p' ∨ name.head? = some 'P') then name.tail else name) = mn
    by_cases h1 : mn = []
    · rw [if_pos h1]
      by_cases h2 : c ≠ '?'
      · rw [if_pos h2]; exact calm_err _
      · rw [if_neg h2]
        have hlt := hk (by simpa using h2)
        rw [List.getElem?_eq_getElem hlt]
        exact sprint_calm _ _ _ (ha _ (List.getElem_mem _))
    · rw [if_neg h1]
      cases atoi mn with
      | some num =>
        dsimp only
        by_cases h3 : num - 1 < 0
        · rw [if_pos h3]; exact calm_err _
        · rw [if_neg h3]
          cases hv : args[(num - 1).toNat]? with
          | none => exact calm_err _
          | some v => exact sprint_calm _ _ _ (ha _ (List.mem_of_getElem? hv))
      | none =>
        dsimp only
        by_cases h3 : d = .postgres ∨ d = .mysql
        · rw [if_pos h3]; exact calm_err _
        · rw [if_neg h3]
          cases hv : namedArg args name with
          | none => exact calm_err _
          | some v => exact sprint_calm _ _ _ (ha _ (namedArg_mem hv))

/-- The loop never panics as long as, on SQLite, the question marks still to come do not outnumber the arguments left. -/
theorem go_calm (d : Dialect) (args : List Val) (s : FSt) (q : Str) (ha : ∀ v ∈ args, v.Calm)
    (hc : d = .sqlite → s.idx + q.count '?' + (if s.param.head? = some '?' then 1 else 0) ≤ args.length)
    (hp : d ≠ .sqlite → s.param.head? ≠ some '?') : Calm (sprintfGo d args s q) := by
  have hlook : s.param ≠ [] → (d = .sqlite → s.idx + (if s.param.head? = some '?' then 1 else 0) ≤ args.length) →
      Calm (lookupParam d args s.param s.idx) := by
    intro h0 hb
    refine lookup_calm d args _ _ h0 ha ?_
    intro hq
    by_cases hd : d = .sqlite
    · have := hb hd
      rw [if_pos hq] at this; omega
    · exact absurd hq (hp hd)
  induction q generalizing s with
  | nil =>
    rw [sprintfGo]
    refine calm_bind ?_ ?_
    · split
      · rename_i h; exact hlook h (fun hd => by have := hc hd; simpa using this)
      · exact calm_ok _
    · intro v; split
      · exact calm_err _
      · exact calm_ok _
  | cons c cs ih =>
    have hcount : d = .sqlite → s.idx + cs.count '?' + (if s.param.head? = some '?' then 1 else 0) ≤ args.length := by
      intro hd
      have := hc hd
      rw [List.count_cons] at this
      omega
    have ih' : ∀ s' : FSt, (d = .sqlite → s'.idx + cs.count '?' + (if s'.param.head? = some '?' then 1 else 0) ≤ args.length) →
        (d ≠ .sqlite → s'.param.head? ≠ some '?') → Calm (sprintfGo d args s' cs) := by
      intro s' h1 h2
      refine ih s' h1 h2 ?_
      intro h0 hb
      refine lookup_calm d args _ _ h0 ha ?_
      intro hq
      by_cases hd : d = .sqlite
      · have := hb hd
        rw [if_pos hq] at this; omega
      · exact absurd hq (h2 hd)
    rw [sprintfGo]
    by_cases hm : s.must = true
    · rw [if_pos hm]; exact calm_pre (ih' _ hcount hp)
    rw [if_neg hm]
    cases hq : s.quote with
    | some q =>
      refine calm_pre ?_
      split
      · split
        · exact ih' _ hcount hp
        · exact ih' _ hcount hp
      · exact ih' _ hcount hp
    | none =>
      dsimp only
      by_cases h1 : quoteStart d c = true
      · rw [if_pos h1]; exact calm_pre (ih' _ hcount hp)
      rw [if_neg h1]
      by_cases h2 : s.param ≠ []
      · rw [if_pos h2]
        by_cases h3 : nameEnd c = true
        · rw [if_pos h3]
          refine calm_bind (hlook h2 (fun hd => by have := hcount hd; omega)) ?_
          intro v
          refine calm_pre (ih' _ ?_ (by simp))
          intro hd
          have := hcount hd
          simp only [List.head?_nil]
          split
          · rename_i e
            rw [e] at this
            simp at this ⊢; omega
          · simp at this ⊢; omega
        · rw [if_neg h3]
          have hh : (s.param ++ [c]).head? = s.param.head? := by
            cases hs : s.param with
            | nil => exact absurd hs h2
            | cons x xs => rfl
          refine ih' _ ?_ ?_
          · simp only [hh]; exact hcount
          · simp only [hh]; exact hp
      rw [if_neg h2]
      have hpe : s.param = [] := by simpa using h2
      by_cases h4 : paramStart d c = true
      · rw [if_pos h4]
        have hcq : c ≠ '?' := by rintro rfl; simp [paramStart] at h4
        refine ih' _ ?_ ?_
        · intro hd
          have := hcount hd
          simp [hpe] at this
          simpa [hcq] using this
        · simp [hcq]
      rw [if_neg h4]
      by_cases h5 : c = '?' ∧ d ≠ .postgres
      · rw [if_pos h5]
        by_cases h6 : d = .sqlite
        · rw [if_pos h6]
          refine ih' _ ?_ (fun h => absurd h6 h)
          intro _
          have := hc h6
          rw [List.count_cons, h5.1] at this
          simp [hpe] at this
          simp [h5.1]; omega
        · rw [if_neg h6]
          cases hv : args[s.idx]? with
          | none => exact calm_err _
          | some v =>
            refine calm_bind (sprint_calm _ _ _ (ha _ (List.mem_of_getElem? hv))) ?_
            intro t
            exact calm_pre (ih' _ (fun hd => absurd hd h6) hp)
      · rw [if_neg h5]; exact calm_pre (ih' _ hcount hp)

/-- **C15 (partial).** `Sprintf` returns (a text or an error), without panicking or looping, for every dialect, every query
text and all arguments whose own methods behave, provided that on SQLite the query has at most as many question marks
as there are arguments.  Missing for the full property: SQLite queries with more question marks than arguments
(`C15_sqlite_violated`) and nil pointers to nullable types (`C15_nil_pointer_violated`). -/
theorem C15_no_panic_partial (d : Dialect) (query : Str) (args : List Val) (ha : ∀ v ∈ args, v.Calm)
    (hq : d = .sqlite → query.count '?' ≤ args.length) :
    sprintf d query args ≠ .panic ∧ sprintf d query args ≠ .hang := by
  unfold sprintf
  split
  · exact calm_ok _
  · exact go_calm d args _ query ha (fun hd => by simpa using hq hd) (by simp)

/-- Non-vacuity, with too few arguments on another dialect: an error. -/
example : sprintf .mysql "a = ? AND b = ?" [.int 1] = .err "too few args provided" := by decide +kernel

/-- **C15 (violated).** On SQLite too few arguments are a panic. -/
theorem C15_sqlite_violated : sprintf .sqlite "a = ? AND b = ?" [.int 1] = .panic := by decide +kernel

/-- **C15 (violated).** A nil `*sql.NullString` argument is a panic on every dialect. -/
theorem C15_nil_pointer_violated (d : Dialect) : sprint d false (.nilPtr true) = .panic := rfl

end Sq
