import Verif.Props.Sprintf
/-
C16: literals.
-/
namespace Sq
open Sq.SqlText

theorem scan_plain (q : Char) (s rest : Str) (hs : q ∉ s) (hr : rest.head? ≠ some q) :
    _root_.Spec.scan q (s ++ q :: rest) = some (s, rest) := by
  induction s with
  | nil => exact scan_close q rest hr
  | cons c cs ih =>
    simp only [List.mem_cons, not_or] at hs
    rw [List.cons_append, scan_cons_ne q c _ (Ne.symm hs.1), ih hs.2]; rfl

theorem span_stop (ds rest : Str) (h : ds.all Char.isDigit = true) (hr : ∀ c, rest.head? = some c → c.isDigit = false) :
    spanDigits (ds ++ rest) = (ds, rest) := by
  unfold spanDigits
  induction ds with
  | nil =>
    cases rest with
    | nil => rfl
    | cons c cs => simp [hr c rfl]
  | cons c cs ih =>
    simp only [List.all_cons, Bool.and_eq_true] at h
    have := ih h.2
    simp only [Prod.mk.injEq] at this
    simp [h.1, this.1, this.2]

theorem digitsText_digit {ds : List Nat} (h : ∀ d ∈ ds, d < 10) : (digitsText ds).all Char.isDigit = true := by
  simp only [digitsText, List.all_map, List.all_eq_true]
  intro x hx
  have := h x hx
  have : x = 0 ∨ x = 1 ∨ x = 2 ∨ x = 3 ∨ x = 4 ∨ x = 5 ∨ x = 6 ∨ x = 7 ∨ x = 8 ∨ x = 9 := by omega
  rcases this with rfl | rfl | rfl | rfl | rfl | rfl | rfl | rfl | rfl | rfl <;> rfl

theorem apart_digit {rest : Str} (h : Apart rest) (c : Char) (hc : rest.head? = some c) : c.isDigit = false := by
  have := (h.1 c hc).2.2
  simp [Char.isAlphanum] at this
  exact this.2

theorem readFrac_none (rest : Str) (h : rest.head? ≠ some '.') : readFrac rest = ([], rest) := by
  unfold readFrac; split
  · simp at h
  · rfl

theorem readExp_none (rest : Str) (h : rest.head? ≠ some 'e') : readExp rest = ([], rest) := by
  unfold readExp; split
  · simp at h
  · rfl

theorem apart_dot {rest : Str} (h : Apart rest) : rest.head? ≠ some '.' := fun e => (h.1 _ e).2.1 rfl
theorem apart_e {rest : Str} (h : Apart rest) : rest.head? ≠ some 'e' := fun e => absurd (h.1 _ e).2.2 (by decide)
theorem apart_quote {rest : Str} (h : Apart rest) : rest.head? ≠ some '\'' := fun e => (h.1 _ e).1 rfl

/-- An unsigned integer is read as a number. -/
theorem readUnsigned_digits (ds rest : Str) (h0 : ds ≠ []) (h : ds.all Char.isDigit = true) (hr : Apart rest) :
    readUnsigned (ds ++ rest) = some (ds, rest) := by
  unfold readUnsigned
  rw [span_stop ds rest h (apart_digit hr)]
  simp only
  rw [if_neg h0, readFrac_none rest (apart_dot hr)]
  simp only
  rw [readExp_none rest (apart_e hr)]
  simp

theorem head_digit_append {ds rest : Str} (h0 : ds ≠ []) (h : ds.all Char.isDigit = true) :
    ∃ c cs, ds ++ rest = c :: (cs ++ rest) ∧ ds = c :: cs ∧ c.isDigit = true ∧ cs.all Char.isDigit = true := by
  cases ds with
  | nil => exact absurd rfl h0
  | cons c cs =>
    simp only [List.all_cons, Bool.and_eq_true] at h
    exact ⟨c, cs, rfl, rfl, h.1, h.2⟩

/-- The exponent of a float. -/
def expText : Option (Bool × List Nat) → Str
  | none => []
  | some (s, ds) => 'e' :: (if s then '-' else '+') :: digitsText ds

theorem readExp_expText (e : Option (Bool × List Nat)) (rest : Str)
    (he : ∀ x, e = some x → x.2 ≠ [] ∧ ∀ d ∈ x.2, d < 10) (hr : Apart rest) :
    readExp (expText e ++ rest) = (expText e, rest) := by
  cases e with
  | none => exact readExp_none rest (apart_e hr)
  | some x =>
    obtain ⟨s, ds⟩ := x
    obtain ⟨h0, hd⟩ := he _ rfl
    have h0' : digitsText ds ≠ [] := by simpa [digitsText] using h0
    obtain ⟨c, cs, e1, e2, hc, hcs⟩ := head_digit_append (rest := rest) h0' (digitsText_digit hd)
    simp only [expText, List.cons_append]
    rw [e1, e2]
    have hs : ((if s then '-' else '+') = '+' ∨ (if s then '-' else '+') = '-') := by cases s <;> simp
    show (if ((if s then '-' else '+') = '+' ∨ (if s then '-' else '+') = '-') ∧ c.isDigit = true then
      ('e' :: (if s then '-' else '+') :: c :: (spanDigits (cs ++ rest)).1, (spanDigits (cs ++ rest)).2) else _) = _
    rw [if_pos ⟨hs, hc⟩, span_stop cs rest hcs (apart_digit hr)]

theorem expText_head (e : Option (Bool × List Nat)) (rest : Str) (hr : Apart rest) (c : Char)
    (hc : (expText e ++ rest).head? = some c) : c ≠ '.' ∧ c.isDigit = false := by
  cases e with
  | none => exact ⟨(hr.1 c hc).2.1, apart_digit hr c hc⟩
  | some x =>
    simp only [expText, List.cons_append, List.head?_cons, Option.some.injEq] at hc
    subst hc; decide

theorem FloatText.write_eq (t : FloatText) : t.write =
    (if t.neg then ['-'] else []) ++ (digitsText t.int ++ ((if t.frac = [] then [] else '.' :: digitsText t.frac) ++ expText t.exp)) := by
  unfold FloatText.write
  cases t.exp with
  | none => simp only [expText, List.append_assoc]
  | some x => simp only [expText, List.append_assoc]

theorem readUnsigned_float (t : FloatText) (rest : Str) (hr : Apart rest) :
    readUnsigned (digitsText t.int ++ ((if t.frac = [] then [] else '.' :: digitsText t.frac) ++ (expText t.exp ++ rest))) =
      some (digitsText t.int ++ ((if t.frac = [] then [] else '.' :: digitsText t.frac) ++ expText t.exp), rest) := by
  have h0 : digitsText t.int ≠ [] := by simpa [digitsText] using t.int_ne
  unfold readUnsigned
  have hfe : readFrac ((if t.frac = [] then [] else '.' :: digitsText t.frac) ++ (expText t.exp ++ rest)) =
      ((if t.frac = [] then [] else '.' :: digitsText t.frac), expText t.exp ++ rest) := by
    by_cases hf : t.frac = []
    · rw [if_pos hf]
      exact readFrac_none _ (fun e => (expText_head _ _ hr _ e).1 rfl)
    · rw [if_neg hf]
      have hf' : digitsText t.frac ≠ [] := by simpa [digitsText] using hf
      obtain ⟨c, cs, e1, e2, hc, hcs⟩ := head_digit_append (rest := expText t.exp ++ rest) hf' (digitsText_digit t.frac_lt)
      rw [List.cons_append, e1, e2]
      show (if c.isDigit = true then ('.' :: c :: (spanDigits (cs ++ (expText t.exp ++ rest))).1,
        (spanDigits (cs ++ (expText t.exp ++ rest))).2) else _) = _
      rw [if_pos hc, span_stop cs _ hcs (fun c hc => (expText_head _ _ hr c hc).2)]
  rw [span_stop _ _ (digitsText_digit t.int_lt)]
  · dsimp only
    rw [if_neg h0, hfe]
    dsimp only
    rw [readExp_expText _ _ t.exp_ok hr]
    simp only [List.append_assoc]
  · intro c hc
    by_cases hf : t.frac = []
    · rw [if_pos hf] at hc
      exact (expText_head _ _ hr c hc).2
    · rw [if_neg hf] at hc
      simp only [List.cons_append, List.head?_cons, Option.some.injEq] at hc
      subst hc; decide

/-- Reading a literal that starts like a number. -/
theorem readLiteral_num (d : Dialect) (c : Char) (s : Str) (h : c.isDigit = true ∨ c = '-') :
    readLiteral d (c :: s) = (readNumeral (c :: s)).map fun p => (.num p.1, p.2) := by
  have ne : ∀ x : Char, x.isDigit = false → x ≠ '-' → c ≠ x := by
    intro x h1 h2 e; subst e
    rcases h with h | h
    · rw [h1] at h; exact nomatch h
    · exact h2 h
  have k : ∀ (x : Char) (xs : Str), c ≠ x → keyword (x :: xs) (c :: s) = none := by
    intro x xs hx
    unfold keyword
    rw [if_neg (by simp [List.isPrefixOf, Ne.symm hx])]
  unfold readLiteral
  split
  · rename_i e; cases e; exact absurd rfl (ne '\'' (by decide) (by decide))
  · rename_i e; cases e; exact absurd rfl (ne 'x' (by decide) (by decide))
  · rw [show keyword "NULL".toList (c :: s) = none from k 'N' _ (ne 'N' (by decide) (by decide)),
      show keyword "TRUE".toList (c :: s) = none from k 'T' _ (ne 'T' (by decide) (by decide)),
      show keyword "FALSE".toList (c :: s) = none from k 'F' _ (ne 'F' (by decide) (by decide))]

theorem readNumeral_digit (c : Char) (s : Str) (h : c.isDigit = true) : readNumeral (c :: s) = readUnsigned (c :: s) := by
  unfold readNumeral
  split
  · rename_i e; cases e; exact absurd h (by decide)
  · rfl

theorem read_signed (d : Dialect) (neg : Bool) (t u rest : Str) (hd : ∃ c s, t ++ u = c :: s ∧ c.isDigit = true)
    (h : readUnsigned (t ++ u) = some (t, rest)) :
    readLiteral d ((if neg then ['-'] else []) ++ (t ++ u)) = some (.num ((if neg then ['-'] else []) ++ t), rest) := by
  cases neg with
  | true =>
    show readLiteral d ('-' :: (t ++ u)) = _
    rw [readLiteral_num d '-' _ (.inr rfl)]
    show Option.map _ ((readUnsigned (t ++ u)).map _) = _
    rw [h]; rfl
  | false =>
    obtain ⟨c, s, e, hc⟩ := hd
    show readLiteral d (t ++ u) = _
    rw [e, readLiteral_num d c s (.inl hc), readNumeral_digit c s hc, ← e, h]; rfl

theorem readLiteral_int (d : Dialect) (i : Int) (rest : Str) (hr : Apart rest) :
    readLiteral d (formatInt i ++ rest) = some (.num (formatInt i), rest) := by
  have hall : (Nat.toDigits 10 i.natAbs).all Char.isDigit = true := by
    simp only [List.all_eq_true]; intro c hc; exact toDigits_digit hc
  have h := readUnsigned_digits (Nat.toDigits 10 i.natAbs) rest (toDigits_ne _) hall hr
  obtain ⟨c, cs, e1, e2, hc, _⟩ := head_digit_append (rest := rest) (toDigits_ne i.natAbs) hall
  have hf : formatInt i = (if decide (i < 0) then ['-'] else []) ++ Nat.toDigits 10 i.natAbs := by
    unfold formatInt; by_cases hi : i < 0 <;> simp [hi]
  rw [hf, List.append_assoc]
  exact read_signed d _ _ _ _ ⟨c, _, e1, hc⟩ h

theorem intVal_formatInt (i : Int) : intVal (formatInt i) = i := by
  unfold formatInt
  split
  · rename_i h
    show -(digitsVal (Nat.toDigits 10 i.natAbs) : Int) = i
    rw [digitsVal_toDigits]; omega
  · rename_i h
    have : ∀ s : Str, s.head? ≠ some '-' → intVal s = digitsVal s := by
      intro s hs; unfold intVal; split
      · simp at hs
      · rfl
    rw [this, digitsVal_toDigits]
    · omega
    · intro e
      exact absurd (toDigits_digit (List.mem_of_mem_head? e)) (by decide)

theorem readLiteral_float (d : Dialect) (t : FloatText) (rest : Str) (hr : Apart rest) :
    readLiteral d (t.write ++ rest) = some (.num t.write, rest) := by
  rw [FloatText.write_eq]
  have h := readUnsigned_float t rest hr
  have h0 : digitsText t.int ≠ [] := by simpa [digitsText] using t.int_ne
  obtain ⟨c, cs, e1, e2, hc, _⟩ := head_digit_append
    (rest := (if t.frac = [] then [] else '.' :: digitsText t.frac) ++ (expText t.exp ++ rest)) h0 (digitsText_digit t.int_lt)
  rw [List.append_assoc]
  refine read_signed d _ _ _ _ ⟨c, cs ++ ((if t.frac = [] then [] else '.' :: digitsText t.frac) ++ (expText t.exp ++ rest)), ?_, hc⟩ ?_
  · rw [← e1]; simp only [List.append_assoc]
  · rw [← h]; simp only [List.append_assoc]

theorem keyword_apart (rest : Str) (hr : Apart rest) : keyword "::BYTEA" rest = none := by
  unfold keyword; rw [if_neg]; rw [hr.2]; decide

theorem readLiteral_quoted (d : Dialect) (s t rest : Str) (hr : Apart rest)
    (h : _root_.Spec.scan '\'' (s ++ '\'' :: rest) = some (t, rest)) :
    readLiteral d ('\'' :: s ++ '\'' :: rest) = some (.str t, rest) := by
  show (_root_.Spec.scan '\'' (s ++ '\'' :: rest)).bind (fun p => quotedLit d p.1 p.2) = _
  rw [h, Option.bind_some]
  unfold quotedLit
  dsimp only
  rw [keyword_apart rest hr]
  split
  · rename_i h; contradiction
  · rfl

theorem hexVal_digit (n : Nat) (h : n < 16) : hexVal n.digitChar = some n := by
  have : n = 0 ∨ n = 1 ∨ n = 2 ∨ n = 3 ∨ n = 4 ∨ n = 5 ∨ n = 6 ∨ n = 7 ∨ n = 8 ∨ n = 9 ∨ n = 10 ∨ n = 11 ∨ n = 12 ∨ n = 13 ∨
    n = 14 ∨ n = 15 := by omega
  rcases this with rfl | rfl | rfl | rfl | rfl | rfl | rfl | rfl | rfl | rfl | rfl | rfl | rfl | rfl | rfl | rfl <;> rfl

theorem readHex_hexText (b : List (Fin 256)) : readHex (hexText b) = some b := by
  induction b with
  | nil => rfl
  | cons x xs ih =>
    show readHex (Nat.digitChar (x.val / 16) :: Nat.digitChar (x.val % 16) :: hexText xs) = _
    unfold readHex
    rw [hexVal_digit _ (by omega), hexVal_digit _ (by omega), ih]
    simp only [Option.some.injEq, List.cons.injEq, and_true]
    apply Fin.ext
    simp only [Fin.ofNat]
    omega

theorem hexText_no_quote (b : List (Fin 256)) : '\'' ∉ hexText b := by
  intro h
  simp only [hexText, List.mem_flatMap] at h
  obtain ⟨x, _, hx⟩ := h
  have : ∀ n, n < 16 → '\'' ≠ Nat.digitChar n := by
    intro n hn e
    have := hexVal_digit n hn
    rw [← e] at this
    exact absurd this (by simp [hexVal])
  simp only [List.mem_cons, List.not_mem_nil, or_false] at hx
  rcases hx with hx | hx
  · exact this _ (by omega) hx
  · exact this _ (by omega) hx

theorem readLiteral_hex (d : Dialect) (b : List (Fin 256)) (rest : Str) (hr : Apart rest) :
    readLiteral d ('x' :: '\'' :: hexText b ++ '\'' :: rest) = some (if d = .postgres then .bits b else .bytes b, rest) := by
  show (_root_.Spec.scan '\'' (hexText b ++ '\'' :: rest)).bind (fun p => hexLit d p.1 p.2) = _
  rw [scan_plain '\'' _ _ (hexText_no_quote b) (apart_quote hr), Option.bind_some]
  unfold hexLit
  dsimp only
  rw [readHex_hexText]; rfl

theorem readLiteral_bytea (b : List (Fin 256)) (rest : Str) (_hr : Apart rest) :
    readLiteral .postgres ('\'' :: '\\' :: 'x' :: hexText b ++ '\'' :: ("::BYTEA".toList ++ rest)) = some (.bytes b, rest) := by
  show (_root_.Spec.scan '\'' (('\\' :: 'x' :: hexText b) ++ '\'' :: ("::BYTEA".toList ++ rest))).bind
    (fun p => quotedLit .postgres p.1 p.2) = _
  have hq : '\'' ∉ ('\\' :: 'x' :: hexText b) := by
    simp only [List.mem_cons, not_or]
    exact ⟨by decide, by decide, hexText_no_quote b⟩
  rw [scan_plain '\'' _ _ hq (by simp), Option.bind_some]
  have hk : keyword "::BYTEA".toList ("::BYTEA".toList ++ rest) = some rest := by
    unfold keyword; rw [if_pos (by simp)]; simp
  unfold quotedLit
  rw [hk]
  show Option.map _ (readHex (hexText b)) = _
  rw [readHex_hexText]; rfl

theorem readLiteral_word (d : Dialect) (rest : Str) :
    readLiteral d ("NULL".toList ++ rest) = some (.null, rest) ∧ ∀ b, readLiteral d (boolText b ++ rest) = some (.bool b, rest) := by
  constructor
  · rfl
  · intro b; cases b <;> rfl

/-- The literal of a driver value is one token that denotes it. -/
theorem dval_literal (d : Dialect) (v : DVal) (t rest : Str) (h : sprintDVal v = .ok t) (hf : DVal.finite v) (hr : Apart rest) :
    ∃ l, readLiteral d (t ++ rest) = some (l, rest) ∧
      (DVal.strs (fun s => ¬ _root_.Spec.InnerPair '\'' s) v → (d = .postgres → DVal.isBytes v = false) → denotesD v l) := by
  cases v with
  | int i => cases h; exact ⟨_, readLiteral_int d i rest hr, fun _ _ => intVal_formatInt i⟩
  | float f =>
    cases f with
    | finite f => cases h; exact ⟨_, readLiteral_float d f rest hr, fun _ _ => rfl⟩
    | nan => exact absurd hf id
    | inf _ => exact absurd hf id
  | bool b => cases h; exact ⟨_, (readLiteral_word d rest).2 b, fun _ _ => rfl⟩
  | bytes b =>
    cases h
    refine ⟨_, by rw [List.append_assoc]; exact readLiteral_hex d b rest hr, fun _ h => ?_⟩
    rw [if_neg (fun e => absurd (h e) (by simp [DVal.isBytes]))]
    rfl
  | str s =>
    cases h
    refine ⟨.str (readBack '\'' s), ?_, fun hs _ => ?_⟩
    · unfold stringText
      rw [List.append_assoc]
      exact readLiteral_quoted d _ _ rest hr (scan_escapeQuote _ _ _ (apart_quote hr))
    · exact (readBack_eq_iff '\'' s).2 hs
  | time t =>
    cases h
    refine ⟨.str t.val, ?_, fun _ _ => rfl⟩
    rw [List.append_assoc]
    exact readLiteral_quoted d _ _ rest hr (scan_plain _ _ _ t.property (apart_quote hr))
  | other => exact nomatch h

theorem val_literal (d : Dialect) (b : Bool) (v : Val) (t rest : Str) (h : sprint d b v = .ok t) (hf : Val.finite v)
    (hr : Apart rest) :
    ∃ l, readLiteral d (t ++ rest) = some (l, rest) ∧
      (Val.strs (fun s => ¬ _root_.Spec.InnerPair '\'' s) v → (d = .postgres → Val.valuerBytes v = false) → denotes v l) := by
  induction v generalizing b with
  | nil => cases h; exact ⟨_, (readLiteral_word d rest).1, fun _ _ => trivial⟩
  | bool x => cases h; exact ⟨_, (readLiteral_word d rest).2 x, fun _ _ => rfl⟩
  | bytes x =>
    simp only [sprint] at h
    split at h
    · rename_i hd; subst hd; cases h
      refine ⟨.bytes x, ?_, fun _ _ => rfl⟩
      have := readLiteral_bytea x rest hr
      rw [List.append_assoc]; exact this
    · rename_i hd; cases h
      refine ⟨_, by rw [List.append_assoc]; exact readLiteral_hex d x rest hr, fun _ _ => ?_⟩
      rw [if_neg hd]; rfl
  | str s => exact dval_literal d (.str s) t rest h trivial hr |>.imp fun l hl => ⟨hl.1, fun h1 h2 => by
      have := hl.2 h1 (fun _ => rfl)
      cases l <;> first | exact this | exact absurd this id⟩
  | time s => exact dval_literal d (.time s) t rest h trivial hr |>.imp fun l hl => ⟨hl.1, fun h1 h2 => by
      have := hl.2 trivial (fun _ => rfl)
      cases l <;> first | exact this | exact absurd this id⟩
  | int i => exact dval_literal d (.int i) t rest h trivial hr |>.imp fun l hl => ⟨hl.1, fun h1 h2 => by
      have := hl.2 trivial (fun _ => rfl)
      cases l <;> first | exact this | exact absurd this id⟩
  | float f =>
    cases f with
    | finite f => cases h; exact ⟨_, readLiteral_float d f rest hr, fun _ _ => rfl⟩
    | nan => exact absurd hf id
    | inf _ => exact absurd hf id
  | named n v ih =>
    simp only [sprint] at h
    obtain ⟨l, h1, h2⟩ := ih _ h hf
    refine ⟨l, h1, fun h3 h4 => ?_⟩
    simp only [denotes]; exact h2 h3 h4
  | null v =>
    cases v with
    | none => cases h; exact ⟨_, (readLiteral_word d rest).1, fun _ _ => trivial⟩
    | some v =>
      obtain ⟨l, h1, h2⟩ := dval_literal d v t rest h hf hr
      refine ⟨l, h1, fun h3 h4 => ?_⟩
      simp only [denotes]; exact h2 h3 h4
  | valuer r =>
    cases r with
    | ok v =>
      obtain ⟨l, h1, h2⟩ := dval_literal d v t rest h hf hr
      refine ⟨l, h1, fun h3 h4 => ?_⟩
      simp only [denotes]; exact h2 h3 h4
    | err _ => exact nomatch h
    | panic => exact nomatch h
    | hang => exact nomatch h
  | ptr v ih =>
    by_cases hb : b = false ∧ v = .null none
    · obtain ⟨rfl, rfl⟩ := hb
      exact nomatch h
    · have : sprint d b (.ptr v) = sprint d true v := by
        rw [sprint]
        intro h1 h2; exact hb ⟨h1, h2⟩
      rw [this] at h
      obtain ⟨l, h1, h2⟩ := ih _ h hf
      refine ⟨l, h1, fun h3 h4 => ?_⟩
      simp only [denotes]; exact h2 h3 h4
  | nilPtr v => simp only [sprint] at h; split at h <;> exact nomatch h
  | chan => exact nomatch h
  | func => exact nomatch h
  | other => exact nomatch h

/-- **C16, one token (partial).** For every dialect and every value without NaN or infinity inside: whatever `Sprint`
renders is read by the server (standard-conforming strings) as exactly one literal, the text after it being left alone.
Missing for the full property: NaN and infinities (`C16_nan_violated`), MySQL's backslash escapes
(`C16_mysql_backslash_violated`). -/
theorem C16_one_token_partial (d : Dialect) (v : Val) (t rest : Str) (h : sprint d false v = .ok t) (hf : Val.finite v)
    (hr : Apart rest) : ∃ l, readLiteral d (t ++ rest) = some (l, rest) :=
  (val_literal d false v t rest h hf hr).imp fun _ hl => hl.1

/-- **C16, faithful (partial).** The literal denotes the value, if moreover no string contains an adjacent pair of quotes (see
C02) and, on Postgres, no byte string comes out of a `driver.Valuer`. -/
theorem C16_denotes_partial (d : Dialect) (v : Val) (t rest : Str) (h : sprint d false v = .ok t) (hf : Val.finite v)
    (hr : Apart rest) (hs : Val.strs (fun s => ¬ _root_.Spec.InnerPair '\'' s) v)
    (hb : d = .postgres → Val.valuerBytes v = false) : ∃ l, readLiteral d (t ++ rest) = some (l, rest) ∧ denotes v l := by
  obtain ⟨l, h1, h2⟩ := val_literal d false v t rest h hf hr
  exact ⟨l, h1, h2 hs hb⟩

/-- Every plain scalar has a literal: errors only come from unsupported types. -/
theorem C16_scalars_render (d : Dialect) :
    (∃ t, sprint d false .nil = .ok t) ∧ (∀ b, ∃ t, sprint d false (.bool b) = .ok t) ∧
    (∀ b, ∃ t, sprint d false (.bytes b) = .ok t) ∧ (∀ s, ∃ t, sprint d false (.str s) = .ok t) ∧
    (∀ x, ∃ t, sprint d false (.time x) = .ok t) ∧ (∀ i, ∃ t, sprint d false (.int i) = .ok t) ∧
    (∀ f, ∃ t, sprint d false (.float f) = .ok t) := by
  refine ⟨⟨_, rfl⟩, fun b => ⟨_, rfl⟩, fun b => ?_, fun s => ⟨_, rfl⟩, fun x => ⟨_, rfl⟩, fun i => ⟨_, rfl⟩, fun f => ⟨_, rfl⟩⟩
  simp only [sprint]; split <;> exact ⟨_, rfl⟩

/-- Non-vacuity. -/
example : sprint .postgres false (.named "x" (.ptr (.str "O'Brien"))) = .ok "'O''Brien'".toList ∧
    sprint .sqlite false (.int (-42)) = .ok "-42".toList ∧ Apart " AND 1".toList := by
  refine ⟨by decide +kernel, by decide +kernel, ?_, by decide⟩
  intro c hc; simp at hc; subst hc; decide

/-- **C16 (violated).** NaN is written as a bare word, which is not a literal in any dialect. -/
theorem C16_nan_violated (d : Dialect) :
    sprint d false (.float .nan) = .ok "NaN".toList ∧ (readLiteral d "NaN".toList).isNone = true := by
  constructor
  · rfl
  · cases d <;> rfl

/-- **C16 (violated).** MySQL: a backslash in a string value closes the literal early and the rest runs as SQL. -/
theorem C16_mysql_backslash_violated : ∃ s, sprint .mysql false (.str s) = .ok "'\\'' OR 1=1 -- '".toList ∧
    _root_.Spec.scanBackslash '\'' "\\'' OR 1=1 -- '".toList = some ("'".toList, " OR 1=1 -- '".toList) :=
  ⟨"\\' OR 1=1 -- ", by decide +kernel, by decide +kernel⟩

/-- **C16 (violated).** Bytes out of a `driver.Valuer` are a bit string on Postgres. -/
theorem C16_valuer_bytes_violated (b : List (Fin 256)) :
    ∃ t, sprint .postgres false (.valuer (.ok (.bytes b))) = .ok t ∧ readLiteral .postgres t = some (.bits b, []) := by
  refine ⟨_, rfl, ?_⟩
  have := readLiteral_hex .postgres b [] ⟨by simp, by decide⟩
  simpa using this

/-- **C16 (violated).** A negative number after a minus sign starts a comment: the rest of the line disappears. -/
theorem C16_negative_comment_violated :
    sprintf .mysql "SELECT 1 -? AND secret" [.int (-1)] = .ok "SELECT 1 --1 AND secret".toList := by decide +kernel

end Sq
