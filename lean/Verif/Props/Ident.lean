import Verif.Model.Ident
import Verif.Spec.Ident
/-
C51: names found in the text of triggers and functions.
-/
namespace Ddl
open _root_.Spec (Sep Word Words Ends layout scan identQuotes bareWordChar blanks sameKeyword TriggerText FunctionText)

theorem trimSpace_iff (c : Char) : Sq.trimSpace c = true ↔ c ∈ blanks := by
  simp [Sq.trimSpace, blanks, or_assoc]

theorem isSpace_of_trim {c : Char} (h : Sq.trimSpace c = true) : Sq.isSpace c = true := by
  simp [Sq.isSpace, h]

theorem opens_iff (d : Dialect) (c : Char) : opensQuote d c = true ↔ ∃ q ∈ identQuotes d, c = q.1 := by
  cases d <;> simp [opensQuote, identQuotes]

theorem closer_of_mem {d : Dialect} {q : Char × Char} (h : q ∈ identQuotes d) : closerOf q.1 = q.2 := by
  cases d <;> simp [identQuotes] at h <;> rcases h with rfl | rfl <;> rfl

theorem bare_iff (d : Dialect) (c : Char) : bareWordChar d c ↔ Sq.isSpace c = false ∧ opensQuote d c = false := by
  unfold bareWordChar
  constructor
  · rintro ⟨h1, h2⟩
    refine ⟨h1, ?_⟩
    cases h : opensQuote d c with
    | false => rfl
    | true => obtain ⟨q, hq, e⟩ := (opens_iff d c).1 h; exact absurd e (h2 q hq)
  · rintro ⟨h1, h2⟩
    refine ⟨h1, fun q hq e => ?_⟩
    have := (opens_iff d c).2 ⟨q, hq, e⟩
    rw [h2] at this; simp at this

theorem popLoop_in (d : Dialect) (o c : Char) (cs : Str) (h : c ≠ closerOf o) :
    popLoop d (some o) (c :: cs) = (c :: (popLoop d (some o) cs).1, (popLoop d (some o) cs).2) := by
  conv => lhs; rw [popLoop.eq_def]
  simp [h]

theorem popLoop_close (d : Dialect) (o c : Char) (cs : Str) (h : c ≠ closerOf o) :
    popLoop d (some o) (closerOf o :: c :: cs) = (closerOf o :: (popLoop d none (c :: cs)).1, (popLoop d none (c :: cs)).2) := by
  conv => lhs; rw [popLoop.eq_def]
  cases cs <;> simp only [if_true, if_neg h]

theorem popLoop_double (d : Dialect) (o c : Char) (cs : Str) :
    popLoop d (some o) (closerOf o :: closerOf o :: c :: cs)
      = (closerOf o :: closerOf o :: (popLoop d (some o) (c :: cs)).1, (popLoop d (some o) (c :: cs)).2) := by
  conv => lhs; rw [popLoop.eq_def]
  simp only [if_true]

/-- Inside quotes the loop runs to where the SQL scanner closes them. -/
theorem popLoop_quoted (d : Dialect) (o : Char) : (s : Str) → (x r : Str) → scan (closerOf o) s = some (x, r) →
    ∃ t, s = t ++ r ∧ popLoop d (some o) s = (t ++ (popLoop d none r).1, (popLoop d none r).2)
  | [], x, r, h => by simp [scan] at h
  | [c], x, r, h => by
    simp only [scan] at h
    split at h
    · rename_i hc
      cases h
      exact ⟨[c], rfl, by simp [popLoop, hc]⟩
    · simp at h
  | c :: e :: rest, x, r, h => by
    simp only [scan] at h
    split at h
    · rename_i hc
      subst hc
      split at h
      · rename_i he
        subst he
        simp only [Option.map_eq_some_iff] at h
        obtain ⟨⟨y, r'⟩, h1, h2⟩ := h
        simp only [Prod.mk.injEq] at h2
        obtain ⟨_, rfl⟩ := h2
        obtain ⟨t, ht, hp⟩ := popLoop_quoted d o rest y r' h1
        refine ⟨closerOf o :: closerOf o :: t, by rw [ht]; simp, ?_⟩
        cases hrest : rest with
        | nil => rw [hrest] at h1; simp [scan] at h1
        | cons z zs =>
          rw [popLoop_double, ← hrest, hp]
          simp
      · rename_i he
        simp only [Option.some.injEq, Prod.mk.injEq] at h
        obtain ⟨_, rfl⟩ := h
        exact ⟨[closerOf o], rfl, popLoop_close d o e rest he⟩
    · rename_i hc
      simp only [Option.map_eq_some_iff] at h
      obtain ⟨⟨y, r'⟩, h1, h2⟩ := h
      simp only [Prod.mk.injEq] at h2
      obtain ⟨_, rfl⟩ := h2
      obtain ⟨t, ht, hp⟩ := popLoop_quoted d o (e :: rest) y r' h1
      refine ⟨c :: t, by rw [ht]; simp, ?_⟩
      rw [popLoop_in d o c _ hc, hp]
      simp

theorem scan_append (q : Char) : (s x r t : Str) → scan q s = some (x, r) → (r = [] → t.head? ≠ some q) → scan q (s ++ t) = some (x, r ++ t)
  | [], x, r, t, h, _ => by simp [scan] at h
  | [c], x, r, t, h, ht => by
    simp only [scan] at h
    split at h
    · rename_i hc
      simp only [Option.some.injEq, Prod.mk.injEq] at h
      obtain ⟨rfl, rfl⟩ := h
      cases t with
      | nil => simp [scan, hc]
      | cons z zs =>
        have : z ≠ q := fun e => ht rfl (by simp [e])
        simp [scan, hc, this]
    · simp at h
  | c :: e :: rest, x, r, t, h, ht => by
    simp only [scan] at h
    split at h
    · rename_i hc
      split at h
      · rename_i he
        simp only [Option.map_eq_some_iff] at h
        obtain ⟨⟨y, r'⟩, h1, h2⟩ := h
        simp only [Prod.mk.injEq] at h2
        obtain ⟨rfl, rfl⟩ := h2
        have := scan_append q rest y r' t h1 ht
        simp [scan, hc, he, this]
      · rename_i he
        simp only [Option.some.injEq, Prod.mk.injEq] at h
        obtain ⟨rfl, rfl⟩ := h
        simp [scan, hc, he]
    · rename_i hc
      simp only [Option.map_eq_some_iff] at h
      obtain ⟨⟨y, r'⟩, h1, h2⟩ := h
      simp only [Prod.mk.injEq] at h2
      obtain ⟨rfl, rfl⟩ := h2
      have := scan_append q (e :: rest) y r' t h1 ht
      rw [List.cons_append] at this
      simp [scan, hc, this]

theorem quote_not_space {d : Dialect} {q : Char × Char} (h : q ∈ identQuotes d) : Sq.isSpace q.2 = false := by
  cases d <;> simp [identQuotes] at h <;> rcases h with rfl | rfl <;> decide

/-- A word is popped whole. -/
theorem popLoop_word (d : Dialect) {w : Str} (hw : Word d w) (t : Str) (ht : Ends t) : popLoop d none (w ++ t) = (w, t) := by
  induction hw with
  | nil =>
    cases t with
    | nil => rfl
    | cons c cs =>
      have hs := ht c rfl
      have ho : opensQuote d c = false := by
        cases h : opensQuote d c with
        | false => rfl
        | true =>
          obtain ⟨q, hq, e⟩ := (opens_iff d c).1 h
          subst e
          exfalso
          cases d <;> simp [identQuotes] at hq <;> rcases hq with rfl | rfl <;> revert hs <;> decide
      simp [popLoop, ho, hs]
  | @bare c w hc _ ih =>
    obtain ⟨h1, h2⟩ := (bare_iff d c).1 hc
    simp [popLoop, h1, h2, ih]
  | @quoted q body w x hq hn hscan _ ih =>
    have hn' : (w ++ t).head? ≠ some q.2 := by
      cases w with
      | nil =>
        intro e
        have := ht q.2 (by simpa using e)
        rw [quote_not_space hq] at this; simp at this
      | cons z zs => simpa using hn
    have h1 := scan_append q.2 (body ++ q.2 :: w) x w t hscan (by
      intro e; subst e
      simpa using hn')
    obtain ⟨u, hu, hp⟩ := popLoop_quoted d q.1 _ x (w ++ t) (by rw [closer_of_mem hq]; exact h1)
    have ho : opensQuote d q.1 = true := (opens_iff d q.1).2 ⟨q, hq, rfl⟩
    have hu' : body ++ q.2 :: w = u ++ w := by
      have : (body ++ q.2 :: w) ++ t = (u ++ w) ++ t := by rw [hu]; simp
      exact List.append_cancel_right this
    rw [List.cons_append, popLoop]
    simp only [ho, if_true]
    rw [hp, ih, hu']

theorem dropWhile_sep (s : Str) (hs : ∀ c ∈ s, c ∈ blanks) (t : Str) (ht : ∀ c, t.head? = some c → c ∉ blanks) :
    (s ++ t).dropWhile Sq.trimSpace = t := by
  induction s with
  | nil =>
    cases t with
    | nil => rfl
    | cons c cs =>
      have : Sq.trimSpace c = false := by
        cases h : Sq.trimSpace c with
        | false => rfl
        | true => exact absurd ((trimSpace_iff c).1 h) (ht c rfl)
      simp [this]
  | cons c cs ih =>
    have : Sq.trimSpace c = true := (trimSpace_iff c).2 (hs c (by simp))
    simp [this, ih (fun x hx => hs x (by simp [hx]))]

theorem word_head {d : Dialect} {w : Str} (hw : Word d w) (hne : w ≠ []) (t : Str) : ∀ c, (w ++ t).head? = some c → c ∉ blanks := by
  intro c hc hb
  have hs := isSpace_of_trim ((trimSpace_iff c).2 hb)
  cases hw with
  | nil => exact hne rfl
  | @bare c' w' h1 _ =>
    simp at hc; subst hc
    rw [h1.1] at hs; simp at hs
  | @quoted q body w' x hq _ _ _ =>
    simp at hc; subst hc
    cases d <;> simp [identQuotes] at hq <;> rcases hq with rfl | rfl <;> revert hs <;> decide

/-- Popping the next word. -/
theorem popToken_word (d : Dialect) (s : Str) (hs : ∀ c ∈ s, c ∈ blanks) {w : Str} (hw : Word d w) (hne : w ≠ []) (t : Str) (ht : Ends t) :
    popToken d (s ++ (w ++ t)) = (w, t) := by
  unfold popToken
  rw [dropWhile_sep s hs _ (word_head hw hne t), popLoop_word d hw t ht]

theorem sep_ends {s : Str} (hs : Sep s) (t : Str) : Ends (s ++ t) := by
  intro c hc
  obtain ⟨hne, hall⟩ := hs
  cases s with
  | nil => exact absurd rfl hne
  | cons x xs =>
    simp at hc; subst hc
    exact isSpace_of_trim ((trimSpace_iff _).2 (hall _ (by simp)))

/-! ### Keywords -/

theorem fold_lower {c : Char} (h1 : c ≠ '\u017F') (h2 : c ≠ '\u212A') : foldChar c = c.toLower := by simp [foldChar, h1, h2]

/-- For keywords without S and K the case folding is that of ASCII. -/
theorem equalFold_iff (w kw : Str) (hkw : ∀ c ∈ kw, c ≠ '\u017F' ∧ c ≠ '\u212A' ∧ c.toLower ≠ 's' ∧ c.toLower ≠ 'k' ∧ c.toLower ≠ '\u017F' ∧ c.toLower ≠ '\u212A') :
    equalFold w kw = true ↔ sameKeyword w kw := by
  have hk : kw.map foldChar = kw.map Char.toLower := List.map_congr_left fun c hc => fold_lower (hkw c hc).1 (hkw c hc).2.1
  unfold equalFold sameKeyword
  rw [decide_eq_true_eq, hk]
  have key : ∀ (f : Char → Char), (f = foldChar ∨ f = Char.toLower) → w.map f = kw.map Char.toLower → w.map foldChar = w.map Char.toLower := by
    intro f hf h
    apply List.map_congr_left
    intro c hc
    have hm : f c ∈ kw.map Char.toLower := by rw [← h]; exact List.mem_map_of_mem hc
    obtain ⟨k, hk1, hk2⟩ := List.mem_map.1 hm
    have hh := hkw k hk1
    apply fold_lower
    · rintro rfl
      rcases hf with rfl | rfl
      · exact hh.2.2.1 (hk2.trans (by decide))
      · exact hh.2.2.2.2.1 (hk2.trans (by decide))
    · rintro rfl
      rcases hf with rfl | rfl
      · exact hh.2.2.2.1 (hk2.trans (by decide))
      · exact hh.2.2.2.2.2 (hk2.trans (by decide))
  constructor
  · intro h
    rw [← key foldChar (.inl rfl) h]; exact h
  · intro h
    rw [key Char.toLower (.inr rfl) h]; exact h

/-- In the other direction it holds for all ASCII keywords. -/
theorem equalFold_of_same (w kw : Str) (hkw : ∀ c ∈ kw, c ≠ '\u017F' ∧ c ≠ '\u212A' ∧ c.toLower ≠ '\u017F' ∧ c.toLower ≠ '\u212A')
    (h : sameKeyword w kw) : equalFold w kw = true := by
  have hk : kw.map foldChar = kw.map Char.toLower := List.map_congr_left fun c hc => fold_lower (hkw c hc).1 (hkw c hc).2.1
  unfold equalFold
  rw [decide_eq_true_eq, hk, ← h]
  apply List.map_congr_left
  intro c hc
  have hm : c.toLower ∈ kw.map Char.toLower := by
    have : w.map Char.toLower = kw.map Char.toLower := h
    rw [← this]; exact List.mem_map_of_mem hc
  obtain ⟨k, hk1, hk2⟩ := List.mem_map.1 hm
  have hh := hkw k hk1
  apply fold_lower
  · rintro rfl; exact hh.2.2.1 (hk2.trans (by decide))
  · rintro rfl; exact hh.2.2.2 (hk2.trans (by decide))

theorem fold_trigger (w : Str) : equalFold w "TRIGGER" = true ↔ sameKeyword w "TRIGGER" := equalFold_iff w _ (by decide)
theorem fold_on (w : Str) : equalFold w "ON" = true ↔ sameKeyword w "ON" := equalFold_iff w _ (by decide)
theorem fold_function (w : Str) : equalFold w "FUNCTION" = true ↔ sameKeyword w "FUNCTION" := equalFold_iff w _ (by decide)
theorem fold_if (w : Str) : equalFold w "IF" = true ↔ sameKeyword w "IF" := equalFold_iff w _ (by decide)
theorem fold_not (w : Str) : equalFold w "NOT" = true ↔ sameKeyword w "NOT" := equalFold_iff w _ (by decide)
theorem fold_exists {w : Str} (h : sameKeyword w "EXISTS") : equalFold w "EXISTS" = true := equalFold_of_same w _ (by decide) h
theorem fold_returns {w : Str} (h : sameKeyword w "RETURNS") : equalFold w "RETURNS" = true := equalFold_of_same w _ (by decide) h

theorem toLower_letter {c : Char} (h : c.toLower.isLower = true) (d : Dialect) : bareWordChar d c := by
  rw [bare_iff]
  have : c.isAlpha = true := by
    unfold Char.toLower at h
    split at h
    · rename_i hu
      simp only [Char.isAlpha, Char.isUpper, Bool.or_eq_true, Bool.and_eq_true, decide_eq_true_eq]
      exact .inl hu
    · simp [Char.isAlpha, h]
  have hv : c.val < 128 := by
    simp only [Char.isAlpha, Char.isUpper, Char.isLower, Bool.or_eq_true, Bool.and_eq_true, decide_eq_true_eq] at this
    rcases this with ⟨_, h⟩ | ⟨_, h⟩
    · exact UInt32.lt_of_le_of_lt h (by decide)
    · exact UInt32.lt_of_le_of_lt h (by decide)
  have hall : ∀ n : Fin 128, ∀ d : Dialect, (Char.ofNat n).isAlpha = true → Sq.isSpace (Char.ofNat n) = false ∧ opensQuote d (Char.ofNat n) = false := by
    intro n d; revert n; cases d <;> decide
  have hc : c = Char.ofNat c.val.toNat := by simp
  rw [hc]
  exact hall ⟨c.val.toNat, by simpa [UInt32.lt_iff_toNat_lt] using hv⟩ d (by rw [← hc]; exact this)

theorem word_of_bare (d : Dialect) : (w : Str) → (∀ c ∈ w, bareWordChar d c) → Word d w
  | [], _ => .nil
  | c :: w, h => .bare (h c (by simp)) (word_of_bare d w fun x hx => h x (by simp [hx]))

/-- A keyword is a word. -/
theorem keyword_word (d : Dialect) (w kw : Str) (h : sameKeyword w kw) (hkw : ∀ c ∈ kw, c.toLower.isLower = true) (hne : kw ≠ []) :
    Word d w ∧ w ≠ [] := by
  constructor
  · apply word_of_bare
    intro c hc
    apply toLower_letter
    have : c.toLower ∈ kw.map Char.toLower := by
      have e : w.map Char.toLower = kw.map Char.toLower := h
      rw [← e]; exact List.mem_map_of_mem hc
    obtain ⟨k, hk1, hk2⟩ := List.mem_map.1 this
    rw [← hk2]; exact hkw k hk1
  · rintro rfl
    have e : [] = kw.map Char.toLower := h
    cases kw with
    | nil => exact hne rfl
    | cons => simp at e

/-- Seeking a keyword: the words before it are skipped. -/
theorem seekWord_layout (d : Dialect) (kw : Str) (hfold : ∀ w, equalFold w kw = true ↔ sameKeyword w kw) :
    (ws : List (Str × Str)) → (lead : Str) → (∀ c ∈ lead, c ∈ blanks) → Words d kw ws → (k : Str) → Word d k → k ≠ [] →
    sameKeyword k kw → (t : Str) → Ends t → seekWord d kw (lead ++ (layout ws ++ (k ++ t))) = .ok t
  | [], lead, hl, _, k, hk, hkne, hkk, t, ht => by
    have hp := popToken_word d lead hl hk hkne t ht
    rw [seekWord]
    simp only [layout, List.flatMap_nil, List.nil_append]
    rw [if_neg (by simp [hkne]), hp, if_pos ((hfold k).2 hkk)]
  | (w, s) :: ws, lead, hl, hws, k, hk, hkne, hkk, t, ht => by
    obtain ⟨hw, hwne, hs, hnk⟩ := hws (w, s) (by simp)
    have ih := seekWord_layout d kw hfold ws s hs.2 (fun p hp => hws p (by simp [hp])) k hk hkne hkk t ht
    have e : lead ++ (layout ((w, s) :: ws) ++ (k ++ t)) = lead ++ (w ++ (s ++ (layout ws ++ (k ++ t)))) := by simp [layout]
    have hp := popToken_word d lead hl hw hwne (s ++ (layout ws ++ (k ++ t))) (sep_ends hs _)
    rw [e, seekWord, if_neg (by simp [hwne]), hp]
    rw [if_neg (fun h => hnk ((hfold w).1 h))]
    have hlen : 0 < w.length := by cases w with
      | nil => exact absurd rfl hwne
      | cons => simp
    rw [if_pos (by simp; omega)]
    exact ih

/-! ### Triggers -/

theorem popTokens_cons (d : Dialect) (n : Nat) (s : Str) (hs : s ≠ []) (w r : Str) (hw : w ≠ []) (h : popToken d s = (w, r)) :
    popTokens d (n + 1) s = (w :: (popTokens d n r).1, (popTokens d n r).2) := by
  simp only [popTokens, if_neg hs, h]
  cases w with
  | nil => exact absurd rfl hw
  | cons => rfl

theorem skip_none (d : Dialect) (s : Str) (h : ¬ (d = .sqlite ∧ sameKeyword (popToken d s).1 "IF")) : skipIfNotExists d s = s := by
  unfold skipIfNotExists
  by_cases hd : d = .sqlite
  · rw [if_pos hd]
    split
    · rename_i a b c tmp heq
      have ha : equalFold a "IF" = false := by
        cases hf : equalFold a "IF" with
        | false => rfl
        | true =>
          exfalso
          apply h
          refine ⟨hd, ?_⟩
          have : (popToken d s).1 = a := by
            cases hh : popToken d s with
            | mk w r =>
              simp only [popTokens, hh] at heq
              split at heq
              · simp at heq
              · split at heq
                · simp at heq
                · rename_i w' r' _ e
                  simp only [Prod.mk.injEq, List.cons.injEq] at heq e
                  exact e.1.trans heq.1.1
          rw [this]; exact (fold_if a).1 hf
      simp only [ha, Bool.false_and, Bool.false_eq_true, if_false]
    · rfl
  · rw [if_neg hd]

theorem cutAt_none (c : Char) (s : Str) (h : c ∉ s) : cutAt c s = none := by
  induction s with
  | nil => rfl
  | cons x xs ih =>
    simp only [List.mem_cons, not_or] at h
    simp [cutAt, Ne.symm h.1, ih h.2]

theorem cutAt_some (c : Char) (a b : Str) (h : c ∉ a) : cutAt c (a ++ c :: b) = some (a, b) := by
  induction a with
  | nil => simp [cutAt]
  | cons x xs ih =>
    simp only [List.mem_cons, not_or] at h
    simp [cutAt, Ne.symm h.1, ih h.2]

/-- The name and table words of a trigger text are found. -/
theorem trigger_words (d : Dialect) (t : Trigger) (name table : Str) (h : TriggerText d t.sql name table) :
    populateTrigger d t = match cutAt '.' table with
      | some (s, n) => checkTrigger { t with triggerName := name, tableSchema := s, tableName := n }
      | none => checkTrigger { t with triggerName := name, tableName := table } := by
  have kT := keyword_word d h.kwTrigger "TRIGGER" h.hkwTrigger (by decide) (by decide)
  have kO := keyword_word d h.kwOn "ON" h.hkwOn (by decide) (by decide)
  let tail3 := h.sep3 ++ (table ++ h.rest)
  let tail2 := h.sep2 ++ (layout h.mid ++ (h.kwOn ++ tail3))
  let tail1 := h.sep1 ++ (layout h.ine ++ (name ++ tail2))
  have s1 : seekWord d "TRIGGER" t.sql = .ok tail1 := by
    rw [h.text]
    exact seekWord_layout d _ fold_trigger h.pre h.lead h.hlead h.hpre h.kwTrigger kT.1 kT.2 h.hkwTrigger _ (sep_ends h.hsep1 _)
  have ne1 : tail1 ≠ [] := by
    have := h.hsep1.1
    simp [tail1, this]
  have p1 : popToken d (skipIfNotExists d tail1) = (name, tail2) := by
    rcases h.hine with ⟨hi, hn⟩ | ⟨hd, a, s, b, u, c, v, hi, ha, hb, hc, hs, hu, hv⟩
    · have hp : popToken d tail1 = (name, tail2) := by
        simp only [tail1, hi, layout, List.flatMap_nil, List.nil_append]
        exact popToken_word d h.sep1 h.hsep1.2 h.hname.1 h.hname.2 _ (sep_ends h.hsep2 _)
      rw [skip_none d tail1 (by rw [hp]; exact hn), hp]
    · have ka := keyword_word d a "IF" ha (by decide) (by decide)
      have kb := keyword_word d b "NOT" hb (by decide) (by decide)
      have kc := keyword_word d c "EXISTS" hc (by decide) (by decide)
      have e : tail1 = h.sep1 ++ (a ++ (s ++ (b ++ (u ++ (c ++ (v ++ (name ++ tail2))))))) := by simp [tail1, hi, layout]
      have q1 := popToken_word d h.sep1 h.hsep1.2 ka.1 ka.2 (s ++ (b ++ (u ++ (c ++ (v ++ (name ++ tail2)))))) (sep_ends hs _)
      have q2 := popToken_word d s hs.2 kb.1 kb.2 (u ++ (c ++ (v ++ (name ++ tail2)))) (sep_ends hu _)
      have q3 := popToken_word d u hu.2 kc.1 kc.2 (v ++ (name ++ tail2)) (sep_ends hv _)
      have hskip : skipIfNotExists d tail1 = v ++ (name ++ tail2) := by
        unfold skipIfNotExists
        rw [if_pos hd, e]
        rw [popTokens_cons d 2 _ (by rw [← e]; exact ne1) a _ ka.2 q1, popTokens_cons d 1 _ (by simp [kb.2]) b _ kb.2 q2,
          popTokens_cons d 0 _ (by simp [kc.2]) c _ kc.2 q3]
        simp only [popTokens]
        rw [(fold_if a).2 ha, (fold_not b).2 hb, fold_exists hc]
        rfl
      rw [hskip]
      exact popToken_word d v hv.2 h.hname.1 h.hname.2 _ (sep_ends h.hsep2 _)
  have ne2 : tail2 ≠ [] := by
    have := h.hsep2.1
    simp [tail2, this]
  have s2 : seekWord d "ON" tail2 = .ok tail3 :=
    seekWord_layout d _ fold_on h.mid h.sep2 h.hsep2.2 h.hmid h.kwOn kO.1 kO.2 h.hkwOn _ (sep_ends h.hsep3 _)
  have ne3 : tail3 ≠ [] := by
    have := h.hsep3.1
    simp [tail3, this]
  have p2 : popToken d tail3 = (table, h.rest) :=
    popToken_word d h.sep3 h.hsep3.2 h.htable.1 h.htable.2 _ h.hrest
  unfold populateTrigger
  rw [s1]
  simp only [Res.bind_ok, if_neg ne1, p1, if_neg ne2, s2, if_neg ne3, p2, splitDot]
  cases cutAt '.' table <;> rfl

/-- C51 (partial): from `... TRIGGER [IF NOT EXISTS] name ... ON table ...` the words for name and table are recorded, whatever the words in
between, their separators and the case of the keywords.  Missing: for quoted names the recorded text is the quoted spelling, not the name
(`C51_trigger_quoted_violated`). -/
theorem C51_trigger_partial (d : Dialect) (t : Trigger) (name table : Str) (h : TriggerText d t.sql name table) (hdot : '.' ∉ table) :
    populateTrigger d t = .ok { t with triggerName := name, tableName := table } := by
  rw [trigger_words d t name table h, cutAt_none _ _ hdot]
  simp [checkTrigger, h.hname.2, h.htable.2]

/-- C51 (partial): a qualified table is split into schema and table. -/
theorem C51_trigger_qualified_partial (d : Dialect) (t : Trigger) (name schema table : Str)
    (h : TriggerText d t.sql name (schema ++ '.' :: table)) (hdot : '.' ∉ schema) (hne : table ≠ []) :
    populateTrigger d t = .ok { t with triggerName := name, tableSchema := schema, tableName := table } := by
  rw [trigger_words d t name _ h, cutAt_some _ _ _ hdot]
  simp [checkTrigger, h.hname.2, hne]

/-! ### Termination -/

theorem popLoop_suffix (d : Dialect) : (o : Option Char) → (s : Str) → s = (popLoop d o s).1 ++ (popLoop d o s).2
  | _, [] => by simp [popLoop]
  | some q, c :: cs => by
    rw [popLoop.eq_def]
    simp only
    split
    · split
      · rename_i c' c'' cs' 
        split
        · have := popLoop_suffix d (some q) (c'' :: cs')
          simp [← this]
        · have := popLoop_suffix d none (c' :: c'' :: cs')
          simp [← this]
      · rename_i c'
        split
        · simp
        · have := popLoop_suffix d none [c']
          simp [← this]
      · simp
    · have := popLoop_suffix d (some q) cs
      simp [← this]
  | none, c :: cs => by
    rw [popLoop.eq_def]
    simp only
    split
    · have := popLoop_suffix d (some c) cs
      simp [← this]
    · split
      · simp
      · have := popLoop_suffix d none cs
        simp [← this]

theorem popLoop_shorter (d : Dialect) (c : Char) (cs : Str) (h : Sq.isSpace c = false) : (popLoop d none (c :: cs)).2.length ≤ cs.length := by
  rw [popLoop.eq_def]
  simp only [h, Bool.false_eq_true, if_false]
  split
  · have := congrArg List.length (popLoop_suffix d (some c) cs)
    simp only [List.length_append] at this
    show (popLoop d (some c) cs).2.length ≤ _
    omega
  · have := congrArg List.length (popLoop_suffix d none cs)
    simp only [List.length_append] at this
    show (popLoop d none cs).2.length ≤ _
    omega

theorem popToken_mem (d : Dialect) (s : Str) : ∀ c ∈ (popToken d s).2, c ∈ s := by
  intro c hc
  have := popLoop_suffix d none (s.dropWhile Sq.trimSpace)
  have hm : c ∈ s.dropWhile Sq.trimSpace := by
    rw [this]; exact List.mem_append_right _ hc
  exact List.dropWhile_subset _ hm

theorem dropWhile_len (p : Char → Bool) : (s : Str) → (s.dropWhile p).length ≤ s.length
  | [] => by simp
  | c :: cs => by
    have := dropWhile_len p cs
    rw [List.dropWhile_cons]
    split
    · simp; omega
    · simp

theorem dropWhile_head (p : Char → Bool) : (s : Str) → (c : Char) → (cs : Str) → s.dropWhile p = c :: cs → p c = false
  | [], _, _, h => by simp at h
  | x :: xs, c, cs, h => by
    rw [List.dropWhile_cons] at h
    split at h
    · exact dropWhile_head p xs c cs h
    · rename_i hx
      injection h with h1 _
      subst h1
      simpa using hx

theorem popToken_shorter (d : Dialect) (s : Str) (hs : s ≠ []) (h : ∀ c ∈ s, Sq.isSpace c = true → c ∈ blanks) :
    (popToken d s).2.length < s.length := by
  have hlen : 0 < s.length := by cases s with
    | nil => exact absurd rfl hs
    | cons => simp
  unfold popToken
  cases e : s.dropWhile Sq.trimSpace with
  | nil => simpa [popLoop] using hlen
  | cons c cs =>
    have hc := dropWhile_head _ s c cs e
    have hm : c ∈ s := List.dropWhile_subset _ (by rw [e]; simp)
    have hsp : Sq.isSpace c = false := by
      cases h' : Sq.isSpace c with
      | false => rfl
      | true =>
        have := (trimSpace_iff c).2 (h c hm h')
        rw [hc] at this; simp at this
    have h1 := popLoop_shorter d c cs hsp
    have h2 := dropWhile_len Sq.trimSpace s
    rw [e] at h2
    simp at h2
    omega

theorem seekWord_ends (d : Dialect) (kw : Str) (s : Str) (h : ∀ c ∈ s, Sq.isSpace c = true → c ∈ blanks) :
    ∃ r, seekWord d kw s = .ok r ∧ ∀ c ∈ r, c ∈ s := by
  induction hn : s.length using Nat.strongRecOn generalizing s with
  | _ n ih =>
    rw [seekWord]
    by_cases hs : s = []
    · exact ⟨[], by rw [if_pos hs], by simp⟩
    · rw [if_neg hs]
      split
      · exact ⟨_, rfl, popToken_mem d s⟩
      · have hl := popToken_shorter d s hs h
        rw [if_pos hl]
        obtain ⟨r, h1, h2⟩ := ih _ (hn ▸ hl) (popToken d s).2 (fun c hc => h c (popToken_mem d s c hc)) rfl
        exact ⟨r, h1, fun c hc => popToken_mem d s c (h2 c hc)⟩

theorem seekWord_total (d : Dialect) (kw : Str) (s : Str) : (∃ r, seekWord d kw s = .ok r) ∨ seekWord d kw s = .hang := by
  induction hn : s.length using Nat.strongRecOn generalizing s with
  | _ n ih =>
    rw [seekWord]
    split
    · exact .inl ⟨_, rfl⟩
    · split
      · exact .inl ⟨_, rfl⟩
      · split
        · rename_i hl
          exact ih _ (hn ▸ hl) _ rfl
        · exact .inr rfl

theorem popTokens_mem (d : Dialect) : (n : Nat) → (s : Str) → ∀ c ∈ (popTokens d n s).2, c ∈ s
  | 0, s, c, h => h
  | n + 1, s, c, h => by
    unfold popTokens at h
    split at h
    · simp at h
    · split at h
      · simp at h
      · rename_i w r _ e
        have := popTokens_mem d n r c h
        have h2 := popToken_mem d s c
        rw [e] at h2
        exact h2 this

theorem skip_mem (d : Dialect) (s : Str) : ∀ c ∈ skipIfNotExists d s, c ∈ s := by
  intro c hc
  unfold skipIfNotExists at hc
  split at hc
  · split at hc
    · rename_i a b c' tmp e
      split at hc
      · have := popTokens_mem d 3 s c
        rw [e] at this
        exact this hc
      · exact hc
    · exact hc
  · exact hc

theorem checkTrigger_total (t : Trigger) : (∃ r, checkTrigger t = .ok r) ∨ ∃ e, checkTrigger t = .err e := by
  unfold checkTrigger
  split
  · exact .inr ⟨_, rfl⟩
  · exact .inl ⟨_, rfl⟩

/-- C51: for every text whose white space is ASCII, U+0085 or U+00A0, reading a trigger ends in a result or an error. -/
theorem C51_trigger_terminates_partial (d : Dialect) (t : Trigger) (h : ∀ c ∈ t.sql, Sq.isSpace c = true → c ∈ blanks) :
    (∃ r, populateTrigger d t = .ok r) ∨ ∃ e, populateTrigger d t = .err e := by
  obtain ⟨r1, h1, m1⟩ := seekWord_ends d "TRIGGER" t.sql h
  unfold populateTrigger
  rw [h1, Res.bind_ok]
  split
  · exact checkTrigger_total _
  · simp only
    split
    · exact checkTrigger_total _
    · obtain ⟨r3, h3, _⟩ := seekWord_ends d "ON" (popToken d (skipIfNotExists d r1)).2
        (fun c hc => h c (m1 c (skip_mem d r1 c (popToken_mem d _ c hc))))
      rw [h3, Res.bind_ok]
      split
      · exact checkTrigger_total _
      · split
        · exact checkTrigger_total _
        · exact checkTrigger_total _

/-- C51: reading a trigger never panics. -/
theorem C51_trigger_no_panic (d : Dialect) (t : Trigger) : populateTrigger d t ≠ .panic := by
  have key : ∀ t, checkTrigger t ≠ .panic := fun t => by
    rcases checkTrigger_total t with ⟨r, h⟩ | ⟨e, h⟩ <;> rw [h] <;> simp
  unfold populateTrigger
  rcases seekWord_total d "TRIGGER" t.sql with ⟨r1, h1⟩ | h1
  · rw [h1, Res.bind_ok]
    split
    · exact key _
    · simp only
      split
      · exact key _
      · rcases seekWord_total d "ON" (popToken d (skipIfNotExists d r1)).2 with ⟨r3, h3⟩ | h3
        · rw [h3, Res.bind_ok]
          split
          · exact key _
          · split <;> exact key _
        · rw [h3]; simp [Res.bind]
  · rw [h1]; simp [Res.bind]

/-- C51: what is read has a name and a table; text without them is an error. -/
theorem C51_trigger_named (d : Dialect) (t r : Trigger) (h : populateTrigger d t = .ok r) :
    r.sql = t.sql ∧ (t.sql ≠ [] → r.triggerName ≠ [] ∧ r.tableName ≠ []) := by
  have key : ∀ u : Trigger, checkTrigger u = .ok r → u.sql = t.sql → r.sql = t.sql ∧ (t.sql ≠ [] → r.triggerName ≠ [] ∧ r.tableName ≠ []) := by
    intro u hc hu
    unfold checkTrigger at hc
    split at hc
    · cases hc
    next hn =>
      rw [Res.ok.injEq] at hc
      subst hc
      refine ⟨hu, fun hs => ?_⟩
      rw [hu] at hn
      by_cases h1 : u.triggerName = []
      · exact absurd ⟨hs, .inl h1⟩ hn
      · by_cases h2 : u.tableName = []
        · exact absurd ⟨hs, .inr h2⟩ hn
        · exact ⟨h1, h2⟩
  unfold populateTrigger at h
  rcases seekWord_total d "TRIGGER" t.sql with ⟨r1, h1⟩ | h1
  · rw [h1, Res.bind_ok] at h
    split at h
    · exact key _ h rfl
    · simp only at h
      split at h
      · exact key _ h rfl
      · rcases seekWord_total d "ON" (popToken d (skipIfNotExists d r1)).2 with ⟨r3, h3⟩ | h3
        · rw [h3, Res.bind_ok] at h
          split at h
          · exact key _ h rfl
          · split at h <;> exact key _ h rfl
        · rw [h3] at h; simp [Res.bind] at h
  · rw [h1] at h; simp [Res.bind] at h

/-- The check at work: a text without table is an error. -/
theorem C51_trigger_named_example : (populateTrigger .postgres { sql := "CREATE TRIGGER t AFTER INSERT".toList }).map Trigger.triggerName =
    .err "could not find trigger name or table name".toList ∧
    (populateTrigger .postgres { sql := "CREATE TRIGGER t AFTER INSERT ON film x".toList }).map (fun t => (t.triggerName, t.tableName)) =
      .ok ("t".toList, "film".toList) := by
  decide +kernel

/-! ### Functions -/

theorem popLoop_bare (d : Dialect) : (w : Str) → (∀ c ∈ w, bareWordChar d c) → (t : Str) →
    popLoop d none (w ++ t) = (w ++ (popLoop d none t).1, (popLoop d none t).2)
  | [], _, t => rfl
  | c :: w, h, t => by
    obtain ⟨h1, h2⟩ := (bare_iff d c).1 (h c (by simp))
    have ih := popLoop_bare d w (fun x hx => h x (by simp [hx])) t
    rw [List.cons_append, popLoop]
    simp [h1, h2, ih]

/-- Where nothing opens a quote, the word is part of the text before the next blank. -/
theorem popLoop_upto (d : Dialect) : (u : Str) → (∀ c ∈ u, opensQuote d c = false) → (t : Str) → Ends t →
    ∀ c ∈ (popLoop d none (u ++ t)).1, c ∈ u
  | [], _, t, ht, c, hc => by
    have := popLoop_word d (.nil : Word d []) t ht
    rw [this] at hc; simp at hc
  | x :: u, h, t, ht, c, hc => by
    have h2 := h x (by simp)
    have ih := popLoop_upto d u (fun y hy => h y (by simp [hy])) t ht
    rw [List.cons_append, popLoop] at hc
    simp only [h2, Bool.false_eq_true, if_false] at hc
    split at hc
    · simp at hc
    · simp only [List.mem_cons] at hc
      rcases hc with hc | hc
      · simp [hc]
      · simp [ih c hc]

theorem dropWhile_all (p : Char → Bool) : (s : Str) → (∀ c ∈ s, p c = true) → (t : Str) → (∀ c, t.head? = some c → p c = false) →
    (s ++ t).dropWhile p = t
  | [], _, t, ht => by
    cases t with
    | nil => rfl
    | cons c cs => simp [ht c rfl]
  | x :: s, h, t, ht => by
    simp [h x (by simp), dropWhile_all p s (fun y hy => h y (by simp [hy])) t ht]

theorem trim_edges (l args r : Str) (hl : ∀ c ∈ l, c ∈ blanks) (hr : ∀ c ∈ r, c ∈ blanks)
    (he : ∀ c, args.head? = some c ∨ args.getLast? = some c → Sq.isSpace c = false) : trim (l ++ args ++ r) = args := by
  have sp : ∀ {c}, c ∈ blanks → Sq.isSpace c = true := fun h => isSpace_of_trim ((trimSpace_iff _).2 h)
  unfold trim
  cases args with
  | nil =>
    have : (l ++ [] ++ r).dropWhile Sq.isSpace = [] := by
      have := dropWhile_all Sq.isSpace (l ++ r) (fun c hc => by
        rcases List.mem_append.1 hc with h | h
        · exact sp (hl c h)
        · exact sp (hr c h)) [] (by simp)
      simpa using this
    rw [this]; rfl
  | cons a as =>
    have h1 : (l ++ (a :: as) ++ r).dropWhile Sq.isSpace = (a :: as) ++ r := by
      rw [List.append_assoc]
      exact dropWhile_all _ l (fun c hc => sp (hl c hc)) _ (fun c hc => he c (.inl (by simpa using hc)))
    rw [h1, List.reverse_append]
    rw [dropWhile_all _ r.reverse (fun c hc => sp (hr c (by simpa using hc))) _ (fun c hc => by
      rw [List.head?_reverse] at hc
      exact he c (.inr hc))]
    simp

theorem cut_name (w more : Str) (h : ∀ c ∈ w, c ∉ ['.', '(', ')']) (hm : more = [] ∨ ∃ m, more = '(' :: m) :
    beforeBracket (w ++ more) = w := by
  unfold beforeBracket
  have hb : '(' ∉ w := fun hc => by have := h _ hc; simp at this
  rcases hm with rfl | ⟨m, rfl⟩
  · simp [cutAt_none _ _ hb]
  · rw [cutAt_some _ _ _ hb]

/-- C51 (partial): from `... FUNCTION [schema.]name (args) RETURNS type ...` schema, name, arguments and return type are recorded exactly.
Missing: quoted names, brackets inside the arguments, and a dot or quote in the arguments of an unqualified name that touches its bracket
(`C51_function_violated`). -/
theorem C51_function_partial (sql schema name args ret : Str) (h : FunctionText sql schema name args ret) :
    populateFunction .postgres { sql := sql } = .ok { sql := sql, functionSchema := schema, functionName := name, rawArgs := args, returnType := ret } := by
  have kF := keyword_word .postgres h.kwFunction "FUNCTION" h.hkwFunction (by decide) (by decide)
  have kR := keyword_word .postgres h.kwReturns "RETURNS" h.hkwReturns (by decide) (by decide)
  let tail := h.sep2 ++ (h.kwReturns ++ (h.sep3 ++ (ret ++ h.rest)))
  let body := (h.l ++ args ++ h.r) ++ ')' :: tail
  let r := h.sep1 ++ (h.qual ++ (name ++ (h.gap ++ '(' :: body)))
  have s1 : seekWord .postgres "FUNCTION" sql = .ok r := by
    rw [h.text]
    exact seekWord_layout .postgres _ fold_function h.pre h.lead h.hlead h.hpre h.kwFunction kF.1 kF.2 h.hkwFunction _ (sep_ends h.hsep1 _)
  have ne1 : r ≠ [] := by
    have := h.hsep1.1
    simp [r, this]
  have sp : ∀ {c}, c ∈ blanks → Sq.isSpace c = true := fun h => isSpace_of_trim ((trimSpace_iff _).2 h)
  have bl : ∀ x ∈ ['(', ')', '.', '"'], x ∉ blanks := by decide
  have sub1 : ∀ x ∈ ['(', ')'], x ∈ ['.', '(', ')'] := by decide
  have sub2 : ∀ x ∈ ['(', ')'], x ∈ ['(', ')', '.', '"'] := by decide
  have hn : ∀ c ∈ name, bareWordChar .postgres c ∧ c ∉ ['.', '(', ')'] := fun c hc => h.hnames c (by simp [hc])
  have hs : ∀ c ∈ schema, bareWordChar .postgres c ∧ c ∉ ['.', '(', ')'] := fun c hc => h.hnames c (by simp [hc])
  have hq : ∀ c ∈ h.qual, bareWordChar .postgres c ∧ c ∉ ['(', ')'] := by
    intro c hc
    rcases h.hqual with ⟨e, _⟩ | ⟨_, e⟩
    · rw [e] at hc; simp at hc
    · rw [e] at hc
      simp only [List.mem_append, List.mem_singleton] at hc
      rcases hc with hc | rfl
      · have := hs c hc
        refine ⟨this.1, fun hm => this.2 (sub1 c hm)⟩
      · exact ⟨by rw [bare_iff]; decide, by decide⟩
  have hgap : ∀ (x : Char), x ∈ ['(', ')', '.', '"'] → x ∉ h.gap := fun x hx hm => bl x hx (h.hgap x hm)
  -- the word after FUNCTION
  have hp : ∃ more, (popToken .postgres r).1 = h.qual ++ (name ++ more) ∧ (more = [] ∨ ∃ m, more = '(' :: m) ∧
      (h.qual = [] → '.' ∉ more) := by
    have hall : ∀ c ∈ h.qual ++ name, bareWordChar .postgres c := by
      intro c hc
      rcases List.mem_append.1 hc with hc | hc
      · exact (hq c hc).1
      · exact (hn c hc).1
    have hd : (popToken .postgres r).1 = h.qual ++ (name ++ (popLoop .postgres none (h.gap ++ '(' :: body)).1) := by
      unfold popToken
      have hw := word_of_bare .postgres _ hall
      have hne : h.qual ++ name ≠ [] := by simp [h.hname]
      have e : r = h.sep1 ++ ((h.qual ++ name) ++ (h.gap ++ '(' :: body)) := by simp [r]
      rw [e, dropWhile_sep h.sep1 h.hsep1.2 _ (word_head hw hne _), popLoop_bare .postgres _ hall]
      simp
    refine ⟨_, hd, ?_, ?_⟩
    · by_cases hg : h.gap = []
      · right
        rw [hg, List.nil_append, popLoop]
        exact ⟨_, rfl⟩
      · left
        have := popLoop_word .postgres (.nil : Word .postgres []) (h.gap ++ '(' :: body) (sep_ends ⟨hg, h.hgap⟩ _)
        rw [List.nil_append] at this
        rw [this]
    · intro hqn
      by_cases hg : h.gap = []
      · have hc := h.hclose hqn hg
        have hnq : ∀ c ∈ '(' :: ((h.l ++ args ++ h.r) ++ [')']), opensQuote .postgres c = false ∧ c ≠ '.' := by
          intro c hm
          have hb : ∀ {c}, c ∈ blanks → opensQuote .postgres c = false ∧ c ≠ '.' := fun {c} => by
            revert c; decide
          simp only [List.mem_cons, List.mem_append, List.mem_singleton, List.not_mem_nil, or_false] at hm
          rcases hm with rfl | ((hm | hm) | hm) | rfl
          · decide
          · exact hb (h.hl c hm)
          · have := hc c hm
            simp only [List.mem_cons, List.not_mem_nil, or_false, not_or] at this
            refine ⟨?_, this.1⟩
            simp [opensQuote, this.2]
          · exact hb (h.hr c hm)
          · decide
        have hup := popLoop_upto .postgres ('(' :: ((h.l ++ args ++ h.r) ++ [')'])) (fun c hm => (hnq c hm).1) tail (sep_ends h.hsep2 _)
        intro hm
        have e : h.gap ++ '(' :: body = '(' :: ((h.l ++ args ++ h.r) ++ [')']) ++ tail := by simp [hg, body]
        rw [e] at hm
        exact (hnq _ (hup _ hm)).2 rfl
      · have := popLoop_word .postgres (.nil : Word .postgres []) (h.gap ++ '(' :: body) (sep_ends ⟨hg, h.hgap⟩ _)
        rw [List.nil_append] at this
        rw [this]; simp
  obtain ⟨more, hw, hm, hdot⟩ := hp
  have hf : functionNames { sql := sql } (popToken .postgres r).1 = { sql := sql, functionSchema := schema, functionName := name } := by
    rw [hw]
    unfold functionNames splitDot
    rcases h.hqual with ⟨e1, e2⟩ | ⟨hne, e1⟩
    · have hd : '.' ∉ h.qual ++ (name ++ more) := by
        rw [e1]
        simp only [List.nil_append, List.mem_append, not_or]
        exact ⟨fun hc => by have := (hn _ hc).2; simp at this, hdot e1⟩
      rw [cutAt_none _ _ hd, e1, e2]
      simp only [List.nil_append]
      rw [cut_name name more (fun c hc => (hn c hc).2) hm]
    · have hd : '.' ∉ schema := fun hc => by have := (hs _ hc).2; simp at this
      have e : h.qual ++ (name ++ more) = schema ++ '.' :: (name ++ more) := by rw [e1]; simp
      rw [e, cutAt_some _ _ _ hd]
      simp only
      rw [cut_name name more (fun c hc => (hn c hc).2) hm]
  -- brackets
  have hpre : ∀ (x : Char), x ∈ ['(', ')'] → x ∉ h.sep1 ++ (h.qual ++ (name ++ h.gap)) := by
    intro x hx hm
    have hx' := sub2 x hx
    simp only [List.mem_append] at hm
    rcases hm with hm | hm | hm | hm
    · exact bl x hx' (h.hsep1.2 x hm)
    · exact (hq x hm).2 hx
    · exact (hn x hm).2 (sub1 x hx)
    · exact hgap x hx' hm
  have hin : ∀ (x : Char), x ∈ ['(', ')'] → x ∉ h.l ++ args ++ h.r := by
    intro x hx hm
    have hx' := sub2 x hx
    simp only [List.mem_append] at hm
    rcases hm with (hm | hm) | hm
    · exact bl x hx' (h.hl x hm)
    · exact h.hargs x hm hx
    · exact bl x hx' (h.hr x hm)
  have c1 : cutAt '(' r = some (h.sep1 ++ (h.qual ++ (name ++ h.gap)), body) := by
    have e : r = (h.sep1 ++ (h.qual ++ (name ++ h.gap))) ++ '(' :: body := by simp [r]
    rw [e, cutAt_some _ _ _ (hpre _ (by simp))]
  have c2 : cutAt ')' r = some ((h.sep1 ++ (h.qual ++ (name ++ h.gap))) ++ '(' :: (h.l ++ args ++ h.r), tail) := by
    have e : r = ((h.sep1 ++ (h.qual ++ (name ++ h.gap))) ++ '(' :: (h.l ++ args ++ h.r)) ++ ')' :: tail := by simp [r, body]
    rw [e, cutAt_some]
    intro hm
    rw [List.mem_append, List.mem_cons] at hm
    rcases hm with hm | hm | hm
    · exact hpre ')' (by simp) hm
    · revert hm; decide
    · exact hin ')' (by simp) hm
  have c3 : cutAt ')' body = some (h.l ++ args ++ h.r, tail) := cutAt_some _ _ _ (hin _ (by simp))
  have p1 : popToken .postgres tail = (h.kwReturns, h.sep3 ++ (ret ++ h.rest)) :=
    popToken_word .postgres h.sep2 h.hsep2.2 kR.1 kR.2 _ (sep_ends h.hsep3 _)
  have p2 : popToken .postgres (h.sep3 ++ (ret ++ h.rest)) = (ret, h.rest) :=
    popToken_word .postgres h.sep3 h.hsep3.2 h.hret.1 h.hret.2 _ h.hrest
  unfold populateFunction
  rw [if_neg (by decide)]
  simp only [s1, Res.bind_ok, if_neg ne1, hf, c1, c2, c3]
  rw [if_neg (by simp)]
  simp only [functionReturn, p1, p2, fold_returns h.hkwReturns, if_true, trim_edges _ _ _ h.hl h.hr h.hedges]
  simp [checkFunction, h.hname]

/-- C51: reading a function whose text has no other white space than the Latin-1 blanks ends. -/
theorem C51_function_terminates_partial (d : Dialect) (f : Function) (h : ∀ c ∈ f.sql, Sq.isSpace c = true → c ∈ blanks) :
    populateFunction d f ≠ .hang := by
  have key : ∀ f, checkFunction f ≠ .hang := fun f => by
    unfold checkFunction; split <;> simp
  obtain ⟨r, hr, _⟩ := seekWord_ends d "FUNCTION" f.sql h
  unfold populateFunction
  split
  · simp
  · rw [hr, Res.bind_ok]
    split
    · exact key _
    · simp only
      split
      · simp
      · split
        · simp
        · split
          · simp
          · split
            · simp
            · exact key _

/-! ### What goes wrong -/

/-- The name a trigger text gives in quotes is recorded with its quotes: dropping that trigger (trigger.go:103, 115) quotes it again and so
names another trigger; and a quoted table never matches the table it is declared on (t.go:703-708).  A dot inside quotes splits the name. -/
theorem C51_trigger_quoted_violated :
    (populateTrigger .postgres { sql := "CREATE TRIGGER \"my trg\" AFTER INSERT ON \"my.tbl\" EXECUTE FUNCTION f()" } = .ok
      { sql := "CREATE TRIGGER \"my trg\" AFTER INSERT ON \"my.tbl\" EXECUTE FUNCTION f()", triggerName := "\"my trg\"",
        tableSchema := "\"my", tableName := "tbl\"" }) ∧
    _root_.Spec.readIdent .postgres "\"my trg\"" = some ("my trg".toList, []) := by
  decide +kernel

/-- An em space (or any other Unicode space outside Latin-1) before a word: reading the text never ends. -/
theorem C51_hang_violated :
    populateTrigger .sqlite { sql := "CREATE TRIGGER trg AFTER INSERT\u2003ON t BEGIN SELECT 1; END".toList } = .hang ∧
    populateFunction .postgres { sql := "CREATE\u2003FUNCTION f() RETURNS int AS $$ SELECT 1 $$".toList } = .hang := by
  decide +kernel

/-- A closing bracket before the first opening one panics. -/
theorem C51_function_panic_violated :
    populateFunction .postgres { sql := "CREATE FUNCTION \"f)\"() RETURNS int".toList } = .panic := by
  decide +kernel

/-- A qualified type directly after the bracket is taken for a schema; arguments with brackets are cut at the first closing one. -/
theorem C51_function_violated :
    populateFunction .postgres { sql := "CREATE FUNCTION f(public.t) RETURNS int".toList } = .ok
      { sql := "CREATE FUNCTION f(public.t) RETURNS int".toList, functionSchema := "f(public".toList, functionName := "t)".toList,
        rawArgs := "public.t".toList, returnType := "int".toList } ∧
    populateFunction .postgres { sql := "CREATE FUNCTION f(a numeric(10,2), b int) RETURNS int".toList } = .ok
      { sql := "CREATE FUNCTION f(a numeric(10,2), b int) RETURNS int".toList, functionName := "f".toList,
        rawArgs := "a numeric(10,2".toList } := by
  decide +kernel

/-! ### The hypotheses are met -/

theorem bare_literal (d : Dialect) (w : Str) (h : w.all (fun c => !Sq.isSpace c && !opensQuote d c) = true) : Word d w := by
  apply word_of_bare
  intro c hc
  rw [bare_iff]
  have := List.all_eq_true.1 h c hc
  simpa using this

/-- A SQLite trigger with IF NOT EXISTS, a quoted table name with a blank, a tab and a newline between words. -/
def triggerTextExample : TriggerText .sqlite "\nCREATE TEMP Trigger if NOT exists trg\tAFTER INSERT On \"my t\"\nBEGIN SELECT 1; END" "trg" "\"my t\"" where
  lead := "\n"
  pre := [("CREATE", " "), ("TEMP", " ")]
  kwTrigger := "Trigger"
  sep1 := " "
  ine := [("if", " "), ("NOT", " "), ("exists", " ")]
  sep2 := "\t"
  mid := [("AFTER", " "), ("INSERT", " ")]
  kwOn := "On"
  sep3 := " "
  rest := "\nBEGIN SELECT 1; END"
  text := by decide
  hlead := by decide
  hpre := by
    intro p hp
    simp only [List.mem_cons, List.not_mem_nil, or_false] at hp
    rcases hp with rfl | rfl <;> exact ⟨bare_literal _ _ (by decide), by decide, ⟨by decide, by decide⟩, by unfold sameKeyword; decide⟩
  hkwTrigger := by unfold sameKeyword; decide
  hsep1 := ⟨by decide, by decide⟩
  hine := .inr ⟨rfl, "if".toList, " ".toList, "NOT".toList, " ".toList, "exists".toList, " ".toList, rfl,
    by unfold sameKeyword; decide, by unfold sameKeyword; decide, by unfold sameKeyword; decide,
    ⟨by decide, by decide⟩, ⟨by decide, by decide⟩, ⟨by decide, by decide⟩⟩
  hname := ⟨bare_literal _ _ (by decide), by decide⟩
  hsep2 := ⟨by decide, by decide⟩
  hmid := by
    intro p hp
    simp only [List.mem_cons, List.not_mem_nil, or_false] at hp
    rcases hp with rfl | rfl <;> exact ⟨bare_literal _ _ (by decide), by decide, ⟨by decide, by decide⟩, by unfold sameKeyword; decide⟩
  hkwOn := by unfold sameKeyword; decide
  hsep3 := ⟨by decide, by decide⟩
  htable := ⟨.quoted (q := ('"', '"')) (body := "my t".toList) (w := []) (x := "my t".toList) (by decide) (by decide) (by decide) .nil, by decide⟩
  hrest := by intro c hc; simp at hc; subst hc; decide

example := C51_trigger_partial .sqlite { sql := "\nCREATE TEMP Trigger if NOT exists trg\tAFTER INSERT On \"my t\"\nBEGIN SELECT 1; END" } _ _
  triggerTextExample (by decide)

/-- `CREATE FUNCTION s.f( a int, b text ) RETURNS int LANGUAGE sql`. -/
def functionTextExample : FunctionText "CREATE FUNCTION s.f( a int, b text ) RETURNS int LANGUAGE sql" "s" "f" "a int, b text" "int" where
  lead := []
  pre := [("CREATE", " ")]
  kwFunction := "FUNCTION"
  sep1 := " "
  qual := "s."
  gap := []
  l := " "
  r := " "
  sep2 := " "
  kwReturns := "RETURNS"
  sep3 := " "
  rest := " LANGUAGE sql"
  text := by decide
  hlead := by decide
  hpre := by
    intro p hp
    simp only [List.mem_cons, List.not_mem_nil, or_false] at hp
    subst hp
    exact ⟨bare_literal _ _ (by decide), by decide, ⟨by decide, by decide⟩, by unfold sameKeyword; decide⟩
  hkwFunction := by unfold sameKeyword; decide
  hsep1 := ⟨by decide, by decide⟩
  hqual := .inr ⟨by decide, rfl⟩
  hnames := by
    intro c hc
    rw [bare_iff]
    revert c; decide
  hname := by decide
  hgap := by decide
  hargs := by decide
  hl := by decide
  hr := by decide
  hedges := by
    intro c hc
    rcases hc with hc | hc <;> (simp at hc; subst hc; decide)
  hclose := by intro h; revert h; decide
  hsep2 := ⟨by decide, by decide⟩
  hkwReturns := by unfold sameKeyword; decide
  hsep3 := ⟨by decide, by decide⟩
  hret := ⟨bare_literal _ _ (by decide), by decide⟩
  hrest := by intro c hc; simp at hc; subst hc; decide

example : ∃ f, populateFunction .postgres { sql := "CREATE FUNCTION s.f( a int, b text ) RETURNS int LANGUAGE sql" } = .ok f ∧ f.rawArgs = "a int, b text" :=
  ⟨_, C51_function_partial _ _ _ _ _ functionTextExample, rfl⟩

example : ∀ c ∈ "CREATE TRIGGER\u00A0trg ON t".toList, Sq.isSpace c = true → c ∈ blanks := by decide

/-! ## Function files -/

theorem populateFunction_sql (d : Dialect) (f g : Function) (h : populateFunction d f = .ok g) : g.sql = f.sql ∧ g.ignore = f.ignore := by
  have key : ∀ a b, checkFunction a = .ok b → b = a := fun a b h => by
    unfold checkFunction at h; split at h <;> simp_all
  have nm : ∀ f w, (functionNames f w).sql = f.sql ∧ (functionNames f w).ignore = f.ignore := fun f w => by
    unfold functionNames
    cases splitDot w <;> exact ⟨rfl, rfl⟩
  have rt : ∀ d f w, (functionReturn d f w).sql = f.sql ∧ (functionReturn d f w).ignore = f.ignore := fun d f w => by
    unfold functionReturn; split <;> simp
  unfold populateFunction at h
  split at h
  · simp only [Res.ok.injEq] at h; subst h; exact ⟨rfl, rfl⟩
  · obtain ⟨r, _, h⟩ := (Res.bind_eq_ok _ _ _).1 h
    split at h
    · rw [key _ _ h]; exact ⟨rfl, rfl⟩
    · simp only at h
      split at h
      · simp at h
      · split at h
        · simp at h
        · split at h
          · simp at h
          · split at h
            · simp at h
            · rw [key _ _ h, (rt _ _ _).1, (rt _ _ _).2]
              exact nm _ _

/-- C51: `FilesToFunctions` answers with one function per file, in the order of the files, each with the text of its file and the names
read from it, and with nothing at all if one of the files cannot be read or has no readable header. -/
theorem C51_files (d : Dialect) (read : Str → Option Str) (names : List Str) (fs : List Function) :
    filesToFunctions d read names = .ok fs ↔
      fs.length = names.length ∧
      ∀ (i : Nat) n f, names[i]? = some n → fs[i]? = some f → ∃ text, read n = some text ∧ f.sql = text ∧ populateFunction d { sql := text } = .ok f := by
  induction names generalizing fs with
  | nil => cases fs <;> simp [filesToFunctions]
  | cons n ns ih =>
    unfold filesToFunctions
    constructor
    · intro h
      split at h
      · simp at h
      · rename_i text ht
        split at h
        · rename_i f hf
          obtain ⟨gs, hg, h⟩ := (Res.bind_eq_ok _ _ _).1 h
          simp only [Res.ok.injEq] at h
          subst h
          obtain ⟨hl, hi⟩ := (ih gs).1 hg
          refine ⟨by simp [hl], fun i n' f' hn hf' => ?_⟩
          cases i with
          | zero =>
            simp only [List.getElem?_cons_zero, Option.some.injEq] at hn hf'
            subst hn; subst hf'
            exact ⟨text, ht, (populateFunction_sql d _ _ hf).1, hf⟩
          | succ i => exact hi i n' f' (by simpa using hn) (by simpa using hf')
        all_goals simp at h
    · rintro ⟨hl, hi⟩
      cases fs with
      | nil => simp at hl
      | cons f fs =>
        obtain ⟨text, ht, _, hf⟩ := hi 0 n f rfl rfl
        have := (ih fs).2 ⟨by simpa using hl, fun i n' f' hn hf' => hi (i + 1) n' f' (by simpa using hn) (by simpa using hf')⟩
        simp only [ht, hf, this, Res.bind_ok]

/-- C51 (partial, see `C51_function_partial`): files that hold `CREATE FUNCTION` texts become the functions those texts declare. -/
theorem C51_files_partial (read : Str → Option Str) (names : List Str) (sql schema name args ret : Str → Str)
    (hr : ∀ n ∈ names, read n = some (sql n))
    (h : ∀ n ∈ names, Nonempty (FunctionText (sql n) (schema n) (name n) (args n) (ret n))) :
    filesToFunctions .postgres read names = .ok (names.map fun n =>
      { sql := sql n, functionSchema := schema n, functionName := name n, rawArgs := args n, returnType := ret n }) := by
  rw [C51_files]
  refine ⟨by simp, fun i n f hn hf => ?_⟩
  have hm : n ∈ names := List.mem_of_getElem? hn
  rw [List.getElem?_map, hn] at hf
  simp only [Option.map_some, Option.some.injEq] at hf
  subst hf
  obtain ⟨ht⟩ := h n hm
  exact ⟨sql n, hr n hm, rfl, C51_function_partial _ _ _ _ _ ht⟩

/-- Two files. -/
example : filesToFunctions .postgres
    (fun n => if n = "a.sql".toList then some "CREATE FUNCTION s.f( a int, b text ) RETURNS int LANGUAGE sql".toList
      else if n = "b.sql".toList then some "create or replace function g() returns trigger".toList else none)
    ["a.sql".toList, "b.sql".toList] = .ok
      [{ sql := "CREATE FUNCTION s.f( a int, b text ) RETURNS int LANGUAGE sql".toList, functionSchema := "s".toList,
         functionName := "f".toList, rawArgs := "a int, b text".toList, returnType := "int".toList },
       { sql := "create or replace function g() returns trigger".toList, functionName := "g".toList, returnType := "trigger".toList }] := by
  decide +kernel

/-- One bad file: nothing is returned. -/
example : filesToFunctions .postgres (fun _ => some "SELECT 1".toList) ["a.sql".toList, "b.sql".toList]
    = .err "populating function from a.sql: could not find function name".toList := by decide +kernel

end Ddl
