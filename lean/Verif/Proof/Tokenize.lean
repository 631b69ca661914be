import Verif.Spec.Tags
namespace Sq
open Spec

/-! ### the scanning loop -/

theorem cutLoop_append (bq : Bool) (s : Str) (lvl : Nat) (v r : Str) (l : Nat) (h : cutLoop bq lvl s = .ok (v, r, l)) :
    v ++ r = s := by
  induction s generalizing lvl v r l with
  | nil => simp [cutLoop] at h; obtain ⟨rfl, rfl, _⟩ := h; rfl
  | cons c cs ih =>
    simp only [cutLoop] at h
    split at h
    · simp at h
    · generalize (if c = '{' then lvl + 1 else if c = '}' then lvl - 1 else lvl) = lvl' at h
      split at h
      · simp at h; obtain ⟨rfl, rfl, _⟩ := h; rfl
      · split at h
        · simp at h; obtain ⟨rfl, rfl, _⟩ := h; rfl
        · cases hc : cutLoop bq lvl' cs with
          | ok t =>
            obtain ⟨v', r', l'⟩ := t
            rw [hc] at h; simp at h
            obtain ⟨rfl, rfl, rfl⟩ := h
            simp [ih lvl' v' r' l' hc]
          | err e => rw [hc] at h; simp [Res.map] at h
          | panic => rw [hc] at h; simp [Res.map] at h
          | hang => rw [hc] at h; simp [Res.map] at h

theorem cutLoop_noPanic (bq : Bool) (s : Str) (lvl : Nat) : cutLoop bq lvl s ≠ .panic ∧ cutLoop bq lvl s ≠ .hang := by
  induction s generalizing lvl with
  | nil => simp [cutLoop]
  | cons c cs ih =>
    simp only [cutLoop]
    generalize (if c = '{' then lvl + 1 else if c = '}' then lvl - 1 else lvl) = lvl'
    split
    · simp
    · split
      · simp
      · split
        · simp
        · have := ih lvl'
          cases hc : cutLoop bq lvl' cs <;> simp_all [Res.map]

theorem depth_append (n : Nat) (a b : Str) : depth n (a ++ b) = (depth n a).bind (fun k => depth k b) := by
  induction a generalizing n with
  | nil => simp [depth]
  | cons c cs ih =>
    simp only [List.cons_append, depth]
    split
    · exact ih _
    · split
      · cases n with
        | zero => rfl
        | succ n => exact ih _
      · exact ih _

theorem depth_shift (n k : Nat) (s : Str) (h : depth n s = some k) : depth (n + 1) s = some (k + 1) := by
  induction s generalizing n with
  | nil => simp [depth] at h ⊢; exact h
  | cons c cs ih =>
    simp only [depth] at h ⊢
    split
    · rename_i hc; rw [if_pos hc] at h; exact ih _ h
    · rename_i hc; rw [if_neg hc] at h
      split
      · rename_i hc2; rw [if_pos hc2] at h
        cases n with
        | zero => simp at h
        | succ n => exact ih _ h
      · rename_i hc2; rw [if_neg hc2] at h; exact ih _ h

/-- The level at the end of the loop is the depth of the token. -/
theorem cutLoop_depth (bq : Bool) (s : Str) (lvl : Nat) (v r : Str) (l : Nat) (h : cutLoop bq lvl s = .ok (v, r, l)) :
    depth lvl v = some l := by
  induction s generalizing lvl v r l with
  | nil => simp [cutLoop] at h; obtain ⟨rfl, rfl, rfl⟩ := h; simp [depth]
  | cons c cs ih =>
    simp only [cutLoop] at h
    split at h
    · simp at h
    · rename_i hc0
      generalize hl : (if c = '{' then lvl + 1 else if c = '}' then lvl - 1 else lvl) = lvl' at h
      have step : ∀ t, depth lvl (c :: t) = depth lvl' t := by
        intro t
        simp only [depth]
        by_cases h1 : c = '{'
        · simp [h1] at hl ⊢; rw [hl]
        · by_cases h2 : c = '}'
          · simp only [h1, h2, if_true, if_false] at hl ⊢
            cases lvl with
            | zero => exact absurd ⟨h2, rfl⟩ hc0
            | succ n => simp at hl; subst hl; rfl
          · simp [h1, h2] at hl ⊢; rw [hl]
      split at h
      · rename_i hb
        simp at h; obtain ⟨rfl, rfl, rfl⟩ := h
        rw [step]; simp [depth, hb.1]
      · split at h
        · rename_i hb
          simp at h; obtain ⟨rfl, rfl, rfl⟩ := h
          -- a space: the level is unchanged
          have h1 : c ≠ '{' := by rintro rfl; exact absurd hb.2 (by decide)
          have h2 : c ≠ '}' := by rintro rfl; exact absurd hb.2 (by decide)
          simp [h1, h2] at hl
          simp [depth, hl, hb.1]
        · cases hc : cutLoop bq lvl' cs with
          | ok t =>
            obtain ⟨v', r', l'⟩ := t
            rw [hc] at h; simp at h
            obtain ⟨rfl, rfl, rfl⟩ := h
            rw [step]; exact ih lvl' v' r' l' hc
          | err e => rw [hc] at h; simp [Res.map] at h
          | panic => rw [hc] at h; simp [Res.map] at h
          | hang => rw [hc] at h; simp [Res.map] at h

/-- Inside braces the loop runs through a balanced text. -/
theorem cutLoop_inside (bq : Bool) (v rest : Str) (n k : Nat) (h : depth n v = some k) :
    cutLoop bq (n + 1) (v ++ rest) = (cutLoop bq (k + 1) rest).map (fun r => (v ++ r.1, r.2)) := by
  induction v generalizing n with
  | nil =>
    simp [depth] at h; subst h
    cases hc : cutLoop bq (n + 1) rest <;> simp [hc, Res.map]
  | cons c cs ih =>
    simp only [List.cons_append, cutLoop]
    rw [if_neg (by simp)]
    simp only [depth] at h
    have fin : ∀ n', depth n' cs = some k →
        Res.map (fun r => (c :: r.1, r.2)) (cutLoop bq (n' + 1) (cs ++ rest)) =
          (cutLoop bq (k + 1) rest).map (fun r => (c :: cs ++ r.1, r.2)) := by
      intro n' hn'
      rw [ih n' hn']
      cases cutLoop bq (k + 1) rest <;> simp [Res.map]
    split at h
    · rename_i h1
      rw [if_pos h1, if_neg (by simp), if_neg (by simp)]
      exact fin (n + 1) h
    · rename_i h1
      rw [if_neg h1]
      split at h
      · rename_i h2
        rw [if_pos h2]
        cases n with
        | zero => simp at h
        | succ n =>
          rw [show n + 1 + 1 - 1 = n + 1 from rfl, if_neg (by simp), if_neg (by simp)]
          exact fin n h
      · rename_i h2
        rw [if_neg h2, if_neg (by simp), if_neg (by simp)]
        exact fin n h

/-- Outside braces the loop runs through a text without spaces and braces. -/
theorem cutLoop_word (v rest : Str) (h : ∀ c ∈ v, isSpace c = false ∧ c ≠ '{' ∧ c ≠ '}') :
    cutLoop false 0 (v ++ rest) = (cutLoop false 0 rest).map (fun r => (v ++ r.1, r.2)) := by
  induction v with
  | nil => cases hc : cutLoop false 0 rest <;> simp [hc, Res.map]
  | cons c cs ih =>
    obtain ⟨h1, h2, h3⟩ := h c (by simp)
    simp only [List.cons_append, cutLoop, h1, h2, h3, if_false, false_and]
    simp only [Bool.false_eq_true, and_false, if_false]
    rw [ih (fun x hx => h x (List.mem_cons_of_mem _ hx))]
    cases cutLoop false 0 rest <;> simp [Res.map]

/-- End of a token: end of input or a space. -/
def TokenEnd (rest : Str) : Prop := rest = [] ∨ ∃ c cs, rest = c :: cs ∧ trimSpace c = true

theorem trim_isSpace (c : Char) (h : trimSpace c = true) : isSpace c = true := by simp [isSpace, h]
theorem isSpace_not_trim (c : Char) (h : isSpace c = false) : trimSpace c = false := by
  cases ht : trimSpace c with
  | false => rfl
  | true => rw [trim_isSpace c ht] at h; exact absurd h (by simp)

theorem cutLoop_end (rest : Str) (h : TokenEnd rest) : cutLoop false 0 rest = .ok ([], rest, 0) := by
  rcases h with rfl | ⟨c, cs, rfl, hc⟩
  · simp [cutLoop]
  · have h1 : c ≠ '{' := by rintro rfl; exact absurd hc (by decide)
    have h2 : c ≠ '}' := by rintro rfl; exact absurd hc (by decide)
    simp [cutLoop, h1, h2, trim_isSpace c hc]

theorem dropWhile_gap (g rest : Str) (h : ∀ c ∈ g, trimSpace c = true) (hr : ∀ c cs, rest = c :: cs → trimSpace c = false) :
    (g ++ rest).dropWhile trimSpace = rest := by
  induction g with
  | nil =>
    cases rest with
    | nil => rfl
    | cons c cs => simp [List.dropWhile, hr c cs rfl]
  | cons c cs ih =>
    simp only [List.cons_append, List.dropWhile, h c (by simp)]
    exact ih (fun x hx => h x (List.mem_cons_of_mem _ hx))

theorem word_head (w : Str) (h : Word w) : ∃ c cs, w = c :: cs ∧ isSpace c = false ∧ c ≠ '{' ∧ c ≠ '}' ∧ c ≠ '=' := by
  cases w with
  | nil => exact absurd rfl h.1
  | cons c cs => exact ⟨c, cs, rfl, h.2 c (by simp)⟩

/-- Cutting a written modifier off a modifier list. -/
theorem cutValue_modifier (g : Str) (hg : ∀ c ∈ g, trimSpace c = true) (m : Modifier) (hm : m.Ok) (rest : Str)
    (hr : TokenEnd rest) : cutValue (g ++ m.write ++ rest) = .ok (m.write, rest) := by
  obtain ⟨c, cs, hn, h1, h2, h3, h4⟩ := word_head m.name hm.1
  have hcs : ∀ x ∈ m.name, isSpace x = false ∧ x ≠ '{' ∧ x ≠ '}' := fun x hx => by
    have := hm.1.2 x hx; exact ⟨this.1, this.2.1, this.2.2.1⟩
  have hloop : cutLoop false 0 (m.write ++ rest) = .ok (m.write, rest, 0) := by
    unfold Modifier.write
    cases hv : m.value with
    | none =>
      simp only
      rw [cutLoop_word _ _ hcs, cutLoop_end rest hr]; simp
    | some v =>
      simp only
      have hb := hm.2 v hv
      cases hbare : m.bare with
      | true =>
        rw [hbare] at hb
        simp only [if_true] at hb ⊢
        rw [cutLoop_word (m.name ++ '=' :: v) _ (by
          intro x hx
          rcases List.mem_append.1 hx with hx | hx
          · exact hcs x hx
          · rcases List.mem_cons.1 hx with rfl | hx
            · decide
            · exact hb.2 x hx), cutLoop_end rest hr]
        simp
      | false =>
      rw [hbare] at hb
      simp only [Bool.false_eq_true, if_false] at hb ⊢
      have e : m.name ++ '=' :: '{' :: v ++ ['}'] ++ rest = (m.name ++ ['=']) ++ ('{' :: (v ++ ('}' :: rest))) := by simp
      rw [e, cutLoop_word (m.name ++ ['=']) _ (by
        intro x hx
        rcases List.mem_append.1 hx with hx | hx
        · exact hcs x hx
        · simp at hx; subst hx; decide)]
      have e2 : cutLoop false 0 ('{' :: (v ++ ('}' :: rest))) = .ok ('{' :: (v ++ ['}']), rest, 0) := by
        simp only [cutLoop]
        simp only [if_true, Bool.false_eq_true, and_false, if_false]
        rw [show (0 + 1 : Nat) = 0 + 1 from rfl, cutLoop_inside false v ('}' :: rest) 0 0 hb]
        simp only [cutLoop]
        have : isSpace '}' = false := by decide
        simp [this, cutLoop_end rest hr, Res.map]
      rw [e2]
      simp
  unfold cutValue
  rw [List.append_assoc, dropWhile_gap g (m.write ++ rest) hg (by
    intro x xs hx
    have : m.write ++ rest = c :: (cs ++ (m.write.drop m.name.length ++ rest)) := by
      unfold Modifier.write; cases m.value <;> cases m.bare <;> simp [hn]
    rw [this] at hx
    simp at hx
    rw [← hx.1]; exact isSpace_not_trim c h1)]
  have hw : ∃ t, m.write ++ rest = c :: t := by
    unfold Modifier.write; cases m.value <;> cases m.bare <;> simp [hn]
  obtain ⟨t, ht⟩ := hw
  rw [ht] at hloop ⊢
  simp only [h2, decide_false]
  rw [hloop]
  simp only [Res.bind_ok]
  rfl

theorem splitEq_word (w rest : Str) (h : '=' ∉ w) : splitEq (w ++ '=' :: rest) = some (w, rest) := by
  induction w with
  | nil => simp [splitEq]
  | cons c cs ih =>
    have hc : c ≠ '=' := fun e => h (by simp [e])
    simp [splitEq, hc, ih (fun hm => h (List.mem_cons_of_mem _ hm))]
theorem splitEq_none (w : Str) (h : '=' ∉ w) : splitEq w = none := by
  induction w with
  | nil => rfl
  | cons c cs ih =>
    have hc : c ≠ '=' := fun e => h (by simp [e])
    simp [splitEq, hc, ih (fun hm => h (List.mem_cons_of_mem _ hm))]

theorem splitModifier_write (m : Modifier) (hm : m.Ok) : splitModifier m.write = .ok m.read := by
  have hne : '=' ∉ m.name := fun h => (hm.1.2 _ h).2.2.2 rfl
  unfold splitModifier Modifier.write Modifier.read
  cases hv : m.value with
  | none => simp [splitEq_none _ hne]
  | some v =>
    have hb := hm.2 v hv
    simp only
    cases hbare : m.bare with
    | true =>
      rw [hbare] at hb
      simp only [if_true] at hb ⊢
      rw [splitEq_word _ _ hne]
      cases v with
      | nil => exact absurd rfl hb.1
      | cons c cs => simp [(hb.2 c (by simp)).2.1]
    | false =>
    simp only [Bool.false_eq_true, if_false]
    rw [show m.name ++ '=' :: '{' :: v ++ ['}'] = m.name ++ '=' :: ('{' :: (v ++ ['}'])) by simp, splitEq_word _ _ hne]
    simp

theorem write_ne_nil (m : Modifier) (hm : m.Ok) : m.write ≠ [] := by
  have := hm.1.1
  unfold Modifier.write
  cases m.value <;> cases m.bare <;> simp [this]

theorem tokenEnd_mods (ms : List (Str × Modifier)) (h : ∀ p ∈ ms, Gap p.1) : TokenEnd (writeMods ms) := by
  cases ms with
  | nil => exact Or.inl rfl
  | cons p ms =>
    obtain ⟨g, m⟩ := p
    obtain ⟨h1, h2⟩ := h (g, m) (by simp)
    cases g with
    | nil => exact absurd rfl h1
    | cons c cs => exact Or.inr ⟨c, _, rfl, h2 c (by simp)⟩

theorem lexModifiers_step (k : Bool) (s tok rest : Str) (m : Str × Str) (ms : List (Str × Str)) (hs : s ≠ [])
    (hc : cutValue s = .ok (tok, rest)) (hl : rest.length < s.length) (ht : tok ≠ [])
    (hm : splitModifier tok = .ok m) (hr : lexModifiers k rest = .ok ms) : lexModifiers k s = .ok (m :: ms) := by
  rw [lexModifiers.eq_def, if_neg hs, hc]
  simp [hl, ht, hm, hr]

theorem lexModifiers_write (k : Bool) (ms : List (Str × Modifier)) (hg : ∀ p ∈ ms, Gap p.1) (hm : ∀ p ∈ ms, p.2.Ok) :
    lexModifiers k (writeMods ms) = .ok (ms.map fun p => p.2.read) := by
  induction ms with
  | nil => rw [lexModifiers.eq_def]; simp [writeMods]
  | cons p ms ih =>
    obtain ⟨g, m⟩ := p
    have ih := ih (fun p hp => hg p (List.mem_cons_of_mem _ hp)) (fun p hp => hm p (List.mem_cons_of_mem _ hp))
    have hg0 := hg (g, m) (by simp)
    have hm0 := hm (g, m) (by simp)
    have ht := tokenEnd_mods ms (fun p hp => hg p (List.mem_cons_of_mem _ hp))
    have hw := write_ne_nil m hm0
    simp only [writeMods, List.map_cons]
    refine lexModifiers_step k _ m.write (writeMods ms) _ _ ?_ (cutValue_modifier g hg0.2 m hm0 _ ht) ?_ hw
      (splitModifier_write m hm0) ih
    · simp [hg0.1]
    · have : m.write.length ≠ 0 := by simpa using hw
      simp; omega

/-! ### errors -/

theorem gap_depth (g : Str) (h : ∀ c ∈ g, trimSpace c = true) (n : Nat) : depth n g = some n := by
  induction g with
  | nil => rfl
  | cons c cs ih =>
    have hc := h c (by simp)
    have h1 : c ≠ '{' := by rintro rfl; exact absurd hc (by decide)
    have h2 : c ≠ '}' := by rintro rfl; exact absurd hc (by decide)
    simp [depth, h1, h2, ih (fun x hx => h x (List.mem_cons_of_mem _ hx))]

/-- A brace-quoted token ends with its closing brace. -/
theorem cutLoop_quoted_end (t : Str) (n : Nat) (v r : Str) (h : cutLoop true (n + 1) t = .ok (v, r, 0)) :
    ∃ v', v = v' ++ ['}'] := by
  induction t generalizing n v r with
  | nil => simp [cutLoop] at h
  | cons y ys ih =>
    simp only [cutLoop] at h
    rw [if_neg (by simp)] at h
    generalize hl : (if y = '{' then n + 1 + 1 else if y = '}' then n + 1 - 1 else n + 1) = lvl' at h
    rcases Nat.eq_zero_or_pos lvl' with hz | hz
    · subst hz
      simp only [true_and, if_true] at h
      injection h with h
      injection h with h h'
      have : y = '}' := by
        refine Classical.byContradiction fun hy => ?_
        rw [if_neg hy] at hl
        split at hl <;> omega
      exact ⟨[], by rw [← h, this]; rfl⟩
    · obtain ⟨n', rfl⟩ := Nat.exists_eq_succ_of_ne_zero (Nat.ne_of_gt hz)
      rw [if_neg (by simp), if_neg (by simp)] at h
      cases hc : cutLoop true (n' + 1) ys with
      | ok t' =>
        obtain ⟨v', r', l'⟩ := t'
        rw [hc] at h
        simp only [Res.map_ok, Res.ok.injEq, Prod.mk.injEq] at h
        obtain ⟨rfl, rfl, rfl⟩ := h
        obtain ⟨w, rfl⟩ := ih n' v' r' hc
        exact ⟨y :: w, by simp⟩
      | err e => rw [hc] at h; simp [Res.map] at h
      | panic => rw [hc] at h; simp [Res.map] at h
      | hang => rw [hc] at h; simp [Res.map] at h

theorem cutLoop_quoted (cs v r : Str) (h : cutLoop true 0 ('{' :: cs) = .ok (v, r, 0)) :
    ∃ w, v = '{' :: w ++ ['}'] := by
  simp only [cutLoop] at h
  rw [if_neg (by simp)] at h
  simp only [if_true] at h
  rw [if_neg (by simp), if_neg (by simp)] at h
  cases hc : cutLoop true (0 + 1) cs with
  | ok t' =>
    obtain ⟨v', r', l'⟩ := t'
    rw [hc] at h
    simp only [Res.map_ok, Res.ok.injEq, Prod.mk.injEq] at h
    obtain ⟨rfl, rfl, rfl⟩ := h
    obtain ⟨w, rfl⟩ := cutLoop_quoted_end cs 0 v' r' hc
    exact ⟨w, rfl⟩
  | err e => rw [hc] at h; simp [Res.map] at h
  | panic => rw [hc] at h; simp [Res.map] at h
  | hang => rw [hc] at h; simp [Res.map] at h

/-- The result of `cutValue` in terms of the scanning loop. -/
theorem cutValue_ok (s tok rest : Str) (h : cutValue s = .ok (tok, rest)) :
    (s.dropWhile trimSpace = [] ∧ tok = [] ∧ rest = []) ∨
    ∃ c cs v, s.dropWhile trimSpace = c :: cs ∧ cutLoop (decide (c = '{')) 0 (c :: cs) = .ok (v, rest, 0) ∧
      ((c = '{' ∧ tok = v.tail.dropLast) ∨ (c ≠ '{' ∧ tok = v)) := by
  unfold cutValue at h
  cases hd : s.dropWhile trimSpace with
  | nil => rw [hd] at h; simp at h; exact Or.inl ⟨rfl, h.1, h.2⟩
  | cons c cs =>
    right
    rw [hd] at h
    simp only [Res.bind_eq_ok] at h
    obtain ⟨⟨v, r, l⟩, hcut, h⟩ := h
    dsimp only at h
    split at h
    · injection h
    · rename_i hl
      have hl0 : l = 0 := by omega
      subst hl0
      split at h
      · rename_i hb
        injection h with h; injection h with h1 h2
        subst h2
        exact ⟨c, cs, v, rfl, hcut, Or.inl ⟨of_decide_eq_true hb, h1.symm⟩⟩
      · rename_i hb
        injection h with h; injection h with h1 h2
        subst h2
        exact ⟨c, cs, v, rfl, hcut, Or.inr ⟨fun e => hb (decide_eq_true e), h1.symm⟩⟩

/-- A token that is cut off is balanced, and nothing but leading space is lost. -/
theorem cutValue_split (s tok rest : Str) (h : cutValue s = .ok (tok, rest)) :
    ∃ g raw, s = g ++ raw ++ rest ∧ (∀ c ∈ g, trimSpace c = true) ∧ Balanced raw ∧
      (raw = tok ∨ raw = '{' :: tok ++ ['}']) := by
  have hsplit : s = s.takeWhile trimSpace ++ s.dropWhile trimSpace := (List.takeWhile_append_dropWhile).symm
  have hg : ∀ c ∈ s.takeWhile trimSpace, trimSpace c = true := by
    intro c hc
    have := List.all_takeWhile (l := s) (p := trimSpace)
    exact List.all_eq_true.1 this c hc
  rcases cutValue_ok s tok rest h with ⟨hd, rfl, rfl⟩ | ⟨c, cs, v, hd, hcut, ht⟩
  · rw [hd] at hsplit
    exact ⟨_, [], by simpa using hsplit, hg, rfl, Or.inl rfl⟩
  · have ha := cutLoop_append _ _ _ _ _ _ hcut
    have hdp := cutLoop_depth _ _ _ _ _ _ hcut
    rw [hd, ← ha] at hsplit
    refine ⟨s.takeWhile trimSpace, v, by rw [List.append_assoc]; exact hsplit, hg, hdp, ?_⟩
    rcases ht with ⟨rfl, rfl⟩ | ⟨_, rfl⟩
    · right
      obtain ⟨w, rfl⟩ := cutLoop_quoted cs v rest hcut
      simp
    · exact Or.inl rfl

theorem cutValue_noPanic (s : Str) : cutValue s ≠ .panic ∧ cutValue s ≠ .hang := by
  unfold cutValue
  cases s.dropWhile trimSpace with
  | nil => exact ⟨(fun h => nomatch h), (fun h => nomatch h)⟩
  | cons c cs =>
    have := cutLoop_noPanic (decide (c = '{')) (c :: cs) 0
    dsimp only
    cases hc : cutLoop (decide (c = '{')) 0 (c :: cs) with
    | ok t =>
      simp only [Res.bind_ok]
      constructor
      · split
        · exact fun h => nomatch h
        · split <;> exact fun h => nomatch h
      · split
        · exact fun h => nomatch h
        · split <;> exact fun h => nomatch h
    | err e => exact ⟨(fun h => nomatch h), (fun h => nomatch h)⟩
    | panic => exact absurd hc this.1
    | hang => exact absurd hc this.2

/-- If the whole list is accepted, the text is balanced. -/
theorem lexModifiers_balanced (k : Bool) (s : Str) (ms : List (Str × Str)) (h : lexModifiers k s = .ok ms) :
    Balanced s := by
  induction hn : s.length using Nat.strongRecOn generalizing s ms with
  | ind n ih =>
  rw [lexModifiers.eq_def] at h
  split at h
  · rename_i e; subst e; simp [Balanced, depth]
  · simp only [Res.bind_eq_ok] at h
    obtain ⟨⟨tok, rest⟩, hc, h⟩ := h
    simp only at h
    split at h
    · rename_i hl
      have hb : Balanced rest := by
        split at h
        · exact ih _ (by omega) rest ms h rfl
        · simp only [Res.bind_eq_ok] at h
          obtain ⟨m, _, h⟩ := h
          cases hr : lexModifiers k rest with
          | ok ms' => exact ih _ (by omega) rest ms' hr rfl
          | err e => rw [hr] at h; simp [Res.map] at h
          | panic => rw [hr] at h; simp [Res.map] at h
          | hang => rw [hr] at h; simp [Res.map] at h
      obtain ⟨g, raw, rfl, hg, hraw, _⟩ := cutValue_split s tok rest hc
      unfold Balanced at hb hraw ⊢
      rw [depth_append, depth_append, gap_depth g hg]
      simp [hraw, hb]
    · simp at h

/-- ASCII characters: the two notions of white space agree. -/
theorem ascii_isSpace (c : Char) (h : c.val < 128) : isSpace c = trimSpace c := by
  unfold isSpace
  have : c.val.toNat < 128 := h
  have e1 : ¬ c.val = 0x1680 := by intro e; rw [e] at this; exact absurd this (by decide)
  have e2 : ¬ (0x2000 ≤ c.val) := by
    intro e; have h2 : (0x2000 : UInt32).toNat ≤ c.val.toNat := e; have h3 : (0x2000 : UInt32).toNat = 8192 := rfl; omega
  have e3 : ¬ c.val = 0x2028 := by intro e; rw [e] at this; exact absurd this (by decide)
  have e4 : ¬ c.val = 0x2029 := by intro e; rw [e] at this; exact absurd this (by decide)
  have e5 : ¬ c.val = 0x202f := by intro e; rw [e] at this; exact absurd this (by decide)
  have e6 : ¬ c.val = 0x205f := by intro e; rw [e] at this; exact absurd this (by decide)
  have e7 : ¬ c.val = 0x3000 := by intro e; rw [e] at this; exact absurd this (by decide)
  simp [e1, e2, e3, e4, e5, e6, e7]

/-- Without an `=` and with ASCII characters only, tokenising neither panics nor loops. -/
theorem lexModifiers_safe (k : Bool) (s : Str) (h : ∀ c ∈ s, c ≠ '=' ∧ c.val < 128) :
    lexModifiers k s ≠ .panic ∧ lexModifiers k s ≠ .hang := by
  induction hn : s.length using Nat.strongRecOn generalizing s with
  | ind n ih =>
  rw [lexModifiers.eq_def]
  split
  · simp
  · rename_i hs
    cases hc : cutValue s with
    | err e => simp
    | panic => exact absurd hc (cutValue_noPanic s).1
    | hang => exact absurd hc (cutValue_noPanic s).2
    | ok t =>
      obtain ⟨tok, rest⟩ := t
      obtain ⟨g, raw, he, hg, hraw, htok⟩ := cutValue_split s tok rest hc
      have hlen : rest.length < s.length := by
        -- progress: something is cut off
        have hle : s.length = g.length + raw.length + rest.length := by rw [he]; simp; omega
        rcases Nat.lt_or_ge rest.length s.length with hlt | hlt
        · exact hlt
        exfalso
        have hg0 : g = [] := List.length_eq_zero_iff.1 (by omega)
        have hr0 : raw = [] := List.length_eq_zero_iff.1 (by omega)
        have htok0 : tok = [] := by rcases htok with e | e <;> simp_all
        subst hg0; subst hr0
        simp only [List.nil_append] at he
        subst he
        rcases cutValue_ok s tok s hc with ⟨_, _, e⟩ | ⟨c, cs, v, hd, hcut, ht⟩
        · exact hs e
        · have ha := cutLoop_append _ _ _ _ _ _ hcut
          have hsub : (s.dropWhile trimSpace).length ≤ s.length := (List.dropWhile_suffix _).length_le
          have hl2 := congrArg List.length ha
          rw [← hd] at hl2
          have hv : v = [] := by apply List.length_eq_zero_iff.1; simp at hl2; omega
          subst hv
          have hmem : c ∈ s := (List.dropWhile_suffix trimSpace).subset (by rw [hd]; simp)
          have hasc := ascii_isSpace c (h c hmem).2
          have hts : trimSpace c = false := by
            have := List.head?_dropWhile_not trimSpace s
            rw [hd] at this
            simpa using this
          simp only [cutLoop] at hcut
          rw [hasc, hts] at hcut
          split at hcut
          · injection hcut
          · generalize (if c = '{' then 0 + 1 else if c = '}' then 0 - 1 else 0) = lv at hcut
            split at hcut
            · injection hcut with e; injection e with e1; injection e1
            · rw [if_neg (by simp)] at hcut
              cases hx : cutLoop (decide (c = '{')) lv cs <;> rw [hx] at hcut <;> simp [Res.map] at hcut
      simp only [Res.bind_ok, hlen, if_true]
      have hrest : ∀ c ∈ rest, c ≠ '=' ∧ c.val < 128 := fun c hc' => h c (by rw [he]; simp [hc'])
      have ihr := ih _ (by omega) rest hrest rfl
      split
      · exact ihr
      · have htk : '=' ∉ tok := by
          intro hm
          have : '=' ∈ s := by
            rw [he]
            rcases htok with e | e
            · rw [e]; simp [hm]
            · rw [e]; simp [hm]
          exact (h _ this).1 rfl
        have : splitModifier tok = .ok (tok, []) := by simp [splitModifier, splitEq_none tok htk]
        rw [this]
        simp only [Res.bind_ok]
        cases hr : lexModifiers k rest with
        | ok ms => simp
        | err e => simp [Res.map]
        | panic => exact absurd hr ihr.1
        | hang => exact absurd hr ihr.2

end Sq
