import Verif.Proof.Tokenize
import Verif.Proof.Names
import Verif.Props.Format
/-
C12: formatting never panics (and never loops), except in three characterised cases.
C32: struct-tag modifiers.
-/
namespace Sq
open Spec

/-! ### C12 -/

/-- Neither a panic nor an endless loop. -/
def W.Calm (w : W) : Prop := w.st ≠ .panic ∧ w.st ≠ .hang

theorem calm_sites (d : Dialect) : Sites W.Calm d (fun _ => True) where
  nilName := trivial
  ok := by simp [W.Calm, W.ok]
  wr := by simp [W.Calm, W.wr]
  fail := by simp [W.Calm, W.fail]
  seq := by
    intro a b ha hb
    unfold W.seq
    split
    · exact hb
    · exact ha
  forget := by simp [W.Calm, W.emit]
  bind := by simp [W.Calm, W.emit]

theorem calm_ignoreErr (a : W) (h : a.Calm) : a.ignoreErr.Calm := by
  unfold W.ignoreErr
  split
  · simp [W.Calm]
  · exact h

/-- A format string that cannot crash the formatter: it does not end in a `{` that would start a group, and the text
between braces, if it has modifiers, has no `=` and is ASCII. -/
def SafeFmt (fmt : Str) : Prop :=
  Seg.trailing ∉ parseFmt none fmt ∧
  ∀ body, Seg.hole body ∈ parseFmt none fmt → ∀ c ∈ body, c ≠ '=' ∧ c.val < 128

/-- `trailing` only occurs when the last byte of the format is `{`. -/
theorem trailing_last (fmt : Str) (h : fmt.getLast? ≠ some '{') : Seg.trailing ∉ parseFmt none fmt := by
  have key : ∀ (n : Nat) (fmt : Str), fmt.length ≤ n → fmt.getLast? ≠ some '{' →
      Seg.trailing ∉ parseFmt none fmt ∧ ∀ b, Seg.trailing ∉ parseFmt (some b) fmt := by
    intro n
    induction n with
    | zero =>
      intro fmt hl _
      have : fmt = [] := List.length_eq_zero_iff.1 (by omega)
      subst this
      simp [parseFmt]
    | succ n ih =>
      intro fmt hl hlast
      match fmt with
      | [] => simp [parseFmt]
      | [c] =>
        have hc : c ≠ '{' := by simpa using hlast
        refine ⟨by simp [parseFmt, hc], ?_⟩
        intro b
        simp only [parseFmt]
        split <;> simp
      | c :: d :: cs =>
        have h1 : (d :: cs).getLast? ≠ some '{' := by simpa using hlast
        have ih1 := ih (d :: cs) (by simp at hl ⊢; omega) h1
        have h2 : cs.getLast? ≠ some '{' := by
          cases cs with
          | nil => simp
          | cons x xs => simpa using h1
        have ih2 := ih cs (by simp at hl; omega) h2
        refine ⟨?_, ?_⟩
        · simp only [parseFmt]
          split
          · split
            · simp [ih2.1]
            · split
              · simp [ih2.1]
              · exact ih2.2 _
          · simp [ih1.1]
        · intro b
          simp only [parseFmt]
          split
          · simp; exact ih1.1
          · exact ih1.2 _
  exact (key fmt.length fmt (Nat.le_refl _) h).1

theorem splitColon_sub (b : Str) : (∀ c ∈ (splitColon b).1, c ∈ b) ∧ ∀ ms, (splitColon b).2 = some ms → ∀ c ∈ ms, c ∈ b := by
  induction b with
  | nil => simp [splitColon]
  | cons x xs ih =>
    simp only [splitColon]
    split
    · refine ⟨by simp, ?_⟩
      intro ms h c hc
      simp at h; subst h; simp [hc]
    · refine ⟨?_, ?_⟩
      · intro c hc
        simp at hc
        rcases hc with rfl | hc
        · simp
        · simp [ih.1 c hc]
      · intro ms h c hc
        simp [ih.2 ms h c hc]

theorem safeFmt_ok (fmt : Str) (h : SafeFmt fmt) : FmtOk W.Calm (fun _ => True) fmt := by
  intro s hs
  cases s with
  | lit c => trivial
  | unclosed s => trivial
  | trailing => exact absurd hs h.1
  | hole body =>
    refine ⟨fun _ => trivial, fun ms hms => ?_⟩
    have := lexModifiers_safe true ms (fun c hc => h.2 body hs c ((splitColon_sub body).2 ms hms c hc))
    exact ⟨fun e => absurd e this.1, fun e => absurd e this.2⟩

/-- The condition at one node: its format strings are safe, a user-defined appender does not panic, `Column.Set` is not
called with a nil field, and the FROM tables of a DELETE are not nil. -/
def SafeNode (d : Dialect) : Node → Prop
  | .field fi _ _ _ => ∀ p ∈ fi.formats, SafeFmt p.2
  | .checkedField _ _ fi => ∀ p ∈ fi.formats, SafeFmt p.2
  | .cpred _ fmt _ _ => SafeFmt fmt
  | .customTable fmt _ => SafeFmt fmt
  | .customQuery _ fmt _ => SafeFmt fmt
  | .insert q _ _ _ _ sets _ _ _ _ _ _ => q.hasMapper = true → ∀ p ∈ sets, p.1 ≠ .nil
  | .update q _ _ _ _ _ sets _ _ _ => q.hasMapper = true → ∀ p ∈ sets, p.1 ≠ .nil
  | .delete _ _ froms _ _ _ _ _ => ∀ t ∈ froms, t ≠ .nil
  | .ext _ _ _ act => ∀ m : Mode, m.d = d → (act m).Calm
  | _ => True

/-- **C12 (partial).** Rendering any tree — of any size, with any values, too few or too many — neither panics nor loops,
provided its format strings are safe and its nodes are as `SafeNode` says.  Missing: format strings that are not safe,
for which the claim is false (next theorems). -/
theorem C12_rendering_never_panics_partial (d : Dialect) (n : Node) (h : n.All (SafeNode d)) (m : Mode) (hm : m.d = d)
    (pn : Str) : (ren n m pn).st ≠ .panic ∧ (ren n m pn).st ≠ .hang := by
  refine ren_ind (calm_sites d) n (h.mono ?_) m hm pn trivial
  intro n hn
  cases n <;> simp only [SafeNode, NodeOk] at hn ⊢
  case namedArg a v =>
    intro m hm
    unfold namedArgAppend
    split
    · simp [W.Calm, W.fail]
    · split
      · simp [W.Calm, W.fail]
      · split <;> simp [W.Calm, W.fail, W.emit]
  case param => intro v; simp [W.Calm, W.emit]
  case field => intro p hp; exact safeFmt_ok _ (hn p hp)
  case checkedField => intro p hp; exact safeFmt_ok _ (hn p hp)
  case cpred => exact safeFmt_ok _ hn
  case customTable => exact safeFmt_ok _ hn
  case customQuery => exact safeFmt_ok _ hn
  case window => exact calm_ignoreErr
  case insert => intro hq p hp e; exact absurd e (hn hq p hp)
  case update => intro hq p hp e; exact absurd e (hn hq p hp)
  case delete => intro t ht e; exact absurd e (hn t ht)
  case ext => exact hn

theorem safeFmt_check (fmt : Str) (h : (parseFmt none fmt).all (fun s => match s with
    | .trailing => false | .hole b => b.all (fun c => c ≠ '=' && c.val < 128) | _ => true) = true) : SafeFmt fmt := by
  rw [List.all_eq_true] at h
  refine ⟨fun ht => by simpa using h _ ht, fun body hb c hc => ?_⟩
  have := h _ hb
  simp at this
  exact this c hc

/-- The formats of `q1` are safe, and so is a Postgres cast, whose colons are outside braces. -/
example : SafeFmt "{} = {}" ∧ SafeFmt "{}::TEXT {:nameonly}" ∧ Ex.q1.All (SafeNode .postgres) := by
  have e1 : SafeFmt "{} = {}" := safeFmt_check _ (by decide)
  refine ⟨e1, safeFmt_check _ (by decide), ?_⟩
  simp only [Ex.q1, Ex.col, Ex.users, Ex.andp, Ex.orp, Ex.eqInt, Node.All, AllL, SafeNode]
  simp at e1
  simp [e1]

/-- **C12 (violated).** `Predicatef("{")` panics: the formatter reads the byte after the last one. -/
theorem C12_trailing_brace_violated : (toSQL .postgres (.cpred [] "a = {" false [.scalar (.int 1)])).status = .panic := by
  decide +kernel

/-- **C12 (violated).** An empty modifier value (`{:name=}`) panics. -/
theorem C12_empty_modifier_violated :
    (ren (.cpred [] "{:nameonly=}" false [.scalar (.int 1)]) { d := .postgres } []).st = .panic := by
  have hp : parseFmt none "{:nameonly=}".toList = [.hole ":nameonly=".toList] := by decide
  have hc : splitColon ":nameonly=".toList = ([], some "nameonly=".toList) := by decide
  have hl : lexModifiers true "nameonly=".toList = .panic := by
    rw [lexModifiers.eq_def]
    have : cutValue "nameonly=".toList = .ok ("nameonly=".toList, []) := by decide
    rw [if_neg (by decide), this]
    have h2 : splitModifier "nameonly=".toList = .panic := by decide
    rw [Res.bind_ok]
    dsimp only
    rw [if_pos (by decide), if_neg (by decide), h2]
    rfl
  have e : bprintf (Mode.std { d := .postgres }) "{:nameonly=}".toList ((objs [.scalar (.int 1)]).map PV.toObj) = .panic := by
    unfold bprintf
    rw [hp]
    simp only [printSegs]
    rw [hc]
    dsimp only
    rw [hl]
    rfl
  show (W.ok ⨟ bprintf (Mode.std { d := .postgres }) "{:nameonly=}".toList ((objs [.scalar (.int 1)]).map PV.toObj)).st = _
  rw [e]
  rfl

/-- **C12 (violated).** A modifier text starting with a non-Latin-1 space such as U+3000 makes the formatter loop. -/
theorem C12_endless_loop_violated : lexModifiers true ['\u3000'] = .hang := by
  rw [lexModifiers.eq_def]
  have : cutValue ['\u3000'] = .ok ([], ['\u3000']) := by decide
  rw [if_neg (by decide), this, Res.bind_ok]
  dsimp only
  rw [if_neg (by decide)]

/-! ### C32 -/

/-- **C32.** Writing any list of modifiers (names are words; values are balanced texts in braces, or bare texts without spaces and braces) with arbitrary white space
before each and tokenising it gives the list back — in both tokenisers of the code base. -/
theorem C32_roundtrip (keepEmpty : Bool) (ms : List (Str × Modifier)) (hg : ∀ p ∈ ms, Gap p.1) (hm : ∀ p ∈ ms, p.2.Ok) :
    lexModifiers keepEmpty (writeMods ms) = .ok (ms.map fun p => p.2.read) := lexModifiers_write keepEmpty ms hg hm

/-- C32 for whole tags: a leading word or braced value, then modifiers. -/
theorem C32_tag_roundtrip (keepEmpty : Bool) (w : Str) (hw : Word w) (ms : List (Str × Modifier)) (hg : ∀ p ∈ ms, Gap p.1)
    (hm : ∀ p ∈ ms, p.2.Ok) : lexValue keepEmpty (w ++ writeMods ms) = .ok (w, ms.map fun p => p.2.read) := by
  have := cutValue_modifier [] (by simp) ⟨w, none, false⟩ ⟨hw, by simp⟩ (writeMods ms) (tokenEnd_mods ms hg)
  simp only [Modifier.write, List.nil_append] at this
  simp [lexValue, this, lexModifiers_write keepEmpty ms hg hm]

theorem C32_braced_tag_roundtrip (keepEmpty : Bool) (v : Str) (hv : Balanced v) (ms : List (Str × Modifier))
    (hg : ∀ p ∈ ms, Gap p.1) (hm : ∀ p ∈ ms, p.2.Ok) :
    lexValue keepEmpty ('{' :: v ++ ['}'] ++ writeMods ms) = .ok (v, ms.map fun p => p.2.read) := by
  have hcut : cutValue ('{' :: v ++ ['}'] ++ writeMods ms) = .ok (v, writeMods ms) := by
    have e : '{' :: v ++ ['}'] ++ writeMods ms = '{' :: (v ++ '}' :: writeMods ms) := by simp
    rw [e]
    unfold cutValue
    have hd : ('{' :: (v ++ '}' :: writeMods ms)).dropWhile trimSpace = '{' :: (v ++ '}' :: writeMods ms) := by
      simp [List.dropWhile, show trimSpace '{' = false from by decide]
    rw [hd]
    have hl : cutLoop true 0 ('{' :: (v ++ '}' :: writeMods ms)) = .ok ('{' :: (v ++ ['}']), writeMods ms, 0) := by
      simp only [cutLoop]
      rw [if_neg (by simp)]
      simp only [if_true]
      rw [if_neg (by simp), if_neg (by simp)]
      rw [cutLoop_inside true v ('}' :: writeMods ms) 0 0 hv]
      simp [cutLoop, Res.map]
    simp only [decide_true]
    rw [hl]
    simp only [Res.bind_ok]
    rw [if_neg (by simp), if_pos trivial]
    simp
  unfold lexValue
  rw [hcut]
  simp [lexModifiers_write keepEmpty ms hg hm]

/-- C32: unbalanced input is never accepted: whatever is returned, the whole input was balanced. -/
theorem C32_accepts_only_balanced (keepEmpty : Bool) (s : Str) (ms : List (Str × Str))
    (h : lexModifiers keepEmpty s = .ok ms) : Balanced s := lexModifiers_balanced keepEmpty s ms h

/-- `name`, `onupdate=cascade` and `references={users.id onupdate={cascade}}` meet the hypotheses. -/
example : Gap " " ∧ (Modifier.mk "references" (some "users.id onupdate={cascade}") false).Ok ∧ (Modifier.mk "onupdate" (some "cascade") true).Ok ∧
    writeMods [(" ", ⟨"notnull", none, false⟩), (" ", ⟨"references", some "users.id onupdate={cascade}", false⟩), (" ", ⟨"onupdate", some "cascade", true⟩)] =
      " notnull references={users.id onupdate={cascade}} onupdate=cascade".toList := by
  refine ⟨⟨by decide, by decide⟩, ⟨⟨by decide, by decide⟩, ?_⟩, ⟨⟨by decide, by decide⟩, ?_⟩, by decide⟩
  · intro v hv
    simp at hv
    subst hv
    simp only [Bool.false_eq_true, if_false]
    unfold Balanced
    decide
  · intro v hv
    simp at hv
    subst hv
    simp only [if_true]
    exact ⟨by decide, by decide⟩

end Sq
