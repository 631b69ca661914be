import Verif.Spec.Script
import Verif.Props.Run
/-
C40: the script written by `WriteSQL`.
-/
namespace Ddl
open Spec

/-! ### What the script should look like -/

/-- The script of a list of statement texts: each terminated by one `;`, blank lines in between. -/
def Spec.layout : List Str → Str
  | [] => []
  | [t] => t ++ ";".toList
  | t :: u :: ts => t ++ ";\n\n".toList ++ Spec.layout (u :: ts)

/-- A text without the terminator it may already have. -/
def Spec.bare (t : Str) : Str := if t.getLast? = some ';' then t.dropLast else t

/-- Nothing of the migration is written under MySQL's `-- DELIMITER` comments. -/
def NoDelimiter (m : Migration) : Prop := m.d ≠ .mysql ∨ (m.createFunctionCmds = [] ∧ m.createTriggerCmds = [])

theorem dropLast_snoc (t : Str) (c : Char) (h : t.getLast? = some c) : t.dropLast ++ [c] = t := by
  rcases List.eq_nil_or_concat t with rfl | ⟨l, x, rfl⟩
  · cases h
  · rw [List.concat_eq_append] at h ⊢
    rw [List.getLast?_concat] at h
    rw [List.dropLast_concat, Option.some.inj h]

theorem bare_append (t : Str) (c : Char) (h : t.getLast? = some c) : (if c = ';' then t else t ++ ";".toList) = Spec.bare t ++ ";".toList := by
  unfold Spec.bare
  by_cases hc : c = ';'
  · rw [if_pos hc, h, hc, if_pos rfl]
    exact (dropLast_snoc t ';' (by rw [h, hc])).symm
  · rw [if_neg hc, if_neg]
    rw [h]; simpa using hc

/-! ### One loop -/

theorem writeLoop_append (d : Dialect) (b : Bool) (xs ys : List Command) (w : Writing) :
    writeLoop d b (xs ++ ys) w = (writeLoop d b xs w).bind (writeLoop d b ys) := by
  induction xs generalizing w with
  | nil => rfl
  | cons x xs ih =>
    rw [List.cons_append, writeLoop, writeLoop]
    by_cases hi : x.ignore = true
    · rw [if_pos hi, if_pos hi, ih]
    · rw [if_neg hi, if_neg hi]
      cases writeCmd d b x w <;> simp [ih]

theorem writeLoop_append' (d : Dialect) (b : Bool) (xs ys : List Command) :
    writeLoop d b (xs ++ ys) = fun w => (writeLoop d b xs w).bind (writeLoop d b ys) := funext (writeLoop_append d b xs ys)

theorem writeLoop_filter (d : Dialect) (b : Bool) (xs : List Command) (w : Writing) :
    writeLoop d b xs w = writeLoop d b (xs.filter fun c => !c.ignore) w := by
  induction xs generalizing w with
  | nil => rfl
  | cons x xs ih =>
    rw [writeLoop]
    by_cases hi : x.ignore = true
    · rw [if_pos hi, List.filter_cons_of_neg (by simp [hi]), ih]
    · rw [if_neg hi, List.filter_cons_of_pos (by simpa using hi), writeLoop, if_neg hi]
      cases writeCmd d b x w <;> simp [← ih]

/-- The text a command contributes. -/
theorem writeCmd_ok (d : Dialect) (c : Command) (w w' : Writing) (h : writeCmd d false c w = .ok w') :
    ∃ q, c.sql d = .ok q ∧ trim q ≠ [] ∧ w'.written = true ∧
      w'.chunks.flatten = w.chunks.flatten ++ (if w.written then "\n\n".toList else []) ++ Spec.bare (trim q) ++ ";".toList := by
  rw [writeCmd] at h
  obtain ⟨q, hq, h⟩ := (Res.bind_eq_ok _ _ _).1 h
  refine ⟨q, hq, ?_⟩
  dsimp only at h
  cases hl : (trim q).getLast? with
  | none => rw [hl] at h; cases h
  | some l =>
    have hne : trim q ≠ [] := by intro e; rw [e] at hl; cases hl
    rw [hl] at h
    simp only [Bool.false_eq_true, if_false, Res.ok.injEq] at h
    subst h
    have hb := bare_append (trim q) l hl
    refine ⟨hne, ?_, ?_⟩
    · by_cases hc : l = ';' <;> by_cases hw : w.written = true <;> simp [hc, hw, Writing.write]
    · rw [List.append_assoc, ← hb]
      by_cases hc : l = ';' <;> by_cases hw : w.written = true <;> simp [hc, hw, Writing.write]

theorem writeCmd_nonblank (d : Dialect) (c : Command) (w : Writing) (q : Str) (hq : c.sql d = .ok q) (hne : trim q ≠ []) :
    ∃ w', writeCmd d false c w = .ok w' := by
  rw [writeCmd, hq]
  simp only [Res.bind_ok, Bool.false_eq_true, if_false]
  cases hl : (trim q).getLast? with
  | none => exact absurd (List.getLast?_eq_none_iff.1 hl) hne
  | some l => exact ⟨_, rfl⟩

theorem layout_cons (t : Str) (ts : List Str) :
    Spec.layout (t :: ts) = t ++ ";".toList ++ ts.flatMap fun u => "\n\n".toList ++ u ++ ";".toList := by
  induction ts generalizing t with
  | nil => simp [Spec.layout]
  | cons u ts ih =>
    rw [Spec.layout, ih, List.flatMap_cons]
    have : ";\n\n".toList = ";".toList ++ "\n\n".toList := rfl
    rw [this]; simp

/-- The loop, once something has been written. -/
theorem writeLoop_ok (d : Dialect) (cs : List Command) (w w' : Writing) (hw : w.written = true) (h : writeLoop d false cs w = .ok w') :
    ∃ qs : List Str, (cs.filter fun c => !c.ignore).map (·.sql d) = qs.map .ok ∧ (∀ q ∈ qs, trim q ≠ []) ∧
      w'.chunks.flatten = w.chunks.flatten ++ qs.flatMap fun q => "\n\n".toList ++ Spec.bare (trim q) ++ ";".toList := by
  induction cs generalizing w with
  | nil =>
    simp only [writeLoop, Res.ok.injEq] at h
    exact ⟨[], rfl, by simp, by rw [h]; simp⟩
  | cons c cs ih =>
    rw [writeLoop] at h
    by_cases hi : c.ignore = true
    · rw [if_pos hi] at h
      rw [List.filter_cons_of_neg (by simp [hi])]
      exact ih w hw h
    · rw [if_neg hi] at h
      obtain ⟨w1, h1, h2⟩ := (Res.bind_eq_ok _ _ _).1 h
      obtain ⟨q, hq, hne, hw1, hc⟩ := writeCmd_ok d c w w1 h1
      obtain ⟨qs, hqs, hall, hout⟩ := ih w1 hw1 h2
      refine ⟨q :: qs, ?_, ?_, ?_⟩
      · rw [List.filter_cons_of_pos (by simpa using hi), List.map_cons, hq, hqs]; rfl
      · intro x hx
        rcases List.mem_cons.1 hx with rfl | hx
        · exact hne
        · exact hall x hx
      · rw [hout, hc, hw]; simp

theorem writeLoop_layout (d : Dialect) (cs : List Command) (w : Writing) (h : writeLoop d false cs {} = .ok w) :
    ∃ qs : List Str, (cs.filter fun c => !c.ignore).map (·.sql d) = qs.map .ok ∧ (∀ q ∈ qs, trim q ≠ []) ∧
      w.chunks.flatten = Spec.layout (qs.map fun q => Spec.bare (trim q)) := by
  rw [writeLoop_filter] at h
  generalize hcs : (cs.filter fun c => !c.ignore) = xs at h ⊢
  have hact : ∀ c ∈ xs, c.ignore = false := by
    intro c hc
    rw [← hcs] at hc
    simpa using (List.mem_filter.1 hc).2
  cases xs with
  | nil =>
    simp only [writeLoop, Res.ok.injEq] at h
    exact ⟨[], rfl, by simp, by rw [← h]; rfl⟩
  | cons c xs =>
    rw [writeLoop, if_neg (by simp [hact c])] at h
    obtain ⟨w1, h1, h2⟩ := (Res.bind_eq_ok _ _ _).1 h
    obtain ⟨q, hq, hne, hw1, hc⟩ := writeCmd_ok d c {} w1 h1
    obtain ⟨qs, hqs, hall, hout⟩ := writeLoop_ok d xs w1 w hw1 h2
    have hxs : (xs.filter fun c => !c.ignore) = xs := List.filter_eq_self.2 fun c hc => by simp [hact c (List.mem_cons_of_mem _ hc)]
    rw [hxs] at hqs
    refine ⟨q :: qs, by rw [List.map_cons, hq, hqs]; rfl, ?_, ?_⟩
    · intro x hx
      rcases List.mem_cons.1 hx with rfl | hx
      · exact hne
      · exact hall x hx
    · rw [hout, hc, List.map_cons, layout_cons, List.flatMap_map]
      simp

/-- The loop succeeds when every command has a nonblank text. -/
theorem writeLoop_total (d : Dialect) (cs : List Command) (w : Writing)
    (h : ∀ c ∈ cs, c.ignore = false → ∃ q, c.sql d = .ok q ∧ trim q ≠ []) : ∃ w', writeLoop d false cs w = .ok w' := by
  induction cs generalizing w with
  | nil => exact ⟨w, rfl⟩
  | cons c cs ih =>
    rw [writeLoop]
    by_cases hi : c.ignore = true
    · rw [if_pos hi]; exact ih w fun x hx => h x (List.mem_cons_of_mem _ hx)
    · rw [if_neg hi]
      obtain ⟨q, hq, hne⟩ := h c List.mem_cons_self (by simpa using hi)
      obtain ⟨w1, h1⟩ := writeCmd_nonblank d c w q hq hne
      rw [h1]
      exact ih w1 fun x hx => h x (List.mem_cons_of_mem _ hx)

/-! ### The whole script -/

theorem writeDelimited_plain (d : Dialect) (cs : List Command) (w : Writing) (h : d ≠ .mysql ∨ cs = []) :
    writeDelimited d cs w = writeLoop d false cs w := by
  rw [writeDelimited]
  rcases h with h | h
  · by_cases hc : cs = []
    · rw [if_pos hc, hc]; rfl
    · rw [if_neg hc, if_neg h]
      have : decide (d = .mysql) = false := by simpa using h
      rw [this]
      cases writeLoop d false cs w <;> simp [Res.map, h]
  · rw [if_pos h, h]; rfl

theorem write_eq (m : Migration) (h : NoDelimiter m) : m.write = writeLoop m.d false m.execPhases.flatten {} := by
  have hf : m.d ≠ .mysql ∨ m.createFunctionCmds.map Command.createFunction = [] := h.imp_right fun h => by rw [h.1]; rfl
  have ht : m.d ≠ .mysql ∨ m.createTriggerCmds.map Command.createTrigger = [] := h.imp_right fun h => by rw [h.2]; rfl
  unfold Migration.write Migration.execPhases
  simp only [writeDelimited_plain m.d _ _ hf, writeDelimited_plain m.d _ _ ht, List.flatten_cons, List.flatten_nil,
    writeLoop_append, List.append_nil, writeLoop_append']

/-- **C40, layout.** Unless it has MySQL functions or triggers, the script is the text of every non-ignored command, in the order of
`C39`, without surrounding blanks, each ended by exactly one `;`, and separated by blank lines. -/
theorem C40_layout_partial (m : Migration) (hd : NoDelimiter m) (out : Str) (h : m.script = .ok out) :
    ∃ qs : List Str, m.order.map (·.sql m.d) = qs.map .ok ∧ (∀ q ∈ qs, trim q ≠ []) ∧ out = Spec.layout (qs.map fun q => Spec.bare (trim q)) := by
  rw [Migration.script, write_eq m hd] at h
  cases hw : writeLoop m.d false m.execPhases.flatten {} with
  | ok w =>
    rw [hw] at h
    obtain ⟨qs, h1, h2, h3⟩ := writeLoop_layout m.d _ w hw
    simp only [Res.map_ok, Res.ok.injEq] at h
    exact ⟨qs, h1, h2, by rw [← h, h3]⟩
  | err e => rw [hw] at h; cases h
  | panic => rw [hw] at h; cases h
  | hang => rw [hw] at h; cases h

/-- … and it is written whenever every non-ignored command has a nonblank text. -/
theorem C40_total_partial (m : Migration) (hd : NoDelimiter m) (h : ∀ c ∈ m.order, ∃ q, c.sql m.d = .ok q ∧ trim q ≠ []) :
    ∃ out, m.script = .ok out := by
  rw [Migration.script, write_eq m hd]
  obtain ⟨w, hw⟩ := writeLoop_total m.d m.execPhases.flatten {} fun c hc hi => h c (List.mem_filter.2 ⟨hc, by simp [hi]⟩)
  exact ⟨_, by rw [hw]; rfl⟩

/-- **C40, ignored commands.** Two migrations with the same non-ignored commands have the same script. -/
theorem C40_ignored_partial (m m' : Migration) (hm : NoDelimiter m) (hm' : NoDelimiter m') (hd : m.d = m'.d) (h : m.order = m'.order) :
    m.script = m'.script := by
  rw [Migration.script, Migration.script, write_eq m hm, write_eq m' hm', writeLoop_filter, writeLoop_filter m'.d]
  have := h
  unfold Migration.order at this
  rw [this, hd]

/-! ### Reading the script back -/

theorem readFrom_run (R : _root_.Spec.Reader) (s s' : R.σ) (acc t rest : Str) (h : R.run s t = some s') :
    R.readFrom s acc (t ++ rest) = R.readFrom s' (acc ++ t) rest := by
  induction t generalizing s acc with
  | nil => cases h; simp
  | cons c t ih =>
    rw [_root_.Spec.Reader.run] at h
    rw [List.cons_append, _root_.Spec.Reader.readFrom]
    cases hs : R.step s c with
    | none => rw [hs] at h; cases h
    | some s1 =>
      rw [hs] at h
      simp only
      rw [ih s1 (acc ++ [c]) h]
      simp

theorem whole_from (R : _root_.Spec.Reader) (s : R.σ) (acc t : Str) (h : R.readFrom s acc (t ++ [';']) = ([acc ++ t], [])) :
    ∃ s', R.run s t = some s' ∧ R.step s' ';' = none := by
  induction t generalizing s acc with
  | nil =>
    rw [List.nil_append, _root_.Spec.Reader.readFrom] at h
    cases hs : R.step s ';' with
    | none => exact ⟨s, rfl, hs⟩
    | some s1 =>
      rw [hs] at h
      simp [_root_.Spec.Reader.readFrom] at h
  | cons c t ih =>
    rw [List.cons_append, _root_.Spec.Reader.readFrom] at h
    cases hs : R.step s c with
    | none =>
      rw [hs] at h
      simp at h
    | some s1 =>
      rw [hs] at h
      simp only at h
      obtain ⟨s', h1, h2⟩ := ih s1 (acc ++ [c]) (by rw [h]; simp)
      exact ⟨s', by rw [_root_.Spec.Reader.run, hs]; exact h1, h2⟩

theorem whole_iff (R : _root_.Spec.Reader) (t : Str) : R.Whole t ↔ ∃ s', R.run R.start t = some s' ∧ R.step s' ';' = none := by
  constructor
  · intro h
    exact whole_from R R.start [] t (by simpa [_root_.Spec.Reader.Whole, _root_.Spec.Reader.read] using h)
  · rintro ⟨s', h1, h2⟩
    rw [_root_.Spec.Reader.Whole, _root_.Spec.Reader.read, readFrom_run R _ s' [] t _ h1, _root_.Spec.Reader.readFrom, h2]
    simp [_root_.Spec.Reader.readFrom]

theorem read_whole (R : _root_.Spec.Reader) (acc t rest : Str) (h : R.Whole t) :
    R.readFrom R.start acc (t ++ ";".toList ++ rest) = ((acc ++ t) :: (R.readFrom R.start [] rest).1, (R.readFrom R.start [] rest).2) := by
  obtain ⟨s', h1, h2⟩ := (whole_iff R t).1 h
  rw [List.append_assoc, readFrom_run R _ s' acc t _ h1]
  show R.readFrom s' (acc ++ t) (';' :: rest) = _
  rw [_root_.Spec.Reader.readFrom, h2]

/-- **C40, reading.** For every statement reader that skips blank lines between statements, and for every list of texts each of which
is one statement: the script is read as exactly these statements, and nothing is left. -/
theorem C40_read_partial (R : _root_.Spec.Reader) (hn : R.step R.start '\n' = some R.start) (ts : List Str) (h : ∀ t ∈ ts, R.Whole t) :
    R.read (Spec.layout ts) = ((ts.take 1) ++ (ts.drop 1).map ("\n\n".toList ++ ·), []) := by
  cases ts with
  | nil => rfl
  | cons t ts =>
    rw [layout_cons, _root_.Spec.Reader.read, read_whole R [] t _ (h t List.mem_cons_self)]
    have hts : R.readFrom R.start [] (ts.flatMap fun u => "\n\n".toList ++ u ++ ";".toList) = (ts.map ("\n\n".toList ++ ·), []) := by
      have hall : ∀ u ∈ ts, R.Whole u := fun u hu => h u (List.mem_cons_of_mem _ hu)
      clear h
      induction ts with
      | nil => rfl
      | cons u us ih =>
        rw [List.flatMap_cons]
        have e : ("\n\n".toList ++ u ++ ";".toList) ++ (us.flatMap fun u => "\n\n".toList ++ u ++ ";".toList) =
          "\n\n".toList ++ (u ++ ";".toList ++ (us.flatMap fun u => "\n\n".toList ++ u ++ ";".toList)) := by simp
        have hrun : R.run R.start "\n\n".toList = some R.start := by
          show R.run R.start ['\n', '\n'] = _
          simp [_root_.Spec.Reader.run, hn]
        rw [e, readFrom_run R _ R.start [] _ _ hrun, read_whole R _ u _ (hall u List.mem_cons_self),
          ih fun v hv => hall v (List.mem_cons_of_mem _ hv)]
        rfl
    rw [hts]
    simp

/-- **C40 (partial).** The script of a migration (without MySQL functions and triggers), all of whose texts are single statements, is read by
every statement reader as exactly one statement per non-ignored command, in order, and nothing is left unterminated. -/
theorem C40_statements_partial (R : _root_.Spec.Reader) (hn : R.step R.start '\n' = some R.start) (m : Migration) (hd : NoDelimiter m)
    (out : Str) (h : m.script = .ok out) (hw : ∀ c ∈ m.order, ∀ q, c.sql m.d = .ok q → R.Whole (Spec.bare (trim q))) :
    ∃ qs : List Str, m.order.map (·.sql m.d) = qs.map .ok ∧
      R.read out = ((qs.map fun q => Spec.bare (trim q)).take 1 ++ ((qs.map fun q => Spec.bare (trim q)).drop 1).map ("\n\n".toList ++ ·), []) := by
  obtain ⟨qs, h1, _, h3⟩ := C40_layout_partial m hd out h
  refine ⟨qs, h1, ?_⟩
  rw [h3]
  apply C40_read_partial R hn
  intro t ht
  obtain ⟨q, hq, rfl⟩ := List.mem_map.1 ht
  have : Res.ok q ∈ m.order.map (·.sql m.d) := by rw [h1]; exact List.mem_map_of_mem hq
  obtain ⟨c, hc, hcq⟩ := List.mem_map.1 this
  exact hw c hc q hcq

end Ddl
