import Verif.Model.Logger
import Verif.Spec.Logger
/-
C41: logger flags behave as sets of options.
-/
namespace Sq
open _root_.Spec (LogOptions options shown)

theorem hasFlag_eq (i f : Nat) : hasFlag (1 <<< i) f = f.testBit i := by
  unfold hasFlag
  have h : (1 <<< i &&& f ≠ 0) ↔ f.testBit i = true := by
    rw [Nat.one_shiftLeft, Nat.and_comm]
    constructor
    · intro h
      obtain ⟨j, hj⟩ := Nat.exists_testBit_of_ne_zero h
      rw [Nat.testBit_and, Nat.testBit_two_pow] at hj
      simp only [Bool.and_eq_true, decide_eq_true_eq] at hj
      rw [hj.2]; exact hj.1
    · intro h e
      have := congrArg (fun n => n.testBit i) e
      simp [Nat.testBit_and, Nat.testBit_two_pow, h] at this
  by_cases hb : f.testBit i = true
  · rw [hb, decide_eq_true_eq]; exact h.2 hb
  · rw [Bool.not_eq_true] at hb
    rw [hb, decide_eq_false_iff_not, h, hb]; simp

/-- **C41, union.** For all flag words: the options of `a | b` are those of `a` together with those of `b`. -/
theorem C41_union (a b : Nat) : options (a ||| b) = (options a).union (options b) := by
  simp [options, LogOptions.union, Nat.testBit_or]

/-- **C41, settings.** What the query functions are told depends on each option separately: caller information, asynchronous
logging and timing are requested exactly when the flag is there. -/
theorem C41_settings (f : Nat) (limit : Int) :
    getLogSettings f limit = ⟨limit, (options f).caller, (options f).async, (options f).time⟩ := by
  simp only [getLogSettings, Lcaller, Lasync, Ltime, hasFlag_eq, options]

/-- **C41, no interference.** The text logged depends on the flag word only through the options interpolate, verbose, caller and
colour: other bits change nothing. -/
theorem C41_text (f g : Nat) (s : QueryStats)
    (h : (options f).interpolate = (options g).interpolate ∧ (options f).verbose = (options g).verbose ∧
      (options f).caller = (options g).caller ∧ (options f).color = (options g).color) : logText f s = logText g s := by
  obtain ⟨h1, h2, h3, h4⟩ := h
  have c1 : hasFlag Linterpolate f = hasFlag Linterpolate g := by simp only [Linterpolate, hasFlag_eq]; exact h1
  have c2 : hasFlag LinterpolateVerbose f = hasFlag LinterpolateVerbose g := by simp only [LinterpolateVerbose, hasFlag_eq]; exact h2
  have c3 : hasFlag Lcaller f = hasFlag Lcaller g := by simp only [Lcaller, hasFlag_eq]; exact h3
  have c4 : hasFlag Lcolor f = hasFlag Lcolor g := by simp only [Lcolor, hasFlag_eq]; exact h4
  have hc : color f = color g := by funext n; simp only [color, c4]
  have hs : stat f = stat g := by funext n v; cases v <;> simp only [stat, hc]
  simp only [logText, c1, c2, c3, hc, hs]

/-! ### Colours -/

theorem shown_append_plain (a b : Str) (h : '\x1b' ∉ a) : shown false (a ++ b) = a ++ shown false b := by
  induction a with
  | nil => rfl
  | cons c a ih =>
    rw [List.cons_append, shown]
    have hc : c ≠ '\x1b' := fun e => h (by simp [e])
    simp only [Bool.false_eq_true, if_false, if_neg hc, ih fun hm => h (List.mem_cons_of_mem _ hm)]
    rfl

theorem shown_plain (a : Str) (h : '\x1b' ∉ a) : shown false a = a := by
  have := shown_append_plain a [] h
  simpa [shown] using this

theorem shown_code (n b : Str) (h : 'm' ∉ n) : shown true (n ++ 'm' :: b) = shown false b := by
  induction n with
  | nil => simp [shown]
  | cons c n ih =>
    have hc : c ≠ 'm' := fun e => h (by simp [e])
    rw [List.cons_append, shown]
    rw [if_pos rfl, decide_eq_true hc]
    exact ih fun hm => h (List.mem_cons_of_mem _ hm)

/-- A text shows as `a`, wherever it stands. -/
structure Shows (t a : Str) : Prop where
  shows_ : ∀ b, shown false (t ++ b) = a ++ shown false b

theorem Shows.app {t a u b : Str} (h1 : Shows t a) (h2 : Shows u b) : Shows (t ++ u) (a ++ b) :=
  ⟨fun c => by rw [List.append_assoc, h1.shows_, h2.shows_, List.append_assoc]⟩

theorem shows_plain (a : Str) (h : '\x1b' ∉ a) : Shows a a := ⟨fun b => shown_append_plain a b h⟩

theorem shows_nil : Shows [] [] := ⟨fun _ => rfl⟩

theorem shows_color (f : Nat) (n : String) (h : 'm' ∉ n.toList) : Shows (color f n) [] := by
  unfold color
  by_cases hf : hasFlag Lcolor f = true
  · rw [if_pos hf]
    refine ⟨fun b => ?_⟩
    unfold escape
    rw [List.cons_append, shown]
    simp only [Bool.false_eq_true, if_false, if_true]
    have e : "[".toList ++ n.toList ++ "m".toList ++ b = ("[".toList ++ n.toList) ++ 'm' :: b := by simp
    rw [e, shown_code _ _ (by simp [h])]
    rfl
  · rw [if_neg hf]; exact shows_nil

/-- A field of the report: shown only if it has a value. -/
def fieldOf (label : Str) : Option Str → Str
  | none => []
  | some x => label ++ x

def field (label : String) (v : Option Str) : Str := fieldOf label.toList v

theorem shows_stat (f : Nat) (name : String) (v : Option Str) (hn : '\x1b' ∉ name.toList) (h : ∀ x, v = some x → '\x1b' ∉ x) :
    Shows (stat f name v) (fieldOf (name.toList ++ "=".toList) v) := by
  cases v with
  | none => exact shows_nil
  | some x =>
    have := (((shows_color f "34" (by decide)).app (shows_plain _ hn)).app (shows_color f "0" (by decide))).app
      (shows_plain "=".toList (by decide)) |>.app (shows_plain x (h x rfl))
    simpa [stat, fieldOf] using this

/-- None of the texts in a report contains an escape character. -/
structure Spec.NoEscape (s : QueryStats) : Prop where
  query : '\x1b' ∉ s.query
  args : '\x1b' ∉ s.args
  argsVerbose : '\x1b' ∉ s.argsVerbose
  interpolated : '\x1b' ∉ s.interpolated
  timeTaken : ∀ x, s.timeTaken = some x → '\x1b' ∉ x
  exists_ : ∀ x, s.exists_ = some x → '\x1b' ∉ x
  rowCount : ∀ x, s.rowCount = some x → '\x1b' ∉ x
  rowsAffected : ∀ x, s.rowsAffected = some x → '\x1b' ∉ x
  lastInsertID : ∀ x, s.lastInsertID = some x → '\x1b' ∉ x
  caller : '\x1b' ∉ s.caller
  results : '\x1b' ∉ s.results

theorem shows_if {p : Prop} [Decidable p] {t u a b : Str} (h1 : p → Shows t a) (h2 : ¬p → Shows u b) :
    Shows (if p then t else u) (if p then a else b) := by
  by_cases h : p
  · rw [if_pos h, if_pos h]; exact h1 h
  · rw [if_neg h, if_neg h]; exact h2 h

/-- What is shown of a report. -/
def plainText (interpolate verbose caller : Bool) (s : QueryStats) : Str :=
  (if s.failed then "[FAIL]".toList else "[OK]".toList) ++
  (if verbose then []
   else (if interpolate then " ".toList ++ s.interpolated else " ".toList ++ s.query ++ " ".toList ++ s.args) ++ " |".toList) ++
  field " timeTaken=" s.timeTaken ++
  field " exists=" s.exists_ ++
  field " rowCount=" s.rowCount ++
  field " rowsAffected=" s.rowsAffected ++
  field " lastInsertID=" s.lastInsertID ++
  (if caller then field " caller=" (some s.caller) else []) ++
  (if verbose then
    "\n----[ Executing query ]----\n".toList ++ s.query ++ " ".toList ++ s.argsVerbose ++
    "\n----[ with bind values ]----\n".toList ++ s.interpolated else []) ++
  (if s.results = [] then [] else "\n----[ Fetched result ]----".toList ++ s.results)

theorem shows_stat' (f : Nat) (name full : String) (v : Option Str) (hf : full.toList = name.toList ++ "=".toList)
    (hn : '\x1b' ∉ name.toList) (h : ∀ x, v = some x → '\x1b' ∉ x) :
    Shows (stat f name v) (field full v) := by
  have := shows_stat f name v hn h
  cases v with
  | none => exact this
  | some x => simp only [field, hf]; exact this

theorem logText_shows (f : Nat) (s : QueryStats) (h : Spec.NoEscape s) :
    Shows (logText f s) (plainText (options f).interpolate (options f).verbose (options f).caller s) := by
  have c1 : hasFlag Linterpolate f = (options f).interpolate := by simp only [Linterpolate, hasFlag_eq]; rfl
  have c2 : hasFlag LinterpolateVerbose f = (options f).verbose := by simp only [LinterpolateVerbose, hasFlag_eq]; rfl
  have c3 : hasFlag Lcaller f = (options f).caller := by simp only [Lcaller, hasFlag_eq]; rfl
  unfold logText plainText
  rw [c1, c2, c3]
  have col : ∀ n : String, 'm' ∉ n.toList → Shows (color f n) [] := shows_color f
  have lit : ∀ t : Str, '\x1b' ∉ t → Shows t t := shows_plain
  refine .app (.app (.app (.app (.app (.app (.app (.app (.app ?_ ?_) ?_) ?_) ?_) ?_) ?_) ?_) ?_) ?_
  · refine shows_if (fun _ => ?_) (fun _ => ?_)
    · simpa using ((col "31" (by decide)).app (lit "[FAIL]".toList (by decide))).app (col "0" (by decide))
    · simpa using ((col "32" (by decide)).app (lit "[OK]".toList (by decide))).app (col "0" (by decide))
  · refine shows_if (fun _ => shows_nil) (fun _ => .app (shows_if (fun _ => ?_) (fun _ => ?_)) (lit _ (by decide)))
    · exact (lit _ (by decide)).app (lit _ h.interpolated)
    · exact (((lit _ (by decide)).app (lit _ h.query)).app (lit _ (by decide))).app (lit _ h.args)
  · exact shows_stat' f " timeTaken" " timeTaken=" _ (by rfl) (by decide) h.timeTaken
  · exact shows_stat' f " exists" " exists=" _ (by rfl) (by decide) h.exists_
  · exact shows_stat' f " rowCount" " rowCount=" _ (by rfl) (by decide) h.rowCount
  · exact shows_stat' f " rowsAffected" " rowsAffected=" _ (by rfl) (by decide) h.rowsAffected
  · exact shows_stat' f " lastInsertID" " lastInsertID=" _ (by rfl) (by decide) h.lastInsertID
  · refine shows_if (fun _ => ?_) (fun _ => shows_nil)
    exact shows_stat' f " caller" " caller=" (some s.caller) (by rfl) (by decide) (by rintro x ⟨⟩; exact h.caller)
  · refine shows_if (fun _ => ?_) (fun _ => shows_nil)
    have e1 : "\n----[ Executing query ]----\n".toList = "\n".toList ++ "----[ Executing query ]----".toList ++ "\n".toList := rfl
    have e2 : "\n----[ with bind values ]----\n".toList = "\n".toList ++ "----[ with bind values ]----".toList ++ "\n".toList := rfl
    rw [e1, e2]
    have := (((((((((((((lit "\n".toList (by decide)).app (col "35" (by decide))).app (lit "----[ Executing query ]----".toList (by decide))).app
      (col "0" (by decide))).app (lit "\n".toList (by decide))).app (lit _ h.query)).app (lit " ".toList (by decide))).app (lit _ h.argsVerbose)).app
      (lit "\n".toList (by decide))).app (col "35" (by decide))).app (lit "----[ with bind values ]----".toList (by decide))).app
      (col "0" (by decide))).app (lit "\n".toList (by decide))).app (lit _ h.interpolated)
    simpa only [List.append_assoc, List.append_nil, List.nil_append] using this
  · refine shows_if (fun _ => shows_nil) (fun _ => ?_)
    have e1 : "\n----[ Fetched result ]----".toList = "\n".toList ++ "----[ Fetched result ]----".toList := rfl
    rw [e1]
    have := ((((lit "\n".toList (by decide)).app (col "35" (by decide))).app (lit "----[ Fetched result ]----".toList (by decide))).app
      (col "0" (by decide))).app (lit _ h.results)
    simpa only [List.append_assoc, List.append_nil, List.nil_append] using this

/-- **C41, decoding.** For every flag word and report (without escape characters): what the terminal shows is the plain report with
exactly the sections the options ask for; colour, timing and asynchrony do not change it. -/
theorem C41_shown (f : Nat) (s : QueryStats) (h : Spec.NoEscape s) :
    shown false (logText f s) = plainText (options f).interpolate (options f).verbose (options f).caller s := by
  have := (logText_shows f s h).shows_ []
  simpa [shown] using this

/-- … and without the colour option the text itself is the plain report, whatever it contains. -/
theorem C41_no_color (f : Nat) (s : QueryStats) (hc : (options f).color = false) :
    logText f s = plainText (options f).interpolate (options f).verbose (options f).caller s := by
  have c1 : hasFlag Linterpolate f = (options f).interpolate := by simp only [Linterpolate, hasFlag_eq]; rfl
  have c2 : hasFlag LinterpolateVerbose f = (options f).verbose := by simp only [LinterpolateVerbose, hasFlag_eq]; rfl
  have c3 : hasFlag Lcaller f = (options f).caller := by simp only [Lcaller, hasFlag_eq]; rfl
  have c4 : hasFlag Lcolor f = false := by rw [← hc]; simp only [Lcolor, hasFlag_eq]; rfl
  have hcol : ∀ n, color f n = [] := fun n => by simp only [color, c4]; rfl
  have hst : ∀ (name full : String) (v : Option Str), full.toList = name.toList ++ "=".toList →
      stat f name v = field full v := by
    intro name full v hf
    cases v with
    | none => rfl
    | some x => simp only [stat, field, fieldOf, hcol, hf, List.append_nil, List.nil_append]
  have e1 : "\n----[ Executing query ]----\n".toList = "\n".toList ++ "----[ Executing query ]----".toList ++ "\n".toList := rfl
  have e2 : "\n----[ with bind values ]----\n".toList = "\n".toList ++ "----[ with bind values ]----".toList ++ "\n".toList := rfl
  have e3 : "\n----[ Fetched result ]----".toList = "\n".toList ++ "----[ Fetched result ]----".toList := rfl
  unfold logText plainText
  rw [c1, c2, c3, hst " timeTaken" " timeTaken=" _ rfl, hst " exists" " exists=" _ rfl, hst " rowCount" " rowCount=" _ rfl,
    hst " rowsAffected" " rowsAffected=" _ rfl, hst " lastInsertID" " lastInsertID=" _ rfl, hst " caller" " caller=" (some s.caller) rfl, e1, e2, e3]
  simp only [hcol, List.append_nil, List.nil_append, List.append_assoc]

/-- The two loggers of the package have exactly the options they name. -/
theorem C41_default :
    options defaultLogger.flag = ⟨true, false, true, true, true, false⟩ ∧
    options verboseLogger.flag = ⟨false, true, true, true, true, false⟩ := by decide

/-- **C41 (full property, violated).** `NewLogger` does not log to the writer it is given. -/
theorem C41_out_violated : ∃ out f limit, (newLogger out f limit).sink ≠ out := ⟨.other 1, 0, 0, by decide⟩

example : shown false (logText (Lcolor ||| Lcaller ||| Linterpolate)
    { interpolated := "SELECT 'a'".toList, query := "SELECT ?".toList, rowCount := some "3".toList, caller := "m.go:1:f".toList })
    = "[OK] SELECT 'a' | rowCount=3 caller=m.go:1:f".toList := by decide +kernel

end Sq
