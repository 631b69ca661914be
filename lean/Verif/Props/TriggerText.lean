import Verif.Props.Ident
import Verif.Props.Quote
import Verif.Model.Catalog
/-
C69/C51: the statement MySQL triggers are given when they are read from a database names what the database reported.
-/
namespace Ddl.TriggerText
open _root_.Spec (Sep Word Words Ends layout scan identQuotes bareWordChar blanks sameKeyword isBareIdent)
open Sq (quoteIdentifier)
open Ddl.Catalog (mysqlTriggerSQL)

theorem word_append (d : Dialect) {a b : Str} (ha : Word d a) (hb : Word d b) (h : ∀ q ∈ identQuotes d, b.head? ≠ some q.2) : Word d (a ++ b) := by
  induction ha with
  | nil => exact hb
  | bare hc _ ih => exact Word.bare hc ih
  | @quoted q body w x hq hw hs _ ih =>
    have e : q.1 :: (body ++ q.2 :: w) ++ b = q.1 :: (body ++ q.2 :: (w ++ b)) := by simp
    rw [e]
    refine Word.quoted hq ?_ (x := x) ?_ ih
    · cases w with
      | nil => simpa using h q hq
      | cons z zs => simpa using hw
    · have := scan_append q.2 (body ++ q.2 :: w) x w b hs (fun _ => h q hq)
      simpa using this

theorem bareChar_word (c : Char) (h : Sq.plainChar c = true) : bareWordChar .mysql c := by
  have hv : c.val = 95 ∨ (48 ≤ c.val ∧ c.val ≤ 57) ∨ (97 ≤ c.val ∧ c.val ≤ 122) := by
    simp [Sq.plainChar, Char.le_def] at h
    rcases h with (h | h) | h
    · left; rw [h]; rfl
    · right; left; exact h
    · right; right; exact h
  have ne : ∀ z : Char, (z.val = 95 ∨ (48 ≤ z.val ∧ z.val ≤ 57) ∨ (97 ≤ z.val ∧ z.val ≤ 122) → False) → c ≠ z := by
    rintro z hz rfl; exact hz hv
  rw [bare_iff]
  refine ⟨?_, ?_⟩
  · simp only [Sq.isSpace, Sq.trimSpace, Bool.or_eq_false_iff, Bool.and_eq_false_iff, decide_eq_false_iff_not]
    refine ⟨⟨⟨⟨⟨⟨⟨?_, ?_⟩, ?_⟩, ?_⟩, ?_⟩, ?_⟩, ?_⟩, ?_⟩
    · exact ⟨⟨⟨⟨⟨⟨⟨ne _ (by decide), ne _ (by decide)⟩, ne _ (by decide)⟩, ne _ (by decide)⟩, ne _ (by decide)⟩, ne _ (by decide)⟩, ne _ (by decide)⟩, ne _ (by decide)⟩
    all_goals grind
  · simp only [opensQuote]
    simp [ne '"' (by decide), ne '`' (by decide)]

/-- A quoted identifier is one word. -/
theorem word_quoted (x : Str) : Word .mysql (quoteIdentifier .mysql x) ∧ quoteIdentifier .mysql x ≠ [] := by
  unfold quoteIdentifier
  split
  · refine ⟨?_, by simp⟩
    have e : '`' :: Sq.escapeQuote '`' x ++ ['`'] = ('`', '`').1 :: (Sq.escapeQuote '`' x ++ ('`', '`').2 :: []) := by simp
    show Word .mysql ('`' :: Sq.escapeQuote '`' x ++ ['`'])
    rw [e]
    obtain ⟨y, hy⟩ := Sq.C01_escape_closes '`' x [] (by simp)
    exact Word.quoted (by simp [identQuotes]) (by simp) hy Word.nil
  · rename_i h
    cases x with
    | nil => simp [Sq.needsQuoting] at h
    | cons c cs =>
      simp [Sq.needsQuoting] at h
      refine ⟨word_of_bare _ _ ?_, by simp⟩
      intro z hz
      apply bareChar_word
      rcases List.mem_cons.1 hz with rfl | hz
      · exact h.1.2
      · exact h.2 z hz

theorem escape_mem (q c : Char) (s : Str) (h : c ∈ Sq.escapeQuote q s) : c ∈ s ∨ c = q := by
  induction s using Sq.escapeQuote.induct q with
  | case1 => simp [Sq.escapeQuote] at h
  | _ => grind [Sq.escapeQuote]

theorem dot_free {x : Str} (h : '.' ∉ x) : '.' ∉ quoteIdentifier .mysql x := by
  unfold quoteIdentifier
  split
  · intro hm
    simp at hm
    rcases escape_mem _ _ _ hm with hm | hm
    · exact h hm
    · exact absurd hm (by decide)
  · exact h

/-- When a trigger fires. -/
def timings : List Str := ["BEFORE".toList, "AFTER".toList]

/-- What it fires on. -/
def events : List Str := ["INSERT".toList, "UPDATE".toList, "DELETE".toList]

theorem timing_words {timing event : Str} (ht : timing ∈ timings) (he : event ∈ events) :
    Words .mysql "ON" [(timing, " ".toList), (event, " ".toList)] := by
  intro p hp
  simp only [List.mem_cons, List.not_mem_nil, or_false] at hp
  simp only [timings, events, List.mem_cons, List.not_mem_nil, or_false] at ht he
  rcases hp with rfl | rfl
  · rcases ht with rfl | rfl <;> exact ⟨bare_literal _ _ (by decide), by decide, ⟨by decide, by decide⟩, by unfold sameKeyword; decide⟩
  · rcases he with rfl | rfl | rfl <;> exact ⟨bare_literal _ _ (by decide), by decide, ⟨by decide, by decide⟩, by unfold sameKeyword; decide⟩

/-- The table, as it is written. -/
def written (t : Trigger) : Str :=
  (if t.tableSchema ≠ [] then quoteIdentifier .mysql t.tableSchema ++ ".".toList else []) ++ quoteIdentifier .mysql t.tableName

theorem word_written (t : Trigger) : Word .mysql (written t) ∧ written t ≠ [] := by
  have hn := word_quoted t.tableName
  unfold written
  split
  · refine ⟨?_, by simp⟩
    rw [List.append_assoc]
    refine word_append _ (word_quoted _).1 (Word.bare (by rw [bare_iff]; decide) hn.1) ?_
    intro q hq
    simp [identQuotes] at hq
    rcases hq with rfl | rfl <;> simp
  · simpa using hn

theorem text_eq (t : Trigger) (timing event : Str) : mysqlTriggerSQL t timing event =
    [] ++ (layout [("CREATE".toList, " ".toList)] ++ ("TRIGGER".toList ++ (" ".toList ++ (layout [] ++ (quoteIdentifier .mysql t.triggerName ++ (" ".toList ++
      (layout [(timing, " ".toList), (event, " ".toList)] ++ ("ON".toList ++ (" ".toList ++ (written t ++ (" FOR EACH ROW ".toList ++ t.sql))))))))))) := by
  have e1 : "CREATE TRIGGER ".toList = "CREATE".toList ++ (" ".toList ++ ("TRIGGER".toList ++ " ".toList)) := by decide
  have e2 : " ON ".toList = " ".toList ++ ("ON".toList ++ " ".toList) := by decide
  unfold mysqlTriggerSQL written layout
  rw [e1, e2]
  generalize "CREATE".toList = a1
  generalize "TRIGGER".toList = a2
  generalize "ON".toList = a3
  generalize " FOR EACH ROW ".toList = a4
  simp only [List.flatMap_cons, List.flatMap_nil, List.append_assoc, List.nil_append, List.append_nil]

/-- The text made for a trigger that was read from MySQL is a trigger statement for the reported names. -/
def triggerText (t : Trigger) {timing event : Str} (ht : timing ∈ timings) (he : event ∈ events) :
    _root_.Spec.TriggerText .mysql (mysqlTriggerSQL t timing event) (quoteIdentifier .mysql t.triggerName) (written t) where
  lead := []
  pre := [("CREATE", " ")]
  kwTrigger := "TRIGGER"
  sep1 := " "
  ine := []
  sep2 := " "
  mid := [(timing, " "), (event, " ")]
  kwOn := "ON"
  sep3 := " "
  rest := " FOR EACH ROW ".toList ++ t.sql
  text := text_eq t timing event
  hlead := by simp
  hpre := by
    intro p hp
    simp only [List.mem_cons, List.not_mem_nil, or_false] at hp
    subst hp
    exact ⟨bare_literal _ _ (by decide), by decide, ⟨by decide, by decide⟩, by unfold sameKeyword; decide⟩
  hkwTrigger := by unfold sameKeyword; decide
  hsep1 := ⟨by decide, by decide⟩
  hine := .inl ⟨rfl, by simp⟩
  hname := word_quoted _
  hsep2 := ⟨by decide, by decide⟩
  hmid := timing_words ht he
  hkwOn := by unfold sameKeyword; decide
  hsep3 := ⟨by decide, by decide⟩
  htable := word_written t
  hrest := by intro c hc; simp at hc; subst hc; decide

/-- **C69/C51, MySQL triggers (partial).** MySQL reports the parts of a trigger, from which the statement `CREATE TRIGGER ...` is put together.  Read like any declared
trigger, this statement gives the reported names as they are spelled in it.  Missing: names in quotes are the quoted spelling, not the name, and a dot in a quoted
schema name splits it (as `C51_trigger_quoted_violated`). -/
theorem C69_mysql_trigger_text_partial (t : Trigger) {timing event : Str} (ht : timing ∈ timings) (he : event ∈ events)
    (hdot : if t.tableSchema = [] then '.' ∉ t.tableName else '.' ∉ t.tableSchema) :
    populateTrigger .mysql { sql := mysqlTriggerSQL t timing event } =
      .ok { sql := mysqlTriggerSQL t timing event, triggerName := quoteIdentifier .mysql t.triggerName,
            tableSchema := if t.tableSchema = [] then [] else quoteIdentifier .mysql t.tableSchema,
            tableName := quoteIdentifier .mysql t.tableName } := by
  by_cases hs : t.tableSchema = []
  · simp only [hs, if_true] at hdot
    have e : written t = quoteIdentifier .mysql t.tableName := by simp [written, hs]
    have h := triggerText t ht he
    rw [e] at h
    rw [C51_trigger_partial .mysql { sql := mysqlTriggerSQL t timing event } _ _ h (dot_free hdot)]
    simp [hs]
  · simp only [hs, if_false] at hdot
    have e : written t = quoteIdentifier .mysql t.tableSchema ++ '.' :: quoteIdentifier .mysql t.tableName := by simp [written, hs]
    have h := triggerText t ht he
    rw [e] at h
    rw [C51_trigger_qualified_partial .mysql { sql := mysqlTriggerSQL t timing event } _ _ _ h (dot_free hdot) (word_quoted _).2]
    simp [hs]

/-- **C69/C51, MySQL triggers with plain names.** The statement put together names exactly the trigger, schema and table the database reported. -/
theorem C69_mysql_trigger_text (t : Trigger) {timing event : Str} (ht : timing ∈ timings) (he : event ∈ events)
    (hn : isBareIdent t.triggerName = true) (hs : t.tableSchema = [] ∨ isBareIdent t.tableSchema = true) (hb : isBareIdent t.tableName = true) :
    populateTrigger .mysql { sql := mysqlTriggerSQL t timing event } =
      .ok { sql := mysqlTriggerSQL t timing event, triggerName := t.triggerName, tableSchema := t.tableSchema, tableName := t.tableName } := by
  have dot : ∀ x : Str, isBareIdent x = true → '.' ∉ x ∧ quoteIdentifier .mysql x = x := by
    intro x hx
    refine ⟨?_, ((Sq.C03_one_identifier .mysql x [] (by intro c hc; simp at hc)).2.1).2 hx⟩
    intro hm
    have := Sq.needsQuoting_iff x
    rw [hx] at this
    cases x with
    | nil => simp at hm
    | cons c cs =>
      simp [Sq.needsQuoting] at this
      rcases List.mem_cons.1 hm with rfl | hm
      · exact absurd this.1.2 (by decide)
      · exact absurd (this.2 _ hm) (by decide)
  rw [C69_mysql_trigger_text_partial t ht he (by
    rcases hs with h | h
    · simp [h, (dot _ hb).1]
    · have : t.tableSchema ≠ [] := by rintro e; rw [e] at h; simp [isBareIdent] at h
      simp [this, (dot _ h).1])]
  rw [(dot _ hn).2, (dot _ hb).2]
  rcases hs with h | h
  · simp [h]
  · have : t.tableSchema ≠ [] := by rintro e; rw [e] at h; simp [isBareIdent] at h
    simp [this, (dot _ h).2]

/-- A trigger as MySQL reports it. -/
def exampleTrigger : Trigger := { tableSchema := "sakila", tableName := "film", triggerName := "ins_film", sql := "BEGIN SET NEW.x = 1; END" }

example := C69_mysql_trigger_text exampleTrigger (timing := "AFTER".toList) (event := "INSERT".toList) (by decide) (by decide) (by decide) (.inr (by decide)) (by decide)

example : mysqlTriggerSQL exampleTrigger "AFTER".toList "INSERT".toList =
    "CREATE TRIGGER ins_film AFTER INSERT ON sakila.film FOR EACH ROW BEGIN SET NEW.x = 1; END".toList := by decide +kernel

example : populateTrigger .mysql { sql := mysqlTriggerSQL { tableName := "My Table".toList, triggerName := "a`b".toList } "BEFORE".toList "DELETE".toList } =
    .ok { sql := mysqlTriggerSQL { tableName := "My Table".toList, triggerName := "a`b".toList } "BEFORE".toList "DELETE".toList,
          triggerName := "`a``b`".toList, tableName := "`My Table`".toList } :=
  C69_mysql_trigger_text_partial _ (by decide) (by decide) (by decide)

end Ddl.TriggerText
