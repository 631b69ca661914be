import Verif.Props.Statements
/-
C40: the script of a migration, read back.
-/
namespace Ddl
open Spec
open _root_.Spec (reader lexStep lexTop Lex)
open Sq (quoteIdentifier escapeQuote isSpace)

/-! ### Trimming tidy texts -/

theorem lexTop_space (d : Dialect) (c : Char) (h : isSpace c = true) : lexTop d c = some .top := by
  have hne : ∀ x : Char, isSpace x = false → c ≠ x := by rintro x hx rfl; rw [hx] at h; cases h
  unfold lexTop
  rw [if_neg (hne ';' (by decide)), if_neg (hne '-' (by decide)), if_neg (hne '/' (by decide)), if_neg (hne '\'' (by decide)),
    if_neg (hne '"' (by decide)), if_neg (hne '`' (by decide)), if_neg (hne '#' (by decide)), if_neg (hne '$' (by decide))]

theorem run_spaces (d : Dialect) (t : Str) (h : ∀ c ∈ t, isSpace c = true) : (reader d).run Lex.top t = some Lex.top := by
  induction t with
  | nil => rfl
  | cons c t ih =>
    show ((lexTop d c).bind fun s' => (reader d).run s' t) = _
    rw [lexTop_space d c (h c List.mem_cons_self)]
    exact ih fun x hx => h x (List.mem_cons_of_mem _ hx)

theorem takeWhile_spaces (t : Str) : ∀ c ∈ t.takeWhile isSpace, isSpace c = true := by
  induction t with
  | nil => intro c hc; cases hc
  | cons x t ih =>
    intro c hc
    rw [List.takeWhile_cons] at hc
    by_cases h : isSpace x = true
    · rw [if_pos h] at hc
      rcases List.mem_cons.1 hc with rfl | hc
      · exact h
      · exact ih c hc
    · rw [if_neg h] at hc; cases hc

theorem neutral_trim (d : Dialect) (t : Str) (h : Tidy d t) : (reader d).Neutral (trim t) := by
  have hs := takeWhile_spaces t
  have e : t.takeWhile isSpace ++ t.dropWhile isSpace = t := List.takeWhile_append_dropWhile
  have h2 := h.2
  have hchop : chop t = if (t.dropWhile isSpace).all isSpace then chop (t.takeWhile isSpace)
      else t.takeWhile isSpace ++ chop (t.dropWhile isSpace) := by
    conv => lhs; rw [← e]
    exact chop_append _ _
  show (reader d).Neutral (chop (t.dropWhile isSpace))
  by_cases hb : (t.dropWhile isSpace).all isSpace = true
  · have : chop (t.dropWhile isSpace) = [] := by
      unfold chop
      have : (t.dropWhile isSpace).reverse.dropWhile isSpace = [] :=
        (dropWhile_nil _ _).2 fun x hx => List.all_eq_true.1 hb x (List.mem_reverse.1 hx)
      rw [this]; rfl
    rw [this]; exact neutral_nil _
  · rw [hchop, if_neg hb] at h2
    unfold _root_.Spec.Reader.Neutral at h2 ⊢
    rw [← h2]
    exact (run_append (reader d) Lex.top Lex.top _ _ (run_spaces d _ hs)).symm

/-- States whose closing quote is not the terminator. -/
def Sane : Lex → Prop
  | .quoted q => q ≠ ';'
  | .escaped q => q ≠ ';'
  | _ => True

theorem sane_top (d : Dialect) (c : Char) (s : Lex) (h : lexTop d c = some s) : Sane s := by
  unfold lexTop at h
  repeat' split at h
  all_goals first
    | (cases h; trivial)
    | (cases h; decide)
    | cases h
  all_goals (simp only [Sane]; decide)

theorem sane_step (d : Dialect) (s s' : Lex) (c : Char) (hs : Sane s) (h : lexStep d s c = some s') : Sane s' := by
  cases s with
  | top => exact sane_top d c s' h
  | dash =>
    simp only [lexStep] at h
    split at h
    · cases h; trivial
    · exact sane_top d c s' h
  | slash =>
    simp only [lexStep] at h
    split at h
    · cases h; trivial
    · exact sane_top d c s' h
  | quoted q =>
    simp only [lexStep] at h
    split at h
    · cases h; trivial
    · split at h
      · cases h; exact hs
      · cases h; exact hs
  | escaped q => simp only [lexStep] at h; cases h; exact hs
  | line => simp only [lexStep] at h; cases h; split <;> trivial
  | block => simp only [lexStep] at h; cases h; split <;> trivial
  | blockStar => simp only [lexStep] at h; cases h; repeat' split
                 all_goals trivial
  | tag t =>
    simp only [lexStep] at h
    split at h
    · cases h; trivial
    · split at h
      · cases h; trivial
      · exact sane_top d c s' h
  | body t => simp only [lexStep] at h; cases h; split <;> trivial
  | close t x => simp only [lexStep] at h; cases h; repeat' split
                 all_goals trivial

theorem sane_run (d : Dialect) (s s' : Lex) (t : Str) (hs : Sane s) (h : (reader d).run s t = some s') : Sane s' := by
  induction t generalizing s with
  | nil => cases h; exact hs
  | cons c t ih =>
    have h' : ((lexStep d s c).bind fun s' => (reader d).run s' t) = some s' := h
    cases hc : lexStep d s c with
    | none => rw [hc] at h'; cases h'
    | some s1 => rw [hc] at h'; exact ih s1 (sane_step d s s1 c hs hc) h'

theorem step_semicolon (d : Dialect) (s : Lex) (hs : Sane s) : lexStep d s ';' ≠ some .top := by
  cases s with
  | quoted q =>
    simp only [lexStep]
    rw [if_neg (fun e => hs e.symm), if_neg (by simp)]
    simp
  | top => simp [lexStep, lexTop]
  | dash => simp [lexStep, lexTop]
  | slash => simp [lexStep, lexTop]
  | escaped q => simp [lexStep]
  | line => simp [lexStep]
  | block => simp [lexStep]
  | blockStar => simp [lexStep]
  | tag t => simp [lexStep, lexTop, Char.isAlphanum, Char.isAlpha, Char.isUpper, Char.isLower, Char.isDigit]
  | body t => simp [lexStep]
  | close t x => simp [lexStep, Char.isAlphanum, Char.isAlpha, Char.isUpper, Char.isLower, Char.isDigit]

theorem bare_neutral (d : Dialect) (t : Str) (h : (reader d).Neutral t) : Spec.bare t = t := by
  unfold Spec.bare
  rw [if_neg]
  intro hl
  rw [← dropLast_snoc t ';' hl] at h
  unfold _root_.Spec.Reader.Neutral at h
  cases hr : (reader d).run Lex.top t.dropLast with
  | none =>
    have : ∀ (s : Lex) (a b : Str), (reader d).run s a = none → (reader d).run s (a ++ b) = none := by
      intro s a b
      induction a generalizing s with
      | nil => intro h; cases h
      | cons c a ih =>
        intro h
        have h' : ((lexStep d s c).bind fun s' => (reader d).run s' a) = none := h
        show ((lexStep d s c).bind fun s' => (reader d).run s' (a ++ b)) = none
        cases hc : lexStep d s c with
        | none => rfl
        | some s1 => rw [hc] at h'; exact ih s1 h'
    have h3 := this Lex.top _ [';'] hr
    exact absurd (h3.symm.trans h) (by simp)
  | some s =>
    have hs := sane_run d .top s _ trivial hr
    have h2 : (reader d).run s [';'] = some Lex.top := (run_append (reader d) Lex.top s _ _ hr).symm.trans h
    have h3 : ((lexStep d s ';').bind fun s' => (some s' : Option Lex)) = some Lex.top := h2
    apply step_semicolon d s hs
    cases hc : lexStep d s ';' with
    | none => rw [hc] at h3; cases h3
    | some s1 => rw [hc] at h3; exact h3

theorem neutral_whole (d : Dialect) (t : Str) (h : (reader d).Neutral t) : (reader d).Whole t :=
  (whole_iff _ _).2 ⟨Lex.top, h, rfl⟩

/-- **C40 (partial).** For every migration of every dialect (but without MySQL functions and triggers): if each SQL fragment supplied by
the user is closed in itself, then — whatever the names of the tables, columns, views, indexes, constraints are — the client reads
from the script exactly one statement for each non-ignored command, in the order of `C39`, and nothing is left unterminated. -/
theorem C40_script_partial (m : Migration) (hd : NoDelimiter m) (hs : m.d ≠ .sqlserver) (out : Str) (h : m.script = .ok out)
    (hr : ∀ c ∈ m.order, ∀ r ∈ raw c, Tidy m.d r) :
    ∃ qs : List Str, m.order.map (·.sql m.d) = qs.map .ok ∧
      (reader m.d).read out = ((qs.map trim).take 1 ++ ((qs.map trim).drop 1).map ("\n\n".toList ++ ·), []) := by
  have hn : ∀ c ∈ m.order, ∀ q, c.sql m.d = .ok q → (reader m.d).Neutral (trim q) := fun c hc q hq =>
    neutral_trim m.d q ((T_command hs c (hr c hc)).tidy q hq)
  obtain ⟨qs, h1, h2⟩ := C40_statements_partial (reader m.d) rfl m hd out h fun c hc q hq => by
    rw [bare_neutral m.d _ (hn c hc q hq)]
    exact neutral_whole m.d _ (hn c hc q hq)
  refine ⟨qs, h1, ?_⟩
  rw [h2]
  have : (qs.map fun q => Spec.bare (trim q)) = qs.map trim := by
    apply List.map_congr_left
    intro q hq
    have : Res.ok q ∈ m.order.map (·.sql m.d) := by rw [h1]; exact List.mem_map_of_mem hq
    obtain ⟨c, hc, hcq⟩ := List.mem_map.1 this
    exact bare_neutral m.d _ (hn c hc q hcq)
  rw [this]

/-! ### Nonblank commands -/

/-- If the command has a text, it is not blank. -/
structure N (r : Res Str) : Prop where
  nonblank : ∀ t, r = .ok t → ∃ c ∈ t, isSpace c = false

theorem N_left {a b : Res Str} (h : N a) : N (a +++ b) := by
  refine ⟨fun t ht => ?_⟩
  cases a <;> cases b <;> cases ht
  obtain ⟨c, hc, hn⟩ := h.nonblank _ rfl
  exact ⟨c, List.mem_append_left _ hc, hn⟩

theorem N_right {a b : Res Str} (h : N b) : N (a +++ b) := by
  refine ⟨fun t ht => ?_⟩
  cases a <;> cases b <;> cases ht
  obtain ⟨c, hc, hn⟩ := h.nonblank _ rfl
  exact ⟨c, List.mem_append_right _ hc, hn⟩

theorem N_txt {s : Str} (h : s.any (fun c => !isSpace c) = true) : N (txt s) := by
  refine ⟨fun t ht => ?_⟩
  cases ht
  obtain ⟨c, hc, hn⟩ := List.any_eq_true.1 h
  exact ⟨c, hc, by simpa using hn⟩

theorem trim_nonblank (t : Str) (h : ∃ c ∈ t, isSpace c = false) : trim t ≠ [] := by
  obtain ⟨c, hc, hn⟩ := h
  intro e
  unfold trim at e
  have e1 : (t.dropWhile isSpace).reverse.dropWhile isSpace = [] := by simpa using e
  rw [dropWhile_nil] at e1
  have e2 : t.dropWhile isSpace = [] := by
    cases hd : t.dropWhile isSpace with
    | nil => rfl
    | cons x xs =>
      have hx := e1 x (by rw [hd]; simp)
      have := List.head?_dropWhile_not isSpace t
      rw [hd] at this
      simp [hx] at this
  have := (dropWhile_nil _ _).1 e2 c hc
  rw [hn] at this; cases this

/-- The SQL of functions and triggers is the user's; every other command is nonblank by itself. -/
def Spec.HasText : Command → Prop
  | .createFunction c => ∃ x ∈ c.function.sql, isSpace x = false
  | .createTrigger c => ∃ x ∈ c.trigger.sql, isSpace x = false
  | _ => True

theorem N_command (d : Dialect) (c : Command) (hi : c.ignore = false) (ht : Spec.HasText c) : N (c.sql d) := by
  cases c with
  | createSchema c =>
    show N (CreateSchemaCommand.sql d c)
    unfold CreateSchemaCommand.sql; rw [if_neg (by simpa [Command.ignore] using hi)]
    exact N_right (N_left (N_txt (by decide +kernel)))
  | createExtension c =>
    show N (CreateExtensionCommand.sql d c)
    unfold CreateExtensionCommand.sql; rw [if_neg (by simpa [Command.ignore] using hi)]
    exact N_right (N_left (N_txt (by decide +kernel)))
  | createFunction c =>
    show N (CreateFunctionCommand.sql d c)
    unfold CreateFunctionCommand.sql; rw [if_neg (by simpa [Command.ignore] using hi)]
    exact N_right (⟨fun t h => by cases h; exact ht⟩)
  | createTable c =>
    show N (CreateTableCommand.sql d c)
    unfold CreateTableCommand.sql; rw [if_neg (by simpa [Command.ignore] using hi)]
    simp only
    refine N_right (N_left ?_)
    split
    · exact N_right (N_txt (by decide +kernel))
    · exact N_txt (by decide +kernel)
  | alterTable c =>
    show N (AlterTableCommand.sql d c)
    unfold AlterTableCommand.sql; rw [if_neg (by simpa [Command.ignore] using hi)]
    exact N_left (N_txt (by decide +kernel))
  | createView c =>
    show N (CreateViewCommand.sql d c)
    unfold CreateViewCommand.sql; rw [if_neg (by simpa [Command.ignore] using hi)]
    exact N_left (N_txt (by decide +kernel))
  | createIndex c =>
    show N (CreateIndexCommand.sql d c)
    unfold CreateIndexCommand.sql; rw [if_neg (by simpa [Command.ignore] using hi)]
    simp only
    exact N_right (N_right (N_left (N_txt (by decide +kernel))))
  | createTrigger c =>
    show N (CreateTriggerCommand.sql d c)
    unfold CreateTriggerCommand.sql; rw [if_neg (by simpa [Command.ignore] using hi)]
    exact ⟨fun t h => by cases h; exact ht⟩
  | addForeignKeys c =>
    show N (AlterTableCommand.sql d c)
    unfold AlterTableCommand.sql; rw [if_neg (by simpa [Command.ignore] using hi)]
    exact N_left (N_txt (by decide +kernel))
  | dropView c =>
    show N (DropViewCommand.sql d c)
    unfold DropViewCommand.sql; rw [if_neg (by simpa [Command.ignore] using hi)]
    exact N_left (N_txt (by decide +kernel))
  | dropTable c =>
    show N (DropTableCommand.sql d c)
    unfold DropTableCommand.sql; rw [if_neg (by simpa [Command.ignore] using hi)]
    exact N_left (N_txt (by decide +kernel))
  | dropTrigger c =>
    show N (DropTriggerCommand.sql d c)
    unfold DropTriggerCommand.sql; rw [if_neg (by simpa [Command.ignore] using hi)]
    exact N_left (N_txt (by decide +kernel))
  | dropIndex c =>
    show N (DropIndexCommand.sql d c)
    unfold DropIndexCommand.sql; rw [if_neg (by simpa [Command.ignore] using hi)]
    exact N_left (N_txt (by decide +kernel))
  | alterTableDrop c =>
    show N (AlterTableCommand.sql d c)
    unfold AlterTableCommand.sql; rw [if_neg (by simpa [Command.ignore] using hi)]
    exact N_left (N_txt (by decide +kernel))
  | dropFunction c =>
    show N (DropFunctionCommand.sql d c)
    unfold DropFunctionCommand.sql; rw [if_neg (by simpa [Command.ignore] using hi)]
    exact N_right (N_left (N_txt (by decide +kernel)))
  | dropExtension c =>
    show N (DropExtensionCommand.sql d c)
    unfold DropExtensionCommand.sql; rw [if_neg (by simpa [Command.ignore] using hi)]
    exact N_right (N_left (N_txt (by decide +kernel)))

/-- **C40, no spurious failure.** If every non-ignored command can be built (and functions and triggers have some SQL), the script is
written. -/
theorem C40_written_partial (m : Migration) (hd : NoDelimiter m) (hb : ∀ c ∈ m.order, ∃ q, c.sql m.d = .ok q)
    (ht : ∀ c ∈ m.order, Spec.HasText c) : ∃ out, m.script = .ok out :=
  C40_total_partial m hd fun c hc => by
    obtain ⟨q, hq⟩ := hb c hc
    have hi : c.ignore = false := by simpa using (List.mem_filter.1 hc).2
    exact ⟨q, hq, trim_nonblank q ((N_command m.d c hi (ht c hc)).nonblank q hq)⟩

/-! ### An instance -/

/-- A migration with hostile names. -/
def exampleMigration : Migration :=
  { dialect := some .postgres
    createTableCmds := [{ table := { tableName := "a\"; DROP TABLE x; --".toList
                                     columns := [{ columnName := "c;'".toList, columnType := "INT".toList }] } },
      { table := { tableName := "skipped".toList }, ignore := true }]
    createFunctionCmds := [{ function := { sql := "CREATE FUNCTION f() AS $$ BEGIN; END; $$\n".toList } }]
    dropTableCmds := [{ tableSchemas := [[]], tableNames := ["old;\"".toList] }] }

example : NoDelimiter exampleMigration := .inl (by decide)
example : ∀ c ∈ exampleMigration.order, ∀ r ∈ raw c, Tidy exampleMigration.d r := by
  have h : (exampleMigration.order.flatMap raw).all (fun r => endsTop ((reader .postgres).run Lex.top r) &&
      endsTop ((reader .postgres).run Lex.top (chop r))) = true := by decide +kernel
  intro c hc r hr
  have := List.all_eq_true.1 h r (List.mem_flatMap.2 ⟨c, hc, hr⟩)
  simp only [endsTop, Bool.and_eq_true, decide_eq_true_eq] at this
  exact this
example : exampleMigration.script = .ok
    ("CREATE FUNCTION f() AS $$ BEGIN; END; $$;\n\nCREATE TABLE \"a\"\"; DROP TABLE x; --\" (\n    \"c;'\" INT\n);\n\n" ++
     "DROP TABLE \"old;\"\"\";").toList := by decide +kernel

end Ddl
