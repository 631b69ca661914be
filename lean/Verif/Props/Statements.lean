import Verif.Props.Fragments
/-
C40, C50: every command is one statement if the SQL fragments the user supplied are; names cannot change that.
-/
namespace Ddl
open Spec
open _root_.Spec (reader lexStep lexTop Lex)
open Sq (quoteIdentifier escapeQuote isSpace)

variable {d : Dialect} (hd : d ≠ .sqlserver)

theorem tidy_collation (hd : d = .postgres) (x : Str) :
    Tidy d (" COLLATE \"".toList ++ escapeQuote '"' x ++ "\"".toList) := by
  have e : " COLLATE \"".toList ++ escapeQuote '"' x ++ "\"".toList = " COLLATE ".toList ++ ('"' :: escapeQuote '"' x ++ ['"']) := by
    have : " COLLATE \"".toList = " COLLATE ".toList ++ ['"'] := rfl
    rw [this]; simp
  rw [e]
  subst hd
  exact tidy_append _ _ _ (tidy_lit _ _ (by decide +kernel)) (tidy_quoted .postgres '"' rfl (.inl (by simp)) (by decide) x)

include hd

theorem T_column (c : Column) (h : ∀ r ∈ rawColumn c, Tidy d r) : T d (writeColumnDefinition d c) := by
  have h1 : Tidy d c.columnType := h _ (by simp [rawColumn])
  have h2 : Tidy d c.columnDefault := h _ (by simp [rawColumn])
  have h3 : Tidy d c.identity := h _ (by simp [rawColumn])
  have h4 : Tidy d c.generatedExpr := h _ (by simp [rawColumn])
  have h5 : Tidy d c.collationName := h _ (by simp [rawColumn])
  unfold writeColumnDefinition columnGeneration columnCollate
  tidy
  · cases d <;> first | exact T_lit (by decide +kernel) | exact T_nil
  · cases d <;> first | exact T_txt (tidy_collation rfl _) | exact T_txt (tidy_append _ _ _ (tidy_lit _ _ (by decide +kernel)) h5)

theorem T_addColumn (c : AddColumnCommand) (h : ∀ r ∈ rawColumn c.column ++ c.checkExprs, Tidy d r) : T d (c.sql d) := by
  have hc := T_column hd c.column fun r hr => h r (List.mem_append_left _ hr)
  have he : Tidy d (c.checkExprs.flatMap fun e => " CHECK (".toList ++ e ++ ")".toList) := by
    apply tidy_flatMap
    intro e he
    have := h e (List.mem_append_right _ he)
    tidy
  unfold AddColumnCommand.sql
  tidy

theorem T_alterColumn (c : AlterColumnCommand) (h : ∀ r ∈ c.usingExpr :: rawColumn c.column, Tidy d r) : T d (c.sql d) := by
  have hc := T_column hd c.column fun r hr => h r (List.mem_cons_of_mem _ hr)
  have h0 : Tidy d c.usingExpr := h _ List.mem_cons_self
  have h1 : Tidy d c.column.columnType := h _ (by simp [rawColumn])
  have h2 : Tidy d c.column.columnDefault := h _ (by simp [rawColumn])
  have h3 : Tidy d c.column.identity := h _ (by simp [rawColumn])
  unfold AlterColumnCommand.sql
  apply T_ite
  · intro _; exact T_nil
  intro _
  have key : d = .postgres →
      Tidy d (joinLines (c.clauses.map fun x => "ALTER COLUMN ".toList ++ quoteIdentifier d c.column.columnName ++ x)) := by
    intro hp
    have hcol := tidy_collation hp c.column.collationName
    apply tidy_joinLines
    intro x hx
    obtain ⟨y, hy, rfl⟩ := List.mem_map.1 hx
    have : Tidy d y := by
      unfold AlterColumnCommand.clauses at hy
      simp only [List.mem_append] at hy
      rcases hy with (((hy | hy) | hy) | hy) | hy
      · split at hy
        · rw [List.mem_singleton] at hy; subst hy; tidy
        · cases hy
      · split at hy
        · rw [List.mem_singleton] at hy; subst hy; tidy
        · split at hy
          · rw [List.mem_singleton] at hy; subst hy; tidy
          · cases hy
      · split at hy
        · rw [List.mem_singleton] at hy; subst hy; tidy
        · split at hy
          · rw [List.mem_singleton] at hy; subst hy; tidy
          · cases hy
      · split at hy
        · rw [List.mem_singleton] at hy; subst hy; tidy
        · split at hy
          · rw [List.mem_singleton] at hy; subst hy; tidy
          · cases hy
      · split at hy
        · rw [List.mem_singleton] at hy; subst hy; tidy
        · cases hy
    tidy
  cases d
  case sqlite => exact T_err
  case mysql => exact T_append (T_lit (by decide +kernel)) hc
  case postgres => exact T_txt (key rfl)
  all_goals exact T_err

theorem T_dropColumn (c : DropColumnCommand) : T d (c.sql d) := by
  unfold DropColumnCommand.sql; tidy

theorem T_exclusion (c : Constraint) (h : ∀ r ∈ rawConstraint c, Tidy d r) (cols : List Str) (i : Nat) (hcols : ∀ x ∈ cols, x ∈ c.columns) :
    T d (exclusionElements c cols i) := by
  induction cols generalizing i with
  | nil => exact T_nil
  | cons x xs ih =>
    have hx : Tidy d x := h x (by simp [rawConstraint, hcols x List.mem_cons_self])
    have ih' := ih (i + 1) fun y hy => hcols y (List.mem_cons_of_mem _ hy)
    rw [exclusionElements]
    tidy
    · cases he : c.exprs[i]? with
      | none => exact T_panic
      | some e =>
        have : Tidy d e := h e (by simp [rawConstraint, List.mem_of_getElem? he])
        simp only
        tidy
    · cases he : c.exclusionOperators[i]? with
      | none => exact T_panic
      | some e =>
        have : Tidy d e := h e (by simp [rawConstraint, List.mem_of_getElem? he])
        simp only
        tidy

set_option maxHeartbeats 2000000 in
theorem T_constraint (c : Constraint) (h : ∀ r ∈ rawConstraint c, Tidy d r) : T d (writeConstraintDefinition d c) := by
  have h1 : Tidy d c.constraintType.name := h _ (by simp [rawConstraint])
  have h2 : Tidy d c.checkExpr := h _ (by simp [rawConstraint])
  have h3 : Tidy d c.referencesSchema := h _ (by simp [rawConstraint])
  have h4 : Tidy d c.referencesTable := h _ (by simp [rawConstraint])
  have h5 : Tidy d c.matchOption := h _ (by simp [rawConstraint])
  have h6 : Tidy d c.updateRule := h _ (by simp [rawConstraint])
  have h7 : Tidy d c.deleteRule := h _ (by simp [rawConstraint])
  have h8 : Tidy d c.exclusionIndexType := h _ (by simp [rawConstraint])
  have h9 : Tidy d c.predicate := h _ (by simp [rawConstraint])
  have h10 : Tidy d (joinComma c.columns) := tidy_joinComma d _ fun x hx => h x (by simp [rawConstraint, hx])
  have h11 : Tidy d (joinComma c.referencesColumns) := tidy_joinComma d _ fun x hx => h x (by simp [rawConstraint, hx])
  have h12 := T_exclusion hd c h c.columns 0 fun _ hx => hx
  unfold writeConstraintDefinition constraintText deferrableText
  apply T_append
  · cases ht : c.constraintType with
    | check => tidy
    | foreignKey => tidy
    | exclude => tidy
    | primaryKey => rw [ht] at h1; tidy
    | unique => rw [ht] at h1; tidy
    | other s => rw [ht] at h1; tidy
  · refine T_when fun _ => T_append ?_ (by tidy)
    cases d <;> first | exact T_failIf | exact T_err

theorem T_addConstraint (c : AddConstraintCommand) (h : ∀ r ∈ rawConstraint c.constraint, Tidy d r) : T d (c.sql d) := by
  have hc := T_constraint hd c.constraint h
  have h1 : Tidy d c.constraint.constraintType.name := h _ (by simp [rawConstraint])
  unfold AddConstraintCommand.sql
  tidy
  cases d <;> first | exact T_nil | exact T_append T_failIf (T_lit (by decide +kernel))

theorem T_alterConstraint (c : AlterConstraintCommand) : T d (c.sql d) := by
  unfold AlterConstraintCommand.sql; tidy

theorem T_dropConstraint (c : DropConstraintCommand) : T d (c.sql d) := by
  unfold DropConstraintCommand.sql; tidy

theorem T_indexElements (x : Index) (h : ∀ r ∈ rawIndex x, Tidy d r) (cols : List Str) (i : Nat) : T d (indexElements d x cols i) := by
  induction cols generalizing i with
  | nil => exact T_nil
  | cons c cs ih =>
    have ih' := ih (i + 1)
    rw [indexElements]
    tidy
    cases he : x.exprs[i]? with
    | none => exact T_panic
    | some e => exact T_txt (h e (by simp [rawIndex, List.mem_of_getElem? he]))

theorem T_createIndex (c : CreateIndexCommand) (h : ∀ r ∈ rawIndex c.index, Tidy d r) : T d (c.sql d) := by
  have h1 : Tidy d c.index.indexType := h _ (by simp [rawIndex])
  have h2 : Tidy d c.index.predicate := h _ (by simp [rawIndex])
  have h3 := T_indexElements hd c.index h c.index.columns 0
  have h4 : Tidy d (joinComma (c.index.includeColumns.map (quoteIdentifier d))) := tidy_joinComma d _ fun x hx => by
    obtain ⟨y, _, rfl⟩ := List.mem_map.1 hx
    exact tidy_ident d hd y
  unfold CreateIndexCommand.sql
  simp only
  tidy

theorem T_dropIndex (c : DropIndexCommand) : T d (c.sql d) := by
  unfold DropIndexCommand.sql; tidy

theorem T_createTrigger (c : CreateTriggerCommand) (h : Tidy d c.trigger.sql) : T d (c.sql d) := by
  unfold CreateTriggerCommand.sql; tidy

theorem T_dropTrigger (c : DropTriggerCommand) : T d (c.sql d) := by
  unfold DropTriggerCommand.sql
  tidy
  cases d
  case postgres => simp only; tidy
  all_goals (simp only; tidy)

theorem T_createFunction (c : CreateFunctionCommand) (h : Tidy d c.function.sql) : T d (c.sql d) := by
  unfold CreateFunctionCommand.sql; tidy

theorem T_dropFunction (c : DropFunctionCommand) (h : Tidy d c.function.rawArgs) : T d (c.sql d) := by
  unfold DropFunctionCommand.sql; tidy

theorem T_createExtension (c : CreateExtensionCommand) : T d (c.sql d) := by
  unfold CreateExtensionCommand.sql
  simp only
  apply T_ite
  · intro _; exact T_nil
  intro _
  by_cases hp : d = .postgres
  · have hv : Tidy d (" VERSION '".toList ++ escapeQuote '\'' ((c.extension.dropWhile (· ≠ '@')).drop 1) ++ "'".toList) := by
      have e : " VERSION '".toList ++ escapeQuote '\'' ((c.extension.dropWhile (· ≠ '@')).drop 1) ++ "'".toList =
          " VERSION ".toList ++ ('\'' :: escapeQuote '\'' ((c.extension.dropWhile (· ≠ '@')).drop 1) ++ ['\'']) := by
        have : " VERSION '".toList = " VERSION ".toList ++ ['\''] := rfl
        rw [this]; simp
      rw [e]
      subst hp
      exact tidy_append _ _ _ (tidy_lit _ _ (by decide +kernel)) (tidy_quoted .postgres '\'' rfl (.inl (by simp)) (by decide) _)
    tidy
  · have : failIf (decide (d ≠ .postgres)) "no extensions" = .err "no extensions".toList := by
      unfold failIf; rw [if_pos (by simpa using hp)]
    rw [this]
    refine ⟨fun t h => ?_⟩
    cases h

theorem T_dropExtension (c : DropExtensionCommand) : T d (c.sql d) := by
  have h4 : Tidy d (joinComma (c.extensions.map fun e => quoteIdentifier d (extensionName e))) := tidy_joinComma d _ fun x hx => by
    obtain ⟨y, _, rfl⟩ := List.mem_map.1 hx
    exact tidy_ident d hd _
  unfold DropExtensionCommand.sql
  tidy

theorem T_createSchema (c : CreateSchemaCommand) (h : Tidy d c.schemaName) : T d (c.sql d) := by
  unfold CreateSchemaCommand.sql; tidy

theorem T_createView (c : CreateViewCommand) (h : Tidy d c.view.sql) : T d (c.sql d) := by
  unfold CreateViewCommand.sql; tidy

theorem T_dropLines (many : Bool) (as bs : List Str) (i : Nat) : T d (dropLines d many as bs i) := by
  induction as generalizing bs i with
  | nil => exact T_nil
  | cons a as ih =>
    cases bs with
    | nil => exact T_panic
    | cons b bs =>
      have := ih bs (i + 1)
      rw [dropLines]
      tidy

theorem T_dropView (c : DropViewCommand) : T d (c.sql d) := by
  have := T_dropLines hd (decide (c.viewNames.length > 1)) c.viewSchemas c.viewNames 0
  unfold DropViewCommand.sql
  simp only
  tidy

theorem T_dropTableLines (many : Bool) (as bs : List Str) (i : Nat) : T d (dropTableLines d many as bs i) := by
  induction bs generalizing as i with
  | nil => cases as <;> exact T_nil
  | cons b bs ih =>
    cases as with
    | nil => exact T_panic
    | cons a as =>
      have := ih as (i + 1)
      rw [dropTableLines]
      tidy

theorem T_dropTable (c : DropTableCommand) : T d (c.sql d) := by
  have := T_dropTableLines hd (decide (c.tableNames.length > 1)) c.tableSchemas c.tableNames 0
  unfold DropTableCommand.sql
  simp only
  tidy

theorem T_tableLines (t : Table) (hv : ∀ x ∈ t.virtualTableArgs, Tidy d x) (h : ∀ r ∈ t.columns.flatMap rawColumn, Tidy d r) :
    ∀ x ∈ tableLines d t, T d x := by
  intro x hx
  unfold tableLines at hx
  split at hx
  · split at hx
    · obtain ⟨y, hy, rfl⟩ := List.mem_map.1 hx
      exact T_txt (hv y hy)
    · cases hx
  · obtain ⟨c, hc, rfl⟩ := List.mem_map.1 hx
    exact T_column hd c fun r hr => h r (List.mem_flatMap.2 ⟨c, (List.mem_filter.1 hc).1, hr⟩)

theorem T_constraintLine (c : Constraint) (h : ∀ r ∈ rawConstraint c, Tidy d r) : T d (constraintLine d c) := by
  have hc := T_constraint hd c h
  unfold constraintLine
  tidy

theorem T_createTable (c : CreateTableCommand) (h : ∀ r ∈ raw (.createTable c), Tidy d r) : T d (c.sql d) := by
  have h0 : Tidy d c.table.virtualTable := h _ (by simp [raw])
  have h1 := T_writeLines d (tableLines d c.table) 0 (T_tableLines hd c.table
    (fun x hx => h x (by simp only [raw, List.mem_append, List.mem_singleton]; tauto))
    (fun r hr => h r (by simp only [raw, List.mem_append]; tauto)))
  have h2 : T d (concatRes ((if c.includeConstraints then c.table.constraints.filter (includedConstraint d) else []).map (constraintLine d))) := by
    apply T_concatRes
    intro x hx
    obtain ⟨k, hk, rfl⟩ := List.mem_map.1 hx
    have hk' : k ∈ c.table.constraints := by
      split at hk
      · exact (List.mem_filter.1 hk).1
      · cases hk
    exact T_constraintLine hd k fun r hr => h r (by
      simp only [raw, List.mem_append, List.mem_flatMap]
      exact .inl (.inr ⟨k, hk', hr⟩))
  have h3 : T d (concatRes ((c.createIndexCmds.filter fun c => !c.ignore).map fun c => lit "\n    ," +++ c.sql d)) := by
    apply T_concatRes
    intro x hx
    obtain ⟨k, hk, rfl⟩ := List.mem_map.1 hx
    have := T_createIndex hd k fun r hr => h r (by
      simp only [raw, List.mem_append, List.mem_flatMap]
      exact .inr ⟨k, (List.mem_filter.1 hk).1, hr⟩)
    tidy
  unfold CreateTableCommand.sql
  simp only
  tidy

theorem T_alterTable (c : AlterTableCommand) (h : ∀ r ∈ rawAlterTable c, Tidy d r) : T d (c.sql d) := by
  have hl := T_writeLines d
    (c.addColumnCmds.map (·.sql d) ++ c.alterColumnCmds.map (·.sql d) ++ c.dropColumnCmds.map (·.sql d) ++
     c.dropConstraintCmds.map (·.sql d) ++ c.addConstraintCmds.map (·.sql d) ++ c.alterConstraintCmds.map (·.sql d) ++
     c.createIndexCmds.map (fun c => when (d = .mysql) (lit "ADD ") +++ c.sql d) ++ c.dropIndexCmds.map (·.sql d)) 0 (by
    intro x hx
    simp only [List.mem_append] at hx
    rcases hx with ((((((hx | hx) | hx) | hx) | hx) | hx) | hx) | hx
    · obtain ⟨k, hk, rfl⟩ := List.mem_map.1 hx
      exact T_addColumn hd k fun r hr => h r (by
        simp only [rawAlterTable, List.mem_append, List.mem_flatMap]; exact .inl (.inl (.inl ⟨k, hk, by simpa using hr⟩)))
    · obtain ⟨k, hk, rfl⟩ := List.mem_map.1 hx
      exact T_alterColumn hd k fun r hr => h r (by
        simp only [rawAlterTable, List.mem_append, List.mem_flatMap]; exact .inl (.inl (.inr ⟨k, hk, hr⟩)))
    · obtain ⟨k, _, rfl⟩ := List.mem_map.1 hx; exact T_dropColumn hd k
    · obtain ⟨k, _, rfl⟩ := List.mem_map.1 hx; exact T_dropConstraint hd k
    · obtain ⟨k, hk, rfl⟩ := List.mem_map.1 hx
      exact T_addConstraint hd k fun r hr => h r (by
        simp only [rawAlterTable, List.mem_append, List.mem_flatMap]; exact .inl (.inr ⟨k, hk, hr⟩))
    · obtain ⟨k, _, rfl⟩ := List.mem_map.1 hx; exact T_alterConstraint hd k
    · obtain ⟨k, hk, rfl⟩ := List.mem_map.1 hx
      have := T_createIndex hd k fun r hr => h r (by
        simp only [rawAlterTable, List.mem_append, List.mem_flatMap]; exact .inr ⟨k, hk, hr⟩)
      tidy
    · obtain ⟨k, _, rfl⟩ := List.mem_map.1 hx; exact T_dropIndex hd k)
  unfold AlterTableCommand.sql
  tidy

theorem T_command (c : Command) (h : ∀ r ∈ raw c, Tidy d r) : T d (c.sql d) := by
  cases c with
  | createSchema c => exact T_createSchema hd c (h _ (by simp [raw]))
  | createExtension c => exact T_createExtension hd c
  | createFunction c => exact T_createFunction hd c (h _ (by simp [raw]))
  | createTable c => exact T_createTable hd c h
  | alterTable c => exact T_alterTable hd c h
  | createView c => exact T_createView hd c (h _ (by simp [raw]))
  | createIndex c => exact T_createIndex hd c h
  | createTrigger c => exact T_createTrigger hd c (h _ (by simp [raw]))
  | addForeignKeys c => exact T_alterTable hd c h
  | dropView c => exact T_dropView hd c
  | dropTable c => exact T_dropTable hd c
  | dropTrigger c => exact T_dropTrigger hd c
  | dropIndex c => exact T_dropIndex hd c
  | alterTableDrop c => exact T_alterTable hd c h
  | dropFunction c => exact T_dropFunction hd c (h _ (by simp [raw]))
  | dropExtension c => exact T_dropExtension hd c

end Ddl
