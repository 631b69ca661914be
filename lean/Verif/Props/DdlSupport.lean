import Verif.Spec.DdlSupport
import Verif.Proof.DdlForm
/-
C58: a DDL command is refused exactly if it needs something that the dialect does not have (or makes no sense).
-/
namespace Ddl.Support
open Ddl Ddl.Spec

/-! ### When a text is produced -/

def Ok (r : Res Str) : Prop := ∃ t, r = .ok t

theorem ok_lit (s : String) : Ok (lit s) ↔ True := ⟨fun _ => trivial, fun _ => ⟨_, rfl⟩⟩
theorem ok_txt (s : Str) : Ok (txt s) ↔ True := ⟨fun _ => trivial, fun _ => ⟨_, rfl⟩⟩
theorem ok_ok (s : Str) : Ok (.ok s) ↔ True := ⟨fun _ => trivial, fun _ => ⟨_, rfl⟩⟩
theorem ok_err (s : Str) : Ok (.err s) ↔ False := ⟨fun ⟨_, h⟩ => (by cases h), False.elim⟩
theorem ok_panic : Ok .panic ↔ False := ⟨fun ⟨_, h⟩ => (by cases h), False.elim⟩
theorem ok_append (a b : Res Str) : Ok (a +++ b) ↔ Ok a ∧ Ok b := by
  constructor
  · rintro ⟨t, h⟩
    obtain ⟨x, y, h1, h2, _⟩ := Res.append_ok h
    exact ⟨⟨x, h1⟩, ⟨y, h2⟩⟩
  · rintro ⟨⟨x, rfl⟩, ⟨y, rfl⟩⟩
    exact ⟨x ++ y, rfl⟩
theorem ok_failIf (b : Bool) (s : String) : Ok (failIf b s) ↔ b = false := by
  cases b
  · exact ⟨fun _ => rfl, fun _ => ⟨_, rfl⟩⟩
  · exact ⟨fun ⟨_, h⟩ => (by cases h), fun h => (by cases h)⟩
theorem ok_when (b : Bool) (r : Res Str) : Ok (when b r) ↔ (b = true → Ok r) := by
  cases b
  · exact ⟨fun _ h => (by cases h), fun _ => ⟨_, rfl⟩⟩
  · exact ⟨fun h _ => h, fun h => h rfl⟩
theorem ok_ite (p : Prop) [Decidable p] (a b : Res Str) : Ok (if p then a else b) ↔ (p → Ok a) ∧ (¬p → Ok b) := by
  by_cases h : p <;> simp [h]
theorem ok_concat (xs : List (Res Str)) : Ok (concatRes xs) ↔ ∀ x ∈ xs, Ok x := by
  induction xs with
  | nil => simp [concatRes, ok_txt]
  | cons x xs ih => simp [concatRes, ok_append, ih]
theorem ok_lines (xs : List (Res Str)) (i : Nat) : Ok (writeLines xs i) ↔ ∀ x ∈ xs, Ok x := by
  induction xs generalizing i with
  | nil => simp [writeLines, ok_txt]
  | cons x xs ih => simp [writeLines, ok_append, ih, ok_ite, ok_lit]

/-! ### Features -/

/-- The dialect has all of the features. -/
def All (d : Dialect) (fs : List Feature) : Prop := ∀ f ∈ fs, supports d f = true

theorem all_nil {d} : All d [] ↔ True := ⟨fun _ => trivial, fun _ _ h => by cases h⟩
theorem all_one {d f} : All d [f] ↔ supports d f = true := ⟨fun h => h f List.mem_cons_self, fun h g hg => by
  rw [List.mem_singleton.1 hg]; exact h⟩
theorem all_append {d xs ys} : All d (xs ++ ys) ↔ All d xs ∧ All d ys := by
  unfold All
  constructor
  · exact fun h => ⟨fun f hf => h f (List.mem_append_left _ hf), fun f hf => h f (List.mem_append_right _ hf)⟩
  · rintro ⟨h1, h2⟩ f hf
    rcases List.mem_append.1 hf with h | h
    · exact h1 f h
    · exact h2 f h
theorem all_cons {d f fs} : All d (f :: fs) ↔ supports d f = true ∧ All d fs := by
  rw [← List.singleton_append, all_append, all_one]
theorem all_use {d} {p : Prop} [Decidable p] {f} : All d (use p f) ↔ (p → supports d f = true) := by
  unfold use
  by_cases h : p
  · rw [if_pos h, all_one]; exact ⟨fun h' _ => h', fun h' => h' h⟩
  · rw [if_neg h, all_nil]; exact ⟨fun _ h' => absurd h' h, fun _ => trivial⟩
theorem all_uses {d} {p : Prop} [Decidable p] {fs} : All d (uses p fs) ↔ (p → All d fs) := by
  unfold uses
  by_cases h : p
  · rw [if_pos h]; exact ⟨fun h' _ => h', fun h' => h' h⟩
  · rw [if_neg h, all_nil]; exact ⟨fun _ h' => absurd h' h, fun _ => trivial⟩
theorem all_flatMap {α : Type} {d} {xs : List α} {g : α → List Feature} : All d (xs.flatMap g) ↔ ∀ x ∈ xs, All d (g x) := by
  unfold All
  constructor
  · exact fun h x hx f hf => h f (List.mem_flatMap.2 ⟨x, hx, hf⟩)
  · intro h f hf
    obtain ⟨x, hx, hf⟩ := List.mem_flatMap.1 hf
    exact h x hx f hf

theorem same_eqFold (x : Str) (y z : String) (h : y.toList.map Char.toLower = z.toList) : eqFold x y.toList = same x z := by
  unfold eqFold same; rw [h]

/-! ### The commands -/

variable (d : Dialect)

theorem collate_ok (c : Column) : Ok (columnCollate d c) ↔ True := by
  unfold columnCollate; cases d <;> exact ok_txt _

theorem generation_ok (c : Column) : Ok (columnGeneration d c) ↔
    (c.isAutoincrement = false ∧ c.identity = [] ∧ c.generatedExpr ≠ [] ∧ c.generatedExprStored = false → d ≠ .postgres) := by
  unfold columnGeneration
  simp only [ok_append, ok_txt, ok_lit, ok_failIf, ok_ite]
  cases d <;> simp [ok_lit, ok_txt]

theorem column_ok (c : Column) : Ok (writeColumnDefinition d c) ↔ All d (columnFeatures c) := by
  unfold writeColumnDefinition columnFeatures
  simp only [ok_append, ok_txt, ok_lit, ok_when, ok_failIf, collate_ok, generation_ok, all_append, all_use, supports]
  cases d <;> simp <;> grind

theorem addColumn_ok (c : AddColumnCommand) : Ok (c.sql d) ↔ All d (addColumnFeatures c) := by
  unfold AddColumnCommand.sql addColumnFeatures
  have e := same_eqFold c.column.columnDefault "NULL" "null" (by decide)
  cases hi : c.ignore
  · simp only [Bool.false_eq_true, if_false, ok_append, ok_when, column_ok, all_uses, all_append, all_use, ok_lit, ok_txt, ok_failIf, e,
      supports]
    unfold nullDefault parenDefault
    generalize All d (columnFeatures c.column) = P
    generalize same c.column.columnDefault "null" = Q
    generalize decide (List.head? c.column.columnDefault = some '(') = R
    generalize decide (List.getLast? c.column.columnDefault = some ')') = S
    clear e
    cases d <;> simp <;> grind
  · simp [ok_txt, all_uses]

theorem alterColumn_ok (c : AlterColumnCommand) : Ok (c.sql d) ↔ All d (alterColumnFeatures d c) := by
  unfold AlterColumnCommand.sql alterColumnFeatures
  cases hi : c.ignore
  · cases d <;> simp [ok_append, ok_txt, ok_lit, ok_err, column_ok, all_uses, all_append, all_cons, all_nil, supports]
  · simp [ok_txt, all_uses]

theorem dropColumn_ok (c : DropColumnCommand) : Ok (c.sql d) ↔ All d (dropColumnFeatures c) := by
  unfold DropColumnCommand.sql dropColumnFeatures
  cases hi : c.ignore
  · cases d <;> simp [ok_append, ok_txt, ok_lit, ok_when, ok_failIf, all_uses, all_append, all_use, supports] <;> grind
  · simp [ok_txt, all_uses]

theorem exclusion_ok (c : Constraint) (xs : List Str) (i : Nat) : Ok (exclusionElements c xs i) ↔ ∀ (j : Nat) (h : j < xs.length),
    (xs[j] ≠ [] ∨ ∃ e, c.exprs[i + j]? = some e ∧ e ≠ []) ∧ ∃ o, c.exclusionOperators[i + j]? = some o ∧ o ≠ [] := by
  induction xs generalizing i with
  | nil => simp [exclusionElements, ok_txt]
  | cons x xs ih =>
    simp only [exclusionElements, ok_append, ok_lit, ok_when, ok_ite, ok_txt, ih]
    constructor
    · rintro ⟨_, ⟨h1, h2⟩, _, h3, h4⟩ j hj
      cases j with
      | zero =>
        simp only [List.getElem_cons_zero, Nat.add_zero]
        refine ⟨?_, ?_⟩
        · by_cases hx : x = []
          · have h2 := h2 (by simp [hx])
            cases he : c.exprs[i]? with
            | none => rw [he] at h2; exact absurd h2 (by simp [ok_panic])
            | some e =>
              rw [he] at h2
              simp only [ok_ite, ok_err] at h2
              exact .inr ⟨e, rfl, fun h => h2.2 (by simp [h])⟩
          · exact .inl hx
        · cases he : c.exclusionOperators[i]? with
          | none => rw [he] at h3; exact absurd h3 (by simp [ok_panic])
          | some e =>
            rw [he] at h3
            simp only [ok_ite, ok_err] at h3
            exact ⟨e, rfl, fun h => h3.2 (by simp [h])⟩
      | succ j =>
        have := h4 j (by simpa using hj)
        simpa [Nat.add_assoc, Nat.add_comm 1 j] using this
    · intro h
      have h0 := h 0 (by simp)
      simp only [List.getElem_cons_zero, Nat.add_zero] at h0
      obtain ⟨ha, o, ho, ho'⟩ := h0
      refine ⟨by simp, ⟨by simp, fun hx => ?_⟩, trivial, ?_, fun j hj => ?_⟩
      · rcases ha with ha | ⟨e, he, he'⟩
        · exact absurd ha hx
        · rw [he]; simp [ok_ite, he', ok_txt]
      · rw [ho]; simp [ok_ite, ho', ok_txt]
      · have := h (j + 1) (by simpa using hj)
        simpa [Nat.add_assoc, Nat.add_comm 1 j] using this

theorem constraintText_ok (c : Constraint) :
    Ok (constraintText d c) ↔ All d (use (c.constraintType = .exclude) .exclude) ∧ constraintMakesSense c := by
  unfold constraintText constraintMakesSense exclusionMakesSense
  have he := exclusion_ok c c.columns 0
  simp only [Nat.zero_add] at he
  cases ht : c.constraintType <;>
    simp only [ok_append, ok_txt, ok_lit, ok_when, ok_failIf, all_use, supports, he] <;> simp

theorem deferrable_ok (c : Constraint) : Ok (deferrableText d c) ↔ All d (use c.isDeferrable (.deferrable c.constraintType)) := by
  unfold deferrableText
  cases d <;> simp [ok_append, ok_txt, ok_lit, ok_when, ok_failIf, ok_ite, ok_err, all_use, supports]

theorem constraint_ok (c : Constraint) : Ok (writeConstraintDefinition d c) ↔ All d (constraintFeatures c) ∧ constraintMakesSense c := by
  unfold writeConstraintDefinition constraintFeatures
  rw [ok_append, constraintText_ok, deferrable_ok, all_append]
  grind

theorem addConstraint_ok (c : AddConstraintCommand) : Ok (c.sql d) ↔ All d (addConstraintFeatures c) ∧ addConstraintMakesSense c := by
  unfold AddConstraintCommand.sql addConstraintFeatures addConstraintMakesSense
  cases hi : c.ignore
  · simp only [Bool.false_eq_true, if_false, ok_append, ok_lit, ok_failIf, ok_when, ok_txt, ok_ite, constraint_ok, all_uses, all_append,
      all_use, all_one]
    by_cases hn : c.indexName = []
    · cases d <;> simp [hn, supports, ok_append, ok_lit, ok_failIf, ok_txt] <;> grind
    · cases d <;> simp [hn, supports, ok_append, ok_lit, ok_failIf, ok_txt] <;> grind
  · simp [ok_txt, all_uses]

theorem alterConstraint_ok (c : AlterConstraintCommand) : Ok (c.sql d) ↔ All d (alterConstraintFeatures c) := by
  unfold AlterConstraintCommand.sql alterConstraintFeatures
  cases hi : c.ignore
  · cases d <;> simp [ok_append, ok_txt, ok_lit, ok_when, ok_failIf, ok_ite, all_use, supports]
  · simp [ok_txt, all_use]

theorem dropConstraint_ok (c : DropConstraintCommand) : Ok (c.sql d) ↔ All d (dropConstraintFeatures c) := by
  unfold DropConstraintCommand.sql dropConstraintFeatures
  cases hi : c.ignore
  · cases d <;> simp [ok_append, ok_txt, ok_lit, ok_when, ok_failIf, all_uses, all_append, all_use, all_cons, all_nil, supports]
  · simp [ok_txt, all_uses]

theorem indexElements_ok (x : Index) (cs : List Str) (i : Nat) :
    Ok (indexElements d x cs i) ↔ ∀ (j : Nat) (h : j < cs.length), cs[j] = [] → i + j < x.exprs.length := by
  induction cs generalizing i with
  | nil => simp [indexElements, ok_txt]
  | cons c cs ih =>
    simp only [indexElements, ok_append, ok_lit, ok_when, ok_ite, ok_txt, ih]
    constructor
    · rintro ⟨_, ⟨_, h2⟩, h4⟩ j hj hc
      cases j with
      | zero =>
        simp only [List.getElem_cons_zero] at hc
        have h2 := h2 (by simp [hc])
        cases he : x.exprs[i]? with
        | none => rw [he] at h2; exact absurd h2 (by simp [ok_panic])
        | some e => exact (List.getElem?_eq_some_iff.1 he).1
      | succ j =>
        have := h4 j (by simpa using hj) (by simpa using hc)
        omega
    · intro h
      refine ⟨by simp, ⟨by simp, fun hc => ?_⟩, fun j hj hc => ?_⟩
      · have := h 0 (by simp) (by simpa using hc)
        rw [List.getElem?_eq_getElem (by simpa using this)]
        exact ⟨_, rfl⟩
      · have := h (j + 1) (by simpa using hj) (by simpa using hc)
        omega

theorem createIndex_ok (c : CreateIndexCommand) :
    Ok (c.sql d) ↔ All d (createIndexFeatures c) ∧ (c.ignore = false → indexMakesSense c.index) := by
  unfold CreateIndexCommand.sql createIndexFeatures indexMakesSense
  have he := indexElements_ok d c.index c.index.columns 0
  simp only [Nat.zero_add] at he
  cases hi : c.ignore
  · simp only [Bool.false_eq_true, if_false, ok_append, ok_lit, ok_when, ok_failIf, ok_txt, ok_ite, all_uses, all_append, all_use, he]
    generalize (∀ (j : Nat) (h : j < c.index.columns.length), c.index.columns[j] = [] → j < c.index.exprs.length) = P
    cases d <;> simp [supports] <;> grind
  · simp [ok_txt, all_uses]

theorem dropIndex_ok (c : DropIndexCommand) : Ok (c.sql d) ↔ All d (dropIndexFeatures c) := by
  unfold DropIndexCommand.sql dropIndexFeatures
  cases hi : c.ignore
  · cases d <;> simp [ok_append, ok_txt, ok_lit, ok_when, ok_failIf, all_uses, all_append, all_use, supports] <;> grind
  · simp [ok_txt, all_uses]

theorem dropLines_ok (many : Bool) (as bs : List Str) (i : Nat) : Ok (dropLines d many as bs i) ↔ as.length ≤ bs.length := by
  induction as generalizing bs i with
  | nil => simp [dropLines, ok_txt]
  | cons a as ih =>
    cases bs with
    | nil => simp [dropLines, ok_panic]
    | cons b bs => simp [dropLines, ok_append, ok_ite, ok_lit, ok_txt, ih]

theorem dropTableLines_ok (many : Bool) (as bs : List Str) (i : Nat) : Ok (dropTableLines d many as bs i) ↔ bs.length ≤ as.length := by
  induction bs generalizing as i with
  | nil => cases as <;> simp [dropTableLines, ok_txt]
  | cons b bs ih =>
    cases as with
    | nil => simp [dropTableLines, ok_panic]
    | cons a as => simp [dropTableLines, ok_append, ok_ite, ok_lit, ok_txt, ih]

theorem inTable_eq : inTable d = includedConstraint d := by funext x; simp [inTable, includedConstraint]

theorem createTable_ok (c : CreateTableCommand) (hi : c.ignore = false) :
    Ok (c.sql d) ↔ All d (createTableFeatures d c) ∧ createTableMakesSense d c := by
  unfold CreateTableCommand.sql createTableFeatures createTableMakesSense tableLines
  rw [hi, inTable_eq]
  have hc : ∀ x, Ok (constraintLine d x) ↔ All d (constraintFeatures x) ∧ constraintMakesSense x := by
    intro x
    unfold constraintLine
    simp only [ok_append, ok_ite, ok_lit, ok_txt, constraint_ok]
    grind
  have h1 : (∀ x ∈ (if c.table.virtualTable ≠ [] then (if d = .sqlite then c.table.virtualTableArgs.map txt else [])
      else (c.table.columns.filter fun c => !c.ignore).map (writeColumnDefinition d)), Ok x) ↔
      (c.table.virtualTable = [] → ∀ x ∈ c.table.columns.filter fun c => !c.ignore, All d (columnFeatures x)) := by
    by_cases hv : c.table.virtualTable = []
    · simp only [hv, ne_eq, not_true_eq_false, if_false, List.forall_mem_map, column_ok, true_imp_iff]
    · simp only [hv, ne_eq, not_false_eq_true, if_true, false_imp_iff, iff_true]
      intro x hx
      split at hx
      · obtain ⟨y, _, rfl⟩ := List.mem_map.1 hx
        exact ⟨_, rfl⟩
      · cases hx
  have h2 : (∀ x ∈ (if c.includeConstraints = true then c.table.constraints.filter (includedConstraint d) else []).map (constraintLine d), Ok x) ↔
      (c.includeConstraints = true → (∀ x ∈ c.table.constraints.filter (includedConstraint d), All d (constraintFeatures x)) ∧
        ∀ x ∈ c.table.constraints, includedConstraint d x = true → constraintMakesSense x) := by
    cases c.includeConstraints
    · simp
    · simp only [if_true, List.forall_mem_map, List.mem_filter, and_imp, hc, forall_const]
      grind
  have h3 : (∀ x ∈ (c.createIndexCmds.filter fun c => !c.ignore).map (fun c => lit "\n    ," +++ c.sql d), Ok x) ↔
      (∀ x ∈ c.createIndexCmds, All d (createIndexFeatures x)) ∧ ∀ x ∈ c.createIndexCmds, x.ignore = false → indexMakesSense x.index := by
    simp only [List.forall_mem_map, List.mem_filter, and_imp, ok_append, ok_lit, createIndex_ok, true_and]
    constructor
    · intro h
      refine ⟨fun x hx => ?_, fun x hx hi => (h x hx (by simp [hi])).2 hi⟩
      cases hxi : x.ignore
      · exact (h x hx (by simp [hxi])).1
      · unfold createIndexFeatures; rw [all_uses, hxi]; intro h; cases h
    · intro h x hx hxi
      exact ⟨h.1 x hx, fun hi => h.2 x hx hi⟩
  simp only [Bool.false_eq_true, if_false, ok_append, ok_lit, ok_when, ok_failIf, ok_txt, ok_ite, ok_lines, ok_concat, all_uses, all_append,
    all_use, all_flatMap, h1, h2, h3, supports]
  grind

theorem alterTable_ok (c : AlterTableCommand) (hi : c.ignore = false) :
    Ok (c.sql d) ↔ All d (alterTableFeatures d c) ∧ alterTableMakesSense c := by
  unfold AlterTableCommand.sql alterTableFeatures alterTableMakesSense
  rw [hi]
  simp only [Bool.false_eq_true, if_false, ok_append, ok_lit, ok_when, ok_failIf, ok_txt, ok_lines, all_append,
    all_use, all_flatMap, supports, List.forall_mem_append, List.forall_mem_map, forall_and,
    addColumn_ok, alterColumn_ok, dropColumn_ok, addConstraint_ok, alterConstraint_ok, dropConstraint_ok, createIndex_ok, dropIndex_ok]
  have e1 : ∀ a b : Nat, a + b > 0 ↔ (a ≠ 0 ∨ b ≠ 0) := by intro a b; omega
  have e2 : ∀ a b : Nat, (decide (a + b > 0)) = false ↔ a = 0 ∧ b = 0 := by intro a b; simp
  simp only [e2, List.length_eq_zero_iff]
  cases d <;> simp <;> grind

/-! ### The theorems -/

theorem accepts (c : Command) (hi : c.ignore = false) : Ok (c.sql d) ↔ All d (features d c) ∧ makesSense d c := by
  cases c with
  | createSchema c =>
    have hi : c.ignore = false := hi
    simp [Command.sql, CreateSchemaCommand.sql, hi, features, makesSense, ok_append, ok_lit, ok_txt, ok_failIf, ok_when, all_cons, all_nil, supports]
  | createExtension c =>
    have hi : c.ignore = false := hi
    simp [Command.sql, CreateExtensionCommand.sql, hi, features, makesSense, ok_append, ok_lit, ok_txt, ok_failIf, ok_when, all_cons, all_nil, supports]
  | createFunction c =>
    have hi : c.ignore = false := hi
    simp [Command.sql, CreateFunctionCommand.sql, hi, features, makesSense, ok_append, ok_lit, ok_txt, ok_failIf, ok_when, all_cons, all_nil, supports]
  | createTable c => exact createTable_ok d c hi
  | alterTable c => exact alterTable_ok d c hi
  | addForeignKeys c => exact alterTable_ok d c hi
  | alterTableDrop c => exact alterTable_ok d c hi
  | createView c =>
    have hi : c.ignore = false := hi
    simp only [Command.sql, CreateViewCommand.sql, hi, features, makesSense, ok_append, ok_lit, ok_txt, ok_failIf, ok_when, all_append, all_use,
      supports, Bool.false_eq_true, if_false]
    cases d <;> simp <;> grind
  | createIndex c =>
    have := createIndex_ok d c
    have hi : c.ignore = false := hi
    simp only [hi, true_imp_iff] at this
    exact this
  | createTrigger c =>
    have hi : c.ignore = false := hi
    simp [Command.sql, CreateTriggerCommand.sql, hi, features, makesSense, ok_txt, all_nil]
  | dropTrigger c =>
    have hi : c.ignore = false := hi
    simp only [Command.sql, DropTriggerCommand.sql, hi, features, makesSense, all_nil]
    cases d <;> simp [ok_append, ok_lit, ok_txt, ok_when]
  | dropView c =>
    have hi : c.ignore = false := hi
    simp only [Command.sql, DropViewCommand.sql, hi, features, makesSense, ok_append, ok_lit, ok_txt, ok_failIf, ok_when, ok_ite, all_append, all_use,
      supports, Bool.false_eq_true, if_false, dropLines_ok]
    cases d <;> simp <;> grind
  | dropTable c =>
    have hi : c.ignore = false := hi
    simp only [Command.sql, DropTableCommand.sql, hi, features, makesSense, ok_append, ok_lit, ok_txt, ok_failIf, ok_when, ok_ite, all_append, all_use,
      supports, Bool.false_eq_true, if_false, dropTableLines_ok]
    cases d <;> simp <;> grind
  | dropIndex c =>
    have := dropIndex_ok d c
    simp only [Command.sql, features, makesSense, and_true]
    exact this
  | dropFunction c =>
    have hi : c.ignore = false := hi
    simp [Command.sql, DropFunctionCommand.sql, hi, features, makesSense, ok_append, ok_lit, ok_txt, ok_failIf, ok_when, all_cons, all_nil, supports]
  | dropExtension c =>
    have hi : c.ignore = false := hi
    simp [Command.sql, DropExtensionCommand.sql, hi, features, makesSense, ok_append, ok_lit, ok_txt, ok_failIf, ok_when, all_cons, all_nil, supports]

/-- A text is produced exactly if the dialect has all that the command needs, and the command makes sense. -/
theorem C58_accepts (d : Dialect) (c : Command) (hi : c.ignore = false) :
    (∃ t, c.sql d = .ok t) ↔ (∀ f ∈ features d c, supports d f = true) ∧ makesSense d c := accepts d c hi

/-! ### Errors, not panics -/

/-- A text or an error. -/
def Safe (r : Res Str) : Prop := (∃ t, r = .ok t) ∨ ∃ e, r = .err e

theorem safe_ok (t : Str) : Safe (.ok t) := .inl ⟨t, rfl⟩
theorem safe_lit (s : String) : Safe (lit s) := .inl ⟨_, rfl⟩
theorem safe_txt (s : Str) : Safe (txt s) := .inl ⟨_, rfl⟩
theorem safe_err (e : Str) : Safe (.err e) := .inr ⟨e, rfl⟩
theorem safe_append {a b : Res Str} (ha : Safe a) (hb : Safe b) : Safe (a +++ b) := by
  rcases ha with ⟨x, rfl⟩ | ⟨e, rfl⟩
  · rcases hb with ⟨y, rfl⟩ | ⟨e, rfl⟩
    · exact .inl ⟨_, rfl⟩
    · exact .inr ⟨_, rfl⟩
  · exact .inr ⟨_, rfl⟩
theorem safe_failIf (b : Bool) (s : String) : Safe (failIf b s) := by
  cases b
  · exact .inl ⟨_, rfl⟩
  · exact .inr ⟨_, rfl⟩
theorem safe_when {b : Bool} {r : Res Str} (h : Safe r) : Safe (when b r) := by
  cases b
  · exact .inl ⟨_, rfl⟩
  · exact h
theorem safe_ite {p : Prop} [Decidable p] {a b : Res Str} (ha : Safe a) (hb : Safe b) : Safe (if p then a else b) := by
  by_cases h : p <;> simp [h, ha, hb]
theorem safe_concat (xs : List (Res Str)) (h : ∀ x ∈ xs, Safe x) : Safe (concatRes xs) := by
  induction xs with
  | nil => exact safe_txt _
  | cons x xs ih => exact safe_append (h x List.mem_cons_self) (ih fun y hy => h y (List.mem_cons_of_mem _ hy))
theorem safe_lines (xs : List (Res Str)) (i : Nat) (h : ∀ x ∈ xs, Safe x) : Safe (writeLines xs i) := by
  induction xs generalizing i with
  | nil => exact safe_txt _
  | cons x xs ih =>
    exact safe_append (safe_ite (safe_lit _) (safe_lit _)) (safe_append (h x List.mem_cons_self) (ih _ fun y hy => h y (List.mem_cons_of_mem _ hy)))

macro "safe" : tactic => `(tactic| repeat' first
  | with_reducible assumption
  | with_reducible exact safe_lit _
  | with_reducible exact safe_txt _
  | with_reducible exact safe_ok _
  | with_reducible exact safe_err _
  | with_reducible exact safe_failIf _ _
  | with_reducible refine safe_append ?_ ?_
  | with_reducible refine safe_when ?_
  | refine safe_ite ?_ ?_)

theorem safe_column (c : Column) : Safe (writeColumnDefinition d c) := by
  have h1 : Safe (columnCollate d c) := by unfold columnCollate; cases d <;> exact safe_txt _
  have h2 : Safe (columnGeneration d c) := by
    unfold columnGeneration
    cases d <;> simp only [] <;> safe
  unfold writeColumnDefinition
  safe

theorem safe_addColumn (c : AddColumnCommand) : Safe (c.sql d) := by
  have := safe_column d c.column
  unfold AddColumnCommand.sql
  safe
theorem safe_alterColumn (c : AlterColumnCommand) : Safe (c.sql d) := by
  have := safe_column d c.column
  unfold AlterColumnCommand.sql
  cases d <;> simp only [] <;> safe
theorem safe_dropColumn (c : DropColumnCommand) : Safe (c.sql d) := by
  unfold DropColumnCommand.sql
  safe

theorem safe_exclusion (c : Constraint) (h : constraintParallel c) (xs : List Str) (i : Nat) (hx : xs.length + i ≤ c.columns.length) :
    Safe (exclusionElements c xs i) := by
  induction xs generalizing i with
  | nil => exact safe_txt _
  | cons x xs ih =>
    have ih' := ih (i + 1) (by simp only [List.length_cons] at hx; omega)
    have hi : i < c.columns.length := by simp only [List.length_cons] at hx; omega
    rw [exclusionElements, List.getElem?_eq_getElem (by rw [h.1]; exact hi), List.getElem?_eq_getElem (by rw [h.2]; exact hi)]
    simp only []
    safe

theorem safe_constraint (c : Constraint) (h : constraintParallel c) : Safe (writeConstraintDefinition d c) := by
  have h1 := safe_exclusion c h c.columns 0 (by simp)
  have h2 : Safe (constraintText d c) := by
    unfold constraintText
    cases c.constraintType <;> simp only [] <;> safe
  have h3 : Safe (deferrableText d c) := by
    unfold deferrableText
    cases d <;> simp only [] <;> safe
  unfold writeConstraintDefinition
  safe

theorem safe_addConstraint (c : AddConstraintCommand) (h : constraintParallel c.constraint) : Safe (c.sql d) := by
  have := safe_constraint d c.constraint h
  unfold AddConstraintCommand.sql
  cases d <;> simp only [] <;> safe
theorem safe_alterConstraint (c : AlterConstraintCommand) : Safe (c.sql d) := by
  unfold AlterConstraintCommand.sql
  safe
theorem safe_dropConstraint (c : DropConstraintCommand) : Safe (c.sql d) := by
  unfold DropConstraintCommand.sql
  safe

theorem safe_indexElements (x : Index) (cs : List Str) (i : Nat) (hx : cs.length + i ≤ x.exprs.length) : Safe (indexElements d x cs i) := by
  induction cs generalizing i with
  | nil => exact safe_txt _
  | cons c cs ih =>
    have ih' := ih (i + 1) (by simp only [List.length_cons] at hx; omega)
    rw [indexElements, List.getElem?_eq_getElem (by simp only [List.length_cons] at hx; omega)]
    simp only []
    safe

theorem safe_createIndex (c : CreateIndexCommand) (h : indexParallel c.index) : Safe (c.sql d) := by
  have := safe_indexElements d c.index c.index.columns 0 (by rw [h]; simp)
  unfold CreateIndexCommand.sql
  safe
theorem safe_dropIndex (c : DropIndexCommand) : Safe (c.sql d) := by
  unfold DropIndexCommand.sql
  safe

theorem safe_createTable (c : CreateTableCommand) (h : parallel (.createTable c)) : Safe (c.sql d) := by
  have h1 : Safe (writeLines (tableLines d c.table) 0) := by
    refine safe_lines _ _ fun x hx => ?_
    unfold tableLines at hx
    split at hx
    · split at hx
      · obtain ⟨y, _, rfl⟩ := List.mem_map.1 hx; exact safe_txt _
      · cases hx
    · obtain ⟨y, _, rfl⟩ := List.mem_map.1 hx; exact safe_column d y
  have h2 : Safe (concatRes ((if c.includeConstraints = true then c.table.constraints.filter (includedConstraint d) else []).map (constraintLine d))) := by
    refine safe_concat _ fun x hx => ?_
    obtain ⟨y, hy, rfl⟩ := List.mem_map.1 hx
    have hy : y ∈ c.table.constraints := by
      split at hy
      · exact (List.mem_filter.1 hy).1
      · cases hy
    have := safe_constraint d y (h.1 y hy)
    unfold constraintLine
    safe
  have h3 : Safe (concatRes ((c.createIndexCmds.filter fun c => !c.ignore).map fun c => lit "\n    ," +++ c.sql d)) := by
    refine safe_concat _ fun x hx => ?_
    obtain ⟨y, hy, rfl⟩ := List.mem_map.1 hx
    exact safe_append (safe_lit _) (safe_createIndex d y (h.2 y (List.mem_filter.1 hy).1))
  unfold CreateTableCommand.sql
  safe

theorem safe_alterTable (c : AlterTableCommand) (h : parallel (.alterTable c)) : Safe (c.sql d) := by
  have h1 : Safe (writeLines
    (c.addColumnCmds.map (·.sql d) ++ c.alterColumnCmds.map (·.sql d) ++ c.dropColumnCmds.map (·.sql d) ++
     c.dropConstraintCmds.map (·.sql d) ++ c.addConstraintCmds.map (·.sql d) ++ c.alterConstraintCmds.map (·.sql d) ++
     c.createIndexCmds.map (fun c => when (d = .mysql) (lit "ADD ") +++ c.sql d) ++ c.dropIndexCmds.map (·.sql d)) 0) := by
    refine safe_lines _ _ ?_
    simp only [List.forall_mem_append, List.forall_mem_map]
    refine ⟨⟨⟨⟨⟨⟨⟨fun x _ => safe_addColumn d x, fun x _ => safe_alterColumn d x⟩, fun x _ => safe_dropColumn d x⟩,
      fun x _ => safe_dropConstraint d x⟩, fun x hx => safe_addConstraint d x (h.1 x hx)⟩, fun x _ => safe_alterConstraint d x⟩,
      fun x hx => safe_append (safe_when (safe_lit _)) (safe_createIndex d x (h.2 x hx))⟩, fun x _ => safe_dropIndex d x⟩
  unfold AlterTableCommand.sql
  safe

theorem safe_dropLines (many : Bool) (as bs : List Str) (i : Nat) (h : as.length ≤ bs.length) : Safe (dropLines d many as bs i) :=
  .inl ((dropLines_ok d many as bs i).2 h)
theorem safe_dropTableLines (many : Bool) (as bs : List Str) (i : Nat) (h : bs.length ≤ as.length) : Safe (dropTableLines d many as bs i) :=
  .inl ((dropTableLines_ok d many as bs i).2 h)

/-- Rendering a command whose parallel lists have equal lengths never panics or hangs: it gives a text, or an error. -/
theorem C58_no_panic (d : Dialect) (c : Command) (hp : parallel c) : (∃ t, c.sql d = .ok t) ∨ ∃ e, c.sql d = .err e := by
  show Safe _
  cases c with
  | createSchema c => unfold Command.sql CreateSchemaCommand.sql; simp only []; safe
  | createExtension c => unfold Command.sql CreateExtensionCommand.sql; simp only []; safe
  | createFunction c => unfold Command.sql CreateFunctionCommand.sql; simp only []; safe
  | createTable c => exact safe_createTable d c hp
  | alterTable c => exact safe_alterTable d c hp
  | addForeignKeys c => exact safe_alterTable d c hp
  | alterTableDrop c => exact safe_alterTable d c hp
  | createView c => unfold Command.sql CreateViewCommand.sql; simp only []; safe
  | createIndex c => exact safe_createIndex d c hp
  | createTrigger c => unfold Command.sql CreateTriggerCommand.sql; simp only []; safe
  | dropTrigger c => unfold Command.sql DropTriggerCommand.sql; cases d <;> simp only [] <;> safe
  | dropView c =>
    have := safe_dropLines d (decide (c.viewNames.length > 1)) c.viewSchemas c.viewNames 0 (Nat.le_of_eq hp)
    unfold Command.sql DropViewCommand.sql; simp only []; safe
  | dropTable c =>
    have := safe_dropTableLines d (decide (c.tableNames.length > 1)) c.tableSchemas c.tableNames 0 (Nat.le_of_eq hp)
    unfold Command.sql DropTableCommand.sql; simp only []; safe
  | dropIndex c => exact safe_dropIndex d c
  | dropFunction c => unfold Command.sql DropFunctionCommand.sql; simp only []; safe
  | dropExtension c => unfold Command.sql DropExtensionCommand.sql; simp only []; safe

/-- Together: a command (with parallel lists) is refused with an error exactly if it needs something the dialect does not have, or
makes no sense. -/
theorem C58_refuses (d : Dialect) (c : Command) (hi : c.ignore = false) (hp : parallel c) :
    (∃ e, c.sql d = .err e) ↔ (∃ f ∈ features d c, supports d f = false) ∨ ¬ makesSense d c := by
  have h := C58_accepts d c hi
  have e : ¬ (∀ f ∈ features d c, supports d f = true) ↔ ∃ f ∈ features d c, supports d f = false := by simp
  constructor
  · rintro ⟨e', he⟩
    rw [← e]
    by_cases h1 : ∀ f ∈ features d c, supports d f = true
    · by_cases h2 : makesSense d c
      · obtain ⟨t, ht⟩ := h.2 ⟨h1, h2⟩
        rw [ht] at he; cases he
      · exact .inr h2
    · exact .inl h1
  · rw [← e]
    intro h'
    rcases C58_no_panic d c hp with h1 | h1
    · have := h.1 h1
      rcases h' with h' | h'
      · exact absurd this.1 h'
      · exact absurd this.2 h'
    · exact h1

/-! ### Cases, and where the claim fails -/

/-- A table with an identity column is accepted by PostgreSQL and refused by MySQL. -/
theorem C58_applies : let c : Command := .createTable { table := { tableName := "t".toList, columns :=
    [{ columnName := "a".toList, columnType := "INT".toList, identity := "ALWAYS AS IDENTITY".toList }] } }
    c.ignore = false ∧ parallel c ∧ makesSense .postgres c ∧ (∃ t, c.sql .postgres = .ok t) ∧ (∃ e, c.sql .mysql = .err e) := by
  refine ⟨rfl, ⟨by simp, by simp⟩, ⟨by decide, by decide, by simp, by simp⟩, ⟨_, rfl⟩, ⟨_, rfl⟩⟩

/-- CREATE MATERIALIZED VIEW is written for every dialect, although only PostgreSQL has it. -/
theorem C58_materialized_violated (d : Dialect) : ∃ c t, (Command.createView c).sql d = .ok t ∧ c.view.isMaterialized = true ∧
    c.ignore = false ∧ "CREATE MATERIALIZED VIEW ".toList <+: t := by
  refine ⟨{ view := { viewName := "v".toList, isMaterialized := true } }, _, rfl, rfl, rfl, ?_⟩
  cases d <;> decide +kernel

/-- Parts of commands that are left out without an error: CASCADE of DROP TRIGGER and the method of an index outside of PostgreSQL
(MySQL for the latter); the CHECKs and the reference of a new column outside of SQLite. -/
theorem C58_left_out_violated :
    (∀ d (c : DropTriggerCommand), d ≠ .postgres →
      (Command.dropTrigger { c with dropCascade := true }).sql d = (Command.dropTrigger { c with dropCascade := false }).sql d) ∧
    (∀ d (c : AddColumnCommand) xs t u, d ≠ .sqlite →
      ({ c with checkExprs := xs, referencesTable := t, referencesColumn := u } : AddColumnCommand).sql d =
      ({ c with checkExprs := [], referencesTable := [], referencesColumn := [] } : AddColumnCommand).sql d) ∧
    (∀ (c : CreateIndexCommand) m, (Command.createIndex { c with index := { c.index with indexType := m } }).sql .sqlite =
      (Command.createIndex { c with index := { c.index with indexType := [] } }).sql .sqlite) := by
  refine ⟨?_, ?_, ?_⟩
  · intro d c hd
    cases d <;> first | rfl | exact absurd rfl hd
  · intro d c xs t u hd
    cases d <;> first | exact absurd rfl hd | rfl
  · intro c m
    have h : ∀ cs i, indexElements .sqlite { c.index with indexType := m } cs i = indexElements .sqlite { c.index with indexType := [] } cs i := by
      intro cs
      induction cs with
      | nil => intro i; rfl
      | cons x xs ih => intro i; simp only [indexElements, ih]
    have e1 : decide (Dialect.sqlite = .mysql) = false := rfl
    have e2 : decide (Dialect.sqlite = .postgres) = false := rfl
    simp only [Command.sql, CreateIndexCommand.sql, e1, e2, Bool.false_and, h, Bool.false_eq_true, if_false]
    rfl

/-- Lists of different lengths: an element without a column needs an expression at the same place; a table name needs a schema. -/
theorem C58_panics_violated :
    (∃ c, (Command.createIndex c).sql .postgres = .panic) ∧ (∃ c, (Command.dropTable c).sql .postgres = .panic) ∧
    (∃ c : Constraint, writeConstraintDefinition .postgres c = .panic) := by
  refine ⟨⟨{ index := { indexName := "i".toList, columns := [[]] } }, rfl⟩, ⟨{ tableNames := ["t".toList] }, rfl⟩,
    ⟨{ constraintType := .exclude, exclusionIndexType := "gist".toList, columns := ["a".toList] }, rfl⟩⟩

end Ddl.Support
