import Verif.Props.DdlForm
/-
C57: the text of a DDL command, read back token by token, is the statement that the command describes (`Spec.form`).
-/
namespace Ddl.Says
open Ddl Ddl.Spec
open _root_.Spec (Tok tokens kw opt commas items cut depth OneItem comma)

/-! ### The theorem -/

theorem says (d : Dialect) (c : Command) (t : Str) (hi : c.ignore = false) (hw : WholeCommand (spelling d) d c)
    (hr : ∀ r ∈ raw c, (tokens d r).isSome = true) (h : c.sql d = .ok t) : tokens d t = some (form (spelling d) d c) := by
  cases c with
  | createSchema c => exact (L_createSchema c hi (hr _ (by simp [raw]))).is t h
  | createExtension c => exact (L_createExtension c hi).is t h
  | createFunction c => exact (L_createFunction c hi (hr _ (by simp [raw]))).is t h
  | createTable c => exact (L_createTable c hi hr hw).is t h
  | alterTable c => exact (L_alterTable c hi hr hw).is t h
  | createView c => exact (L_createView c hi (hr _ (by simp [raw]))).is t h
  | createIndex c => exact (L_createIndex c hi hr).is t h
  | createTrigger c => exact (L_createTrigger c hi (hr _ (by simp [raw]))).is t h
  | addForeignKeys c => exact (L_alterTable c hi hr hw).is t h
  | dropView c => exact (L_dropView c hi).is t h
  | dropTable c => exact (L_dropTable c hi).is t h
  | dropTrigger c => exact (L_dropTrigger c hi).is t h
  | dropIndex c => exact (L_dropIndex c hi).is t h
  | alterTableDrop c => exact (L_alterTable c hi hr hw).is t h
  | dropFunction c => exact (L_dropFunction c hi (hr _ (by simp [raw]))).is t h
  | dropExtension c => exact (L_dropExtension c hi).is t h

/-- There is one way of spelling names, faithful up to the known defect of quoting, such that every text that is produced for a command
says what the command says: no more, no less, in this order.  Partial: names that are copied without quotes (constraints, CREATE
SCHEMA) stand for themselves only if they need none; an ALTER TABLE with an ignored or empty part, and a CREATE TABLE without columns,
are excluded (their texts are malformed, see below). -/
theorem C57_says_partial (d : Dialect) : ∃ w : Spelling, w.Faithful d ∧ ∀ c t, c.ignore = false → WholeCommand w d c →
    (∀ r ∈ raw c, (tokens d r).isSome = true) → c.sql d = .ok t → tokens d t = some (form w d c) :=
  ⟨spelling d, spelling_faithful d, fun c t hi hw hr h => says d c t hi hw hr h⟩

/-- A command that is marked as ignored has no text. -/
theorem C57_ignored (d : Dialect) (c : Command) (hi : c.ignore = true) : c.sql d = .ok [] := by
  cases c <;>
    simp_all [Command.ignore, Command.sql, CreateSchemaCommand.sql, CreateExtensionCommand.sql, CreateFunctionCommand.sql,
      CreateTableCommand.sql, AlterTableCommand.sql, CreateViewCommand.sql, CreateIndexCommand.sql, CreateTriggerCommand.sql,
      DropViewCommand.sql, DropTableCommand.sql, DropTriggerCommand.sql, DropIndexCommand.sql, DropFunctionCommand.sql,
      DropExtensionCommand.sql, txt]

/-- Functions and triggers: the text is what the user wrote. -/
theorem C57_verbatim (d : Dialect) :
    (∀ (c : CreateTriggerCommand) t, c.ignore = false → (Command.createTrigger c).sql d = .ok t → t = c.trigger.sql) ∧
    (∀ (c : CreateFunctionCommand) t, c.ignore = false → (Command.createFunction c).sql d = .ok t → t = c.function.sql) := by
  constructor
  · intro c t hi h
    simp [Command.sql, CreateTriggerCommand.sql, hi, txt] at h
    exact h.symm
  · intro c t hi h
    simp only [Command.sql, CreateFunctionCommand.sql, hi, Bool.false_eq_true, if_false] at h
    obtain ⟨u, v, h1, h2, rfl⟩ := Res.append_ok h
    rw [(failIf_ok h1).1]
    cases h2
    rfl

/-! ### The items of a table -/

/-- `n` parentheses are open before, `m` after. -/
structure D (n : Nat) (ts : List Tok) (m : Nat) : Prop where
  is : depth n ts = some m

theorem depth_append {n m : Nat} {xs ys : List Tok} (h : depth n xs = some m) : depth n (xs ++ ys) = depth m ys := by
  induction xs generalizing n with
  | nil => cases h; rfl
  | cons x xs ih =>
    simp only [List.cons_append, depth] at h ⊢
    split at h
    · rename_i h1; rw [if_pos h1]; exact ih h
    · rename_i h1
      rw [if_neg h1]
      split at h
      · rename_i h2
        rw [if_pos h2]
        split at h
        · cases h
        · rename_i h3; rw [if_neg h3]; exact ih h
      · rename_i h2
        rw [if_neg h2]
        split at h
        · cases h
        · rename_i h3; rw [if_neg h3]; exact ih h

theorem D_cat {n m k : Nat} {x : List Tok} {xs : List (List Tok)} (h : D n x m) (h' : D m xs.flatten k) : D n (x :: xs).flatten k :=
  ⟨by rw [List.flatten_cons, depth_append h.is]; exact h'.is⟩
theorem D_app {n m k : Nat} {x y : List Tok} (h : D n x m) (h' : D m y k) : D n (x ++ y) k := ⟨by rw [depth_append h.is]; exact h'.is⟩
theorem D_nil {n : Nat} : D n [] n := ⟨rfl⟩
theorem D_one {n m : Nat} {x : List Tok} (h : D n x m) : D n [x].flatten m := by simpa using h

theorem depth_more {n m : Nat} {xs : List Tok} (h : depth n xs = some m) (k : Nat) : depth (n + k) xs = some (m + k) := by
  induction xs generalizing n with
  | nil => cases h; rfl
  | cons x xs ih =>
    simp only [depth] at h ⊢
    split at h
    · rename_i h1
      rw [if_pos h1]
      have := ih h
      rwa [show n + 1 + k = n + k + 1 by omega] at this
    · rename_i h1
      rw [if_neg h1]
      split at h
      · rename_i h2
        rw [if_pos h2]
        split at h
        · cases h
        · rename_i h3
          rw [if_neg (by omega)]
          have := ih h
          rwa [show n - 1 + k = n + k - 1 by omega] at this
      · rename_i h2
        rw [if_neg h2]
        split at h
        · cases h
        · rename_i h3
          rw [if_neg (fun h4 => h3 ⟨h4.1, by omega⟩)]
          exact ih h

theorem D_more {n : Nat} {xs : List Tok} (h : D 0 xs 0) : D n xs n := by
  have := depth_more h.is n
  simp only [Nat.zero_add] at this
  exact ⟨this⟩

theorem D_opt {n : Nat} {p : Prop} [Decidable p] {x : List Tok} (h : p → D n x n) : D n (opt p x) n := by
  unfold opt
  by_cases hp : p
  · rw [if_pos hp]; exact h hp
  · rw [if_neg hp]; exact D_nil
theorem D_ite {n : Nat} {p : Prop} [Decidable p] {x y : List Tok} (h : p → D n x n) (h' : ¬p → D n y n) : D n (if p then x else y) n := by
  by_cases hp : p
  · rw [if_pos hp]; exact h hp
  · rw [if_neg hp]; exact h' hp

theorem D_lp {n : Nat} : D n lp (n + 1) := ⟨rfl⟩
theorem D_rp {n : Nat} : D (n + 1) rp n := ⟨rfl⟩
theorem D_commas {n : Nat} {xs : List (List Tok)} (h : ∀ x ∈ xs, D 0 x 0) : D (n + 1) (commas xs) (n + 1) := by
  match xs with
  | [] => exact D_nil
  | [x] => exact D_more (h x List.mem_cons_self)
  | x :: y :: xs =>
    have ih := D_commas (n := n) (xs := y :: xs) fun z hz => h z (List.mem_cons_of_mem _ hz)
    exact D_app (D_app (D_more (h x List.mem_cons_self)) ⟨by simp [depth, comma]⟩) ih

theorem D_kw0 {ts : List Tok} (m : Nat) (h : depth 0 ts = some m) : D 0 ts m := ⟨h⟩
theorem D_lit {n m : Nat} {ts : List Tok} (h : depth n ts = some m) : D n ts m := ⟨h⟩

theorem cut_item (acc ts rest : List Tok) (n m : Nat) (h : depth n ts = some m) : cut n acc (ts ++ rest) = cut m (acc ++ ts) rest := by
  induction ts generalizing n acc with
  | nil => cases h; simp
  | cons x xs ih =>
    simp only [List.cons_append, depth, cut] at h ⊢
    split at h
    · rename_i h1; rw [if_pos h1, ih _ _ h]; simp
    · rename_i h1
      rw [if_neg h1]
      split at h
      · rename_i h2
        rw [if_pos h2]
        split at h
        · cases h
        · rw [ih _ _ h]; simp
      · rename_i h2
        rw [if_neg h2]
        split at h
        · cases h
        · rename_i h3; rw [if_neg h3, ih _ _ h]; simp

/-- A list of items is read as these items. -/
theorem items_commas (xs : List (List Tok)) (hne : xs ≠ []) (h : ∀ x ∈ xs, OneItem x) : items (commas xs) = xs := by
  match xs with
  | [] => exact absurd rfl hne
  | [x] =>
    have := cut_item [] x [] 0 0 (h x List.mem_cons_self)
    simp only [List.append_nil, List.nil_append] at this
    show cut 0 [] x = [x]
    rw [this]; rfl
  | x :: y :: xs =>
    have ih := items_commas (y :: xs) (by simp) fun z hz => h z (List.mem_cons_of_mem _ hz)
    have := cut_item [] x (comma ++ commas (y :: xs)) 0 0 (h x List.mem_cons_self)
    show cut 0 [] (x ++ comma ++ commas (y :: xs)) = _
    rw [List.append_assoc, this]
    show x :: cut 0 [] (commas (y :: xs)) = _
    rw [show cut 0 [] (commas (y :: xs)) = items (commas (y :: xs)) from rfl, ih]

/-- A fragment is one item. -/
def One (d : Dialect) (x : Str) : Prop := ∃ ts, tokens d x = some ts ∧ OneItem ts

theorem One.reads {d : Dialect} {x : Str} (h : One d x) : (tokens d x).isSome = true := by
  obtain ⟨ts, h, _⟩ := h; rw [h]; rfl

theorem D_rd {d : Dialect} {x : Str} {n : Nat} (h : One d x) : D n (rd d x) n := by
  obtain ⟨ts, h, h'⟩ := h
  unfold rd
  rw [h]
  exact D_more ⟨h'⟩

theorem D_name {w : Spelling} {d : Dialect} (hw : w.Faithful d) {n : Nat} {x : Str} : D n [w.name x] n := by
  have h := fun c => (hw.plain x c).1
  exact ⟨by simp [depth, h]⟩
theorem D_text {w : Spelling} {d : Dialect} (hw : w.Faithful d) {n : Nat} {q : Char} {x : Str} : D n [w.text q x] n := by
  have h := fun c => (hw.plain x c).2 q
  exact ⟨by simp [depth, h]⟩

theorem One_nil {d : Dialect} : One d [] := ⟨[], rfl, rfl⟩

/-- Proves that tokens are one item. -/
macro "bal" : tactic => `(tactic| repeat' first
  | with_reducible exact D_nil
  | with_reducible exact D_lp
  | with_reducible exact D_rp
  | with_reducible assumption
  | (with_reducible refine D_rd ?_; assumption)
  | (with_reducible apply D_name; assumption)
  | (with_reducible apply D_text; assumption)
  | with_reducible refine D_opt (fun _ => ?_)
  | refine D_ite (fun _ => ?_) (fun _ => ?_)
  | with_reducible apply D_cat
  | with_reducible apply D_app
  | with_reducible refine D_one ?_
  | (with_reducible refine D_commas ?_; assumption)
  | exact D_lit rfl)

section
variable {w : Spelling} {d : Dialect}

theorem D_column (hw : w.Faithful d) (c : Column) (h : ∀ r ∈ rawColumn c, One d r) : D 0 (columnForm w d c) 0 := by
  have h1 : One d c.columnType := h _ (by simp [rawColumn])
  have h2 : One d c.columnDefault := h _ (by simp [rawColumn])
  have h3 : One d c.identity := h _ (by simp [rawColumn])
  have h4 : One d c.generatedExpr := h _ (by simp [rawColumn])
  have h5 : One d c.collationName := h _ (by simp [rawColumn])
  have hg : D 0 (generation d c) 0 := by
    unfold generation
    refine D_ite (fun _ => ?_) (fun _ => ?_)
    · cases d <;> exact D_lit (by decide +kernel)
    · bal
  have hc : D 0 (collate w d c) 0 := by
    unfold collate
    cases d <;> simp only [] <;> bal
  unfold columnForm
  bal

theorem D_target (hw : w.Faithful d) (a b : Str) : D 0 (target w a b) 0 := by
  unfold target
  have : D 0 [w.name a, .sym '.'] 0 := D_app (x := [w.name a]) (D_name hw) (D_lit rfl)
  bal

theorem D_checks (xs : List Str) (h : ∀ x ∈ xs, One d x) : D 0 (xs.map fun e => kw "CHECK" ++ lp ++ rd d e ++ rp).flatten 0 := by
  induction xs with
  | nil => exact D_nil
  | cons x xs ih =>
    have hx := h x List.mem_cons_self
    rw [List.map_cons]
    refine D_cat ?_ (ih fun y hy => h y (List.mem_cons_of_mem _ hy))
    bal

theorem D_addColumn (hw : w.Faithful d) (c : AddColumnCommand) (h : ∀ r ∈ rawColumn c.column ++ c.checkExprs, One d r) :
    D 0 (addColumnForm w d c) 0 := by
  have hc := D_column hw c.column fun r hr => h r (List.mem_append_left _ hr)
  have hk := D_checks c.checkExprs fun r hr => h r (List.mem_append_right _ hr)
  unfold addColumnForm
  bal

theorem D_alterColumn (hw : w.Faithful d) (c : AlterColumnCommand) (h : ∀ r ∈ c.usingExpr :: rawColumn c.column, One d r) :
    ∀ x ∈ alterColumnItems w d c, D 0 x 0 := by
  have hc := D_column hw c.column fun r hr => h r (List.mem_cons_of_mem _ hr)
  have h0 : One d c.usingExpr := h _ List.mem_cons_self
  have h1 : One d c.column.columnType := h _ (by simp [rawColumn])
  have h2 : One d c.column.columnDefault := h _ (by simp [rawColumn])
  have h3 : One d c.column.identity := h _ (by simp [rawColumn])
  have hcl : ∀ x ∈ alterColumnClauses w d c, D 0 x 0 := by
    intro x hx
    unfold alterColumnClauses at hx
    simp only [List.flatten_cons, List.mem_append, List.flatten_nil] at hx
    rcases hx with hx | hx | hx | hx | hx | hx
    all_goals repeat' split at hx
    all_goals simp only [List.mem_singleton, List.not_mem_nil] at hx
    all_goals subst hx
    all_goals bal
  intro x hx
  unfold alterColumnItems at hx
  split at hx
  · simp only [List.mem_singleton] at hx
    subst hx
    bal
  · obtain ⟨y, hy, rfl⟩ := List.mem_map.1 hx
    have := hcl y hy
    bal

theorem D_constraintBody (c : Constraint) (h : ∀ r ∈ rawConstraint c, One d r) : D 0 (constraintBody d c) 0 := by
  have h1 : One d c.constraintType.name := h _ (by simp [rawConstraint])
  have h2 : One d c.checkExpr := h _ (by simp [rawConstraint])
  have h3 : One d c.referencesSchema := h _ (by simp [rawConstraint])
  have h4 : One d c.referencesTable := h _ (by simp [rawConstraint])
  have h5 : One d c.matchOption := h _ (by simp [rawConstraint])
  have h6 : One d c.updateRule := h _ (by simp [rawConstraint])
  have h7 : One d c.deleteRule := h _ (by simp [rawConstraint])
  have h8 : One d c.exclusionIndexType := h _ (by simp [rawConstraint])
  have h9 : One d c.predicate := h _ (by simp [rawConstraint])
  have hcols : ∀ x ∈ c.columns.map (rd d), D 0 x 0 := by
    intro x hx
    obtain ⟨y, hy, rfl⟩ := List.mem_map.1 hx
    exact D_rd (h _ (by simp [rawConstraint, hy]))
  have hrefs : ∀ x ∈ c.referencesColumns.map (rd d), D 0 x 0 := by
    intro x hx
    obtain ⟨y, hy, rfl⟩ := List.mem_map.1 hx
    exact D_rd (h _ (by simp [rawConstraint, hy]))
  have getD_one : ∀ (xs : List Str) (i : Nat), (∀ x ∈ xs, One d x) → One d (xs.getD i []) := by
    intro xs i hxs
    rw [List.getD_eq_getElem?_getD]
    cases he : xs[i]? with
    | none => exact One_nil
    | some e => exact hxs e (List.mem_of_getElem? he)
  have hex : ∀ xs i, (∀ x ∈ xs, x ∈ c.columns) → ∀ x ∈ exclusionItems d c xs i, D 0 x 0 := by
    intro xs
    induction xs with
    | nil => intro i _ x hx; cases hx
    | cons y ys ih =>
      intro i hy x hx
      rw [exclusionItems] at hx
      rcases List.mem_cons.1 hx with rfl | hx
      · have ha : One d y := h _ (by simp [rawConstraint, hy y List.mem_cons_self])
        have hb : One d (c.exprs.getD i []) := getD_one _ _ fun x hx => h _ (by simp [rawConstraint, hx])
        have hc : One d (c.exclusionOperators.getD i []) := getD_one _ _ fun x hx => h _ (by simp [rawConstraint, hx])
        bal
      · exact ih _ (fun z hz => hy z (List.mem_cons_of_mem _ hz)) x hx
  have hexc := hex c.columns 0 fun x hx => hx
  unfold constraintBody
  cases ht : c.constraintType with
  | other s =>
    have hs : One d s := by rw [ht] at h1; exact h1
    simp only []
    bal
  | check => simp only []; bal
  | foreignKey => simp only []; bal
  | exclude => simp only []; bal
  | primaryKey => simp only []; bal
  | unique => simp only []; bal

theorem D_defer (b : Bool) : D 0 (deferForm b) 0 := by unfold deferForm; bal

theorem D_constraint (c : Constraint) (h : ∀ r ∈ rawConstraint c, One d r) : D 0 (constraintForm d c) 0 := by
  have := D_constraintBody c h
  have hd := D_defer c.isInitiallyDeferred
  unfold constraintForm
  bal

theorem D_valid : ∀ d : Dialect, D 0 (match d with | .postgres => kw "NOT VALID" | .mysql => kw "NOT ENFORCED" | _ => []) 0 := by
  intro d
  cases d <;> exact D_lit (by decide +kernel)

theorem D_addConstraint (hw : w.Faithful d) (c : AddConstraintCommand) (h : ∀ r ∈ rawConstraint c.constraint, One d r) :
    D 0 (addConstraintForm w d c) 0 := by
  have hc := D_constraint c.constraint h
  have hd := D_defer c.constraint.isInitiallyDeferred
  have h1 : One d c.constraint.constraintType.name := h _ (by simp [rawConstraint])
  have hv := D_valid d
  unfold addConstraintForm
  bal
  exact hv

theorem D_alterConstraint (hw : w.Faithful d) (c : AlterConstraintCommand) : D 0 (alterConstraintForm w c) 0 := by
  have hd := D_defer c.isInitiallyDeferred
  unfold alterConstraintForm
  bal
theorem D_dropConstraint (hw : w.Faithful d) (c : DropConstraintCommand) : D 0 (dropConstraintForm w c) 0 := by
  unfold dropConstraintForm
  bal
theorem D_dropColumn (hw : w.Faithful d) (c : DropColumnCommand) : D 0 (dropColumnForm w c) 0 := by
  unfold dropColumnForm
  bal
theorem D_dropIndex (hw : w.Faithful d) (c : DropIndexCommand) : D 0 (dropIndexForm w d c) 0 := by
  have : D 0 [w.name c.tableSchema, .sym '.'] 0 := D_app (x := [w.name c.tableSchema]) (D_name hw) (D_lit rfl)
  unfold dropIndexForm
  bal

theorem D_createIndex (hw : w.Faithful d) (c : CreateIndexCommand) (h : ∀ r ∈ rawIndex c.index, One d r) :
    D 0 (createIndexForm w d c) 0 := by
  have h1 : One d c.index.indexType := h _ (by simp [rawIndex])
  have h2 : One d c.index.predicate := h _ (by simp [rawIndex])
  have ht := D_target hw c.index.tableSchema c.index.tableName
  have hx : ∀ xs i, ∀ x ∈ indexItems w d c.index xs i, D 0 x 0 := by
    intro xs
    induction xs with
    | nil => intro i x hx; cases hx
    | cons y ys ih =>
      intro i x hx
      rw [indexItems] at hx
      rcases List.mem_cons.1 hx with rfl | hx
      · have hb : One d (c.index.exprs.getD i []) := by
          rw [List.getD_eq_getElem?_getD]
          cases he : c.index.exprs[i]? with
          | none => exact One_nil
          | some e => exact h _ (by simp [rawIndex, List.mem_of_getElem? he])
        bal
      · exact ih _ x hx
  have hitems := hx c.index.columns 0
  have hinc : ∀ x ∈ c.index.includeColumns.map fun x => [w.name x], D 0 x 0 := by
    intro x hx
    obtain ⟨y, hy, rfl⟩ := List.mem_map.1 hx
    exact D_name hw
  unfold createIndexForm
  bal

theorem D_constraintItem (hw : w.Faithful d) (c : Constraint) (h : ∀ r ∈ rawConstraint c, One d r) : D 0 (constraintItem w d c) 0 := by
  have := D_constraint c h
  unfold constraintItem
  bal

theorem table_items (hw : w.Faithful d) (c : CreateTableCommand) (h : ∀ r ∈ raw (.createTable c), One d r) :
    ∀ x ∈ tableItems w d c, OneItem x := by
  have hraw : ∀ r, r ∈ c.table.virtualTableArgs ∨ r ∈ c.table.columns.flatMap rawColumn ∨
      r ∈ c.table.constraints.flatMap rawConstraint ∨ r ∈ c.createIndexCmds.flatMap (fun a => rawIndex a.index) → One d r := by
    intro r hr
    apply h
    simp only [raw, List.mem_append, List.mem_singleton]
    rcases hr with hr | hr | hr | hr
    · exact .inl (.inl (.inl (.inr hr)))
    · exact .inl (.inl (.inr hr))
    · exact .inl (.inr hr)
    · exact .inr hr
  intro x hx
  refine D.is ?_
  unfold tableItems at hx
  rcases List.mem_append.1 hx with hx | hx
  · rcases List.mem_append.1 hx with hx | hx
    · unfold columnItems at hx
      split at hx
      · obtain ⟨y, hy, rfl⟩ := List.mem_map.1 hx
        exact D_rd (hraw y (.inl hy))
      · obtain ⟨y, hy, rfl⟩ := List.mem_map.1 hx
        exact D_column hw y fun r hr => hraw r (.inr (.inl (List.mem_flatMap.2 ⟨y, (List.mem_filter.1 hy).1, hr⟩)))
    · split at hx
      · obtain ⟨y, hy, rfl⟩ := List.mem_map.1 hx
        exact D_constraintItem hw y fun r hr => hraw r (.inr (.inr (.inl (List.mem_flatMap.2 ⟨y, (List.mem_filter.1 hy).1, hr⟩))))
      · cases hx
  · obtain ⟨y, hy, rfl⟩ := List.mem_map.1 hx
    exact D_createIndex hw y fun r hr => hraw r (.inr (.inr (.inr (List.mem_flatMap.2 ⟨y, (List.mem_filter.1 hy).1, hr⟩))))

theorem alter_items (hw : w.Faithful d) (c : AlterTableCommand) (h : ∀ r ∈ rawAlterTable c, One d r) :
    ∀ x ∈ alterItems w d c, OneItem x := by
  have hraw : ∀ r, r ∈ c.addColumnCmds.flatMap (fun a => rawColumn a.column ++ a.checkExprs) ∨
      r ∈ c.alterColumnCmds.flatMap (fun a => a.usingExpr :: rawColumn a.column) ∨
      r ∈ c.addConstraintCmds.flatMap (fun a => rawConstraint a.constraint) ∨
      r ∈ c.createIndexCmds.flatMap (fun a => rawIndex a.index) → One d r := by
    intro r hr
    apply h
    simp only [rawAlterTable, List.mem_append]
    rcases hr with hr | hr | hr | hr
    · exact .inl (.inl (.inl hr))
    · exact .inl (.inl (.inr hr))
    · exact .inl (.inr hr)
    · exact .inr hr
  intro x hx
  refine D.is ?_
  unfold alterItems at hx
  simp only [List.mem_append] at hx
  rcases hx with ((((((hx | hx) | hx) | hx) | hx) | hx) | hx) | hx
  · obtain ⟨y, hy, rfl⟩ := List.mem_map.1 hx
    exact D_addColumn hw y fun r hr => hraw r (.inl (List.mem_flatMap.2 ⟨y, hy, hr⟩))
  · obtain ⟨y, hy, hx⟩ := List.mem_flatMap.1 hx
    exact D_alterColumn hw y (fun r hr => hraw r (.inr (.inl (List.mem_flatMap.2 ⟨y, hy, hr⟩)))) x hx
  · obtain ⟨y, hy, rfl⟩ := List.mem_map.1 hx
    exact D_dropColumn hw y
  · obtain ⟨y, hy, rfl⟩ := List.mem_map.1 hx
    exact D_dropConstraint hw y
  · obtain ⟨y, hy, rfl⟩ := List.mem_map.1 hx
    exact D_addConstraint hw y fun r hr => hraw r (.inr (.inr (.inl (List.mem_flatMap.2 ⟨y, hy, hr⟩))))
  · obtain ⟨y, hy, rfl⟩ := List.mem_map.1 hx
    exact D_alterConstraint hw y
  · obtain ⟨y, hy, rfl⟩ := List.mem_map.1 hx
    have := D_createIndex hw y fun r hr => hraw r (.inr (.inr (.inr (List.mem_flatMap.2 ⟨y, hy, hr⟩))))
    bal
  · obtain ⟨y, hy, rfl⟩ := List.mem_map.1 hx
    exact D_dropIndex hw y

end

/-- CREATE TABLE: between the parentheses a server finds exactly the columns that are not ignored, in their order, then the
constraints that belong there, then the indexes.  (Fragments supplied by the user must not themselves contain a comma outside of
parentheses.) -/
theorem C57_create_table_items_partial (d : Dialect) : ∃ w : Spelling, w.Faithful d ∧ ∀ (c : CreateTableCommand) t, c.ignore = false →
    columnItems w d c.table ≠ [] → (∀ r ∈ raw (.createTable c), ∃ ts, tokens d r = some ts ∧ OneItem ts) → c.sql d = .ok t →
    ∃ body, tokens d t = some ([if c.table.virtualTable ≠ [] then kw "CREATE VIRTUAL TABLE" else kw "CREATE TABLE",
        opt c.createIfNotExists (kw "IF NOT EXISTS"), target w c.table.tableSchema c.table.tableName,
        opt (c.table.virtualTable ≠ []) [kw "USING", rd d c.table.virtualTable].flatten, lp, body, rp].flatten) ∧
      items body = columnItems w d c.table ++
        (if c.includeConstraints then (c.table.constraints.filter (inTable d)).map (constraintItem w d) else []) ++
        (c.createIndexCmds.filter fun x => !x.ignore).map (createIndexForm w d) := by
  refine ⟨spelling d, spelling_faithful d, fun c t hi hne hr h => ⟨commas (tableItems (spelling d) d c), ?_, ?_⟩⟩
  · exact says d (.createTable c) t hi hne (fun r hr' => One.reads (hr r hr')) h
  · refine items_commas _ ?_ (table_items (spelling_faithful d) c hr)
    unfold tableItems
    simp [hne]

/-- ALTER TABLE: the changes are exactly those of the command, in the order: new columns, changed columns, dropped columns, dropped
constraints, new constraints, changed constraints, new indexes, dropped indexes. -/
theorem C57_alter_table_items_partial (d : Dialect) : ∃ w : Spelling, w.Faithful d ∧ ∀ (c : AlterTableCommand) t, c.ignore = false →
    WholeAlter w d c → (∀ r ∈ rawAlterTable c, ∃ ts, tokens d r = some ts ∧ OneItem ts) → alterItems w d c ≠ [] → c.sql d = .ok t →
    ∃ body, tokens d t = some ([kw "ALTER TABLE", opt c.alterIfExists (kw "IF EXISTS"), target w c.tableSchema c.tableName, body].flatten) ∧
      items body = alterItems w d c := by
  refine ⟨spelling d, spelling_faithful d, fun c t hi hw hr hne h => ⟨commas (alterItems (spelling d) d c), ?_, ?_⟩⟩
  · exact says d (.alterTable c) t hi hw (fun r hr' => One.reads (hr r hr')) h
  · exact items_commas _ hne (alter_items (spelling_faithful d) c hr)

/-! ### Cases, and where the claim fails -/

def exampleTable : CreateTableCommand :=
  { createIfNotExists := true, includeConstraints := true,
    table := { tableSchema := "app".toList, tableName := "Order Line".toList, columns := [{ columnName := "id".toList, columnType := "BIGINT".toList, identity := "ALWAYS AS IDENTITY".toList }, { columnName := "price".toList, columnType := "NUMERIC(10,2)".toList, isNotNull := true, columnDefault := "0".toList }, { columnName := "old".toList, ignore := true }], constraints := [{ constraintName := "pk".toList, constraintType := .primaryKey, columns := ["id".toList] }, { constraintName := "fk".toList, constraintType := .foreignKey, columns := ["price".toList] }, { constraintName := "positive".toList, constraintType := .check, checkExpr := "price > 0".toList }] } }

def oneB (d : Dialect) (x : Str) : Bool := match tokens d x with | some ts => depth 0 ts == some 0 | none => false
theorem one_of {d : Dialect} {x : Str} (h : oneB d x = true) : One d x := by
  unfold oneB at h
  cases ht : tokens d x with
  | none => rw [ht] at h; cases h
  | some ts => rw [ht] at h; exact ⟨ts, ht, by simpa [OneItem] using h⟩

/-- A table with a qualified quoted name, an identity, a default, a composite type, an ignored column, and constraints; the foreign key
is left to a later statement. -/
theorem C57_says_applies : ∃ t, exampleTable.sql .postgres = .ok t ∧
    tokens .postgres t = tokens .postgres ("CREATE TABLE IF NOT EXISTS app.\"Order Line\" (id BIGINT GENERATED ALWAYS AS IDENTITY, " ++
      "price NUMERIC(10,2) NOT NULL DEFAULT 0, CONSTRAINT pk PRIMARY KEY (id), CONSTRAINT positive CHECK (price > 0))").toList ∧
    WholeCommand (spelling .postgres) .postgres (.createTable exampleTable) ∧
    (∀ r ∈ raw (.createTable exampleTable), ∃ ts, tokens .postgres r = some ts ∧ OneItem ts) := by
  refine ⟨_, rfl, by decide +kernel, by show columnItems _ _ _ ≠ []; decide +kernel, ?_⟩
  intro r hr
  refine one_of ?_
  have : ((raw (.createTable exampleTable)).all (oneB .postgres)) = true := by decide +kernel
  exact List.all_eq_true.1 this r hr

def exampleAlter : AlterTableCommand :=
  { tableName := "t".toList, alterIfExists := true,
    alterColumnCmds := [{ column := { columnName := "a".toList, columnType := "TEXT".toList, isNotNull := true } }], dropColumnCmds := [{ columnName := "B".toList, dropIfExists := true, dropCascade := true }],
    addConstraintCmds := [{ constraint := { constraintName := "u".toList, constraintType := .unique, columns := ["a".toList, "c".toList], isDeferrable := true } }] }

/-- One changed column gives two items. -/
theorem C57_alter_applies : ∃ t, exampleAlter.sql .postgres = .ok t ∧
    tokens .postgres t = tokens .postgres ("ALTER TABLE IF EXISTS t ALTER COLUMN a SET DATA TYPE TEXT, ALTER COLUMN a SET NOT NULL, " ++
      "DROP COLUMN IF EXISTS \"B\" CASCADE, ADD CONSTRAINT u UNIQUE (a, c) DEFERRABLE INITIALLY IMMEDIATE").toList ∧
    WholeAlter (spelling .postgres) .postgres exampleAlter ∧ alterItems (spelling .postgres) .postgres exampleAlter ≠ [] ∧
    (∀ r ∈ rawAlterTable exampleAlter, ∃ ts, tokens .postgres r = some ts ∧ OneItem ts) := by
  refine ⟨_, rfl, by decide +kernel, ?_, by decide +kernel, ?_⟩
  · unfold WholeAlter exampleAlter
    simp
    decide +kernel
  · intro r hr
    refine one_of ?_
    have : ((rawAlterTable exampleAlter).all (oneB .postgres)) = true := by decide +kernel
    exact List.all_eq_true.1 this r hr

/-- The columns and the referenced table of a constraint, and the name of a new schema, are not quoted: names that need quotes are
read as something else (here two words, and other names after case folding). -/
theorem C57_unquoted_violated :
    (∃ (c : CreateTableCommand) (t : Str), c.sql .postgres = .ok t ∧ c.table.columns.map (·.columnName) = ["Order Id".toList] ∧
      tokens .postgres t = tokens .postgres "CREATE TABLE t (\"Order Id\" INT, CONSTRAINT pk PRIMARY KEY (Order Id))".toList) ∧
    (∃ (c : AlterTableCommand) (t : Str), c.sql .mysql = .ok t ∧ c.addConstraintCmds.map (·.constraint.referencesTable) = ["Order Line".toList] ∧
      tokens .mysql t = tokens .mysql "ALTER TABLE t ADD CONSTRAINT fk FOREIGN KEY (a) REFERENCES Order Line (b)".toList) ∧
    (∃ (c : CreateSchemaCommand) (t : Str), c.sql .postgres = .ok t ∧ c.schemaName = "my schema".toList ∧
      tokens .postgres t = tokens .postgres "CREATE SCHEMA my schema".toList) := by
  refine ⟨⟨{ includeConstraints := true, table := { tableName := "t".toList, columns := [{ columnName := "Order Id".toList, columnType := "INT".toList }], constraints := [{ constraintName := "pk".toList, constraintType := .primaryKey, columns := ["Order Id".toList] }] } }, _, rfl,
      by decide +kernel, by decide +kernel⟩,
    ⟨{ tableName := "t".toList, addConstraintCmds := [{ constraint := { constraintName := "fk".toList, constraintType := .foreignKey, columns := ["a".toList], referencesTable := "Order Line".toList, referencesColumns := ["b".toList] } }] }, _, rfl,
      by decide +kernel, by decide +kernel⟩,
    ⟨{ schemaName := "my schema".toList }, _, rfl, by decide +kernel, by decide +kernel⟩⟩

/-- A part of ALTER TABLE that is marked as ignored, or that changes nothing, leaves an empty item: two commas in a row, or one too
many at either end. -/
theorem C57_alter_violated :
    (∃ (c : AlterTableCommand) (t : Str), c.sql .postgres = .ok t ∧ (∃ x ∈ c.addColumnCmds, x.ignore = true) ∧
      tokens .postgres t = tokens .postgres "ALTER TABLE t ADD COLUMN a INT, , DROP COLUMN b".toList) ∧
    (∃ (c : AlterTableCommand) (t : Str), c.sql .postgres = .ok t ∧ (∃ x ∈ c.alterColumnCmds, alterColumnItems (spelling .postgres) .postgres x = []) ∧
      tokens .postgres t = tokens .postgres "ALTER TABLE t , DROP COLUMN b".toList) := by
  refine ⟨⟨{ tableName := "t".toList, addColumnCmds := [{ column := { columnName := "a".toList, columnType := "INT".toList } }, { column := { columnName := "z".toList, columnType := "INT".toList }, ignore := true }], dropColumnCmds := [{ columnName := "b".toList }] }, _, rfl, ?_, by decide +kernel⟩,
    ⟨{ tableName := "t".toList, alterColumnCmds := [{ column := { columnName := "a".toList } }], dropColumnCmds := [{ columnName := "b".toList }] }, _, rfl, ?_, by decide +kernel⟩⟩
  · exact ⟨_, List.mem_cons_of_mem _ List.mem_cons_self, rfl⟩
  · exact ⟨_, List.mem_cons_self, by decide +kernel⟩

/-- A table without columns that has constraints: the list starts with a comma. -/
theorem C57_no_columns_violated : ∃ (c : CreateTableCommand) (t : Str), c.sql .postgres = .ok t ∧
    tokens .postgres t = tokens .postgres "CREATE TABLE t (, CONSTRAINT k CHECK (TRUE))".toList := by
  refine ⟨{ includeConstraints := true, table := { tableName := "t".toList, constraints := [{ constraintName := "k".toList, constraintType := .check, checkExpr := "TRUE".toList }] } }, _, rfl, by decide +kernel⟩

end Ddl.Says
