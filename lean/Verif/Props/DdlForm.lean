import Verif.Proof.DdlForm
/-
C57: what the texts of the DDL commands say.
-/
namespace Ddl
open Ddl.Spec
open _root_.Spec (Tok tokens kw opt commas)
open Sq (quoteIdentifier escapeQuote)

variable {d : Dialect}

theorem L_target (a b : Str) : L d (txt (qualified d a b)) (target (spelling d) a b) := by
  rw [qualified_eq]
  unfold target
  have : E d (when (a ≠ []) (txt (quoteIdentifier d a) +++ lit ".")) (opt (a ≠ []) [(spelling d).name a, .sym '.']) := by
    refine E_when (by side) fun _ => ?_
    exact E_catL (y := [.sym '.']) L_name (E_lit (by decide +kernel)) (by decide +kernel)
  says

/-! ### Columns -/

theorem L_text (hd : d = .postgres) (o : String) (q : Char) (ho : o.toList = [q]) (hq : Spec.tokTop .postgres q = some ([], .quoted q []))
    (x : Str) : L d (lit o +++ txt (escapeQuote q x) +++ lit o) [(spelling d).text q x] := by
  subst hd
  refine ⟨?_⟩
  intro t ht
  cases ht
  show tokens .postgres (o.toList ++ (escapeQuote q x ++ o.toList)) = _
  rw [ho]
  exact tokens_quoted .postgres q q hq (by simp) x

theorem L_collation (hd : d = .postgres) (x : Str) :
    L d (lit " COLLATE \"" +++ txt (escapeQuote '"' x) +++ lit "\"") [kw "COLLATE", [(spelling d).text '"' x]].flatten := by
  have e : lit " COLLATE \"" = lit " COLLATE " +++ lit "\"" := by decide +kernel
  have := L_text hd "\"" '"' rfl rfl x
  rw [e, Res.append_assoc]
  says

theorem L_generation (c : Column) (h : ∀ r ∈ rawColumn c, Reads d r) : L d (columnGeneration d c) (generation d c) := by
  have h3 : Reads d c.identity := h _ (by simp [rawColumn])
  have h4 : Reads d c.generatedExpr := h _ (by simp [rawColumn])
  unfold columnGeneration generation
  refine L_ite Iff.rfl (fun _ => ?_) (fun _ => ?_)
  · cases d <;> first | exact L_lit (by decide +kernel) | exact L_nil
  · says

theorem B_generation (c : Column) : B (columnGeneration d c) := by
  unfold columnGeneration
  refine B_ite (fun _ => ?_) (fun _ => ?_)
  · cases d <;> first | exact B_lit (by decide +kernel) | exact B_nil
  · breaks

theorem L_collate (c : Column) (h : ∀ r ∈ rawColumn c, Reads d r) : L d (columnCollate d c) (collate (spelling d) d c) := by
  have h5 : Reads d c.collationName := h _ (by simp [rawColumn])
  unfold columnCollate collate
  cases d
  case postgres =>
    have := L_collation (d := .postgres) rfl c.collationName
    norm
    exact this
  all_goals says

theorem B_collate (c : Column) : B (columnCollate d c) := by
  unfold columnCollate
  cases d <;> breaks

theorem L_column (c : Column) (h : ∀ r ∈ rawColumn c, Reads d r) : L d (writeColumnDefinition d c) (columnForm (spelling d) d c) := by
  have h1 : Reads d c.columnType := h _ (by simp [rawColumn])
  have h2 : Reads d c.columnDefault := h _ (by simp [rawColumn])
  have hg := L_generation c h
  have hgb := B_generation (d := d) c
  have hc := L_collate c h
  have hcb := B_collate (d := d) c
  unfold writeColumnDefinition columnForm
  says

theorem L_checks (xs : List Str) (h : ∀ x ∈ xs, Reads d x) :
    L d (txt (xs.flatMap fun e => " CHECK (".toList ++ e ++ ")".toList)) (xs.map fun e => kw "CHECK" ++ lp ++ rd d e ++ rp).flatten := by
  induction xs with
  | nil => exact L_nil
  | cons x xs ih =>
    have ih' := ih fun y hy => h y (List.mem_cons_of_mem _ hy)
    have hx : Reads d x := h x List.mem_cons_self
    rw [List.flatMap_cons, List.map_cons, txt_append]
    have : E d (txt (" CHECK (".toList ++ x ++ ")".toList)) (kw "CHECK" ++ lp ++ rd d x ++ rp) := by
      have e : kw "CHECK" ++ lp ++ rd d x ++ rp = [kw "CHECK" ++ lp, rd d x, rp].flatten := by simp
      rw [e]
      norm
      refine E_cat (E_lit (by decide +kernel)) ?_
      exact E_catL (L_raw hx) (E_lit (by decide +kernel)) (by decide +kernel)
    exact L_catE this ih'

theorem B_checks (xs : List Str) : B (txt (xs.flatMap fun e => " CHECK (".toList ++ e ++ ")".toList)) := by
  cases xs with
  | nil => exact B_nil
  | cons x xs =>
    rw [List.flatMap_cons]
    norm
    exact B_first (by decide +kernel)

theorem L_addColumn (c : AddColumnCommand) (hi : c.ignore = false) (h : ∀ r ∈ rawColumn c.column ++ c.checkExprs, Reads d r) :
    L d (c.sql d) (addColumnForm (spelling d) d c) := by
  have hc := L_column c.column fun r hr => h r (List.mem_append_left _ hr)
  have hk := L_checks c.checkExprs fun r hr => h r (List.mem_append_right _ hr)
  have hkb := B_checks c.checkExprs
  unfold AddColumnCommand.sql addColumnForm
  rw [hi]
  simp only [Bool.false_eq_true, if_false]
  generalize txt (c.checkExprs.flatMap fun e => " CHECK (".toList ++ e ++ ")".toList) = k at *
  says

theorem L_dropColumn (c : DropColumnCommand) (hi : c.ignore = false) : L d (c.sql d) (dropColumnForm (spelling d) c) := by
  unfold DropColumnCommand.sql dropColumnForm
  rw [hi]
  simp only [Bool.false_eq_true, if_false]
  says

/-- Texts with a separator between any two. -/
def sepRes (s : String) : List (Res Str) → Res Str
  | [] => txt []
  | [x] => x
  | x :: y :: xs => x +++ lit s +++ sepRes s (y :: xs)

theorem append_nil (r : Res Str) : r +++ txt [] = r := by cases r <;> simp [Res.append, Res.bind, Res.map, txt]
theorem nil_append (r : Res Str) : txt [] +++ r = r := by cases r <;> simp [Res.append, Res.bind, Res.map, txt]

theorem L_sep {α : Type} (s : String) (hs : litEnds s _root_.Spec.comma = true) (hb : litBreaks s = true) (xs : List α) (f : α → Res Str)
    (g : α → List Tok) (h : ∀ x ∈ xs, L d (f x) (g x)) : L d (sepRes s (xs.map f)) (commas (xs.map g)) := by
  match xs with
  | [] => exact L_nil
  | [x] => exact h x List.mem_cons_self
  | x :: y :: xs =>
    have ih := L_sep s hs hb (y :: xs) f g fun z hz => h z (List.mem_cons_of_mem _ hz)
    have hx := h x List.mem_cons_self
    simp only [List.map_cons] at ih
    simp only [List.map_cons, sepRes, commas]
    have e : ∀ r, g x ++ _root_.Spec.comma ++ r = [g x, _root_.Spec.comma, r].flatten := by intro r; simp
    rw [e]
    refine L_catB hx ?_ (B_first hb)
    exact L_catE (E_lit hs) (L_one ih)

theorem joinLines_eq (xs : List Str) : txt (joinLines xs) = sepRes "\n    ," (xs.map txt) := by
  match xs with
  | [] => rfl
  | [x] => rfl
  | x :: y :: xs =>
    simp only [List.map_cons, sepRes, joinLines, txt_append, txt_lit, Res.append_assoc]
    rw [joinLines_eq (y :: xs)]; rfl

theorem joinComma_eq (xs : List Str) : txt (joinComma xs) = sepRes ", " (xs.map txt) := by
  match xs with
  | [] => rfl
  | [x] => rfl
  | x :: y :: xs =>
    simp only [List.map_cons, sepRes, joinComma, txt_append, txt_lit, Res.append_assoc]
    rw [joinComma_eq (y :: xs)]; rfl

theorem L_joinLines {α : Type} (xs : List α) (f : α → Str) (g : α → List Tok) (h : ∀ x ∈ xs, L d (txt (f x)) (g x)) :
    L d (txt (joinLines (xs.map f))) (commas (xs.map g)) := by
  rw [joinLines_eq, List.map_map]
  exact L_sep _ (by decide +kernel) (by decide +kernel) xs _ g h

theorem L_joinComma {α : Type} (xs : List α) (f : α → Str) (g : α → List Tok) (h : ∀ x ∈ xs, L d (txt (f x)) (g x)) :
    L d (txt (joinComma (xs.map f))) (commas (xs.map g)) := by
  rw [joinComma_eq, List.map_map]
  exact L_sep _ (by decide +kernel) (by decide +kernel) xs _ g h

theorem L_rawComma (xs : List Str) (h : ∀ x ∈ xs, Reads d x) : L d (txt (joinComma xs)) (commas (xs.map (rd d))) := by
  have := L_joinComma (d := d) xs id (rd d) fun x hx => L_raw (h x hx)
  rwa [List.map_id] at this

/-- Clause by clause. -/
def Pairs (d : Dialect) (xs : List Str) (ys : List (List Tok)) : Prop :=
  ∃ ps : List (Str × List Tok), xs = ps.map Prod.fst ∧ ys = ps.map Prod.snd ∧ ∀ p ∈ ps, L d (txt p.1) p.2 ∧ B (txt p.1)

theorem Pairs.nil : Pairs d [] [] := ⟨[], rfl, rfl, by simp⟩
theorem Pairs.one {x : Str} {y : List Tok} (h : L d (txt x) y) (hb : B (txt x)) : Pairs d [x] [y] :=
  ⟨[(x, y)], rfl, rfl, by simp [h, hb]⟩
theorem Pairs.append {a b : List Str} {x y : List (List Tok)} (h : Pairs d a x) (h' : Pairs d b y) : Pairs d (a ++ b) (x ++ y) := by
  obtain ⟨ps, rfl, rfl, hp⟩ := h
  obtain ⟨qs, rfl, rfl, hq⟩ := h'
  refine ⟨ps ++ qs, by simp, by simp, ?_⟩
  intro p hp'
  rcases List.mem_append.1 hp' with h | h
  · exact hp p h
  · exact hq p h
theorem Pairs.cat {a b : List Str} {x : List (List Tok)} {y : List (List (List Tok))} (h : Pairs d a x) (h' : Pairs d b y.flatten) :
    Pairs d (a ++ b) (x :: y).flatten := Pairs.append h h'
theorem Pairs.last {a : List Str} {x : List (List Tok)} (h : Pairs d a x) : Pairs d a [x].flatten := by simpa using h
theorem Pairs.ite {p : Prop} [Decidable p] {a b : List Str} {x y : List (List Tok)} (h : Pairs d a x) (h' : Pairs d b y) :
    Pairs d (if p then a else b) (if p then x else y) := by
  by_cases hp : p
  · rw [if_pos hp, if_pos hp]; exact h
  · rw [if_neg hp, if_neg hp]; exact h'
/-- The conditional parts of a text. -/
theorem txt_ite {p : Prop} [Decidable p] (a : Str) : txt (if p then a else []) = when (decide p) (txt a) := by
  by_cases h : p <;> simp [h, when, txt]

theorem clauses_say (c : AlterColumnCommand) (hd : d = .postgres) (h : ∀ r ∈ c.usingExpr :: rawColumn c.column, Reads d r) :
    Pairs d c.clauses (alterColumnClauses (spelling d) d c) := by
  have h0 : Reads d c.usingExpr := h _ List.mem_cons_self
  have h1 : Reads d c.column.columnType := h _ (by simp [rawColumn])
  have h2 : Reads d c.column.columnDefault := h _ (by simp [rawColumn])
  have h3 : Reads d c.column.identity := h _ (by simp [rawColumn])
  have hcol := L_collation hd c.column.collationName
  unfold AlterColumnCommand.clauses alterColumnClauses
  simp only [List.append_assoc]
  refine Pairs.cat (Pairs.ite (Pairs.one ?_ ?_) Pairs.nil) (Pairs.cat (Pairs.ite (Pairs.one ?_ ?_) (Pairs.ite (Pairs.one ?_ ?_) Pairs.nil))
    (Pairs.cat (Pairs.ite (Pairs.one ?_ ?_) (Pairs.ite (Pairs.one ?_ ?_) Pairs.nil))
    (Pairs.cat (Pairs.ite (Pairs.one ?_ ?_) (Pairs.ite (Pairs.one ?_ ?_) Pairs.nil)) (Pairs.last (Pairs.ite (Pairs.one ?_ ?_) Pairs.nil)))))
  all_goals simp only [txt_append, txt_lit, txt_ite, Res.append_assoc]
  all_goals first | (says; done) | (breaks; done) | skip

theorem L_alterColumn (c : AlterColumnCommand) (hi : c.ignore = false) (h : ∀ r ∈ c.usingExpr :: rawColumn c.column, Reads d r) :
    L d (c.sql d) (commas (alterColumnItems (spelling d) d c)) := by
  have hc := L_column c.column fun r hr => h r (List.mem_cons_of_mem _ hr)
  unfold AlterColumnCommand.sql
  rw [hi]
  simp only [Bool.false_eq_true, if_false]
  cases d
  case sqlite => exact L_err
  case mysql =>
    show L _ _ [kw "MODIFY COLUMN", _].flatten
    says
  case postgres =>
    obtain ⟨ps, e1, e2, hp⟩ := clauses_say c rfl h
    simp only [alterColumnItems, e1, e2, List.map_map]
    apply L_joinLines
    intro p hp'
    obtain ⟨hl, hb⟩ := hp p hp'
    simp only [Function.comp]
    norm
    says
  all_goals exact L_err

/-! ### Constraints -/

theorem L_defer (b : Bool) : L d (lit " DEFERRABLE" +++ (if b then lit " INITIALLY DEFERRED" else lit " INITIALLY IMMEDIATE")) (deferForm b) := by
  unfold deferForm
  says

/-- An element of an EXCLUDE constraint. -/
def exclusionElement (c : Constraint) (p : Str × Nat) : Res Str :=
  (if p.1 ≠ [] then txt p.1
     else match c.exprs[p.2]? with
      | none => .panic
      | some e => if e ≠ [] then txt e else .err "no column name or expression provided".toList) +++
    lit " WITH " +++
    (match c.exclusionOperators[p.2]? with
      | none => .panic
      | some o => if o ≠ [] then txt o else .err "no exclusion operator provided".toList)

theorem exclusionElements_eq (c : Constraint) (x : Str) (xs : List Str) (i : Nat) :
    exclusionElements c (x :: xs) i = when (i > 0) (lit ", ") +++ sepRes ", " (((x :: xs).zipIdx i).map (exclusionElement c)) := by
  induction xs generalizing x i with
  | nil =>
    rw [exclusionElements, exclusionElements, append_nil]
    rfl
  | cons y xs ih =>
    rw [exclusionElements, ih]
    simp only [List.zipIdx_cons, List.map_cons, sepRes, exclusionElement, Res.append_assoc]
    rfl

theorem exclusionItems_eq (c : Constraint) (xs : List Str) (i : Nat) :
    exclusionItems d c xs i = (xs.zipIdx i).map fun p =>
      [if p.1 ≠ [] then rd d p.1 else rd d (c.exprs.getD p.2 []), kw "WITH", rd d (c.exclusionOperators.getD p.2 [])].flatten := by
  induction xs generalizing i with
  | nil => rfl
  | cons x xs ih => rw [exclusionItems, ih, List.zipIdx_cons]; rfl

theorem L_exclusion (c : Constraint) (h : ∀ r ∈ rawConstraint c, Reads d r) :
    L d (exclusionElements c c.columns 0) (commas (exclusionItems d c c.columns 0)) := by
  have e : exclusionElements c c.columns 0 = sepRes ", " ((c.columns.zipIdx 0).map (exclusionElement c)) := by
    cases c.columns with
    | nil => rfl
    | cons x xs => rw [exclusionElements_eq]; exact nil_append _
  rw [e, exclusionItems_eq]
  refine L_sep _ (by decide +kernel) (by decide +kernel) _ _ _ ?_
  rintro ⟨x, i⟩ hx
  have hx : x ∈ c.columns := by
    have := List.mem_zipIdx hx
    rw [this.2.2]
    exact List.getElem_mem _
  have hx : Reads d x := h x (by simp [rawConstraint, hx])
  have h1 : L d (if x ≠ [] then txt x
      else match c.exprs[i]? with
        | none => .panic
        | some e => if e ≠ [] then txt e else .err "no column name or expression provided".toList)
      (if x ≠ [] then rd d x else rd d (c.exprs.getD i [])) := by
    refine L_ite Iff.rfl (fun _ => L_raw hx) (fun _ => ?_)
    cases he : c.exprs[i]? with
    | none => exact L_panic
    | some e =>
      have hr : Reads d e := h e (by simp [rawConstraint, List.mem_of_getElem? he])
      have : c.exprs.getD i [] = e := by simp [he]
      rw [this]
      show L d (if e ≠ [] then _ else _) _
      by_cases h0 : e ≠ []
      · rw [if_pos h0]; exact L_raw hr
      · rw [if_neg h0]; exact L_err
  have h2 : L d (match c.exclusionOperators[i]? with
        | none => .panic
        | some o => if o ≠ [] then txt o else .err "no exclusion operator provided".toList)
      (rd d (c.exclusionOperators.getD i [])) := by
    cases he : c.exclusionOperators[i]? with
    | none => exact L_panic
    | some e =>
      have hr : Reads d e := h e (by simp [rawConstraint, List.mem_of_getElem? he])
      have : c.exclusionOperators.getD i [] = e := by simp [he]
      rw [this]
      show L d (if e ≠ [] then _ else _) _
      by_cases h0 : e ≠ []
      · rw [if_pos h0]; exact L_raw hr
      · rw [if_neg h0]; exact L_err
  unfold exclusionElement
  refine L_catB h1 ?_ (B_first (by decide +kernel))
  exact L_catE (E_lit (by decide +kernel)) (L_one h2)

theorem L_constraintText (c : Constraint) (h : ∀ r ∈ rawConstraint c, Reads d r) : L d (constraintText d c) (constraintBody d c) := by
  have h1 : Reads d c.constraintType.name := h _ (by simp [rawConstraint])
  have h2 : Reads d c.checkExpr := h _ (by simp [rawConstraint])
  have h3 : Reads d c.referencesSchema := h _ (by simp [rawConstraint])
  have h4 : Reads d c.referencesTable := h _ (by simp [rawConstraint])
  have h5 : Reads d c.matchOption := h _ (by simp [rawConstraint])
  have h6 : Reads d c.updateRule := h _ (by simp [rawConstraint])
  have h7 : Reads d c.deleteRule := h _ (by simp [rawConstraint])
  have h8 : Reads d c.exclusionIndexType := h _ (by simp [rawConstraint])
  have h9 : Reads d c.predicate := h _ (by simp [rawConstraint])
  have h10 := L_rawComma c.columns fun x hx => h x (by simp [rawConstraint, hx])
  have h11 := L_rawComma c.referencesColumns fun x hx => h x (by simp [rawConstraint, hx])
  have h12 := L_exclusion c h
  unfold constraintText constraintBody
  cases ht : c.constraintType with
  | check => says
  | foreignKey =>
    simp only
    says
  | exclude => says
  | primaryKey =>
    have e : txt (ConstraintType.primaryKey.name ++ " (".toList ++ joinComma c.columns ++ ")".toList) =
      lit "PRIMARY KEY (" +++ txt (joinComma c.columns) +++ lit ")" := by
        norm
        rw [← Res.append_assoc]
        congr 1
    simp only [e]
    says
  | unique =>
    have e : txt (ConstraintType.unique.name ++ " (".toList ++ joinComma c.columns ++ ")".toList) =
      lit "UNIQUE (" +++ txt (joinComma c.columns) +++ lit ")" := by
        norm
        rw [← Res.append_assoc]
        congr 1
    simp only [e]
    says
  | other s =>
    rw [ht] at h1
    have h1 : Reads d s := h1
    show L d (txt (s ++ " (".toList ++ joinComma c.columns ++ ")".toList)) _
    says

theorem L_constraint (c : Constraint) (h : ∀ r ∈ rawConstraint c, Reads d r) :
    L d (writeConstraintDefinition d c) (constraintForm d c) := by
  have h1 := L_constraintText c h
  have h2 := L_defer (d := d) c.isInitiallyDeferred
  have h3 : L d (deferrableText d c) (opt c.isDeferrable (deferForm c.isInitiallyDeferred)) := by
    unfold deferrableText
    refine L_when Iff.rfl fun _ => L_skip ?_ h2
    cases d <;> first | exact E_failIf | exact ⟨by rintro t ht; cases ht⟩
  have h4 : B (deferrableText d c) := by
    unfold deferrableText
    refine B_when fun _ => B_cat ?_ (B_first (by decide +kernel))
    cases d <;> first | exact B_failIf | exact B_err
  unfold writeConstraintDefinition constraintForm
  says

theorem L_addConstraint (c : AddConstraintCommand) (hi : c.ignore = false) (h : ∀ r ∈ rawConstraint c.constraint, Reads d r) :
    L d (c.sql d) (addConstraintForm (spelling d) d c) := by
  have hc := L_constraint c.constraint h
  have h1 : Reads d c.constraint.constraintType.name := h _ (by simp [rawConstraint])
  have h2 := L_defer (d := d) c.constraint.isInitiallyDeferred
  unfold AddConstraintCommand.sql addConstraintForm
  rw [hi]
  simp only [Bool.false_eq_true, if_false]
  cases d <;> simp only <;> says

theorem L_alterConstraint (c : AlterConstraintCommand) (hi : c.ignore = false) (ha : c.alterDeferrable = true) :
    L d (c.sql d) (alterConstraintForm (spelling d) c) := by
  have h2 := L_defer (d := d) c.isInitiallyDeferred
  unfold AlterConstraintCommand.sql alterConstraintForm
  rw [hi, ha]
  simp only [Bool.false_eq_true, if_false, when, if_true]
  says

theorem L_dropConstraint (c : DropConstraintCommand) (hi : c.ignore = false) : L d (c.sql d) (dropConstraintForm (spelling d) c) := by
  unfold DropConstraintCommand.sql dropConstraintForm
  rw [hi]
  simp only [Bool.false_eq_true, if_false]
  says

/-! ### Indexes -/

def indexElement (d : Dialect) (x : Index) (p : Str × Nat) : Res Str :=
  if p.1 ≠ [] then txt (quoteIdentifier d p.1)
     else match x.exprs[p.2]? with
      | none => .panic
      | some e => txt e

theorem indexElements_eq (x : Index) (c : Str) (cs : List Str) (i : Nat) :
    indexElements d x (c :: cs) i = when (i > 0) (lit ", ") +++ sepRes ", " (((c :: cs).zipIdx i).map (indexElement d x)) := by
  induction cs generalizing c i with
  | nil =>
    rw [indexElements, indexElements, append_nil]
    rfl
  | cons y cs ih =>
    rw [indexElements, ih]
    simp only [List.zipIdx_cons, List.map_cons, sepRes, indexElement]
    rfl

theorem indexItems_eq (w : Spelling) (x : Index) (cs : List Str) (i : Nat) :
    indexItems w d x cs i = (cs.zipIdx i).map fun p => if p.1 ≠ [] then [w.name p.1] else rd d (x.exprs.getD p.2 []) := by
  induction cs generalizing i with
  | nil => rfl
  | cons c cs ih => rw [indexItems, ih, List.zipIdx_cons]; rfl

theorem L_indexElements (x : Index) (h : ∀ r ∈ rawIndex x, Reads d r) :
    L d (indexElements d x x.columns 0) (commas (indexItems (spelling d) d x x.columns 0)) := by
  have e : indexElements d x x.columns 0 = sepRes ", " ((x.columns.zipIdx 0).map (indexElement d x)) := by
    cases x.columns with
    | nil => rfl
    | cons c cs => rw [indexElements_eq]; exact nil_append _
  rw [e, indexItems_eq]
  refine L_sep _ (by decide +kernel) (by decide +kernel) _ _ _ ?_
  rintro ⟨c, i⟩ _
  unfold indexElement
  refine L_ite Iff.rfl (fun _ => L_name) (fun _ => ?_)
  cases he : x.exprs[i]? with
  | none => exact L_panic
  | some e =>
    have hr : Reads d e := h e (by simp [rawIndex, List.mem_of_getElem? he])
    have : x.exprs.getD i [] = e := by simp [he]
    simp only
    rw [this]
    exact L_raw hr

theorem same_eq (x : Str) (y : String) (z : String) (h : y.toList.map Char.toLower = z.toList) : eqFold x y.toList = same x z := by
  unfold eqFold same; rw [h]

theorem L_createIndex (c : CreateIndexCommand) (hi : c.ignore = false) (h : ∀ r ∈ rawIndex c.index, Reads d r) :
    L d (c.sql d) (createIndexForm (spelling d) d c) := by
  have h1 : Reads d c.index.indexType := h _ (by simp [rawIndex])
  have h2 : Reads d c.index.predicate := h _ (by simp [rawIndex])
  have h3 := L_indexElements c.index h
  have h4 := L_target (d := d) c.index.tableSchema c.index.tableName
  have h5 := L_joinComma (d := d) c.index.includeColumns (quoteIdentifier d) (fun x => [(spelling d).name x]) fun x _ => L_name
  have e1 : (eqFold c.index.indexType "FULLTEXT".toList || eqFold c.index.indexType "SPATIAL".toList) = special c.index := by
    rw [same_eq _ "FULLTEXT" "fulltext" (by decide +kernel), same_eq _ "SPATIAL" "spatial" (by decide +kernel)]; rfl
  unfold CreateIndexCommand.sql createIndexForm
  rw [hi]
  simp only [Bool.false_eq_true, if_false, e1, same_eq _ "BTREE" "btree" (by decide +kernel)]
  generalize hm : (if (decide (c.index.indexType ≠ []) && !special c.index && !same c.index.indexType "btree") = true then c.index.indexType
    else []) = m
  have hm1 : (m ≠ []) ↔ hasMethod c.index := by
    unfold hasMethod
    rw [← hm]
    by_cases ht : c.index.indexType = []
    · simp [ht]
    · by_cases hs : special c.index <;> by_cases hb : same c.index.indexType "btree" <;> simp [ht, hs, hb]
  have hm2 : hasMethod c.index → m = c.index.indexType := by
    rw [← hm1, ← hm]
    intro hne
    split at hne
    · rename_i h'; rw [if_pos h']
    · exact absurd rfl hne
  have hu : ∀ q : Prop, ∀ _ : Decidable q, L d (when (decide q && decide (m ≠ [])) (txt (" USING ".toList ++ m)))
      (opt (q ∧ hasMethod c.index) [kw "USING", rd d c.index.indexType].flatten) := by
    intro q _
    refine L_when (by rw [Bool.and_eq_true, decide_eq_true_eq, decide_eq_true_eq, hm1]) fun hh => ?_
    rw [Bool.and_eq_true, decide_eq_true_eq, decide_eq_true_eq, hm1] at hh
    rw [hm2 hh.2]
    says
  have hub : ∀ q : Prop, ∀ _ : Decidable q, B (when (decide q && decide (m ≠ [])) (txt (" USING ".toList ++ m))) := by
    intro q _
    breaks
  have u1 := hu (d = .mysql) inferInstance
  have b1 := hub (d = .mysql) inferInstance
  have u2 := hu (d = .postgres) inferInstance
  have b2 := hub (d = .postgres) inferInstance
  have k : E d (if (decide (d = .mysql) && special c.index) = true then txt (c.index.indexType ++ " ".toList)
      else when c.index.isUnique (lit "UNIQUE ")) (if d = .mysql ∧ special c.index = true then rd d c.index.indexType else opt c.index.isUnique (kw "UNIQUE")) := by
    refine E_ite (by simp) (fun _ => ?_) (fun _ => by ends)
    have := E_catL (y := []) (L_raw h1) (E_lit (s := " ") (by decide +kernel)) (by decide +kernel)
    simp only [List.flatten_cons, List.flatten_nil, List.append_nil] at this
    exact this
  generalize when (decide (d = .mysql) && decide (m ≠ [])) (txt (" USING ".toList ++ m)) = U1 at u1 b1 ⊢
  generalize when (decide (d = .postgres) && decide (m ≠ [])) (txt (" USING ".toList ++ m)) = U2 at u2 b2 ⊢
  generalize (if (decide (d = .mysql) && special c.index) = true then txt (c.index.indexType ++ " ".toList)
      else when c.index.isUnique (lit "UNIQUE ")) = K at k ⊢
  says

theorem L_dropIndex (c : DropIndexCommand) (hi : c.ignore = false) : L d (c.sql d) (dropIndexForm (spelling d) d c) := by
  have h : ∀ (b : Bool) (p : Prop) (_ : Decidable p), (b = true ↔ p) → E d (when b (txt (quoteIdentifier d c.tableSchema ++ ".".toList)))
      (opt p [(spelling d).name c.tableSchema, .sym '.']) := by
    intro b p _ hp
    refine E_when hp fun _ => ?_
    norm
    exact E_catL (y := [.sym '.']) L_name (E_lit (by decide +kernel)) (by decide +kernel)
  have h' := h (decide (c.tableSchema ≠ []) && decide (d ≠ .mysql)) (c.tableSchema ≠ [] ∧ d ≠ .mysql) inferInstance (by simp)
  unfold DropIndexCommand.sql dropIndexForm
  rw [hi]
  simp only [Bool.false_eq_true, if_false]
  generalize when (decide (c.tableSchema ≠ []) && decide (d ≠ .mysql)) (txt (quoteIdentifier d c.tableSchema ++ ".".toList)) = K at *
  says

/-! ### Triggers, functions, extensions, schemas, views -/

theorem L_dropTrigger (c : DropTriggerCommand) (hi : c.ignore = false) : L d (c.sql d) (dropTriggerForm (spelling d) d c) := by
  have h1 := L_target (d := d) c.tableSchema c.tableName
  have h2 := L_target (d := d) c.tableSchema c.triggerName
  unfold DropTriggerCommand.sql dropTriggerForm
  rw [hi]
  simp only [Bool.false_eq_true, if_false]
  cases d
  case postgres =>
    refine L_catE (by ends) (L_catE (by ends) (L_one ?_))
    says
  all_goals (simp only; says)

theorem L_dropFunction (c : DropFunctionCommand) (hi : c.ignore = false) (h : Reads d c.function.rawArgs) :
    L d (c.sql d) (dropFunctionForm (spelling d) d c) := by
  have h1 := L_target (d := d) c.function.functionSchema c.function.functionName
  unfold DropFunctionCommand.sql dropFunctionForm
  rw [hi]
  simp only [Bool.false_eq_true, if_false]
  says

theorem L_createExtension (c : CreateExtensionCommand) (hi : c.ignore = false) :
    L d (c.sql d) (createExtensionForm (spelling d) c) := by
  by_cases hd : d = .postgres
  · have hv : L d (lit " VERSION '" +++ txt (escapeQuote '\'' (extVersion c.extension)) +++ lit "'")
        [kw "VERSION", [(spelling d).text '\'' (extVersion c.extension)]].flatten := by
      have e : lit " VERSION '" = lit " VERSION " +++ lit "'" := by decide +kernel
      have := L_text hd "'" '\'' rfl rfl (extVersion c.extension)
      rw [e, Res.append_assoc]
      says
    unfold CreateExtensionCommand.sql createExtensionForm
    rw [hi]
    simp only [Bool.false_eq_true, if_false]
    rw [show extensionName c.extension = extName c.extension from rfl,
      show (c.extension.dropWhile (· ≠ '@')).drop 1 = extVersion c.extension from rfl]
    says
  · refine ⟨?_⟩
    intro t ht
    unfold CreateExtensionCommand.sql at ht
    rw [hi] at ht
    simp only [Bool.false_eq_true, if_false] at ht
    obtain ⟨a, b, ha, _, _⟩ := Res.append_ok ht
    have := (failIf_ok ha).2
    simp [hd] at this

theorem L_dropExtension (c : DropExtensionCommand) (hi : c.ignore = false) : L d (c.sql d) (dropExtensionForm (spelling d) c) := by
  have h := L_joinComma (d := d) c.extensions (fun e => quoteIdentifier d (extensionName e)) (fun e => [(spelling d).name (extName e)])
    fun e _ => L_name
  unfold DropExtensionCommand.sql dropExtensionForm
  rw [hi]
  simp only [Bool.false_eq_true, if_false]
  says

theorem L_createSchema (c : CreateSchemaCommand) (hi : c.ignore = false) (h : Reads d c.schemaName) :
    L d (c.sql d) (createSchemaForm d c) := by
  unfold CreateSchemaCommand.sql createSchemaForm
  rw [hi]
  simp only [Bool.false_eq_true, if_false]
  says

theorem L_createView (c : CreateViewCommand) (hi : c.ignore = false) (h : Reads d c.view.sql) :
    L d (c.sql d) (createViewForm (spelling d) d c) := by
  have h1 := L_target (d := d) c.view.viewSchema c.view.viewName
  unfold CreateViewCommand.sql createViewForm
  rw [hi]
  simp only [Bool.false_eq_true, if_false]
  says

theorem L_createFunction (c : CreateFunctionCommand) (hi : c.ignore = false) (h : Reads d c.function.sql) :
    L d (c.sql d) (rd d c.function.sql) := by
  unfold CreateFunctionCommand.sql
  rw [hi]
  simp only [Bool.false_eq_true, if_false]
  says

theorem L_createTrigger (c : CreateTriggerCommand) (hi : c.ignore = false) (h : Reads d c.trigger.sql) :
    L d (c.sql d) (rd d c.trigger.sql) := by
  unfold CreateTriggerCommand.sql
  rw [hi]
  simp only [Bool.false_eq_true, if_false]
  says

/-! ### Lists of views and tables -/

theorem dropLines_eq (many : Bool) (a b : Str) (as bs : List Str) (i : Nat) (t : Str) (h : dropLines d many (a :: as) (b :: bs) i = .ok t) :
    dropLines d many (a :: as) (b :: bs) i = (if i > 0 then lit "\n    ," else if many then lit "\n    " else txt []) +++
      sepRes "\n    ," (((a :: as).zip (b :: bs)).map fun p => txt (qualified d p.1 p.2)) := by
  induction as generalizing a b bs i t with
  | nil =>
    rw [dropLines, dropLines, append_nil]
    rfl
  | cons a' as ih =>
    cases bs with
    | nil =>
      rw [dropLines, dropLines] at h
      obtain ⟨_, _, _, h, _⟩ := Res.append_ok h
      obtain ⟨_, _, _, h, _⟩ := Res.append_ok h
      cases h
    | cons b' bs =>
      rw [dropLines] at h ⊢
      obtain ⟨_, _, _, h, _⟩ := Res.append_ok h
      obtain ⟨_, _, _, h, _⟩ := Res.append_ok h
      rw [ih a' b' bs (i + 1) _ h]
      simp only [List.zip_cons_cons, List.map_cons, sepRes]
      rfl

theorem dropTableLines_eq (many : Bool) (a b : Str) (as bs : List Str) (i : Nat) (t : Str)
    (h : dropTableLines d many (a :: as) (b :: bs) i = .ok t) :
    dropTableLines d many (a :: as) (b :: bs) i = (if i > 0 then lit "\n    ," else if many then lit "\n    " else txt []) +++
      sepRes "\n    ," (((a :: as).zip (b :: bs)).map fun p => txt (qualified d p.1 p.2)) := by
  induction bs generalizing a b as i t with
  | nil =>
    rw [dropTableLines, dropTableLines, append_nil]
    cases as <;> rfl
  | cons b' bs ih =>
    cases as with
    | nil =>
      rw [dropTableLines, dropTableLines] at h
      obtain ⟨_, _, _, h, _⟩ := Res.append_ok h
      obtain ⟨_, _, _, h, _⟩ := Res.append_ok h
      cases h
    | cons a' as =>
      rw [dropTableLines] at h ⊢
      obtain ⟨_, _, _, h, _⟩ := Res.append_ok h
      obtain ⟨_, _, _, h, _⟩ := Res.append_ok h
      rw [ih a' b' as (i + 1) _ h]
      simp only [List.zip_cons_cons, List.map_cons, sepRes]
      rfl

theorem L_ok {r : Res Str} {ts : List Tok} (h : ∀ t, r = .ok t → L d r ts) : L d r ts := ⟨fun t ht => (h t ht).is t ht⟩

theorem L_names (ps : List (Str × Str)) :
    L d (sepRes "\n    ," (ps.map fun p => txt (qualified d p.1 p.2))) (commas (ps.map fun p => target (spelling d) p.1 p.2)) :=
  L_sep _ (by decide +kernel) (by decide +kernel) ps _ _ fun p _ => L_target p.1 p.2

theorem L_dropLines (many : Bool) (as bs : List Str) :
    L d (dropLines d many as bs 0) (commas ((as.zip bs).map fun p => target (spelling d) p.1 p.2)) := by
  cases as with
  | nil => exact L_nil
  | cons a as =>
    cases bs with
    | nil => exact L_panic
    | cons b bs =>
      refine L_ok fun t ht => ?_
      rw [dropLines_eq many a b as bs 0 t ht]
      refine L_skip ?_ (L_names _)
      cases many
      · exact E_nil
      · exact E_lit (by decide +kernel)

theorem L_dropTableLines (many : Bool) (as bs : List Str) :
    L d (dropTableLines d many as bs 0) (commas ((as.zip bs).map fun p => target (spelling d) p.1 p.2)) := by
  cases bs with
  | nil => cases as <;> exact L_nil
  | cons b bs =>
    cases as with
    | nil => exact L_panic
    | cons a as =>
      refine L_ok fun t ht => ?_
      rw [dropTableLines_eq many a b as bs 0 t ht]
      refine L_skip ?_ (L_names _)
      cases many
      · exact E_nil
      · exact E_lit (by decide +kernel)

theorem B_dropLines (as bs : List Str) (n : Nat) (hn : n ≠ 1) (hb : n = bs.length) : B (dropLines d (decide (n > 1)) as bs 0) := by
  cases as with
  | nil => exact B_nil
  | cons a as =>
    cases bs with
    | nil => exact ⟨by rintro t ht; cases ht⟩
    | cons b bs =>
      rw [dropLines, decide_eq_true (by rw [List.length_cons] at hb; omega : n > 1)]
      exact B_first (by decide +kernel)

theorem B_dropTableLines (as bs : List Str) (n : Nat) (hn : n ≠ 1) (hb : n = bs.length) : B (dropTableLines d (decide (n > 1)) as bs 0) := by
  cases bs with
  | nil => cases as <;> exact B_nil
  | cons b bs =>
    cases as with
    | nil => exact ⟨by rintro t ht; cases ht⟩
    | cons a as =>
      rw [dropTableLines, decide_eq_true (by rw [List.length_cons] at hb; omega : n > 1)]
      exact B_first (by decide +kernel)

theorem E_ifExists (b : Bool) : E d (when b (lit "IF EXISTS" +++ when (decide (1 = 1)) (lit " "))) (opt b (kw "IF EXISTS")) := by
  refine E_when Iff.rfl fun _ => ?_
  have e : lit "IF EXISTS" +++ when (decide (1 = 1)) (lit " ") = lit "IF EXISTS " := by decide +kernel
  rw [e]
  exact E_lit (by decide +kernel)

theorem L_ifExists (b : Bool) (n : Nat) (hn : n ≠ 1) :
    L d (when b (lit "IF EXISTS" +++ when (decide (n = 1)) (lit " "))) (opt b (kw "IF EXISTS")) := by
  refine L_when Iff.rfl fun _ => ?_
  have e : lit "IF EXISTS" +++ when (decide (n = 1)) (lit " ") = lit "IF EXISTS" := by
    rw [decide_eq_false hn]; rfl
  rw [e]
  exact L_lit (by decide +kernel)

theorem L_dropTable (c : DropTableCommand) (hi : c.ignore = false) : L d (c.sql d) (dropTableForm (spelling d) c) := by
  have h1 := L_dropTableLines (d := d) (decide (c.tableNames.length > 1)) c.tableSchemas c.tableNames
  have h2 : B (when c.dropCascade
    (failIf (decide (d ≠ .postgres) && decide (d ≠ .mysql)) "no DROP TABLE CASCADE" +++
      (if decide (c.tableNames.length > 1) then lit "\n" else lit " ") +++ lit "CASCADE")) := by
    refine B_when fun _ => B_cat B_failIf ?_
    split <;> exact B_first (by decide +kernel)
  have h3 : L d (when c.dropCascade
    (failIf (decide (d ≠ .postgres) && decide (d ≠ .mysql)) "no DROP TABLE CASCADE" +++
      (if decide (c.tableNames.length > 1) then lit "\n" else lit " ") +++ lit "CASCADE")) (opt c.dropCascade (kw "CASCADE")) := by
    refine L_when Iff.rfl fun _ => L_skip E_failIf (L_skip (E_ite_nil (E_lit (by decide +kernel)) (E_lit (by decide +kernel))) ?_)
    exact L_lit (by decide +kernel)
  unfold DropTableCommand.sql dropTableForm
  rw [hi]
  simp only [Bool.false_eq_true, if_false]
  refine L_catE (E_lit (by decide +kernel)) ?_
  by_cases hn : c.tableNames.length = 1
  · rw [hn] at h1 h2 h3 ⊢
    exact L_catE (E_ifExists _) (L_catB h1 (L_one h3) h2)
  · have hb := B_dropTableLines (d := d) c.tableSchemas c.tableNames _ hn rfl
    exact L_catB (L_ifExists _ _ hn) (L_catB h1 (L_one h3) h2) (B_cat hb h2)

theorem L_dropView (c : DropViewCommand) (hi : c.ignore = false) : L d (c.sql d) (dropViewForm (spelling d) c) := by
  have h1 := L_dropLines (d := d) (decide (c.viewNames.length > 1)) c.viewSchemas c.viewNames
  have h2 : B (when c.dropCascade
    (failIf (decide (d = .sqlite)) "no DROP VIEW CASCADE" +++
      (if decide (c.viewNames.length > 1) then lit "\n" else lit " ") +++ lit "CASCADE")) := by
    refine B_when fun _ => B_cat B_failIf ?_
    split <;> exact B_first (by decide +kernel)
  have h3 : L d (when c.dropCascade
    (failIf (decide (d = .sqlite)) "no DROP VIEW CASCADE" +++
      (if decide (c.viewNames.length > 1) then lit "\n" else lit " ") +++ lit "CASCADE")) (opt c.dropCascade (kw "CASCADE")) := by
    refine L_when Iff.rfl fun _ => L_skip E_failIf (L_skip (E_ite_nil (E_lit (by decide +kernel)) (E_lit (by decide +kernel))) ?_)
    exact L_lit (by decide +kernel)
  unfold DropViewCommand.sql dropViewForm
  rw [hi]
  simp only [Bool.false_eq_true, if_false]
  refine L_catE (by ends) (L_catE (by ends) (L_catE (by ends) ?_))
  by_cases hn : c.viewNames.length = 1
  · rw [hn] at h1 h2 h3 ⊢
    exact L_catE (E_ifExists _) (L_skip E_failIf (L_catB h1 (L_one h3) h2))
  · have hb := B_dropLines (d := d) c.viewSchemas c.viewNames _ hn rfl
    exact L_catB (L_ifExists _ _ hn) (L_skip E_failIf (L_catB h1 (L_one h3) h2)) (B_cat B_failIf (B_cat hb h2))

/-! ### Tables -/

theorem writeLines_eq (x : Res Str) (xs : List (Res Str)) (i : Nat) :
    writeLines (x :: xs) i = (if i > 0 then lit "\n    ," else lit "\n    ") +++ sepRes "\n    ," (x :: xs) := by
  induction xs generalizing x i with
  | nil => rw [writeLines, writeLines, append_nil]; rfl
  | cons y xs ih =>
    rw [writeLines, ih]
    rfl

theorem writeLines_nil_or (xs : List (Res Str)) :
    writeLines xs 0 = txt [] ∧ xs = [] ∨ writeLines xs 0 = lit "\n    " +++ sepRes "\n    ," xs := by
  cases xs with
  | nil => exact .inl ⟨rfl, rfl⟩
  | cons x xs => exact .inr (writeLines_eq x xs 0)

/-- Items after a first one. -/
def more (xs : List (List Tok)) : List Tok := (xs.map fun x => _root_.Spec.comma ++ x).flatten

theorem commas_append (xs ys : List (List Tok)) (h : xs ≠ []) : commas (xs ++ ys) = commas xs ++ more ys := by
  match xs with
  | [] => exact absurd rfl h
  | [x] =>
    induction ys generalizing x with
    | nil => simp [commas, more]
    | cons y ys ih =>
      have := ih y (by simp)
      rw [List.singleton_append] at this
      show x ++ _root_.Spec.comma ++ commas (y :: ys) = _
      rw [this]
      simp [commas, more]
  | x :: x' :: xs =>
    rw [List.cons_append, List.cons_append, commas, ← List.cons_append, commas_append (x' :: xs) ys (by simp), commas]
    simp only [List.append_assoc]

theorem more_append (xs ys : List (List Tok)) : more (xs ++ ys) = more xs ++ more ys := by simp [more]

theorem L_concat {α : Type} (xs : List α) (f : α → Res Str) (g : α → List Tok)
    (h : ∀ x ∈ xs, L d (f x) (_root_.Spec.comma ++ g x) ∧ B (f x)) :
    L d (concatRes (xs.map f)) (more (xs.map g)) ∧ B (concatRes (xs.map f)) := by
  induction xs with
  | nil => exact ⟨L_nil, B_nil⟩
  | cons x xs ih =>
    have ih' := ih fun y hy => h y (List.mem_cons_of_mem _ hy)
    have hx := h x List.mem_cons_self
    rw [List.map_cons, List.map_cons, concatRes]
    refine ⟨?_, B_cat hx.2 ih'.2⟩
    rw [show more (g x :: xs.map g) = [_root_.Spec.comma ++ g x, more (xs.map g)].flatten by simp [more]]
    exact L_catB hx.1 (L_one ih'.1) ih'.2

theorem L_constraintLine (c : Constraint) (h : ∀ r ∈ rawConstraint c, Reads d r) :
    L d (constraintLine d c) (_root_.Spec.comma ++ constraintItem (spelling d) d c) ∧ B (constraintLine d c) := by
  have hc := L_constraint c h
  have e : _root_.Spec.comma ++ constraintItem (spelling d) d c =
      [_root_.Spec.comma, opt (c.constraintName ≠ [] ∧ ¬(d = .mysql ∧ c.constraintType = .primaryKey))
        [kw "CONSTRAINT", [(spelling d).name c.constraintName]].flatten, constraintForm d c].flatten := by
    simp [constraintItem]
  rw [e]
  unfold constraintLine
  constructor
  · by_cases hn : (decide (c.constraintName = []) || decide (d = .mysql) && decide (c.constraintType = .primaryKey)) = true
    · rw [if_pos hn]
      have : opt (c.constraintName ≠ [] ∧ ¬(d = .mysql ∧ c.constraintType = .primaryKey))
          [kw "CONSTRAINT", [(spelling d).name c.constraintName]].flatten = [] := by
        unfold opt
        rw [if_neg]
        rintro ⟨h1, h2⟩
        simp only [Bool.or_eq_true, Bool.and_eq_true, decide_eq_true_eq] at hn
        rcases hn with hn | hn
        · exact h1 hn
        · exact h2 hn
      rw [this]
      refine L_catE (E_lit (by decide +kernel)) ?_
      exact L_one hc
    · rw [if_neg hn]
      have : opt (c.constraintName ≠ [] ∧ ¬(d = .mysql ∧ c.constraintType = .primaryKey))
          [kw "CONSTRAINT", [(spelling d).name c.constraintName]].flatten = [kw "CONSTRAINT", [(spelling d).name c.constraintName]].flatten := by
        unfold opt
        rw [if_pos]
        simp only [Bool.or_eq_true, Bool.and_eq_true, decide_eq_true_eq, not_or] at hn
        exact hn
      rw [this]
      have e2 : lit "\n    ,CONSTRAINT " = lit "\n    ," +++ lit "CONSTRAINT " := by decide +kernel
      have e3 : ∀ x y z : List Tok, [x, [kw "CONSTRAINT", y].flatten, z].flatten = [x, kw "CONSTRAINT", y, z].flatten := by
        intro x y z; simp
      rw [e3]
      norm
      rw [e2, Res.append_assoc]
      refine L_catE (E_lit (by decide +kernel)) (L_catE (E_lit (by decide +kernel)) (L_catB L_name ?_ (B_first (by decide +kernel))))
      exact L_skip (E_lit (by decide +kernel)) (L_one hc)
  · by_cases hn : (decide (c.constraintName = []) || decide (d = .mysql) && decide (c.constraintType = .primaryKey)) = true
    · rw [if_pos hn]
      exact B_first (by decide +kernel)
    · rw [if_neg hn]
      norm
      exact B_first (by decide +kernel)

theorem L_tableLines (t : Table) (hv : ∀ x ∈ t.virtualTableArgs, Reads d x) (h : ∀ r ∈ t.columns.flatMap rawColumn, Reads d r)
    (hs : t.virtualTable ≠ [] → d = .sqlite) :
    ∃ (α : Type) (xs : List α) (f : α → Res Str) (g : α → List Tok), tableLines d t = xs.map f ∧ columnItems (spelling d) d t = xs.map g ∧
      ∀ x ∈ xs, L d (f x) (g x) := by
  unfold tableLines columnItems
  by_cases hvt : t.virtualTable ≠ []
  · rw [if_pos hvt, if_pos hvt, if_pos (hs hvt)]
    exact ⟨Str, t.virtualTableArgs, txt, rd d, rfl, rfl, fun x hx => L_raw (hv x hx)⟩
  · rw [if_neg hvt, if_neg hvt]
    refine ⟨Column, t.columns.filter fun c => !c.ignore, _, _, rfl, rfl, fun c hc => L_column c fun r hr => h r ?_⟩
    exact List.mem_flatMap.2 ⟨c, (List.mem_filter.1 hc).1, hr⟩

theorem L_createTable (c : CreateTableCommand) (hi : c.ignore = false) (h : ∀ r ∈ raw (.createTable c), Reads d r)
    (hne : columnItems (spelling d) d c.table ≠ []) : L d (c.sql d) (createTableForm (spelling d) d c) := by
  have hraw : ∀ r, r = c.table.virtualTable ∨ r ∈ c.table.virtualTableArgs ∨ r ∈ c.table.columns.flatMap rawColumn ∨
      r ∈ c.table.constraints.flatMap rawConstraint ∨ r ∈ c.createIndexCmds.flatMap (fun a => rawIndex a.index) → Reads d r := by
    intro r hr
    apply h
    simp only [raw, List.mem_append, List.mem_singleton]
    rcases hr with hr | hr | hr | hr | hr
    · exact .inl (.inl (.inl (.inl hr)))
    · exact .inl (.inl (.inl (.inr hr)))
    · exact .inl (.inl (.inr hr))
    · exact .inl (.inr hr)
    · exact .inr hr
  have h1 : Reads d c.table.virtualTable := hraw _ (.inl rfl)
  have h2 := L_target (d := d) c.table.tableSchema c.table.tableName
  have hcons : ∀ xs : List Constraint, (∀ x ∈ xs, x ∈ c.table.constraints) →
      L d (concatRes (xs.map (constraintLine d))) (more (xs.map (constraintItem (spelling d) d))) ∧ B (concatRes (xs.map (constraintLine d))) :=
    fun xs hxs => L_concat xs _ _ fun x hx => L_constraintLine x fun r hr =>
      hraw r (.inr (.inr (.inr (.inl (List.mem_flatMap.2 ⟨x, hxs x hx, hr⟩)))))
  have hidx := L_concat (d := d) (c.createIndexCmds.filter fun x => !x.ignore) (fun c => lit "\n    ," +++ c.sql d)
    (createIndexForm (spelling d) d) fun x hx => by
      have hx' := List.mem_filter.1 hx
      have := L_createIndex (d := d) x (by simpa using hx'.2) fun r hr =>
        hraw r (.inr (.inr (.inr (.inr (List.mem_flatMap.2 ⟨x, hx'.1, hr⟩)))))
      refine ⟨?_, B_first (by decide +kernel)⟩
      rw [show _root_.Spec.comma ++ createIndexForm (spelling d) d x = [_root_.Spec.comma, createIndexForm (spelling d) d x].flatten by simp]
      exact L_catE (E_lit (by decide +kernel)) (L_one this)
  refine L_ok fun t ht => ?_
  have hs : c.table.virtualTable ≠ [] → d = .sqlite := by
    intro hv
    unfold CreateTableCommand.sql at ht
    rw [hi] at ht
    simp only [Bool.false_eq_true, if_false] at ht
    obtain ⟨_, _, _, ht, _⟩ := Res.append_ok ht
    obtain ⟨_, _, ht, _, _⟩ := Res.append_ok ht
    rw [if_pos (by simpa using hv)] at ht
    obtain ⟨_, _, ht, _, _⟩ := Res.append_ok ht
    have := (failIf_ok ht).2
    simpa using this
  obtain ⟨α, xs, f, g, e1, e2, hl⟩ := L_tableLines c.table (fun x hx => hraw x (.inr (.inl hx)))
    (fun x hx => hraw x (.inr (.inr (.inl hx)))) hs
  have hxs : xs ≠ [] := by rintro rfl; exact hne (by rw [e2]; rfl)
  have hlines : L d (writeLines (tableLines d c.table) 0) (commas (columnItems (spelling d) d c.table)) := by
    rw [e1, e2]
    rcases writeLines_nil_or (xs.map f) with ⟨_, h0⟩ | h0
    · exact absurd (by simpa using h0) hxs
    · rw [h0]
      exact L_skip (E_lit (by decide +kernel)) (L_sep _ (by decide +kernel) (by decide +kernel) xs f g hl)
  have hc := hcons (if c.includeConstraints = true then c.table.constraints.filter (includedConstraint d) else []) (by
    intro x hx
    split at hx
    · exact (List.mem_filter.1 hx).1
    · cases hx)
  have eitems : commas (tableItems (spelling d) d c) = [commas (columnItems (spelling d) d c.table),
      more ((if c.includeConstraints = true then c.table.constraints.filter (includedConstraint d) else []).map (constraintItem (spelling d) d)),
      more ((c.createIndexCmds.filter fun x => !x.ignore).map (createIndexForm (spelling d) d))].flatten := by
    unfold tableItems
    rw [List.append_assoc, commas_append _ _ hne, more_append]
    have ei : inTable d = includedConstraint d := by funext x; simp [inTable, includedConstraint]
    have e3 : (if c.includeConstraints = true then (c.table.constraints.filter (inTable d)).map (constraintItem (spelling d) d) else []) =
      (if c.includeConstraints = true then c.table.constraints.filter (includedConstraint d) else []).map (constraintItem (spelling d) d) := by
      rw [ei]; split <;> rfl
    rw [e3]
    simp
  have eform : createTableForm (spelling d) d c = [if c.table.virtualTable ≠ [] then kw "CREATE VIRTUAL TABLE" else kw "CREATE TABLE",
     opt c.createIfNotExists (kw "IF NOT EXISTS"),
     target (spelling d) c.table.tableSchema c.table.tableName,
     opt (c.table.virtualTable ≠ []) [kw "USING", rd d c.table.virtualTable].flatten,
     lp, commas (columnItems (spelling d) d c.table),
     more ((if c.includeConstraints = true then c.table.constraints.filter (includedConstraint d) else []).map (constraintItem (spelling d) d)),
     more ((c.createIndexCmds.filter fun x => !x.ignore).map (createIndexForm (spelling d) d)), rp].flatten := by
    unfold createTableForm
    rw [eitems]
    simp
  rw [eform]
  unfold CreateTableCommand.sql
  rw [hi]
  simp only [Bool.false_eq_true, if_false]
  obtain ⟨hcl, hcb⟩ := hc
  obtain ⟨hil, hib⟩ := hidx
  generalize writeLines (tableLines d c.table) 0 = W at hlines ⊢
  generalize concatRes ((if c.includeConstraints = true then c.table.constraints.filter (includedConstraint d) else []).map (constraintLine d)) = C
    at hcl hcb ⊢
  generalize concatRes ((c.createIndexCmds.filter fun x => !x.ignore).map fun c => lit "\n    ," +++ c.sql d) = I at hil hib ⊢
  have hh : E d (if (decide (c.table.virtualTable ≠ [])) = true then
      failIf (decide (d ≠ .sqlite)) "no VIRTUAL TABLE" +++ lit "CREATE VIRTUAL TABLE " else lit "CREATE TABLE ")
      (if c.table.virtualTable ≠ [] then kw "CREATE VIRTUAL TABLE" else kw "CREATE TABLE") := by
    refine E_ite (by side) (fun _ => E_skip E_failIf (E_lit (by decide +kernel))) (fun _ => E_lit (by decide +kernel))
  says

/-- Line by line, each of one item or more. -/
def Lines (d : Dialect) (ls : List (Res Str)) (is : List (List Tok)) : Prop :=
  ∃ ps : List (Res Str × List (List Tok)), ls = ps.map Prod.fst ∧ is = ps.flatMap Prod.snd ∧ ∀ p ∈ ps, L d p.1 (commas p.2) ∧ p.2 ≠ []

theorem Lines.append {a b : List (Res Str)} {x y : List (List Tok)} (h : Lines d a x) (h' : Lines d b y) : Lines d (a ++ b) (x ++ y) := by
  obtain ⟨ps, rfl, rfl, hp⟩ := h
  obtain ⟨qs, rfl, rfl, hq⟩ := h'
  refine ⟨ps ++ qs, by simp, by simp, fun p hp' => ?_⟩
  rcases List.mem_append.1 hp' with h | h
  · exact hp p h
  · exact hq p h

theorem Lines.of {α : Type} (xs : List α) (f : α → Res Str) (g : α → List (List Tok)) (h : ∀ x ∈ xs, L d (f x) (commas (g x)) ∧ g x ≠ []) :
    Lines d (xs.map f) (xs.flatMap g) := by
  refine ⟨xs.map fun x => (f x, g x), by simp, by simp [List.flatMap_map], ?_⟩
  intro p hp
  obtain ⟨x, hx, rfl⟩ := List.mem_map.1 hp
  exact h x hx

theorem Lines.ofOne {α : Type} (xs : List α) (f : α → Res Str) (g : α → List Tok) (h : ∀ x ∈ xs, L d (f x) (g x)) :
    Lines d (xs.map f) (xs.map g) := by
  have := Lines.of xs f (fun x => [g x]) fun x hx => ⟨h x hx, by simp⟩
  rwa [← List.map_eq_flatMap] at this

theorem commas_flat (ps : List (Res Str × List (List Tok))) (h : ∀ p ∈ ps, p.2 ≠ []) :
    commas (ps.map fun p => commas p.2) = commas (ps.flatMap Prod.snd) := by
  match ps with
  | [] => rfl
  | [p] => simp [commas]
  | p :: q :: ps =>
    have ih := commas_flat (q :: ps) fun x hx => h x (List.mem_cons_of_mem _ hx)
    have hp := h p List.mem_cons_self
    have hq := h q (by simp)
    have hne : (q :: ps).flatMap Prod.snd ≠ [] := by
      rw [List.flatMap_cons]
      simp [hq]
    rw [List.map_cons, List.map_cons, commas, ← List.map_cons (f := fun p : Res Str × List (List Tok) => commas p.2), ih,
      show (p :: q :: ps).flatMap Prod.snd = p.2 ++ (q :: ps).flatMap Prod.snd from List.flatMap_cons, commas_append _ _ hp]
    cases hz : (q :: ps).flatMap Prod.snd with
    | nil => exact absurd hz hne
    | cons z zs =>
      have h1 : commas (z :: zs) = z ++ more zs := by
        have := commas_append [z] zs (by simp)
        simpa [commas] using this
      rw [h1]
      simp [more]

theorem L_lines {ls : List (Res Str)} {is : List (List Tok)} (h : Lines d ls is) : L d (writeLines ls 0) (commas is) := by
  obtain ⟨ps, rfl, rfl, hp⟩ := h
  rw [← commas_flat ps fun p hp' => (hp p hp').2]
  rcases writeLines_nil_or (ps.map Prod.fst) with ⟨h1, h2⟩ | h0
  · rw [h1]
    cases ps with
    | nil => exact L_nil
    | cons p ps => cases h2
  · rw [h0]
    exact L_skip (E_lit (by decide +kernel)) (L_sep _ (by decide +kernel) (by decide +kernel) ps _ _ fun p hp' => (hp p hp').1)

theorem L_alterTable (c : AlterTableCommand) (hi : c.ignore = false) (h : ∀ r ∈ rawAlterTable c, Reads d r)
    (hw : WholeAlter (spelling d) d c) : L d (c.sql d) (alterTableForm (spelling d) d c) := by
  obtain ⟨w1, w2, w3, w4, w5, w6, w7, w8⟩ := hw
  have hraw : ∀ r, r ∈ c.addColumnCmds.flatMap (fun a => rawColumn a.column ++ a.checkExprs) ∨
      r ∈ c.alterColumnCmds.flatMap (fun a => a.usingExpr :: rawColumn a.column) ∨
      r ∈ c.addConstraintCmds.flatMap (fun a => rawConstraint a.constraint) ∨
      r ∈ c.createIndexCmds.flatMap (fun a => rawIndex a.index) → Reads d r := by
    intro r hr
    apply h
    simp only [rawAlterTable, List.mem_append]
    rcases hr with hr | hr | hr | hr
    · exact .inl (.inl (.inl hr))
    · exact .inl (.inl (.inr hr))
    · exact .inl (.inr hr)
    · exact .inr hr
  have l1 := Lines.ofOne c.addColumnCmds (·.sql d) (addColumnForm (spelling d) d) fun x hx => L_addColumn x (w1 x hx) fun r hr =>
    hraw r (.inl (List.mem_flatMap.2 ⟨x, hx, hr⟩))
  have l2 := Lines.of c.alterColumnCmds (·.sql d) (alterColumnItems (spelling d) d) fun x hx => ⟨L_alterColumn x (w2 x hx).1 fun r hr =>
    hraw r (.inr (.inl (List.mem_flatMap.2 ⟨x, hx, hr⟩))), (w2 x hx).2⟩
  have l3 := Lines.ofOne c.dropColumnCmds (·.sql d) (dropColumnForm (spelling d)) fun x hx => L_dropColumn x (w3 x hx)
  have l4 := Lines.ofOne c.dropConstraintCmds (·.sql d) (dropConstraintForm (spelling d)) fun x hx => L_dropConstraint x (w4 x hx)
  have l5 := Lines.ofOne c.addConstraintCmds (·.sql d) (addConstraintForm (spelling d) d) fun x hx => L_addConstraint x (w5 x hx) fun r hr =>
    hraw r (.inr (.inr (.inl (List.mem_flatMap.2 ⟨x, hx, hr⟩))))
  have l6 := Lines.ofOne c.alterConstraintCmds (·.sql d) (alterConstraintForm (spelling d)) fun x hx =>
    L_alterConstraint x (w6 x hx).1 (w6 x hx).2
  have l7 := Lines.ofOne (d := d) c.createIndexCmds (fun c => when (d = .mysql) (lit "ADD ") +++ c.sql d)
    (fun x => [opt (d = .mysql) (kw "ADD"), createIndexForm (spelling d) d x].flatten) fun x hx => by
      have := L_createIndex (d := d) x (w7 x hx) fun r hr => hraw r (.inr (.inr (.inr (List.mem_flatMap.2 ⟨x, hx, hr⟩))))
      says
  have l8 := Lines.ofOne c.dropIndexCmds (·.sql d) (dropIndexForm (spelling d) d) fun x hx => L_dropIndex x (w8 x hx)
  have hl := L_lines (((((((l1.append l2).append l3).append l4).append l5).append l6).append l7).append l8)
  have ht := L_target (d := d) c.tableSchema c.tableName
  have he : alterTableForm (spelling d) d c = [kw "ALTER TABLE", opt c.alterIfExists (kw "IF EXISTS"),
      target (spelling d) c.tableSchema c.tableName, commas (alterItems (spelling d) d c), []].flatten := by
    simp [alterTableForm]
  rw [he]
  unfold AlterTableCommand.sql alterItems
  rw [hi]
  simp only [Bool.false_eq_true, if_false]
  generalize hW : writeLines _ 0 = W at hl ⊢
  have hb : B (W +++ lit "\n") := by
    rw [← hW]
    rcases writeLines_nil_or (c.addColumnCmds.map (·.sql d) ++ c.alterColumnCmds.map (·.sql d) ++ c.dropColumnCmds.map (·.sql d) ++
     c.dropConstraintCmds.map (·.sql d) ++ c.addConstraintCmds.map (·.sql d) ++ c.alterConstraintCmds.map (·.sql d) ++
     c.createIndexCmds.map (fun c => when (d = .mysql) (lit "ADD ") +++ c.sql d) ++ c.dropIndexCmds.map (·.sql d)) with ⟨h1, _⟩ | h1
    · rw [h1]; exact B_cat B_nil (B_lit (by decide +kernel))
    · rw [h1, Res.append_assoc]; exact B_first (by decide +kernel)
  have hl' : L d (W +++ lit "\n") [commas (c.addColumnCmds.map (addColumnForm (spelling d) d) ++ c.alterColumnCmds.flatMap (alterColumnItems (spelling d) d) ++
      c.dropColumnCmds.map (dropColumnForm (spelling d)) ++ c.dropConstraintCmds.map (dropConstraintForm (spelling d)) ++
      c.addConstraintCmds.map (addConstraintForm (spelling d) d) ++ c.alterConstraintCmds.map (alterConstraintForm (spelling d)) ++
      c.createIndexCmds.map (fun x => [opt (d = .mysql) (kw "ADD"), createIndexForm (spelling d) d x].flatten) ++
      c.dropIndexCmds.map (dropIndexForm (spelling d) d)), []].flatten :=
    L_catB hl (L_one (L_lit (by decide +kernel))) (B_lit (by decide +kernel))
  refine L_catE (E_lit (by decide +kernel)) (L_catE (by ends) (L_catB ht ?_ ?_))
  · exact L_skip (by ends) (L_skip (by ends) hl')
  · exact B_cat (B_when fun _ => B_cat B_failIf B_failIf) (B_cat (B_when fun _ => B_failIf) hb)

end Ddl
