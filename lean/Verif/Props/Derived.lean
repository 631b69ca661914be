import Verif.Model.Derived
import Verif.Model.Examples
import Verif.Spec.Derived
import Verif.Props.Quote
import Verif.Proof.Machine
import Verif.Proof.Tree
import Verif.Proof.Seq
/-
C50: fields of common table expressions and subqueries.
-/
namespace Sq.Deriving
open Spec

theorem isNil_iff (n : Node) : n.kind.isNil = true ↔ n = .nil := Node.kind_isNil n
theorem isNil_false {n : Node} (h : n ≠ .nil) : n.kind.isNil = false := by
  cases hk : n.kind.isNil with
  | false => rfl
  | true => exact absurd ((isNil_iff n).1 hk) h

/-- The query returns columns with these names. -/
def Returns (ext : Ext) (q : Node) (names : List Str) : Prop :=
  ∃ fs, fetchable ext q = .ok fs ∧ fs ≠ [] ∧ names = fs.map itemName ∧ ∀ f ∈ fs, f ≠ .nil ∧ itemName f ≠ []

theorem fieldNameOf_eq (f : Node) : fieldNameOf f = itemName f := by
  unfold fieldNameOf itemName
  by_cases h : f.alias = []
  · rw [if_pos h, if_neg (fun e => e h)]
  · rw [if_neg h, if_pos h]

theorem gather_true : (fs : List Node) → (names : List Str) →
    (gather fs = .ok (names, true) ↔ names = fs.map itemName ∧ ∀ f ∈ fs, f ≠ .nil ∧ itemName f ≠ [])
  | [], names => by simp only [gather, Res.ok.injEq, Prod.mk.injEq, List.map_nil, and_true]; constructor
                    · intro e; exact ⟨e.symm, by simp⟩
                    · intro e; exact e.1.symm
  | f :: fs, names => by
    have ih := gather_true fs
    simp only [gather, fieldNameOf_eq]
    by_cases h1 : f = .nil
    · rw [if_pos ((isNil_iff f).2 h1)]
      simp [h1]
    · rw [if_neg (by rw [isNil_false h1]; simp)]
      by_cases h2 : itemName f = []
      · simp [h2]
      · simp only [h2, if_false]
        cases hg : gather fs with
        | ok r =>
          obtain ⟨ns, b⟩ := r
          simp only [Res.map, Res.ok.injEq, Prod.mk.injEq]
          cases b with
          | true =>
            have := (ih ns).1 hg
            obtain ⟨hns, hall⟩ := this
            subst hns
            simp only [and_true, List.map_cons, List.mem_cons, forall_eq_or_imp, h1, h2, ne_eq, not_false_eq_true, and_self, true_and]
            constructor
            · intro e; exact ⟨e.symm, hall⟩
            · intro e; exact e.1.symm
          | false =>
            simp only [Bool.false_eq_true, and_false, false_iff, List.map_cons, List.mem_cons, forall_eq_or_imp, h1, h2, ne_eq,
              not_false_eq_true, and_self, true_and, not_and]
            intro _ hall
            have := (ih (fs.map itemName)).2 ⟨rfl, hall⟩
            rw [hg] at this; simp at this
        | err e =>
          simp only [Res.map, reduceCtorEq, List.map_cons, List.mem_cons, forall_eq_or_imp, false_iff, not_and]
          intro _ _ hall
          have := (ih (fs.map itemName)).2 ⟨rfl, hall⟩
          rw [hg] at this; simp at this
        | panic =>
          simp only [Res.map, reduceCtorEq, List.map_cons, List.mem_cons, forall_eq_or_imp, false_iff, not_and]
          intro _ _ hall
          have := (ih (fs.map itemName)).2 ⟨rfl, hall⟩
          rw [hg] at this; simp at this
        | hang =>
          simp only [Res.map, reduceCtorEq, List.map_cons, List.mem_cons, forall_eq_or_imp, false_iff, not_and]
          intro _ _ hall
          have := (ih (fs.map itemName)).2 ⟨rfl, hall⟩
          rw [hg] at this; simp at this

/-- When a CTE is in order, and what it then offers. -/
def Offers (ext : Ext) (name : Str) (columns : List Str) (q : Node) (names : List Str) : Prop :=
  name ≠ [] ∧ q ≠ .nil ∧ if columns ≠ [] then names = columns else Returns ext q names

theorem newCTE_spec (ext : Ext) (rec : Bool) (name : Str) (columns : List Str) (q : Node) (c : CTE)
    (h : newCTE ext rec name columns q = .ok c) :
    c.query = q ∧ c.info.name = name ∧ c.info.alias = [] ∧ c.info.isRec = rec ∧
    ((c.info.sticky = none ∧ c.cache ≠ [] ∧ c.info.fieldNames = c.cache ∧ (c.info.explicit = true ↔ columns ≠ []) ∧ Offers ext name columns q c.cache) ∨
     (c.info.sticky ≠ none ∧ c.cache = [] ∧ ∀ names, ¬ Offers ext name columns q names)) := by
  unfold newCTE at h
  simp only at h
  split at h
  · rename_i hn
    cases h
    exact ⟨rfl, rfl, rfl, rfl, .inr ⟨by simp, rfl, fun _ ho => ho.1 hn⟩⟩
  rename_i hn
  split at h
  · rename_i hq
    cases h
    exact ⟨rfl, rfl, rfl, rfl, .inr ⟨by simp, rfl, fun _ ho => ho.2.1 ((isNil_iff q).1 hq)⟩⟩
  rename_i hq0
  have hq : q ≠ .nil := fun e => hq0 ((isNil_iff q).2 e)
  split at h
  · rename_i hc
    cases h
    refine ⟨rfl, rfl, rfl, rfl, .inl ⟨rfl, hc, rfl, by simpa using hc, hn, hq, ?_⟩⟩
    rw [if_pos hc]
  rename_i hc
  have hce : columns = [] := Classical.byContradiction fun e => hc e
  subst hce
  have none_of : (∀ fs, fetchable ext q = .ok fs → fs ≠ [] → (∀ f ∈ fs, f ≠ .nil ∧ itemName f ≠ []) → False) →
      ∀ names, ¬ Offers ext name [] q names := by
    rintro hno names ⟨_, _, ho⟩
    rw [if_neg (by simp)] at ho
    obtain ⟨fs, h1, h2, _, h4⟩ := ho
    exact hno fs h1 h2 h4
  cases hf : fetchable ext q with
  | panic => rw [hf] at h; simp at h
  | hang => rw [hf] at h; simp at h
  | err e =>
    rw [hf] at h; cases h
    exact ⟨rfl, rfl, rfl, rfl, .inr ⟨by simp, rfl, none_of (by intro fs h1; rw [hf] at h1; simp at h1)⟩⟩
  | ok fs =>
    rw [hf] at h
    cases fs with
    | nil =>
      cases h
      exact ⟨rfl, rfl, rfl, rfl, .inr ⟨by simp, rfl, none_of (by intro fs h1; rw [hf] at h1; cases h1; intro h; exact absurd rfl h)⟩⟩
    | cons f fs =>
      simp only at h
      cases hg : gather (f :: fs) with
      | panic => rw [hg] at h; simp at h
      | hang => rw [hg] at h; simp at h
      | err e => rw [hg] at h; simp at h
      | ok r =>
        obtain ⟨names, b⟩ := r
        rw [hg] at h
        cases b with
        | true =>
          cases h
          have := (gather_true _ _).1 hg
          refine ⟨rfl, rfl, rfl, rfl, .inl ⟨rfl, ?_, rfl, by simp, hn, hq, ?_⟩⟩
          · simp only; rw [this.1]; simp
          · rw [if_neg (by simp)]
            exact ⟨_, hf, by simp, this⟩
        | false =>
          cases h
          refine ⟨rfl, rfl, rfl, rfl, .inr ⟨by simp, rfl, none_of ?_⟩⟩
          intro fs' h1 _ h3
          rw [hf] at h1; cases h1
          have := (gather_true (f :: fs) _).2 ⟨rfl, h3⟩
          rw [hg] at this; simp at this

theorem offers_unique {ext : Ext} {name : Str} {columns : List Str} {q : Node} {a b : List Str}
    (ha : Offers ext name columns q a) (hb : Offers ext name columns q b) : a = b := by
  obtain ⟨_, _, ha⟩ := ha; obtain ⟨_, _, hb⟩ := hb
  by_cases hc : columns ≠ []
  · rw [if_pos hc] at ha hb; rw [ha, hb]
  · rw [if_neg hc] at ha hb
    obtain ⟨fs, h1, _, h3, _⟩ := ha
    obtain ⟨gs, k1, _, k3, _⟩ := hb
    rw [h1] at k1; cases k1
    rw [h3, k3]

/-- The action succeeds and writes exactly this text: no argument is bound. -/
def Writes (w : W) (t : Str) : Prop := w.st = .ok ∧ ∃ ts : List Str, w.code = ts.map Instr.text ∧ ts.flatten = t

/-- `qualifier.field`, as SQL. -/
def qualified (d : Dialect) (qual f : Str) : Str := quoteIdentifier d qual ++ '.' :: quoteIdentifier d f

theorem plain_suffix (d : Dialect) (a b c : Str) : fieldSuffix d { tableName := a, tableAlias := b, name := c } = [] := rfl

theorem checked_writes (m : Mode) (hm : m.ex = []) (sub : Bool) (avail : List Str) (tn ta f : Str)
    (hq : (if ta = [] then tn else ta) ≠ []) (hsub : ¬ (sub = true ∧ ta = [] ∧ (m.d = .postgres ∨ m.d = .mysql))) (hf : f ∈ avail) :
    Writes (checkedFieldAppend m sub avail { tableName := tn, tableAlias := ta, name := f })
      (qualified m.d (if ta = [] then tn else ta) f) := by
  unfold checkedFieldAppend
  rw [if_neg hsub, if_neg (by simpa using hf)]
  unfold fieldInfoAppend
  simp only [ne_eq, not_true_eq_false, if_false, plain_suffix, Mode.call]
  refine ⟨rfl, [columnName { d := m.d, env := none, ex := m.ex } { tableName := tn, tableAlias := ta, name := f }, []], rfl, ?_⟩
  have : columnName { d := m.d, env := none, ex := m.ex } { tableName := tn, tableAlias := ta, name := f }
      = qualified m.d (if ta = [] then tn else ta) f := by
    unfold columnName qualified
    simp only [hm]
    rw [if_neg]
    · simp
    · rintro (h | h)
      · exact hq h
      · exact absurd h (by simp [isExcluded])
  simp [this]

theorem checked_fails (m : Mode) (sub : Bool) (avail : List Str) (fi : FInfo) (hf : fi.name ∉ avail) :
    ∃ e, checkedFieldAppend m sub avail fi = .fail e := by
  unfold checkedFieldAppend
  split
  · exact ⟨_, rfl⟩
  · exact ⟨_, rfl⟩

/-- **C50, fields of a CTE.** For every CTE built by `NewCTE`/`NewRecursiveCTE` (with or without declared columns), aliased or not, a
reference to one of its fields renders exactly when the CTE offers a column of that name, and is then `alias.field` (or `name.field`);
otherwise it is an error and nothing is written. -/
theorem C50_cte_field (ext : Ext) (rec : Bool) (name : Str) (columns : List Str) (q : Node) (c : CTE)
    (h : newCTE ext rec name columns q = .ok c) (alias f : Str) (m : Mode) (hm : m.ex = []) (pn : Str) :
    ((∃ names, Offers ext name columns q names ∧ f ∈ names) →
      Writes (ren ((c.as alias).field f) m pn) (qualified m.d (if alias = [] then name else alias) f)) ∧
    ((¬ ∃ names, Offers ext name columns q names ∧ f ∈ names) → ∃ e, ren ((c.as alias).field f) m pn = .fail e) := by
  obtain ⟨hq, hname, halias, _, hc⟩ := newCTE_spec ext rec name columns q c h
  rcases hc with ⟨hs, hne, _, _, ho⟩ | ⟨hs, hce, hno⟩
  · have has : c.as alias = { c with info := { c.info with alias := alias } } := by
      unfold CTE.as
      rw [if_neg (by simp [hs]), hname, if_neg ho.1, hq, if_neg (by rw [isNil_false ho.2.1]; simp), if_neg hne]
    rw [has]
    simp only [CTE.field, ren, hname]
    constructor
    · rintro ⟨names, ho', hf⟩
      have := offers_unique ho ho'
      subst this
      refine checked_writes m.std hm false c.cache name alias f ?_ (by simp) hf
      split
      · exact ho.1
      · assumption
    · intro hno
      exact checked_fails m.std false c.cache _ (fun hf => hno ⟨_, ho, hf⟩)
  · constructor
    · rintro ⟨names, ho, _⟩
      exact absurd ho (hno names)
    · intro _
      have : (c.as alias).cache = [] := by
        unfold CTE.as
        rw [if_pos (by cases hh : c.info.sticky <;> simp_all)]
        exact hce
      simp only [CTE.field, ren, this]
      exact checked_fails m.std false [] _ (by simp)

/-- A subquery offers the columns of its query. -/
theorem newSubquery_spec (ext : Ext) (alias : Str) (q : Node) (s : Subquery) (h : newSubquery ext alias q = .ok s) :
    s.query = q ∧ s.alias = alias ∧
    ((s.sticky = none ∧ q ≠ .nil ∧ Returns ext q s.cache) ∨
     (s.sticky ≠ none ∧ s.cache = [] ∧ ¬ (q ≠ .nil ∧ ∃ names, Returns ext q names))) := by
  unfold newSubquery at h
  simp only at h
  split at h
  · rename_i hq
    cases h
    exact ⟨rfl, rfl, .inr ⟨by simp, rfl, fun ho => ho.1 ((isNil_iff q).1 hq)⟩⟩
  rename_i hq0
  have hq : q ≠ .nil := fun e => hq0 ((isNil_iff q).2 e)
  have none_of : (∀ fs, fetchable ext q = .ok fs → fs ≠ [] → (∀ f ∈ fs, f ≠ .nil ∧ itemName f ≠ []) → False) →
      ¬ (q ≠ .nil ∧ ∃ names, Returns ext q names) := by
    rintro hno ⟨_, names, fs, h1, h2, _, h4⟩
    exact hno fs h1 h2 h4
  cases hf : fetchable ext q with
  | panic => rw [hf] at h; simp at h
  | hang => rw [hf] at h; simp at h
  | err e =>
    rw [hf] at h; cases h
    exact ⟨rfl, rfl, .inr ⟨by simp, rfl, none_of (by intro fs h1; rw [hf] at h1; simp at h1)⟩⟩
  | ok fs =>
    rw [hf] at h
    cases fs with
    | nil =>
      cases h
      exact ⟨rfl, rfl, .inr ⟨by simp, rfl, none_of (by intro fs h1; rw [hf] at h1; cases h1; intro h; exact absurd rfl h)⟩⟩
    | cons f fs =>
      simp only at h
      cases hg : gather (f :: fs) with
      | panic => rw [hg] at h; simp at h
      | hang => rw [hg] at h; simp at h
      | err e => rw [hg] at h; simp at h
      | ok r =>
        obtain ⟨names, b⟩ := r
        rw [hg] at h
        cases b with
        | true =>
          cases h
          have := (gather_true _ _).1 hg
          exact ⟨rfl, rfl, .inl ⟨rfl, hq, _, hf, by simp, this⟩⟩
        | false =>
          cases h
          refine ⟨rfl, rfl, .inr ⟨by simp, rfl, none_of ?_⟩⟩
          intro fs' h1 _ h3
          rw [hf] at h1; cases h1
          have := (gather_true (f :: fs) _).2 ⟨rfl, h3⟩
          rw [hg] at this; simp at this

/-- **C50, fields of a subquery.** A reference to a field of a subquery renders exactly when the query returns a column of that name
(and the subquery has an alias, where the dialect wants one), and is then `alias.field`. -/
theorem C50_subquery_field (ext : Ext) (alias : Str) (q : Node) (s : Subquery) (h : newSubquery ext alias q = .ok s)
    (f : Str) (m : Mode) (hm : m.ex = []) (pn : Str) :
    (q ≠ .nil → (∃ names, Returns ext q names ∧ f ∈ names) → alias ≠ [] → Writes (ren (s.field f) m pn) (qualified m.d alias f)) ∧
    (alias = [] → m.d = .postgres ∨ m.d = .mysql → ∃ e, ren (s.field f) m pn = .fail e) ∧
    ((¬ (q ≠ .nil ∧ ∃ names, Returns ext q names ∧ f ∈ names)) → ∃ e, ren (s.field f) m pn = .fail e) := by
  obtain ⟨hq, hal, hc⟩ := newSubquery_spec ext alias q s h
  simp only [Subquery.field, ren, hal]
  refine ⟨?_, ?_, ?_⟩
  · rintro hqn ⟨names, hr, hf⟩ ha
    rcases hc with ⟨_, _, hr'⟩ | ⟨_, _, hno⟩
    · have : s.cache = names := by
        obtain ⟨fs, h1, _, h3, _⟩ := hr
        obtain ⟨gs, k1, _, k3, _⟩ := hr'
        rw [h1] at k1; cases k1
        rw [h3, k3]
      rw [this]
      have := checked_writes m.std hm true names [] alias f (by rw [if_neg ha]; exact ha) (by simp [ha]) hf
      rwa [if_neg ha] at this
    · exact absurd ⟨hqn, names, hr⟩ hno
  · intro ha hd
    unfold checkedFieldAppend
    rw [if_pos ⟨rfl, ha, hd⟩]
    exact ⟨_, rfl⟩
  · intro hno
    rcases hc with ⟨_, hqn, hr'⟩ | ⟨_, he, _⟩
    · exact checked_fails m.std true _ _ (fun hf => hno ⟨hqn, _, hr', hf⟩)
    · rw [he]; exact checked_fails m.std true _ _ (by simp)

/-- **C50, derived tables that are in error.** The error found when a CTE or subquery was made is returned by every later use of it: its
definition, a reference to it in FROM or JOIN, with or without an alias.  A CTE is in error exactly when it offers no columns. -/
theorem C50_broken (ext : Ext) (rec : Bool) (name : Str) (columns : List Str) (q : Node) (c : CTE)
    (h : newCTE ext rec name columns q = .ok c) (alias : Str) (m : Mode) (pn : Str) :
    (c.info.sticky ≠ none ↔ ¬ ∃ names, Offers ext name columns q names) ∧
    (c.info.sticky ≠ none → ∃ e, ren (c.as alias).node m pn = .fail e) ∧
    (c.info.sticky = none → m.meth ≠ .cteDef → ren (c.as alias).node m pn = .wr name) := by
  obtain ⟨hq, hname, halias, _, hc⟩ := newCTE_spec ext rec name columns q c h
  refine ⟨?_, ?_, ?_⟩
  · rcases hc with ⟨hs, _, _, _, ho⟩ | ⟨hs, _, hno⟩
    · constructor
      · intro hh; exact absurd hs hh
      · intro hh; exact absurd ⟨_, ho⟩ hh
    · exact ⟨fun _ ⟨n, hn⟩ => hno n hn, fun _ => hs⟩
  · intro hs
    cases hh : c.info.sticky with
    | none => exact absurd hh hs
    | some e =>
      refine ⟨e, ?_⟩
      have : c.as alias = c := by unfold CTE.as; rw [if_pos (by simp [hh])]
      rw [this]
      simp only [CTE.node, ren]
      split
      · unfold cteDefAppend; rw [hh]
      · unfold cteRefAppend; rw [hh]
  · intro hs hm
    rcases hc with ⟨_, hne, _, _, ho⟩ | ⟨hs', _, _⟩
    · have has : c.as alias = { c with info := { c.info with alias := alias } } := by
        unfold CTE.as
        rw [if_neg (by simp [hs]), hname, if_neg ho.1, hq, if_neg (by rw [isNil_false ho.2.1]; simp), if_neg hne]
      rw [has]
      simp only [CTE.node, ren, if_neg hm, cteRefAppend, hs, hname, if_neg ho.1]
    · exact absurd hs hs'

/-- The same for subqueries. -/
theorem C50_broken_subquery (ext : Ext) (alias : Str) (q : Node) (s : Subquery) (h : newSubquery ext alias q = .ok s) (m : Mode) (pn : Str) :
    (s.sticky ≠ none ↔ ¬ (q ≠ .nil ∧ ∃ names, Returns ext q names)) ∧
    (s.sticky ≠ none → ∃ e, ren s.node m pn = .fail e) := by
  obtain ⟨hq, hal, hc⟩ := newSubquery_spec ext alias q s h
  constructor
  · rcases hc with ⟨hs, hqn, hr⟩ | ⟨hs, _, hno⟩
    · exact ⟨fun hh => absurd hs hh, fun hh => absurd ⟨hqn, _, hr⟩ hh⟩
    · exact ⟨fun _ => hno, fun _ => hs⟩
  · intro hs
    cases hh : s.sticky with
    | none => exact absurd hh hs
    | some e => exact ⟨e, by simp only [Subquery.node, ren, subqueryAppend, hh]⟩

/-! ### The names offered are the names the server gives the columns -/

theorem bufString_append (d : Dialect) (a b : List Piece) : bufString d (a ++ b) = bufString d a ++ bufString d b := by
  simp [bufString]

theorem exec_text (d : Dialect) (code : List Instr) (s : St) : ∃ t, bufString d (exec d code s).out = bufString d s.out ++ t := by
  obtain ⟨x, hx⟩ := exec_out_prefix d code s
  exact ⟨bufString d x, by rw [← hx, bufString_append]⟩

theorem readIdent_quote (d : Dialect) (x : Str) (h : ¬ InnerPair (identClose d) x) :
    readIdent d (quoteIdentifier d x) = some (x, []) := by
  have := (C04_denotes_partial d x [] (by intro c hc; simp at hc)).2 h
  simpa using this

theorem readIdent_quote_some (d : Dialect) (x : Str) : ∃ y, readIdent d (quoteIdentifier d x) = some (y, []) := by
  have := (C03_one_identifier d x [] (by intro c hc; simp at hc)).1
  simpa using this

/-- **C50, output names (partial).** In a select list (or RETURNING list), every item that has an alias or is a plain column is written
so that the server names its output column by the name under which the CTE or subquery offers it.  Missing: the items of
`C50_output_names_violated`, and names with a doubled closing quote inside (C04). -/
theorem C50_output_names_partial (f : Node) (hf : f.alias ≠ [] ∨ IsColumn f) (m : Mode)
    (hp : ¬ InnerPair (identClose m.d) (itemName f)) (hm : m.ex = []) (hok : (aliasField m (obj f).toObj).st = .ok) (s : St) :
    ∃ text, bufString m.d (exec m.d (aliasField m (obj f).toObj).code s).out = bufString m.d s.out ++ text ∧
      ItemNamed m.d text (itemName f) := by
  have hnil : f ≠ .nil := by
    intro e; subst e
    rcases hf with h | h
    · exact h rfl
    · exact h
  have hk : (obj f).toObj.kind.isNil = false := isNil_false hnil
  unfold aliasField at hok ⊢
  rw [if_neg (by rw [hk]; simp)] at hok ⊢
  have hact := (seq_ok hok).1
  have hcode : ((obj f).toObj.act (m.call none m.ex) [] ⨟ asAlias m.d (obj f).toObj.alias).code
      = ((obj f).toObj.act (m.call none m.ex) []).code ++ (asAlias m.d f.alias).code := by
    unfold W.seq; rw [hact]; rfl
  rw [hcode, exec_append]
  by_cases ha : f.alias = []
  · have hcol : IsColumn f := hf.resolve_left (fun h => h ha)
    have hn : itemName f = f.name := by unfold itemName; rw [if_neg (fun h => h ha)]
    rw [hn] at hp ⊢
    cases f with
    | field fi raw neg vals =>
      obtain ⟨h1, h2, h3, h4, h5, h6⟩ := hcol
      subst h1
      have hfi : fi.alias = [] := ha
      have hact : ((obj (.field fi raw false vals)).toObj.act (m.call none m.ex) []).code
          = [.text (columnName { d := m.d, env := none, ex := m.ex } fi), .text []] := by
        show (ren (.field fi raw false vals) (m.call none m.ex) []).code = _
        have hsuf : fieldSuffix m.d fi = [] := by
          unfold fieldSuffix; rw [h4, h5, h6]; rfl
        have hmode : (if raw then (m.call none m.ex).std else (m.call none m.ex).call none (m.call none m.ex).ex)
            = { d := m.d, env := none, ex := m.ex } := by
          cases raw <;> rfl
        simp only [ren, when_false, ok_seq]
        rw [hmode]
        unfold fieldInfoAppend
        rw [h2, if_neg (fun h => h h3), hsuf]
        rfl
      have hal : (asAlias m.d (Node.field fi raw false vals).alias).code = [] := by
        show (asAlias m.d fi.alias).code = []
        rw [hfi]; rfl
      rw [hact, hal]
      refine ⟨columnName { d := m.d, env := none, ex := m.ex } fi, ?_, ?_⟩
      · simp [exec, exec1, bufString, Piece.str]
      · unfold columnName
        rw [hm]
        have hr := readIdent_quote m.d fi.name hp
        show ItemNamed m.d _ fi.name
        simp only
        by_cases hq : (if fi.tableAlias = [] then fi.tableName else fi.tableAlias) = []
        · rw [if_pos (.inl hq)]
          exact ⟨[], _, rfl, hr, .inr (.inl rfl)⟩
        · rw [if_neg (by rintro (h | h); exact hq h; exact absurd h (by simp [isExcluded]))]
          obtain ⟨t, ht⟩ := readIdent_quote_some m.d (if fi.tableAlias = [] then fi.tableName else fi.tableAlias)
          exact ⟨_, _, rfl, hr, .inr (.inr ⟨_, t, rfl, ht⟩)⟩
    | _ => exact absurd hcol (by simp [IsColumn])
  · obtain ⟨t, ht⟩ := exec_text m.d ((obj f).toObj.act (m.call none m.ex) []).code s
    have hn : itemName f = f.alias := by unfold itemName; rw [if_pos ha]
    rw [hn] at hp ⊢
    refine ⟨t ++ " AS ".toList ++ quoteIdentifier m.d f.alias, ?_, _, _, rfl, readIdent_quote m.d f.alias hp, .inl ⟨t, rfl⟩⟩
    have : (asAlias m.d f.alias).code = [.text (" AS ".toList ++ quoteIdentifier m.d f.alias)] := by
      unfold asAlias; rw [if_neg ha]; rfl
    rw [this]
    simp only [exec_cons, exec_nil, exec1]
    rw [bufString_append, ht]
    simp [bufString, Piece.str]

/-- `WITH ... AS (SELECT u.id, COUNT(*) ...)`: a literal without an alias goes by its own text, which the server does not use as the
column's name (PostgreSQL calls it `count`). -/
theorem C50_output_names_violated :
    ¬ ∀ (f : Node) (m : Mode) (s : St), m.ex = [] → itemName f ≠ [] → ¬ InnerPair (identClose m.d) (itemName f) →
        (aliasField m (obj f).toObj).st = .ok →
        ∃ text, bufString m.d (exec m.d (aliasField m (obj f).toObj).code s).out = bufString m.d s.out ++ text ∧
          ItemNamed m.d text (itemName f) := by
  intro h
  obtain ⟨text, ht, hi⟩ := h (.literal "COUNT(*)" []) { d := .postgres } {} rfl (by decide)
    (by rw [← readBack_eq_iff]; decide) rfl
  have e : text = "COUNT(*)".toList := by
    have : bufString .postgres (exec .postgres (aliasField { d := .postgres } (obj (.literal "COUNT(*)" [])).toObj).code {}).out
        = "COUNT(*)".toList := by rfl
    have h0 : bufString .postgres ({} : St).out = [] := rfl
    simp only at ht
    rw [this, h0] at ht
    simpa using ht.symm
  subst e
  obtain ⟨before, tok, h1, h2, -⟩ := hi
  have hx : itemName (.literal "COUNT(*)" []) = "COUNT(*)".toList := rfl
  rw [hx] at h2
  have hd : tok = "COUNT(*)".toList.drop before.length := by rw [h1]; simp
  have hl : before.length ≤ 8 := by
    have := congrArg List.length h1
    simp at this; omega
  have hall : ∀ k, k ≤ 8 → readIdent .postgres ("COUNT(*)".toList.drop k) ≠ some ("COUNT(*)".toList, []) := by decide
  rw [hd] at h2
  exact hall _ hl h2

/-- **C50, one name (partial).** When the name of a CTE is a bare identifier, its definition, the references to it and the qualifier of
its fields are all the same text; when the CTE or subquery has an alias, FROM declares the alias with the text that qualifies the
fields.  Missing: CTE names that need quotes (`C50_cte_name_violated`). -/
theorem C50_one_name_partial (ext : Ext) (rec : Bool) (name : Str) (columns : List Str) (q : Node) (c : CTE)
    (h : newCTE ext rec name columns q = .ok c) (hs : c.info.sticky = none) (alias f : Str) (hf : f ∈ c.cache) (m : Mode)
    (hm : m.ex = []) (hd : m.meth ≠ .cteDef) (pn : Str) :
    Writes (tableRef m (obj (c.as alias).node).toObj) (name ++ if alias = [] then [] else " AS ".toList ++ quoteIdentifier m.d alias) ∧
    Writes (ren ((c.as alias).field f) m pn) (qualified m.d (if alias = [] then name else alias) f) ∧
    (isBareIdent name = true → quoteIdentifier m.d name = name) ∧
    ∀ (o : Obj), ∃ rest, cteDefAppend m c.info o = .wr name ⨟ rest := by
  have hspec := newCTE_spec ext rec name columns q c h
  obtain ⟨hq, hname, halias, _, hc⟩ := hspec
  rcases hc with ⟨_, hne, _, _, ho⟩ | ⟨hs', _, _⟩
  · have has : c.as alias = { c with info := { c.info with alias := alias } } := by
      unfold CTE.as
      rw [if_neg (by simp [hs]), hname, if_neg ho.1, hq, if_neg (by rw [isNil_false ho.2.1]; simp), if_neg hne]
    refine ⟨?_, (C50_cte_field ext rec name columns q c h alias f m hm pn).1 ⟨_, ho, hf⟩,
      (C03_one_identifier m.d name [] (by intro c hc; simp at hc)).2.1.2, fun o => ?_⟩
    · unfold tableRef
      have h1 : (obj (c.as alias).node).toObj.act m [] = .wr name := (C50_broken ext rec name columns q c h alias m []).2.2 hs hd
      have h2 : (obj (c.as alias).node).toObj.alias = alias := by rw [has]; rfl
      rw [h1, h2]
      unfold asAlias
      by_cases ha : alias = []
      · rw [if_pos ha, if_pos ha]
        exact ⟨rfl, [name], by simp [W.wr], by simp⟩
      · rw [if_neg ha, if_neg ha]
        exact ⟨rfl, [name, " AS ".toList ++ quoteIdentifier m.d alias], by simp [W.seq, W.wr], by simp⟩
    · unfold cteDefAppend
      rw [hs, hname]
      simp only
      rw [if_neg ho.1]
      exact ⟨_, rfl⟩
  · exact absurd hs hs'

/-- For a subquery, the alias that FROM declares is the text that qualifies its fields. -/
theorem C50_one_name_subquery (s : Subquery) (m : Mode) (ha : s.alias ≠ [])
    (hok : (tableRef m (obj s.node).toObj).st = .ok) :
    ∃ body, (tableRef m (obj s.node).toObj).code = body ++ [.text (" AS ".toList ++ quoteIdentifier m.d s.alias)] := by
  unfold tableRef at hok ⊢
  have h1 := (seq_ok hok).1
  have h2 : (obj s.node).toObj.alias = s.alias := rfl
  refine ⟨((obj s.node).toObj.act m []).code, ?_⟩
  unfold W.seq
  rw [h1, h2]
  unfold asAlias
  rw [if_neg ha]
  rfl

/-- The select used below: `SELECT u.id, COUNT(*) AS n FROM users AS u`. -/
def exQuery : Node := .select {} [] [Ex.col "u" "id", .literal "COUNT(*)" "n"] [] Ex.users [] (Ex.andp []) [] (Ex.andp []) []

def exCTE : CTE := ⟨{ name := "recent", fieldNames := ["id".toList, "n".toList] }, ["id".toList, "n".toList], exQuery⟩

example (ext : Ext) : newCTE ext false "recent" [] exQuery = .ok exCTE := by
  have h : fetchable ext exQuery = .ok [Ex.col "u" "id", .literal "COUNT(*)" "n"] := by simp [exQuery, fetchable]
  unfold newCTE
  rw [h]
  rfl

example (ext : Ext) : Offers ext "recent" [] exQuery ["id".toList, "n".toList] :=
  ⟨by decide, by simp [exQuery], by
    rw [if_neg (by simp)]
    exact ⟨[Ex.col "u" "id", .literal "COUNT(*)" "n"], by simp [exQuery, fetchable], by simp, rfl, by
      intro f hf
      simp only [List.mem_cons, List.not_mem_nil, or_false] at hf
      rcases hf with rfl | rfl <;> exact ⟨by simp [Ex.col], by decide⟩⟩⟩

/-- **C50, full statement on names violated.** `NewCTE("Recent", nil, q)`: PostgreSQL reads the definition and the FROM clause as `recent`
but the qualifier of every field as `Recent`. -/
theorem C50_cte_name_violated : ∃ (name : Str) (c : CTE), (∀ ext, newCTE ext false name [] exQuery = .ok c) ∧
    (tableRef { d := .postgres } (obj c.node).toObj).code = [.text name] ∧
    (ren (c.field "id") { d := .postgres } []).code = [.text (quoteIdentifier .postgres name ++ ".id".toList), .text []] ∧
    pgName name = some "recent".toList ∧ pgName (quoteIdentifier .postgres name) = some "Recent".toList := by
  refine ⟨"Recent".toList, { exCTE with info := { exCTE.info with name := "Recent" } }, fun ext => ?_, rfl, rfl, by decide, by decide⟩
  have h : fetchable ext exQuery = .ok [Ex.col "u" "id", .literal "COUNT(*)" "n"] := by simp [exQuery, fetchable]
  unfold newCTE
  rw [h]
  rfl

/-- **C50, no panics: violated.** A nil among the selected fields, or a nil first operand of a UNION, makes `NewCTE` and `NewSubquery`
panic instead of recording an error. -/
theorem C50_no_panic_violated (ext : Ext) :
    newCTE ext false "t" [] (.select {} [] [.nil] [] .nil [] .nil [] .nil []) = .panic ∧
    newSubquery ext "t" (.vquery true "UNION" [.nil]) = .panic := by
  constructor
  · simp [newCTE, fetchable, gather, Node.kind, Kind.isNil]
  · simp [newSubquery, fetchable, fetchableHead, Node.kind, Kind.isNil]

mutual
/-- No nil where a query or field is wanted, as far as the constructors look. -/
def Solid : Node → Prop
  | .nil => False
  | .select _ _ fields _ _ _ _ _ _ _ => ∀ f ∈ fields, f ≠ .nil
  | .insert _ _ _ _ _ _ _ _ _ _ _ ret => ∀ f ∈ ret, f ≠ .nil
  | .update _ _ _ _ _ _ _ _ _ ret => ∀ f ∈ ret, f ≠ .nil
  | .delete _ _ _ _ _ _ _ ret => ∀ f ∈ ret, f ≠ .nil
  | .customQuery _ _ _ => True
  | .vquery _ _ qs => SolidHead qs
  | _ => False
def SolidHead : List Node → Prop
  | [] => True
  | q :: _ => Solid q
end

theorem gather_solid : (fs : List Node) → (∀ f ∈ fs, f ≠ .nil) → ∃ r, gather fs = .ok r
  | [], _ => ⟨_, rfl⟩
  | f :: fs, h => by
    obtain ⟨r, hr⟩ := gather_solid fs (fun g hg => h g (by simp [hg]))
    unfold gather
    rw [if_neg (by rw [isNil_false (h f (by simp))]; simp)]
    split
    · exact ⟨_, rfl⟩
    · rw [hr]; exact ⟨_, rfl⟩

mutual
theorem fetchable_solid (ext : Ext) : (q : Node) → Solid q →
    (∃ e, fetchable ext q = .err e) ∨ ∃ fs, fetchable ext q = .ok fs ∧ ∀ f ∈ fs, f ≠ .nil
  | .select _ _ fields _ _ _ _ _ _ _, h => .inr ⟨fields, by simp [fetchable], by simpa [Solid] using h⟩
  | .insert q _ _ _ _ _ _ _ _ _ _ ret, h => by
    by_cases hd : q.dialect = .postgres ∨ q.dialect = .sqlite
    · exact .inr ⟨ret, by simp [fetchable, hd], by simpa [Solid] using h⟩
    · exact .inl ⟨_, by unfold fetchable; rw [if_neg hd]⟩
  | .update q _ _ _ _ _ _ _ _ ret, h => by
    by_cases hd : q.dialect = .postgres ∨ q.dialect = .sqlite
    · exact .inr ⟨ret, by simp [fetchable, hd], by simpa [Solid] using h⟩
    · exact .inl ⟨_, by unfold fetchable; rw [if_neg hd]⟩
  | .delete q _ _ _ _ _ _ ret, h => by
    by_cases hd : q.dialect = .postgres ∨ q.dialect = .sqlite
    · exact .inr ⟨ret, by simp [fetchable, hd], by simpa [Solid] using h⟩
    · exact .inl ⟨_, by unfold fetchable; rw [if_neg hd]⟩
  | .customQuery _ _ _, _ => .inl ⟨_, by unfold fetchable; rfl⟩
  | .vquery _ _ qs, h => by
    have := fetchableHead_solid ext qs (by simpa [Solid] using h)
    simpa [fetchable] using this
  | .nil, h | .scalar _, h | .slice _ _, h | .namedArg _ _, h | .param _ _, h | .field _ _ _ _, h | .checkedField _ _ _, h
  | .literal _ _, h | .value _ _, h | .cpred _ _ _ _, h | .vpred _ _ _ _ _, h | .predCases _ _ _, h | .simpleCases _ _ _ _, h
  | .window _ _ _, h | .rowValue _, h | .rowValues _, h | .assign _ _, h | .assigns _, h | .fields _, h | .table _ _ _ _ _, h
  | .customTable _ _, h | .join _ _ _, h | .cte _ _, h | .subquery _ _ _, h | .ext _ _ _ _, h => absurd h (by simp [Solid])
theorem fetchableHead_solid (ext : Ext) : (qs : List Node) → SolidHead qs →
    (∃ e, fetchableHead ext qs = .err e) ∨ ∃ fs, fetchableHead ext qs = .ok fs ∧ ∀ f ∈ fs, f ≠ .nil
  | [], _ => .inr ⟨[], by simp [fetchableHead], by simp⟩
  | q :: _, h => by
    have := fetchable_solid ext q (by simpa [SolidHead] using h)
    simpa [fetchableHead] using this
end

/-- **C50, no panics (partial).** Otherwise the constructors return normally: whatever is wrong is kept as an error for later.  Missing:
nil fields and nil operands. -/
theorem C50_no_panic_partial (ext : Ext) (rec : Bool) (name alias : Str) (columns : List Str) (q : Node) (h : q = .nil ∨ Solid q) :
    (∃ c, newCTE ext rec name columns q = .ok c) ∧ ∃ s, newSubquery ext alias q = .ok s := by
  rcases h with rfl | h
  · constructor
    · unfold newCTE
      simp only [Node.kind, Kind.isNil]
      split
      · exact ⟨_, rfl⟩
      · exact ⟨_, rfl⟩
    · exact ⟨_, rfl⟩
  · have hf := fetchable_solid ext q h
    have hn : q.kind.isNil = false := isNil_false (by intro e; subst e; exact h)
    constructor
    · unfold newCTE
      simp only [hn]
      split
      · exact ⟨_, rfl⟩
      · split
        · rename_i e; simp at e
        · split
          · exact ⟨_, rfl⟩
          · rcases hf with ⟨e, he⟩ | ⟨fs, hfs, hall⟩
            · rw [he]; exact ⟨_, rfl⟩
            · rw [hfs]
              cases fs with
              | nil => exact ⟨_, rfl⟩
              | cons f fs =>
                obtain ⟨⟨names, b⟩, hr⟩ := gather_solid _ hall
                simp only [hr]
                cases b <;> exact ⟨_, rfl⟩
    · unfold newSubquery
      simp only [hn]
      split
      · rename_i e; simp at e
      · rcases hf with ⟨e, he⟩ | ⟨fs, hfs, hall⟩
        · rw [he]; exact ⟨_, rfl⟩
        · rw [hfs]
          cases fs with
          | nil => exact ⟨_, rfl⟩
          | cons f fs =>
            obtain ⟨⟨names, b⟩, hr⟩ := gather_solid _ hall
            simp only [hr]
            cases b <;> exact ⟨_, rfl⟩

example : Solid exQuery := by simp [exQuery, Solid, Ex.col]

/-! ### Fields set for fetching -/

/-- **C28, the query that is run.** `SetFetchableFields` (used by `Fetch` with the fields the row mapper asked for) either fails or gives a
query that returns exactly those fields, in that order, and is otherwise unchanged: setting the old fields again gives the old query. -/
theorem C28_set_fields (extGet : Ext) (extSet : Node → List Node → Res Node) (q q' : Node) (fields old : List Node)
    (hq : ¬ ∃ k a n act, q = .ext k a n act) (hquery : q.kind.isQuery = true) (h : setFetchable extSet fields q = .ok q')
    (hold : fetchable extGet q = .ok old) :
    fetchable extGet q' = .ok fields ∧ setFetchable extSet old q' = .ok q := by
  cases q with
  | select =>
    unfold setFetchable at h; cases h; unfold fetchable at hold; cases hold
    exact ⟨by unfold fetchable; rfl, by unfold setFetchable; rfl⟩
  | insert q =>
    by_cases hd : q.dialect = .postgres ∨ q.dialect = .sqlite
    · simp only [setFetchable] at h; rw [if_pos hd] at h; cases h
      simp only [fetchable] at hold; rw [if_pos hd] at hold; cases hold
      exact ⟨by simp only [fetchable]; rw [if_pos hd], by simp only [setFetchable]; rw [if_pos hd]⟩
    · simp only [setFetchable] at h; rw [if_neg hd] at h; cases h
  | update q =>
    by_cases hd : q.dialect = .postgres ∨ q.dialect = .sqlite
    · simp only [setFetchable] at h; rw [if_pos hd] at h; cases h
      simp only [fetchable] at hold; rw [if_pos hd] at hold; cases hold
      exact ⟨by simp only [fetchable]; rw [if_pos hd], by simp only [setFetchable]; rw [if_pos hd]⟩
    · simp only [setFetchable] at h; rw [if_neg hd] at h; cases h
  | delete q =>
    by_cases hd : q.dialect = .postgres ∨ q.dialect = .sqlite
    · simp only [setFetchable] at h; rw [if_pos hd] at h; cases h
      simp only [fetchable] at hold; rw [if_pos hd] at hold; cases hold
      exact ⟨by simp only [fetchable]; rw [if_pos hd], by simp only [setFetchable]; rw [if_pos hd]⟩
    · simp only [setFetchable] at h; rw [if_neg hd] at h; cases h
  | customQuery => unfold setFetchable at h; cases h
  | vquery => unfold setFetchable at h; cases h
  | ext k a n act => exact absurd ⟨k, a, n, act, rfl⟩ hq
  | _ => exact absurd hquery (by show ¬ (false = true); exact Bool.false_ne_true)

/-- **C28, the columns of the result.** A SELECT that renders lists exactly its fields, in order, separated by commas, between `SELECT`
(and DISTINCT) and the rest of the statement: the i-th column of the result is the i-th field. -/
theorem C28_select_list (q : SelMeta) (ctes fields don : List Node) (from_ : Node) (joins : List Node) (wh : Node)
    (gb : List Node) (hv : Node) (ob : List Node) (m : Mode) (pn : Str) (hdon : don = [])
    (h : (ren (.select q ctes fields don from_ joins wh gb hv ob) m pn).st = .ok) :
    ∃ before after m', m'.d = m.d ∧ m'.ex = [] ∧
      (ren (.select q ctes fields don from_ joins wh gb hv ob) m pn).code =
        before ++ [.text "SELECT ".toList] ++ (if q.distinct then [.text "DISTINCT ".toList] else []) ++
        (sepBy ", " (fields.map fun f => aliasField m' (obj f).toObj)).code ++ after := by
  subst hdon
  have five : ∀ (A D F R : W) (t : Str), (A ⨟ W.wr t ⨟ D ⨟ F ⨟ R).st = .ok → F.st = .ok ∧
      ∀ x y, D.code = x → F.code = y →
        ∃ before after, (A ⨟ W.wr t ⨟ D ⨟ F ⨟ R).code = before ++ [.text t] ++ x ++ y ++ after := by
    intro A D F R t h
    have code_seq : ∀ (a b : W), a.st = .ok → (a ⨟ b).code = a.code ++ b.code := by
      intro a b ha; unfold W.seq; rw [ha]
    obtain ⟨h1, h⟩ := seq_ok h; obtain ⟨h2, h⟩ := seq_ok h; obtain ⟨h3, h⟩ := seq_ok h; obtain ⟨h4, h5⟩ := seq_ok h
    refine ⟨h4, ?_⟩
    rintro x y rfl rfl
    refine ⟨A.code, R.code, ?_⟩
    rw [code_seq _ _ h1, code_seq _ _ h2, code_seq _ _ h3, code_seq _ _ h4]
    simp [W.wr]
  simp only [ren, selectAppend] at h ⊢
  obtain ⟨hF, hcode⟩ := five _ _ _ _ _ h
  have hf : ¬ (objs fields).map PV.toObj = [] := by
    intro e
    rw [if_pos e] at hF
    exact absurd hF (by simp [W.fail])
  have hl : aliasFieldsAppend { d := m.d, env := effEnv m.env q.env, ex := [] } ((objs fields).map PV.toObj)
      = sepBy ", " (fields.map fun f => aliasField { d := m.d, env := effEnv m.env q.env, ex := [] } (obj f).toObj) := by
    unfold aliasFieldsAppend
    rw [objs_eq, List.map_map, List.map_map]
    rfl
  have hd : (W.when q.distinct (W.wr "DISTINCT ")).code = if q.distinct then [.text "DISTINCT ".toList] else [] := by
    cases q.distinct <;> rfl
  have hdn : ¬ ((objs []).map PV.toObj ≠ []) := fun e => e rfl
  obtain ⟨before, after, hba⟩ := hcode (if q.distinct then [.text "DISTINCT ".toList] else [])
    (sepBy ", " (fields.map fun f => aliasField { d := m.d, env := effEnv m.env q.env, ex := [] } (obj f).toObj)).code
    (by rw [if_neg hdn]; exact hd) (by rw [if_neg hf, hl])
  exact ⟨before, after, { d := m.d, env := effEnv m.env q.env, ex := [] }, rfl, rfl, hba⟩

end Sq.Deriving
