import Verif.Proof.Seq
import Verif.Proof.Tree
import Verif.Model.Examples
/-
C22: dialect guards.  C23: structural completeness.
Each theorem says: if the statement renders without error, then what it asks for is allowed; equivalently, asking for a
clause the dialect does not have is an error.
-/
namespace Sq

theorem fail_st (e : Str) : (W.fail e).st ≠ .ok := by simp [W.fail]

theorem objs_ne {ns : List Node} (h : ns ≠ []) : (objs ns).map PV.toObj ≠ [] := by
  rw [objs_eq]; simpa using h
theorem objs_ne' {ns : List Node} (h : ns ≠ []) : objs ns ≠ [] := by
  rw [objs_eq]; simpa using h
theorem kind_nil (n : Node) : (mkPV n (ren n) (hookOf n)).kind.isNil = true ↔ n = .nil := Node.kind_isNil n

/-! ### Each part of the statement -/

theorem returning_ok {m : Mode} {fs : List Obj} (h : (returningAppend m fs).st = .ok) (hf : fs ≠ []) :
    m.d = .postgres ∨ m.d = .sqlite := by
  unfold returningAppend at h
  have h := when_ok h (by simpa using hf)
  split at h
  · exact absurd h (fail_st _)
  · rename_i hc
    by_cases h1 : m.d = .postgres
    · exact .inl h1
    · by_cases h2 : m.d = .sqlite
      · exact .inr h2
      · exact absurd ⟨h1, h2⟩ hc

/-- **C22/C23, SELECT.** A SELECT that renders has at least one field; joins only with a FROM table; DISTINCT ON only on
Postgres and not together with DISTINCT. -/
theorem C22_C23_select (q : SelMeta) (ctes fields don : List Node) (from_ : Node) (joins : List Node) (wh : Node)
    (gb : List Node) (hv : Node) (ob : List Node) (m : Mode) (pn : Str)
    (h : (ren (.select q ctes fields don from_ joins wh gb hv ob) m pn).st = .ok) :
    fields ≠ [] ∧ (joins ≠ [] → from_ ≠ .nil) ∧ (don ≠ [] → m.d = .postgres ∧ q.distinct = false) := by
  simp only [ren, selectAppend] at h
  obtain ⟨_, h⟩ := seq_ok h; obtain ⟨_, h⟩ := seq_ok h; obtain ⟨hdon, h⟩ := seq_ok h; obtain ⟨hfields, h⟩ := seq_ok h
  obtain ⟨_, h⟩ := seq_ok h; obtain ⟨hjoins, _⟩ := seq_ok h
  refine ⟨?_, ?_, ?_⟩
  · intro e; subst e
    rw [if_pos (by simp [objs])] at hfields
    exact fail_st _ hfields
  · intro hj hf
    have := when_ok hjoins (by simpa using objs_ne' hj)
    have := (seq_ok this).1
    rw [if_pos ((kind_nil _).2 hf)] at this
    exact fail_st _ this
  · intro hd
    rw [if_pos (objs_ne hd)] at hdon
    split at hdon
    · exact absurd hdon (fail_st _)
    · rename_i hp
      split at hdon
      · exact absurd hdon (fail_st _)
      · rename_i hq
        exact ⟨by simpa using hp, by simpa using hq⟩

/-- **C22/C23, INSERT.** An INSERT (with or without a column mapper; `cols`, `rows` being the columns and rows it ends up
with) that renders has a table, has rows or a SELECT; IGNORE and row aliases only on MySQL, a table alias never on MySQL,
ON CONSTRAINT not on SQLite, RETURNING only on Postgres and SQLite. -/
theorem C22_C23_insert (q : InsMeta) (ctes : List Node) (into : Node) (columns : List Node) (rows : List (List Node))
    (sets : List (Node × Node)) (sel : Node) (cf : List Node) (cp : Node) (res : List (Node × Node)) (rp : Node)
    (ret : List Node) (m : Mode) (pn : Str)
    (h : (ren (.insert q ctes into columns rows sets sel cf cp res rp ret) m pn).st = .ok) :
    into ≠ .nil ∧ (if q.hasMapper then sets ≠ [] ∨ sel ≠ .nil else rows ≠ [] ∨ sel ≠ .nil) ∧
    (q.ignore = true → m.d = .mysql) ∧ (into.alias ≠ [] → m.d ≠ .mysql) ∧
    (q.hasMapper = false → rows ≠ [] → q.rowAlias ≠ [] → m.d = .mysql) ∧
    (q.conflictConstraint ≠ [] → m.d ≠ .sqlite) ∧
    (ret ≠ [] → m.d = .postgres ∨ m.d = .sqlite) := by
  simp only [ren, insertAppend] at h
  obtain ⟨⟨cols', rows'⟩, hcr, h⟩ := ofRes_ok h
  simp only at h
  obtain ⟨_, h⟩ := seq_ok h; obtain ⟨hign, h⟩ := seq_ok h; obtain ⟨hinto, h⟩ := seq_ok h; obtain ⟨halias, h⟩ := seq_ok h
  obtain ⟨_, h⟩ := seq_ok h; obtain ⟨hrows, h⟩ := seq_ok h; obtain ⟨hconf, hret⟩ := seq_ok h
  refine ⟨?_, ?_, ?_, ?_, ?_, ?_, ?_⟩
  · intro e
    rw [if_pos ((kind_nil _).2 e)] at hinto
    exact fail_st _ hinto
  · have hne : rows' ≠ [] ∨ sel ≠ .nil := by
      by_cases hr : rows' = []
      · right
        intro hs
        rw [if_neg (by simpa using hr), if_neg (by simp [(kind_nil sel).2 hs])] at hrows
        exact fail_st _ hrows
      · exact .inl hr
    unfold insertColumnsRows at hcr
    split
    · rename_i hmp
      rw [if_pos hmp] at hcr
      rcases hne with hr | hs
      · left
        intro e
        subst e
        have hs : pairs ([] : List (Node × Node)) = [] := by simp [pairs]
        rw [hs, if_neg (by simp)] at hcr
        split at hcr
        · exact nomatch hcr
        · injection hcr with hcr
          have := congrArg Prod.snd hcr
          simp [columnInsert] at this
          exact hr this
      · exact .inr hs
    · rename_i hmp
      rw [if_neg hmp] at hcr
      injection hcr with hcr
      have e2 : objss rows = rows' := congrArg Prod.snd hcr
      rcases hne with hr | hs
      · left
        intro e
        subst e
        apply hr
        rw [← e2]; simp [objss]
      · exact .inr hs
  · intro hi
    rw [if_pos hi] at hign
    split at hign
    · exact absurd hign (fail_st _)
    · rename_i hd; simpa using hd
  · intro ha hd
    rw [if_pos (show (mkPV into (ren into) (hookOf into)).alias ≠ [] from ha), if_pos hd] at halias
    exact fail_st _ halias
  · intro hmp hr ha
    unfold insertColumnsRows at hcr
    rw [if_neg (by simp [hmp])] at hcr
    injection hcr with hcr
    have e2 : objss rows = rows' := congrArg Prod.snd hcr
    have hr' : rows' ≠ [] := by
      rw [← e2, objss_eq]; simpa using hr
    rw [if_pos hr'] at hrows
    obtain ⟨_, hrows⟩ := seq_ok hrows
    obtain ⟨_, hrows⟩ := seq_ok hrows
    have hrows := when_ok hrows (by simpa using ha)
    split at hrows
    · exact absurd hrows (fail_st _)
    · rename_i hd; simpa using hd
  · intro hc hd
    have hd' : m.d = .sqlite := hd
    unfold insertConflict at hconf
    simp only [hd'] at hconf
    rw [if_neg (by simp [hc])] at hconf
    obtain ⟨_, hconf⟩ := seq_ok hconf
    obtain ⟨hconf, _⟩ := seq_ok hconf
    rw [if_pos hc, if_pos (by simp)] at hconf
    exact fail_st _ hconf
  · intro hr
    have := returning_ok hret (objs_ne hr)
    exact this

/-- **C22/C23, UPDATE.** -/
theorem C22_C23_update (q : ModMeta) (ctes : List Node) (table from_ : Node) (joins : List Node)
    (as sets : List (Node × Node)) (wh : Node) (ob ret : List Node) (m : Mode) (pn : Str)
    (h : (ren (.update q ctes table from_ joins as sets wh ob ret) m pn).st = .ok) :
    table ≠ .nil ∧ (if q.hasMapper then sets ≠ [] else as ≠ []) ∧ (from_ ≠ .nil → m.d ≠ .mysql) ∧
    (joins ≠ [] → from_ ≠ .nil ∨ m.d = .mysql) ∧
    (ob ≠ [] → m.d = .mysql ∨ m.d = .sqlite) ∧ (q.limit.isSome = true → m.d = .mysql ∨ m.d = .sqlite) ∧
    (q.offset.isSome = true → m.d = .sqlite) ∧ (ret ≠ [] → m.d = .postgres ∨ m.d = .sqlite) := by
  simp only [ren, updateAppend] at h
  obtain ⟨as', has, h⟩ := ofRes_ok h
  obtain ⟨_, h⟩ := seq_ok h; obtain ⟨_, h⟩ := seq_ok h; obtain ⟨htbl, h⟩ := seq_ok h; obtain ⟨hempty, h⟩ := seq_ok h
  obtain ⟨_, h⟩ := seq_ok h; obtain ⟨hfrom, h⟩ := seq_ok h; obtain ⟨hjoins, h⟩ := seq_ok h; obtain ⟨_, h⟩ := seq_ok h
  obtain ⟨_, h⟩ := seq_ok h; obtain ⟨_, h⟩ := seq_ok h; obtain ⟨hob, h⟩ := seq_ok h; obtain ⟨hlim, h⟩ := seq_ok h
  obtain ⟨hoff, hret⟩ := seq_ok h
  have ms : ∀ d : Dialect, ¬ ((!mysqlSqlite d) = true) → d = .mysql ∨ d = .sqlite := by
    intro d; cases d <;> simp [mysqlSqlite]
  refine ⟨?_, ?_, ?_, ?_, ?_, ?_, ?_, ?_⟩
  · intro e
    rw [if_pos ((kind_nil _).2 e)] at htbl
    exact fail_st _ htbl
  · have hne : as' ≠ [] := by
      intro e
      rw [if_pos e] at hempty
      exact fail_st _ hempty
    unfold updateAssignments at has
    split
    · rename_i hmp
      rw [if_pos hmp] at has
      intro e
      subst e
      have hs : pairs ([] : List (Node × Node)) = [] := by simp [pairs]
      rw [hs, if_neg (by simp)] at has
      split at has
      · exact nomatch has
      · injection has with has
        simp [columnUpdate] at has
        exact hne has
    · rename_i hmp
      rw [if_neg hmp] at has
      injection has with has
      intro e
      subst e
      apply hne
      rw [← has]; simp [pairs]
  · intro hf hd
    have := when_ok hfrom (by
      cases hk : (mkPV from_ (ren from_) (hookOf from_)).kind.isNil with
      | false => simp
      | true => exact absurd ((kind_nil _).1 hk) hf)
    rw [if_pos hd] at this
    exact fail_st _ this
  · intro hj
    have := (seq_ok (when_ok hjoins (by simpa using objs_ne' hj))).1
    by_cases hf : from_ = .nil
    · right
      by_cases hd : m.d = .mysql
      · exact hd
      · rw [if_pos ⟨(kind_nil _).2 hf, hd⟩] at this
        exact absurd this (fail_st _)
    · exact .inl hf
  · intro ho
    have := when_ok hob (by simpa using objs_ne ho)
    split at this
    · exact absurd this (fail_st _)
    · rename_i hd; exact ms _ hd
  · intro hl
    have := when_ok hlim hl
    split at this
    · exact absurd this (fail_st _)
    · rename_i hd; exact ms _ hd
  · intro hl
    have := when_ok hoff hl
    split at this
    · exact absurd this (fail_st _)
    · rename_i hd; simpa using hd
  · intro hr
    have := returning_ok hret (objs_ne hr)
    exact this

/-- **C22/C23, DELETE.** -/
theorem C22_C23_delete (q : ModMeta) (ctes froms : List Node) (us : Node) (joins : List Node) (wh : Node)
    (ob ret : List Node) (m : Mode) (pn : Str)
    (h : (ren (.delete q ctes froms us joins wh ob ret) m pn).st = .ok) :
    froms ≠ [] ∧ (us ≠ .nil → m.d ≠ .sqlite) ∧ (joins ≠ [] → m.d ≠ .sqlite ∧ us ≠ .nil) ∧
    (ob ≠ [] → (m.d = .mysql ∨ m.d = .sqlite) ∧ us = .nil ∧ joins = []) ∧
    (q.limit.isSome = true → (m.d = .mysql ∨ m.d = .sqlite) ∧ us = .nil ∧ joins = []) ∧
    (q.offset.isSome = true → m.d = .sqlite) ∧ (ret ≠ [] → m.d = .postgres ∨ m.d = .sqlite) := by
  simp only [ren, deleteAppend] at h
  obtain ⟨_, h⟩ := seq_ok h; obtain ⟨_, h⟩ := seq_ok h; obtain ⟨hfrom, h⟩ := seq_ok h; obtain ⟨husing, h⟩ := seq_ok h
  obtain ⟨hjoins, h⟩ := seq_ok h; obtain ⟨_, h⟩ := seq_ok h; obtain ⟨hob, h⟩ := seq_ok h; obtain ⟨hlim, h⟩ := seq_ok h
  obtain ⟨hoff, hret⟩ := seq_ok h
  have ms : ∀ d : Dialect, ¬ ((!mysqlSqlite d) = true) → d = .mysql ∨ d = .sqlite := by
    intro d; cases d <;> simp [mysqlSqlite]
  have hus : ∀ hu : us ≠ .nil, (!(mkPV us (ren us) (hookOf us)).kind.isNil) = true := by
    intro hu
    cases hk : (mkPV us (ren us) (hookOf us)).kind.isNil with
    | false => rfl
    | true => exact absurd ((kind_nil _).1 hk) hu
  have hmulti : ¬ ((!(mkPV us (ren us) (hookOf us)).kind.isNil || decide ((objs joins).map PV.toObj ≠ [])) = true) →
      us = .nil ∧ joins = [] := by
    intro hc
    simp only [Bool.or_eq_true, not_or, Bool.not_eq_true, decide_eq_false_iff_not, Decidable.not_not, Bool.not_eq_false'] at hc
    refine ⟨(kind_nil _).1 hc.1, ?_⟩
    by_cases hj : joins = []
    · exact hj
    · exact absurd hc.2 (objs_ne hj)
  refine ⟨?_, ?_, ?_, ?_, ?_, ?_, ?_⟩
  · intro e
    subst e
    simp only [objs] at hfrom
    exact fail_st _ hfrom
  · intro hu hd
    have := when_ok husing (hus hu)
    rw [if_pos hd] at this
    exact fail_st _ this
  · intro hj
    have := when_ok hjoins (by simpa using objs_ne hj)
    split at this
    · exact absurd this (fail_st _)
    · rename_i hd
      refine ⟨hd, ?_⟩
      intro hu
      rw [if_pos ((kind_nil _).2 hu)] at this
      exact fail_st _ this
  · intro ho
    have := when_ok hob (by simpa using objs_ne ho)
    split at this
    · exact absurd this (fail_st _)
    · rename_i hd
      split at this
      · exact absurd this (fail_st _)
      · rename_i hmu; exact ⟨ms _ hd, hmulti hmu⟩
  · intro hl
    have := when_ok hlim hl
    split at this
    · exact absurd this (fail_st _)
    · rename_i hd
      split at this
      · exact absurd this (fail_st _)
      · rename_i hmu; exact ⟨ms _ hd, hmulti hmu⟩
  · intro hl
    have := when_ok hoff hl
    split at this
    · exact absurd this (fail_st _)
    · rename_i hd; simpa using hd
  · intro hr
    have := returning_ok hret (objs_ne hr)
    exact this

theorem join_ok {m : Mode} {jt : Str} {tbl on : Obj} (h : (joinAppend m jt tbl on).st = .ok) :
    tbl.kind.isNil = false ∧
    (joinNeedsPredicate (if jt = [] then "JOIN".toList else jt) = true → on.npreds ≠ 0) ∧
    (sqliteRejectsJoin (if jt = [] then "JOIN".toList else jt) = true → m.d ≠ .sqlite) := by
  unfold joinAppend at h
  generalize (if jt = [] then "JOIN".toList else jt) = j at h ⊢
  dsimp only at h
  by_cases h1 : on.npreds = 0 ∧ joinNeedsPredicate j = true
  · rw [if_pos h1] at h; exact absurd h (fail_st _)
  · rw [if_neg h1] at h
    by_cases h2 : m.d = .sqlite ∧ sqliteRejectsJoin j = true
    · rw [if_pos h2] at h; exact absurd h (fail_st _)
    · rw [if_neg h2] at h
      obtain ⟨_, h⟩ := seq_ok h
      obtain ⟨ht, _⟩ := seq_ok h
      refine ⟨?_, fun hj e => h1 ⟨e, hj⟩, fun hj e => h2 ⟨e, hj⟩⟩
      cases hk : tbl.kind.isNil with
      | false => rfl
      | true => rw [if_pos hk] at ht; exact absurd ht (fail_st _)

/-- **C22/C23, JOIN.** A join that renders joins a table; JOIN, RIGHT JOIN and FULL JOIN (and the default) have a
condition; RIGHT JOIN and FULL JOIN never on SQLite. -/
theorem C22_C23_join (jt : Str) (tbl : Node) (ps : List Node) (t o ng : Bool) (a : Str) (m : Mode) (pn : Str)
    (h : (ren (.join jt tbl (.vpred t a o ng ps)) m pn).st = .ok) :
    tbl ≠ .nil ∧
    (jt = [] ∨ jt = "JOIN".toList ∨ jt = "RIGHT JOIN".toList ∨ jt = "FULL JOIN".toList → ps ≠ []) ∧
    (jt = "RIGHT JOIN".toList ∨ jt = "FULL JOIN".toList → m.d ≠ .sqlite) := by
  unfold ren at h
  obtain ⟨h0, h1, h2⟩ := join_ok h
  refine ⟨?_, ?_, ?_⟩
  · intro e
    have := (kind_nil _).2 e
    exact absurd (this.symm.trans h0) (by decide)
  · intro hj e
    subst e
    refine h1 ?_ rfl
    rcases hj with rfl | rfl | rfl | rfl <;> decide
  · intro hj
    apply h2
    rcases hj with rfl | rfl <;> decide

/-- **C23, CASE.** A CASE expression that renders has at least one WHEN. -/
theorem C23_case (a : Str) (e : Node) (cs : List (Node × Node)) (fb : Node) (m : Mode) (pn : Str) :
    ((ren (.predCases a cs fb) m pn).st = .ok → cs ≠ []) ∧ ((ren (.simpleCases a e cs fb) m pn).st = .ok → cs ≠ []) := by
  constructor
  · intro h hc
    subst hc
    simp only [ren, predCasesAppend, pairs, if_true] at h
    exact fail_st _ (seq_ok (seq_ok h).2).1
  · intro h hc
    subst hc
    simp only [ren, simpleCasesAppend, pairs, if_true] at h
    exact fail_st _ (seq_ok (seq_ok h).2).1

/-- **C22, subqueries.** On Postgres and MySQL a sub-query used as a table has an alias. -/
theorem C22_subquery_alias (st : Option Str) (a : Str) (q : Node) (m : Mode) (pn : Str)
    (h : (ren (.subquery st a q) m pn).st = .ok) : st = none ∧ (m.d = .postgres ∨ m.d = .mysql → a ≠ []) := by
  simp only [ren, subqueryAppend] at h
  cases st with
  | some e => exact absurd h (fail_st _)
  | none =>
    refine ⟨rfl, fun hd ha => ?_⟩
    simp only at h
    have h := (seq_ok (seq_ok (seq_ok h).2).2).2
    rw [if_pos ⟨ha, hd⟩] at h
    exact fail_st _ h

/-- Non-vacuity: statements with those clauses render in the dialects that have them, and fail in others. -/
example : (toSQL .postgres Ex.q1).status = .ok ∧
    (toSQL .postgres (.select {} [] [.literal "1" []] [.literal "a" []] Ex.users [] (Ex.andp []) [] (Ex.andp []) [])).status = .ok ∧
    (toSQL .mysql (.insert { ignore := true } [] (.table [] "t" [] Ex.noHook (fun _ => .nil)) [] [[.scalar (.int 1)]] []
      .nil [] .nil [] (Ex.andp []) [])).status = .ok ∧
    (toSQL .sqlite (.update { limit := some 1 } [] Ex.users .nil [] [(Ex.col "u" "x", .scalar (.int 1))] [] (Ex.andp [])
      [Ex.col "u" "x"] [Ex.col "u" "x"])).status = .ok ∧
    (toSQL .postgres (.delete {} [] [Ex.users] (.table [] "t" [] Ex.noHook (fun _ => .nil))
      [.join "FULL JOIN" Ex.users (Ex.andp [.literal "c" []])] (Ex.andp []) [] [Ex.col "u" "x"])).status = .ok := by
  decide +kernel

/-- **C22, conflict clauses.** What an INSERT says about conflicts is written only by the dialect that knows it: on MySQL the conflict target,
its condition, DO NOTHING and the condition of the update make no difference to what is rendered (only ON DUPLICATE KEY UPDATE is written); on a
dialect that is none of SQLite, PostgreSQL and MySQL nothing about conflicts makes a difference; and on SQLite and PostgreSQL an INSERT without
conflict target and DO NOTHING renders as if no update had been given (ON DUPLICATE KEY is never written).  That the clause is dropped rather
than refused is the violation below. -/
theorem C22_conflict_clause_partial (q : InsMeta) (ctes : List Node) (into : Node) (columns : List Node) (rows : List (List Node))
    (sets : List (Node × Node)) (sel : Node) (cf : List Node) (cp : Node) (res : List (Node × Node)) (rp : Node)
    (ret : List Node) (m : Mode) (pn : Str) :
    (m.d = .mysql → ∀ cf' cp' rp', ren (.insert q ctes into columns rows sets sel cf cp res rp ret) m pn =
      ren (.insert { q with conflictConstraint := [], doNothing := false } ctes into columns rows sets sel cf' cp' res rp' ret) m pn) ∧
    (m.d ≠ .mysql → m.d ≠ .sqlite → m.d ≠ .postgres → ∀ cf' cp' res' rp', ren (.insert q ctes into columns rows sets sel cf cp res rp ret) m pn =
      ren (.insert { q with conflictConstraint := [], doNothing := false } ctes into columns rows sets sel cf' cp' res' rp' ret) m pn) ∧
    (m.d ≠ .mysql → q.conflictConstraint = [] → cf = [] → q.doNothing = false → ∀ cp' res' rp',
      ren (.insert q ctes into columns rows sets sel cf cp res rp ret) m pn =
      ren (.insert q ctes into columns rows sets sel [] cp' res' rp' ret) m pn) := by
  have key : ∀ (c : Str) (dn : Bool) (cf' : List Node) (cp' : Node) (res' : List (Node × Node)) (rp' : Node),
      (∀ (k : Mode) ex, k.d = m.d → insertConflict k ex q ((objs cf).map PV.toObj) (mkPV cp (ren cp) (hookOf cp)).toObj (pairs res) (mkPV rp (ren rp) (hookOf rp)).toObj =
        insertConflict k ex { q with conflictConstraint := c, doNothing := dn } ((objs cf').map PV.toObj) (mkPV cp' (ren cp') (hookOf cp')).toObj (pairs res') (mkPV rp' (ren rp') (hookOf rp')).toObj) →
      ren (.insert q ctes into columns rows sets sel cf cp res rp ret) m pn =
      ren (.insert { q with conflictConstraint := c, doNothing := dn } ctes into columns rows sets sel cf' cp' res' rp' ret) m pn := by
    intro c dn cf' cp' res' rp' hc
    rw [ren, ren]
    unfold insertAppend
    simp only
    rw [hc { d := m.d, env := effEnv m.env q.env } _ rfl]
    rfl
  refine ⟨?_, ?_, ?_⟩
  · intro h cf' cp' rp'
    refine key _ _ _ _ _ _ fun k ex hk => ?_
    unfold insertConflict
    rw [hk, h]
  · intro h1 h2 h3 cf' cp' res' rp'
    refine key _ _ _ _ _ _ fun k ex hk => ?_
    unfold insertConflict
    rw [hk]
    cases hd : m.d <;> first | rfl | exact absurd hd ‹_›
  · intro h1 h2 h3 h4 cp' res' rp'
    subst h3
    refine key q.conflictConstraint q.doNothing _ _ _ _ fun k ex hk => ?_
    unfold insertConflict
    rw [hk]
    cases hd : m.d <;> first | rfl | exact absurd hd h1 | simp [h2, h4, objs]

/-- **C22 (violated).** Clauses that are dropped without an error: a conflict clause on MySQL, ... -/
theorem C22_conflict_dropped_violated :
    (toSQL .mysql (.insert { doNothing := true } [] (.table [] "t" [] Ex.noHook (fun _ => .nil)) [] [[.scalar (.int 1)]] []
      .nil [.literal "id" []] .nil [] (Ex.andp []) [])).query = "INSERT INTO t VALUES (?)".toList ∧
    (toSQL .mysql (.insert { doNothing := true } [] (.table [] "t" [] Ex.noHook (fun _ => .nil)) [] [[.scalar (.int 1)]] []
      .nil [.literal "id" []] .nil [] (Ex.andp []) [])).status = .ok := by decide +kernel

/-- ... and a conflict resolution without conflict target on Postgres. -/
theorem C22_resolution_dropped_violated :
    (toSQL .postgres (.insert {} [] (.table [] "t" [] Ex.noHook (fun _ => .nil)) [] [[.scalar (.int 1)]] []
      .nil [] .nil [(.literal "a" [], .scalar (.int 2))] (Ex.andp []) [])).query = "INSERT INTO t VALUES ($1)".toList ∧
    (toSQL .postgres (.insert {} [] (.table [] "t" [] Ex.noHook (fun _ => .nil)) [] [[.scalar (.int 1)]] []
      .nil [] .nil [(.literal "a" [], .scalar (.int 2))] (Ex.andp []) [])).status = .ok := by decide +kernel

end Sq
