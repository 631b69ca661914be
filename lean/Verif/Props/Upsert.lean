import Verif.Spec.Upsert
import Verif.Props.Store
/-
C79: storing records that may be there already.
-/
namespace Sq.Upserting
open Sq Sq.Spec Sq.Chain Sq.Exprs Sq.Exprs.Writing Sq.Spec.Store Sq.Storing
open Sq.Spec.Upsert (changeText upsertText keepText sides upsertQuery keepQuery given same Upserts)

/-- What the column mapper collects: the columns, and one row per record. -/
theorem setAll_data (t : Tab) (raw : Str → Bool) (c : Str) (cs : List Str) (recs : List (List Scalar)) (hd : c ∉ cs) (hr : recs ≠ [])
    (hlen : ∀ r ∈ recs, r.length = (c :: cs).length) :
    columnInsert Node.name (setAll t raw (c :: cs) recs) = ((c :: cs).map (t.field raw), recs.map (·.map Node.scalar)) := by
  have := C26_rectangular Node.name (t.field raw c) (cs.map (t.field raw)) (by
    intro g hg
    obtain ⟨x, hx, rfl⟩ := List.mem_map.1 hg
    show x ≠ c
    rintro rfl
    exact hd hx) (recs.map (·.map Node.scalar)) (by simpa using hr) (by
    intro r hr
    obtain ⟨x, hx, rfl⟩ := List.mem_map.1 hr
    simpa using hlen x hx)
  rw [← List.map_cons] at this
  rw [← this]
  congr 1
  simp only [setAll, mapperCalls, rowCalls, List.map_map, List.flatMap]
  rfl

theorem setAll_fields (t : Tab) (raw : Str → Bool) (cols : List Str) (recs : List (List Scalar)) : ∀ s ∈ setAll t raw cols recs, s.1 ≠ .nil := by
  intro s hs
  obtain ⟨rec, _, hs⟩ := List.mem_flatMap.1 hs
  obtain ⟨c, _, hc'⟩ := List.mem_map.1 (List.of_mem_zip (show (s.1, s.2) ∈ _ from hs)).1
  rw [← hc']
  simp [Tab.field]

/-- An INSERT of records with a clause behind it. -/
theorem insert_tail (l : Lang) (env : Env) (t : Tab) (raw : Str → Bool) (cols : List Str) (recs : List (List Scalar)) (hn : t.name ≠ [])
    (hlen : ∀ r ∈ recs, r.length = cols.length) (n : Node) (kw : Str) (tail tailx : List Part) (T : Str) (hq : queryDialect n = l.dialect)
    (hc : Spec.construct { d := l.dialect } n = some ([.text kw] ++ (source { d := l.dialect, env := env } t.node ++ (.text " (".toList ::
        (values { d := l.dialect, env := env, ex := [t.label] } (cols.map (t.field raw)) ++ (.text ")".toList :: .text " VALUES ".toList ::
        (listed ", ".toList ((recs.map (·.map Node.scalar)).map (row { d := l.dialect })) ++ tail)))))))
    (hneed : Needs { d := l.dialect } n) (htail : Adds l.dialect tail tailx) (hflat : Flat tailx) (hT : ∀ i, flat l.dialect i tailx = T)
    (hv0 : vals tailx = []) :
    (ownSQL n).status = .ok ∧
    (ownSQL n).query = kw ++ (insertText l t cols recs.length).drop "INSERT INTO ".toList.length ++ T ∧
    (ownSQL n).args = recs.flatten.map .val := by
  have h := own (n := n) (l := l) hq (ps := _)
    (xs := [.text kw] ++ (srcParts l.dialect t ++ (.text " (".toList :: (listed ", ".toList (cols.map fun c => [.text (quoteIdentifier l.dialect c)]) ++ (.text ")".toList :: .text " VALUES ".toList :: (listed ", ".toList (recs.map rowParts) ++ tailx))))))
    hc hneed
    ((Adds.text _).append ((adds_src _ t _).append (Adds.cons _ ((adds_columns t raw _ _ hn).append (Adds.cons _ (Adds.cons _ ((adds_rows recs).append htail)))))))
    (Flat.cons _ ((srcParts_flat _ _).append (Flat.cons _ (Flat.append (flat_listed _ _ fun c _ => Flat.text _) (Flat.cons _ (Flat.cons _
      (Flat.append (flat_listed _ _ fun r _ => Flat.cons _ (Flat.append (flat_listed _ _ fun c _ => Flat.value _) (Flat.text _))) hflat)))))))
  have ht := fun i => flat_texts l.dialect i (quoteIdentifier l.dialect) cols
  have hv := fun i => flat_rows l cols.length i recs hlen
  refine ⟨h.1, h.2.1.trans ?_, h.2.2.trans ?_⟩ <;> clear h
  · unfold insertText
    simp only [List.append_assoc]
    rw [List.drop_left]
    generalize " (".toList = k1
    rw [show ") VALUES ".toList = ")".toList ++ " VALUES ".toList by decide +kernel]
    generalize ")".toList = k2
    generalize " VALUES ".toList = k3
    simp only [List.cons_append, List.nil_append, flat_text, flat_append, vals_src, flat_src, List.append_assoc, List.length_nil, Nat.add_zero, (ht _).1, (ht 0).2, (hv _).1, Nat.zero_add, hT]
  · simp only [List.cons_append, List.nil_append, vals_text, vals_append, vals_src, (ht 0).2, (hv 0).2, hv0, List.append_nil]

theorem Adds.literal {d : Dialect} (s : Str) (m : Mode) (hm : m.d = d) : Adds d [.placed (.literal s []) m] [.text s] :=
  Adds.construct hm (show Spec.construct m (.literal s []) = some [.text s] from rfl) trivial (Adds.text _)

/-- The assignments, as flat parts. -/
def changeParts (f : Str → Str) (upd : List Str) : List Part := listed ", ".toList (upd.map fun c => [.text c, .text " = ".toList, .text (f c)])

theorem adds_changes {d : Dialect} (f : Str → Str) (upd : List Str) (m : Mode) (hm : m.d = d) :
    Adds d (assignments m (upd.map fun c => (Node.literal c [], Node.literal (f c) []))) (changeParts f upd) := by
  subst hm
  unfold Spec.assignments changeParts
  rw [List.map_map]
  refine Adds.listed _ _ _ upd fun c _ => ?_
  exact (Adds.literal c { d := m.d, ex := m.ex } rfl).append (Adds.cons _ (Adds.literal (f c) { d := m.d, ex := m.ex } rfl))

theorem changeParts_flat (f : Str → Str) (upd : List Str) : Flat (changeParts f upd) :=
  flat_listed _ _ fun _ _ => Flat.cons _ (Flat.cons _ (Flat.text _))

theorem flat_changes (d : Dialect) (f : Str → Str) (i : Nat) (upd : List Str) :
    flat d i (changeParts f upd) = commas (upd.map fun c => c ++ " = ".toList ++ f c) ∧ vals (changeParts f upd) = [] := by
  induction upd with
  | nil => exact ⟨rfl, rfl⟩
  | cons c cs ih =>
    cases cs with
    | nil => simp [changeParts, listed, flat, vals, commas]
    | cons c' cs =>
      rw [List.map_cons, commas_cons _ _ (by simp), ← ih.1]
      have hp : changeParts f (c :: c' :: cs) = [.text c, .text " = ".toList, .text (f c)] ++ .text ", ".toList :: changeParts f (c' :: cs) := rfl
      rw [hp]
      refine ⟨?_, ih.2⟩
      simp only [List.cons_append, List.nil_append, flat_text, List.append_assoc]

theorem map_plain (f g : Str → Str) (upd : List Str) (h : ∀ c ∈ upd, f c = g c) : commas (upd.map f) = commas (upd.map g) := by
  rw [List.map_congr_left h]

/-- ON DUPLICATE KEY UPDATE. -/
def mysqlParts (upd : List Str) : List Part :=
  .text " ON DUPLICATE KEY UPDATE ".toList :: changeParts (fun c => "VALUES(".toList ++ c ++ ")".toList) upd
/-- ON CONFLICT (keys) -/
def targetParts (d : Dialect) (keys : List Str) : List Part :=
  [.text " ON CONFLICT".toList, .text " (".toList] ++ (listed ", ".toList (keys.map fun c => [.text (quoteIdentifier d c)]) ++ [.text ")".toList])
def conflictParts (d : Dialect) (keys upd : List Str) : List Part :=
  targetParts d keys ++ (.text " DO UPDATE SET ".toList :: changeParts (fun c => "EXCLUDED.".toList ++ c) upd)

theorem targetParts_flat (d : Dialect) (keys : List Str) : Flat (targetParts d keys) :=
  Flat.append (Flat.cons _ (Flat.text _)) (Flat.append (flat_listed _ _ fun _ _ => Flat.text _) (Flat.text _))

theorem flat_target (d : Dialect) (i : Nat) (keys : List Str) :
    flat d i (targetParts d keys) = " ON CONFLICT (".toList ++ commas (keys.map (quoteIdentifier d)) ++ ")".toList ∧ vals (targetParts d keys) = [] := by
  have ht := fun i => flat_texts d i (quoteIdentifier d) keys
  unfold targetParts
  rw [show " ON CONFLICT (".toList = " ON CONFLICT".toList ++ " (".toList by decide +kernel]
  generalize " ON CONFLICT".toList = k1
  generalize " (".toList = k2
  generalize ")".toList = k3
  refine ⟨?_, ?_⟩
  · simp only [List.cons_append, List.nil_append, flat_text, flat_append, (ht _).1, flat_nil, List.append_nil, List.append_assoc]
  · simp only [List.cons_append, List.nil_append, vals_text, vals_append, (ht 0).2, vals_nil]

theorem flat_mysql (i : Nat) (keys upd : List Str) (hplain : ∀ x ∈ upd, quoteIdentifier .mysql x = x) :
    flat .mysql i (mysqlParts upd) = changeText .mysql keys upd ∧ vals (mysqlParts upd) = [] := by
  have h := flat_changes .mysql (fun c => "VALUES(".toList ++ c ++ ")".toList) i upd
  refine ⟨?_, ?_⟩
  · unfold mysqlParts changeText
    rw [flat_text, h.1]
    show _ = " ON DUPLICATE KEY UPDATE ".toList ++ commas (upd.map fun c => quoteIdentifier .mysql c ++ " = VALUES(".toList ++ quoteIdentifier .mysql c ++ ")".toList)
    refine congrArg _ (map_plain _ _ upd fun c hc => ?_)
    rw [hplain c hc, show " = VALUES(".toList = " = ".toList ++ "VALUES(".toList by decide +kernel]
    generalize " = ".toList = k1
    generalize "VALUES(".toList = k2
    generalize ")".toList = k3
    simp only [List.append_assoc]
  · unfold mysqlParts
    rw [vals_text]
    exact h.2

theorem flat_conflict (l : Lang) (hl : l ≠ .mysql) (i : Nat) (keys upd : List Str) (hplain : ∀ x ∈ upd, quoteIdentifier l.dialect x = x) :
    flat l.dialect i (conflictParts l.dialect keys upd) = changeText l keys upd ∧ vals (conflictParts l.dialect keys upd) = [] := by
  have h := flat_changes l.dialect (fun c => "EXCLUDED.".toList ++ c) i upd
  have ht := fun i => flat_target l.dialect i keys
  refine ⟨?_, ?_⟩
  · unfold conflictParts
    rw [flat_append, (ht i).1, (ht i).2, flat_text]
    have hc : changeText l keys upd = " ON CONFLICT (".toList ++ commas (keys.map (quoteIdentifier l.dialect)) ++ ") DO UPDATE SET ".toList ++
        commas (upd.map fun c => quoteIdentifier l.dialect c ++ " = EXCLUDED.".toList ++ quoteIdentifier l.dialect c) := by
      cases l
      · exact (hl rfl).elim
      all_goals rfl
    rw [hc, List.length_nil, Nat.add_zero, h.1, show ") DO UPDATE SET ".toList = ")".toList ++ " DO UPDATE SET ".toList by decide +kernel]
    have := map_plain (fun c => c ++ " = ".toList ++ ("EXCLUDED.".toList ++ c))
      (fun c => quoteIdentifier l.dialect c ++ " = EXCLUDED.".toList ++ quoteIdentifier l.dialect c) upd (fun c hc => by
        rw [hplain c hc, show " = EXCLUDED.".toList = " = ".toList ++ "EXCLUDED.".toList by decide +kernel]
        generalize " = ".toList = k1
        generalize "EXCLUDED.".toList = k2
        simp only [List.append_assoc])
    rw [this]
    generalize " ON CONFLICT (".toList = k1
    generalize ")".toList = k2
    generalize " DO UPDATE SET ".toList = k3
    simp only [List.append_assoc]
  · unfold conflictParts
    rw [vals_append, (ht 0).2, vals_text]
    exact h.2

theorem adds_target (l : Lang) (env : Env) (t : Tab) (raw : Str → Bool) (keys : List Str) (hn : t.name ≠ []) :
    Adds l.dialect ([.text " ON CONFLICT".toList, .text " (".toList] ++ (values { d := l.dialect, env := env, ex := [t.label] } (keys.map (t.field raw)) ++ [.text ")".toList]))
      (targetParts l.dialect keys) :=
  (Adds.cons _ (Adds.text _)).append ((adds_columns t raw keys env hn).append (Adds.text _))

theorem insert_head (l : Lang) (t : Tab) (cols : List Str) (n : Nat) :
    "INSERT INTO ".toList ++ (insertText l t cols n).drop "INSERT INTO ".toList.length = insertText l t cols n := by
  unfold insertText
  simp only [List.append_assoc]
  rw [List.drop_left]

theorem insert_needs (l : Lang) (t : Tab) (raw : Str → Bool) (c : Str) (cs : List Str) (recs : List (List Scalar)) 
    (ha : l = .mysql → t.alias = []) (hd : c ∉ cs) (hr : recs ≠ []) (hlen : ∀ r ∈ recs, r.length = (c :: cs).length)
    (q : InsMeta) (h1 : q.hasMapper = true) (h2 : q.mapErr = none) (h3 : q.ignore = true → l = .mysql) (h4 : q.rowAlias = []) (h5 : q.conflictConstraint = []) :
    InsertNeeds l.dialect q t.node [] [] (setAll t raw (c :: cs) recs) .nil [] :=
  { mapperWorks := fun _ => ⟨h2, setAll_fields t raw _ recs⟩
    ignoreAllowed := fun h => by rw [h3 h]; rfl
    someTable := node_ne t
    aliasAllowed := fun h hm => h (ha (by cases l <;> simp [Lang.dialect] at hm ⊢))
    rowAliasAllowed := fun _ h => (h h4).elim
    something := .inl (by
      unfold insertData
      rw [if_pos h1, setAll_data t raw c cs recs hd hr hlen]
      simpa using hr)
    constraintAllowed := fun h => (h h5).elim
    returningAllowed := fun h => (h rfl).elim }

/-- **C79 (text).** `InsertInto(table).Valuesx(...).OnConflict(keys...).DoUpdateSet(AssignExcluded(...)...)` (on MySQL `OnDuplicateKeyUpdate` and
`AssignValues`) is the statement that stores the records and changes these columns of those that are there already; with the values of the records,
once each.  `upd` are names that are written without quotes (what is missing: C79_quoted_violated). -/
theorem C79_upsert_partial (b : Builder) (t : Tab) (raw : Str → Bool) (c : Str) (cs keys upd : List Str) (recs : List (List Scalar)) (hn : t.name ≠ [])
    (ha : b.lang = .mysql → t.alias = []) (hd : c ∉ cs) (hr : recs ≠ []) (hlen : ∀ r ∈ recs, r.length = (c :: cs).length)
    (hk : keys ≠ []) (hu : upd ≠ []) (hplain : ∀ x ∈ upd, quoteIdentifier b.lang.dialect x = x) :
    (ownSQL (upsertQuery b t raw (c :: cs) keys upd recs)).status = .ok ∧
    (ownSQL (upsertQuery b t raw (c :: cs) keys upd recs)).query = upsertText b.lang t (c :: cs) keys upd recs.length ∧
    (ownSQL (upsertQuery b t raw (c :: cs) keys upd recs)).args = recs.flatten.map .val := by
  have hdata := setAll_data t raw c cs recs hd hr hlen
  have hq : Spec.qualifier t.node = t.label := rfl
  unfold upsertText
  rw [← insert_head]
  obtain ⟨l, env⟩ := b
  have hneed := insert_needs l t raw c cs recs ha hd hr hlen
  by_cases hm : l = .mysql
  · subst hm
    refine insert_tail .mysql env t raw (c :: cs) recs hn hlen _ "INSERT INTO ".toList
      (.text " ON DUPLICATE KEY UPDATE ".toList :: assignments { d := .mysql, env := env, ex := [t.label] } (upd.map fun c => (Node.literal c [], Node.literal ("VALUES(".toList ++ c ++ ")".toList) [])))
      (mysqlParts upd) _ rfl ?_ (hneed _ rfl rfl nofun rfl rfl)
      (Adds.cons _ (adds_changes _ upd _ rfl)) (Flat.cons _ (changeParts_flat _ _)) (fun i => (flat_mysql i keys upd hplain).1) (flat_mysql 0 keys upd hplain).2
    simp [upsertQuery, Chain.insert, InsertCall.run, InsertStart.run, InsertQ.node, Spec.construct, and_, with_,
        ifAny, effEnv, Lang.dialect, insertData, hdata, supply, conflict, hq, hr, hu, sides, assignValues, Node.name, Tab.field]
  · refine insert_tail l env t raw (c :: cs) recs hn hlen _ "INSERT INTO ".toList
      (([.text " ON CONFLICT".toList, .text " (".toList] ++ (values { d := l.dialect, env := env, ex := [t.label] } (keys.map (t.field raw)) ++ [.text ")".toList])) ++
        (.text " DO UPDATE SET ".toList :: assignments { d := l.dialect, env := env, ex := [t.label] } (upd.map fun c => (Node.literal c [], Node.literal ("EXCLUDED.".toList ++ c) []))))
      (conflictParts l.dialect keys upd) _ ?_ ?_ ?_
      ((adds_target l env t raw keys hn).append (Adds.cons _ (adds_changes _ upd _ rfl))) ((targetParts_flat _ _).append (Flat.cons _ (changeParts_flat _ _)))
      (fun i => (flat_conflict l hm i keys upd hplain).1) (flat_conflict l hm 0 keys upd hplain).2
    · cases l <;> first | exact (hm rfl).elim | rfl
    · cases l
      · exact (hm rfl).elim
      all_goals simp [upsertQuery, Chain.insert, InsertCall.run, InsertStart.run, InsertQ.node, Spec.construct, and_, with_, conflictWhere, Action.run, conflictTarget, conflictAction,
        ifAny, condition, effEnv, Lang.dialect, insertData, hdata, supply, conflict, hq, hr, hu, hk, sides, assignExcluded, Node.name, Tab.field, Node.kind]
    · cases l
      · exact (hm rfl).elim
      all_goals exact hneed _ rfl rfl nofun rfl rfl

/-- **C79 (text, keeping).** `InsertInto(table).Valuesx(...).OnConflict(keys...).DoNothing()` (on MySQL `InsertIgnoreInto`) is the statement that
stores the records and leaves those alone that are there already. -/
theorem C79_keep (b : Builder) (t : Tab) (raw : Str → Bool) (c : Str) (cs keys : List Str) (recs : List (List Scalar)) (hn : t.name ≠ [])
    (ha : b.lang = .mysql → t.alias = []) (hd : c ∉ cs) (hr : recs ≠ []) (hlen : ∀ r ∈ recs, r.length = (c :: cs).length) (hk : keys ≠ []) :
    (ownSQL (keepQuery b t raw (c :: cs) keys recs)).status = .ok ∧
    (ownSQL (keepQuery b t raw (c :: cs) keys recs)).query = keepText b.lang t (c :: cs) keys recs.length ∧
    (ownSQL (keepQuery b t raw (c :: cs) keys recs)).args = recs.flatten.map .val := by
  have hdata := setAll_data t raw c cs recs hd hr hlen
  have hq : Spec.qualifier t.node = t.label := rfl
  obtain ⟨l, env⟩ := b
  have hneed := insert_needs l t raw c cs recs ha hd hr hlen
  by_cases hm : l = .mysql
  · subst hm
    have h := insert_tail .mysql env t raw (c :: cs) recs hn hlen (keepQuery ⟨.mysql, env⟩ t raw (c :: cs) keys recs) "INSERT IGNORE INTO ".toList [] [] [] rfl (by
      simp [keepQuery, Chain.insert, InsertCall.run, InsertStart.run, InsertQ.node, Spec.construct, and_, with_,
        ifAny, effEnv, Lang.dialect, insertData, hdata, supply, conflict, hq, hr]) (hneed _ rfl rfl (fun _ => rfl) rfl rfl) (Adds.nil _) Flat.nil (fun _ => rfl) rfl
    rw [List.append_nil] at h
    exact h
  · have hkt : keepText l t (c :: cs) keys recs.length = "INSERT INTO ".toList ++ (insertText l t (c :: cs) recs.length).drop "INSERT INTO ".toList.length ++
        (" ON CONFLICT (".toList ++ commas (keys.map (quoteIdentifier l.dialect)) ++ ") DO NOTHING".toList) := by
      rw [insert_head]
      unfold keepText
      cases l
      · exact (hm rfl).elim
      all_goals (simp only [List.append_assoc])
    rw [hkt]
    have ht := fun i => flat_target l.dialect i keys
    refine insert_tail l env t raw (c :: cs) recs hn hlen _ "INSERT INTO ".toList
      (([.text " ON CONFLICT".toList, .text " (".toList] ++ (values { d := l.dialect, env := env, ex := [t.label] } (keys.map (t.field raw)) ++ [.text ")".toList])) ++
        [.text " DO NOTHING".toList])
      (targetParts l.dialect keys ++ [.text " DO NOTHING".toList]) _ ?_ ?_ ?_
      ((adds_target l env t raw keys hn).append (Adds.text _)) ((targetParts_flat _ _).append (Flat.text _)) ?_ ?_
    · cases l <;> first | exact (hm rfl).elim | rfl
    · cases l
      · exact (hm rfl).elim
      all_goals simp [keepQuery, Chain.insert, InsertCall.run, InsertStart.run, InsertQ.node, Spec.construct, and_, with_, conflictWhere, Action.run, conflictTarget, conflictAction,
        ifAny, effEnv, Lang.dialect, insertData, hdata, supply, conflict, hq, hr, hk, Node.kind]
    · cases l
      · exact (hm rfl).elim
      all_goals exact hneed _ rfl rfl nofun rfl rfl
    · intro i
      rw [flat_append, (ht i).1, show ") DO NOTHING".toList = ")".toList ++ " DO NOTHING".toList by decide +kernel, flat_text, flat_nil]
      generalize " ON CONFLICT (".toList = k1
      generalize ")".toList = k2
      generalize " DO NOTHING".toList = k3
      simp only [List.append_assoc, List.append_nil]
    · rw [vals_append, (ht 0).2, vals_text, vals_nil]
      rfl

/-- **C79 (violated).** A column whose name needs quotes is written without them by `AssignExcluded` and `AssignValues`. -/
theorem C79_quoted_violated :
    let t : Tab := { schema := [], name := "people".toList, alias := [] }
    let cols := ["id".toList, "full name".toList]
    let recs := [[.int 1, .str "ann".toList]]
    (ownSQL (upsertQuery ⟨.postgres, none⟩ t (fun _ => false) cols ["id".toList] ["full name".toList] recs)).query =
      "INSERT INTO people (id, \"full name\") VALUES ($1, $2) ON CONFLICT (id) DO UPDATE SET full name = EXCLUDED.full name".toList ∧
    (ownSQL (upsertQuery ⟨.mysql, none⟩ t (fun _ => false) cols ["id".toList] ["full name".toList] recs)).query =
      "INSERT INTO people (id, `full name`) VALUES (?, ?) ON DUPLICATE KEY UPDATE full name = VALUES(full name)".toList ∧
    upsertText .postgres t cols ["id".toList] ["full name".toList] 1 =
      "INSERT INTO people (id, \"full name\") VALUES ($1, $2) ON CONFLICT (id) DO UPDATE SET \"full name\" = EXCLUDED.\"full name\"".toList := by
  decide +kernel

/-! ### What storing does -/

section Rows
variable {eq : Scalar → Scalar → Bool} {cols keys upd : List Str}

theorem lookup_zip (cols : List Str) (r : Row) (c : Str) (hc : c ∈ cols) : (cols.zip (cols.map r)).lookup c = some (r c) := by
  induction cols with
  | nil => exact (List.not_mem_nil hc).elim
  | cons x xs ih =>
    rw [List.map_cons, List.zip_cons_cons, List.lookup_cons]
    by_cases h : c = x
    · subst h; simp
    · rw [show (c == x) = false by simpa using h]
      exact ih ((List.mem_cons.1 hc).resolve_left h)

theorem given_of (cols : List Str) (r : Row) (rec : List Scalar) (h : cols.map r = rec) (c : Str) (hc : c ∈ cols) : given cols rec c = r c := by
  subst h
  unfold given Row.set
  rw [lookup_zip cols r c hc]
  rfl

theorem lookup_map (upd : List Str) (f : Str → Scalar) (c : Str) : (upd.map fun c => (c, f c)).lookup c = if c ∈ upd then some (f c) else none := by
  induction upd with
  | nil => rfl
  | cons x xs ih =>
    rw [List.map_cons, List.lookup_cons]
    by_cases h : c = x
    · subst h; simp
    · rw [show (c == x) = false by simpa using h]
      show List.lookup c (xs.map fun c => (c, f c)) = _
      rw [ih]
      simp [h]

theorem set_apply (x : Row) (upd : List Str) (f : Str → Scalar) (c : Str) :
    Row.set x (upd.map fun c => (c, f c)) c = if c ∈ upd then f c else x c := by
  unfold Row.set
  rw [lookup_map]
  split <;> rfl

/-- Equality as databases have it: nothing need be equal to itself (NULL is not). -/
structure Lawful (eq : Scalar → Scalar → Bool) : Prop where
  symm : ∀ x y, eq x y = true → eq y x = true
  trans : ∀ x y z, eq x y = true → eq y z = true → eq x z = true

theorem same_symm (he : Lawful eq) {x y : Row} (h : same eq keys x y = true) : same eq keys y x = true := by
  unfold same at *
  rw [List.all_eq_true] at *
  exact fun k hk => he.symm _ _ (h k hk)

theorem same_trans (he : Lawful eq) {x y z : Row} (h : same eq keys x y = true) (h' : same eq keys y z = true) : same eq keys x z = true := by
  unfold same at *
  rw [List.all_eq_true] at *
  exact fun k hk => he.trans _ _ _ (h k hk) (h' k hk)

theorem same_set (he : Lawful eq) {x g : Row} (h : same eq keys x g = true) : same eq keys (Row.set x (upd.map fun c => (c, g c))) g = true := by
  unfold same at *
  rw [List.all_eq_true] at *
  intro k hk
  rw [set_apply]
  split
  · exact he.trans _ _ _ (he.symm _ _ (h k hk)) (h k hk)
  · exact h k hk

theorem same_added {r : Row} {rec : List Scalar} (hr : cols.map r = rec) (hk : ∀ k ∈ keys, k ∈ cols) (y : Row) :
    same eq keys r y = same eq keys (given cols rec) y := by
  unfold same
  rw [Bool.eq_iff_iff, List.all_eq_true, List.all_eq_true]
  constructor <;> intro h k hkk
  · rw [given_of cols r rec hr k (hk k hkk)]; exact h k hkk
  · rw [← given_of cols r rec hr k (hk k hkk)]; exact h k hkk

/-- Some record has the key of this row. -/
def Touched (eq : Scalar → Scalar → Bool) (cols keys : List Str) (recs : List (List Scalar)) (x : Row) : Bool :=
  recs.any fun rec => same eq keys x (given cols rec)

theorem touched_set (he : Lawful eq) (rec : List Scalar) (x : Row) (recs : List (List Scalar)) (h : same eq keys x (given cols rec) = true) :
    Touched eq cols keys (rec :: recs) (Row.set x (upd.map fun c => (c, given cols rec c))) = true := by
  unfold Touched
  rw [List.any_cons, same_set he h]
  rfl

/-- One row after another record was stored. -/
theorem filter_map_same {α : Type} (p : α → Bool) (f : α → α) (xs : List α) (h : ∀ x ∈ xs, p (f x) = p x) (h' : ∀ x ∈ xs, p x = true → f x = x) :
    (xs.map f).filter p = xs.filter p := by
  induction xs with
  | nil => rfl
  | cons x xs ih =>
    have ih := ih (fun y hy => h y (List.mem_cons_of_mem _ hy)) (fun y hy => h' y (List.mem_cons_of_mem _ hy))
    rw [List.map_cons, List.filter_cons, List.filter_cons, h x (List.mem_cons_self ..), ih]
    split
    · rename_i hp
      rw [h' x (List.mem_cons_self ..) hp]
    · rfl

theorem upserts_untouched (he : Lawful eq) (hk : ∀ k ∈ keys, k ∈ cols) {rows out : List Row} {recs : List (List Scalar)}
    (h : Upserts eq cols keys upd rows recs out) (all : List (List Scalar)) (hsub : ∀ r ∈ recs, r ∈ all)
    (hself : ∀ rec ∈ recs, same eq keys (given cols rec) (given cols rec) = true) :
    out.filter (fun x => !Touched eq cols keys all x) = rows.filter fun x => !Touched eq cols keys all x := by
  induction h with
  | done => rfl
  | add rows rec recs r out hnew hr _ ih =>
    rw [ih (fun r hr => hsub r (List.mem_cons_of_mem _ hr)) (fun r hr => hself r (List.mem_cons_of_mem _ hr)), List.filter_append]
    have ht : Touched eq cols keys all r = true := by
      unfold Touched
      rw [List.any_eq_true]
      exact ⟨rec, hsub rec (List.mem_cons_self ..), by rw [same_added hr hk]; exact hself rec (List.mem_cons_self ..)⟩
    simp [ht]
  | change rows rec recs out hold _ ih =>
    rw [ih (fun r hr => hsub r (List.mem_cons_of_mem _ hr)) (fun r hr => hself r (List.mem_cons_of_mem _ hr))]
    have hall : ∀ x, same eq keys x (given cols rec) = true → Touched eq cols keys all x = true := fun x hx => by
      unfold Touched
      rw [List.any_eq_true]
      exact ⟨rec, hsub rec (List.mem_cons_self ..), hx⟩
    refine filter_map_same _ _ rows (fun x _ => ?_) (fun x _ hx => ?_)
    · try dsimp only
      split
      · rename_i h
        rw [hall x h, hall _ (same_set he h)]
      · rfl
    · try dsimp only at hx ⊢
      split
      · rename_i h
        rw [hall x h] at hx
        simp at hx
      · rfl

/-- A row with the key of a record that was stored has its values, and stays as it is while others are stored. -/
theorem upserts_stay (he : Lawful eq) (hk : ∀ k ∈ keys, k ∈ cols) {rows out : List Row} {recs : List (List Scalar)}
    (h : Upserts eq cols keys upd rows recs out) (g : Row) (hdiff : ∀ rec ∈ recs, same eq keys g (given cols rec) = false) :
    out.filter (fun x => same eq keys x g) = rows.filter fun x => same eq keys x g := by
  induction h with
  | done => rfl
  | add rows rec recs r out hnew hr _ ih =>
    rw [ih (fun r hr => hdiff r (List.mem_cons_of_mem _ hr)), List.filter_append]
    have ht : same eq keys r g = false := by
      rw [same_added hr hk]
      cases h : same eq keys (given cols rec) g
      · rfl
      · have := hdiff rec (List.mem_cons_self ..)
        rw [same_symm he h] at this
        exact this
    simp [ht]
  | change rows rec recs out hold _ ih =>
    rw [ih (fun r hr => hdiff r (List.mem_cons_of_mem _ hr))]
    have hne : ∀ x, same eq keys x (given cols rec) = true → same eq keys x g = false := fun x hx => by
      cases h : same eq keys x g
      · rfl
      · have := hdiff rec (List.mem_cons_self ..)
        rw [same_trans he (same_symm he h) hx] at this
        exact this
    refine filter_map_same _ _ rows (fun x _ => ?_) (fun x _ hx => ?_)
    · try dsimp only
      split
      · rename_i h
        rw [hne x h, hne _ (same_set he h)]
      · rfl
    · try dsimp only at hx ⊢
      split
      · rename_i h
        rw [hne x h] at hx
        simp at hx
      · rfl

theorem upserts_present (he : Lawful eq) (hk : ∀ k ∈ keys, k ∈ cols) (hu : ∀ c ∈ upd, c ∈ cols) {rows out : List Row} {recs : List (List Scalar)}
    (h : Upserts eq cols keys upd rows recs out) (hself : ∀ rec ∈ recs, same eq keys (given cols rec) (given cols rec) = true)
    (hd : recs.Pairwise fun r r' => same eq keys (given cols r) (given cols r') = false) :
    ∀ rec ∈ recs, (∃ x ∈ out, same eq keys x (given cols rec) = true) ∧
      ∀ x ∈ out, same eq keys x (given cols rec) = true → ∀ c ∈ upd, x c = given cols rec c := by
  have key : ∀ (rows out : List Row) (rec : List Scalar) (recs : List (List Scalar)), Upserts eq cols keys upd rows recs out →
      (∀ r ∈ recs, same eq keys (given cols rec) (given cols r) = false) →
      (∃ x ∈ rows, same eq keys x (given cols rec) = true) →
      (∀ x ∈ rows, same eq keys x (given cols rec) = true → ∀ c ∈ upd, x c = given cols rec c) →
      (∃ x ∈ out, same eq keys x (given cols rec) = true) ∧
      ∀ x ∈ out, same eq keys x (given cols rec) = true → ∀ c ∈ upd, x c = given cols rec c := by
    intro rows out rec recs h hdiff hex hall
    have hf := upserts_stay he hk h (given cols rec) hdiff
    have hmem : ∀ x, (x ∈ out ∧ same eq keys x (given cols rec) = true) ↔ x ∈ rows ∧ same eq keys x (given cols rec) = true := fun x => by
      have := congrArg (x ∈ ·) hf
      simpa only [List.mem_filter, eq_iff_iff] using this
    refine ⟨?_, fun x hx hs => hall x ((hmem x).1 ⟨hx, hs⟩).1 hs⟩
    obtain ⟨x, hx⟩ := hex
    exact ⟨x, (hmem x).2 hx⟩
  induction h with
  | done => exact fun _ h => (List.not_mem_nil h).elim
  | add rows rec recs r out hnew hr hrest ih =>
    rw [List.pairwise_cons] at hd
    intro rec' hrec'
    rcases List.mem_cons.1 hrec' with rfl | hrec'
    · refine key _ _ _ _ hrest hd.1 ⟨r, by simp, by rw [same_added hr hk]; exact hself _ (List.mem_cons_self ..)⟩ ?_
      intro x hx hs c hc
      rcases List.mem_append.1 hx with hx | hx
      · rw [hnew x hx] at hs
        exact (Bool.false_ne_true hs).elim
      · rw [List.mem_singleton.1 hx, given_of cols r _ hr c (hu c hc)]
    · exact ih (fun r hr => hself r (List.mem_cons_of_mem _ hr)) hd.2 rec' hrec'
  | change rows rec recs out hold hrest ih =>
    rw [List.pairwise_cons] at hd
    intro rec' hrec'
    rcases List.mem_cons.1 hrec' with rfl | hrec'
    · obtain ⟨x, hx, hs⟩ := hold
      refine key _ _ _ _ hrest hd.1 ⟨_, List.mem_map_of_mem hx, ?_⟩ ?_
      · rw [if_pos hs]
        exact same_set he hs
      · intro y hy hsy c hc
        obtain ⟨z, hz, rfl⟩ := List.mem_map.1 hy
        try dsimp only at hsy ⊢
        split
        · rw [set_apply, if_pos hc]
        · rename_i hn
          rw [if_neg hn] at hsy
          exact (hn hsy).elim
    · exact ih (fun r hr => hself r (List.mem_cons_of_mem _ hr)) hd.2 rec' hrec'

/-- Storing what is there already, with these values, changes nothing. -/
theorem upserts_again {rows out : List Row} {recs : List (List Scalar)} (h : Upserts eq cols keys upd rows recs out)
    (hthere : ∀ rec ∈ recs, (∃ x ∈ rows, same eq keys x (given cols rec) = true) ∧
      ∀ x ∈ rows, same eq keys x (given cols rec) = true → ∀ c ∈ upd, x c = given cols rec c) : out = rows := by
  induction h with
  | done => rfl
  | add rows rec recs r out hnew hr _ ih =>
    obtain ⟨x, hx, hs⟩ := (hthere rec (List.mem_cons_self ..)).1
    rw [hnew x hx] at hs
    exact (Bool.false_ne_true hs).elim
  | change rows rec recs out hold _ ih =>
    have hid : (rows.map fun x => if same eq keys x (given cols rec) then Row.set x (upd.map fun c => (c, given cols rec c)) else x) = rows := by
      conv => rhs; rw [← List.map_id rows]
      refine List.map_congr_left fun x hx => ?_
      dsimp only [id]
      split
      · rename_i hs
        funext c
        rw [set_apply]
        split
        · rename_i hc
          exact ((hthere rec (List.mem_cons_self ..)).2 x hx hs c hc).symm
        · rfl
      · rfl
    rw [hid] at ih
    exact ih fun r hr => hthere r (List.mem_cons_of_mem _ hr)

/-- Leaving alone what is there: the new records are added, in their order. -/
theorem upserts_keep (he : Lawful eq) (hk : ∀ k ∈ keys, k ∈ cols) {rows out : List Row} {recs : List (List Scalar)}
    (h : Upserts eq cols keys [] rows recs out) (hd : recs.Pairwise fun r r' => same eq keys (given cols r) (given cols r') = false) :
    ∃ new, out = rows ++ new ∧ new.map (fun r => cols.map r) = recs.filter fun rec => !rows.any fun x => same eq keys x (given cols rec) := by
  generalize hupd : ([] : List Str) = upd at h
  induction h with
  | done => exact ⟨[], by simp⟩
  | add rows rec recs r out hnew hr _ ih =>
    rw [List.pairwise_cons] at hd
    obtain ⟨new, h1, h2⟩ := ih hd.2
    refine ⟨r :: new, by rw [h1]; simp, ?_⟩
    have ha : (rows.any fun x => same eq keys x (given cols rec)) = false := by
      rw [List.any_eq_false]
      intro x hx
      rw [hnew x hx]
      exact Bool.false_ne_true
    rw [List.map_cons, List.filter_cons, if_pos (by rw [ha]; rfl), hr, h2]
    congr 1
    refine List.filter_congr fun rec' hrec' => ?_
    rw [List.any_append, List.any_cons, List.any_nil, same_added hr hk, hd.1 rec' hrec', Bool.or_false, Bool.or_false]
  | change rows rec recs out hold _ ih =>
    rw [List.pairwise_cons] at hd
    subst hupd
    have hid : (rows.map fun x => if same eq keys x (given cols rec) then Row.set x (([] : List Str).map fun c => (c, given cols rec c)) else x) = rows := by
      conv => rhs; rw [← List.map_id rows]
      refine List.map_congr_left fun x hx => ?_
      dsimp only [id]
      split <;> rfl
    rw [hid] at ih
    obtain ⟨new, h1, h2⟩ := ih hd.2
    refine ⟨new, h1, ?_⟩
    have ha : (rows.any fun x => same eq keys x (given cols rec)) = true := List.any_eq_true.2 hold
    rw [List.filter_cons, if_neg (by rw [ha]; simp), h2]

end Rows

/-! ### Storing and reading -/

section RoundTrip
open Sq.Sending Sq.Fetching.Spec Sq.Spec.Send

variable {Ctx V : Type}

/-- Sending the statement. -/
theorem upsert_exec (D : Database) (b : Builder) (t : Tab) (raw : Str → Bool) (c : Str) (cs keys upd : List Str)
    (s : D.State) (source : Logging.LogSource) (hs : source.Usable) (o : Outside V) (ctx : Ctx)
    (hn : t.name ≠ []) (ha : b.lang = .mysql → t.alias = []) (hd : c ∉ cs) (hk : keys ≠ []) (hu : upd ≠ [])
    (hplain : ∀ x ∈ upd, quoteIdentifier b.lang.dialect x = x)
    (recs : List (List Scalar)) (hr : recs ≠ []) (hlen : ∀ r ∈ recs, r.length = (c :: cs).length) :
    let e := Sending.exec o (D.conn source s Ctx) (upsertQuery b t raw (c :: cs) keys upd recs) ctx
    e.fin = .ok ∧ D.after s e.sent = (D.exec (upsertText b.lang t (c :: cs) keys upd recs.length) (recs.flatten.map .val) s).1 := by
  intro e
  obtain ⟨i1, i2, i3⟩ := C79_upsert_partial b t raw c cs keys upd recs hn ha hd hr hlen hk hu hplain
  have hq : queryDialect (upsertQuery b t raw (c :: cs) keys upd recs) = b.lang.dialect ∧
      Dial.getDialect o.own (upsertQuery b t raw (c :: cs) keys upd recs) = .ok b.lang.dialect := by
    obtain ⟨l, env⟩ := b
    cases l <;> exact ⟨rfl, rfl⟩
  unfold ownSQL at i1 i2 i3
  rw [hq.1] at i1 i2 i3
  obtain ⟨e1, e2⟩ := exec_does D s source hs o ctx (upsertQuery b t raw (c :: cs) keys upd recs) b.lang.dialect hq.2 i1
  rw [i2, i3] at e2
  exact ⟨e1, e2⟩

theorem keep_exec (D : Database) (b : Builder) (t : Tab) (raw : Str → Bool) (c : Str) (cs keys : List Str)
    (s : D.State) (source : Logging.LogSource) (hs : source.Usable) (o : Outside V) (ctx : Ctx)
    (hn : t.name ≠ []) (ha : b.lang = .mysql → t.alias = []) (hd : c ∉ cs) (hk : keys ≠ [])
    (recs : List (List Scalar)) (hr : recs ≠ []) (hlen : ∀ r ∈ recs, r.length = (c :: cs).length) :
    let e := Sending.exec o (D.conn source s Ctx) (keepQuery b t raw (c :: cs) keys recs) ctx
    e.fin = .ok ∧ D.after s e.sent = (D.exec (keepText b.lang t (c :: cs) keys recs.length) (recs.flatten.map .val) s).1 := by
  intro e
  obtain ⟨i1, i2, i3⟩ := C79_keep b t raw c cs keys recs hn ha hd hr hlen hk
  have hq : queryDialect (keepQuery b t raw (c :: cs) keys recs) = b.lang.dialect ∧
      Dial.getDialect o.own (keepQuery b t raw (c :: cs) keys recs) = .ok b.lang.dialect := by
    obtain ⟨l, env⟩ := b
    cases l <;> exact ⟨rfl, rfl⟩
  unfold ownSQL at i1 i2 i3
  rw [hq.1] at i1 i2 i3
  obtain ⟨e1, e2⟩ := exec_does D s source hs o ctx (keepQuery b t raw (c :: cs) keys recs) b.lang.dialect hq.2 i1
  rw [i2, i3] at e2
  exact ⟨e1, e2⟩

/-- Reading all records. -/
theorem all_fetched (D : Database) (b : Builder) (t : Tab) (raw : Str → Bool) (c : Str) (cs keys upd : List Str)
    (hD : Upsert.Understands D b.lang t (c :: cs) keys upd) (s : D.State) (source : Logging.LogSource) (hs : source.Usable) (o : Outside V) (ctx : Ctx)
    (zero : Fetching.Kind → V) (conv : Fetching.Kind → Scalar → Option V) (get : Fetching.Kind → Scalar → V) (kind : Str → Fetching.Kind)
    (hn : t.name ≠ []) (hconv : ∀ r ∈ D.rows s, ∀ x ∈ c :: cs, conv (kind x) (r x) = some (get (kind x) (r x))) :
    let f := fetch o (D.conn source s Ctx) (fromQuery b t) zero conv (reads t raw kind (c :: cs)) ctx []
    f.fin = .ok ∧ f.trace = (D.rows s).map fun r => (c :: cs).map fun x => get (kind x) (r x) := by
  intro f
  obtain ⟨q1, q2, q3⟩ := C78_select b t raw (c :: cs) hn (by simp)
  have hfetch := fetch_reads D s source hs o zero conv get t raw kind (c :: cs) (by simp) ctx (fromQuery b t)
    (selectQuery b t raw (c :: cs)) b.lang.dialect (by simp only [fromQuery, SelectQ.node, Dial.getDialect]; rfl) trivial (.select ..) q1
    (D.rows s)
    (by
      rw [show (toSQL b.lang.dialect (selectQuery b t raw (c :: cs))).query = _ from q2,
        show (toSQL b.lang.dialect (selectQuery b t raw (c :: cs))).args = _ from q3, hD.select])
    hconv
  exact ⟨hfetch.1, hfetch.2.2.1⟩

/-- **C79.** Storing records that may be there already.  The call succeeds; afterwards every record is there: there are rows with its key, and these
have its values in the columns to be changed; the rows with other keys are what and where they were; and fetching the table reads these rows.  `upd` are
names that are written without quotes (what is missing: C79_quoted_violated). -/
theorem C79_upserted_partial (D : Database) (b : Builder) (t : Tab) (raw : Str → Bool) (c : Str) (cs keys upd : List Str)
    (hD : Upsert.Understands D b.lang t (c :: cs) keys upd) (he : Lawful D.eq) (s : D.State) (source : Logging.LogSource) (hs : source.Usable)
    (o : Outside V) (ctx ctx' : Ctx) (zero : Fetching.Kind → V) (conv : Fetching.Kind → Scalar → Option V) (get : Fetching.Kind → Scalar → V)
    (kind : Str → Fetching.Kind)
    (hn : t.name ≠ []) (ha : b.lang = .mysql → t.alias = []) (hd : c ∉ cs) (hk : keys ≠ []) (hk' : ∀ k ∈ keys, k ∈ c :: cs)
    (hu : upd ≠ []) (hu' : ∀ x ∈ upd, x ∈ c :: cs) (hplain : ∀ x ∈ upd, quoteIdentifier b.lang.dialect x = x)
    (recs : List (List Scalar)) (hr : recs ≠ []) (hlen : ∀ r ∈ recs, r.length = (c :: cs).length)
    (hself : ∀ rec ∈ recs, same D.eq keys (given (c :: cs) rec) (given (c :: cs) rec) = true)
    (hdiff : recs.Pairwise fun r r' => same D.eq keys (given (c :: cs) r) (given (c :: cs) r') = false)
    (hconv : ∀ s' : D.State, ∀ r ∈ D.rows s', ∀ x ∈ c :: cs, conv (kind x) (r x) = some (get (kind x) (r x))) :
    let e := Sending.exec o (D.conn source s Ctx) (upsertQuery b t raw (c :: cs) keys upd recs) ctx
    let f := fetch o (D.conn source (D.after s e.sent) Ctx) (fromQuery b t) zero conv (reads t raw kind (c :: cs)) ctx' []
    let rows := D.rows (D.after s e.sent)
    let stored := fun x : Row => recs.any fun rec => same D.eq keys x (given (c :: cs) rec)
    e.fin = .ok ∧ f.fin = .ok ∧ f.trace = (rows.map fun r => (c :: cs).map fun x => get (kind x) (r x)) ∧
    rows.filter (fun x => !stored x) = (D.rows s).filter (fun x => !stored x) ∧
    ∀ rec ∈ recs, (∃ x ∈ rows, same D.eq keys x (given (c :: cs) rec) = true) ∧
      ∀ x ∈ rows, same D.eq keys x (given (c :: cs) rec) = true → ∀ col ∈ upd, x col = given (c :: cs) rec col := by
  intro e f rows stored
  obtain ⟨e1, e2⟩ := upsert_exec D b t raw c cs keys upd s source hs o ctx hn ha hd hk hu hplain recs hr hlen
  have hups := hD.upsert s recs hr hlen hdiff
  rw [← e2] at hups
  have hf := all_fetched D b t raw c cs keys upd hD (D.after s e.sent) source hs o ctx' zero conv get kind hn (hconv _)
  exact ⟨e1, hf.1, hf.2, upserts_untouched he hk' hups recs (fun _ h => h) hself, upserts_present he hk' hu' hups hself hdiff⟩

/-- **C79 (again).** Storing the same records once more changes nothing. -/
theorem C79_again_partial (D : Database) (b : Builder) (t : Tab) (raw : Str → Bool) (c : Str) (cs keys upd : List Str)
    (hD : Upsert.Understands D b.lang t (c :: cs) keys upd) (he : Lawful D.eq) (s : D.State) (source : Logging.LogSource) (hs : source.Usable)
    (o : Outside V) (ctx ctx' : Ctx)
    (hn : t.name ≠ []) (ha : b.lang = .mysql → t.alias = []) (hd : c ∉ cs) (hk : keys ≠ []) (hk' : ∀ k ∈ keys, k ∈ c :: cs)
    (hu : upd ≠ []) (hu' : ∀ x ∈ upd, x ∈ c :: cs) (hplain : ∀ x ∈ upd, quoteIdentifier b.lang.dialect x = x)
    (recs : List (List Scalar)) (hr : recs ≠ []) (hlen : ∀ r ∈ recs, r.length = (c :: cs).length)
    (hself : ∀ rec ∈ recs, same D.eq keys (given (c :: cs) rec) (given (c :: cs) rec) = true)
    (hdiff : recs.Pairwise fun r r' => same D.eq keys (given (c :: cs) r) (given (c :: cs) r') = false) :
    let e := Sending.exec o (D.conn source s Ctx) (upsertQuery b t raw (c :: cs) keys upd recs) ctx
    let e' := Sending.exec o (D.conn source (D.after s e.sent) Ctx) (upsertQuery b t raw (c :: cs) keys upd recs) ctx'
    e'.fin = .ok ∧ D.rows (D.after (D.after s e.sent) e'.sent) = D.rows (D.after s e.sent) := by
  intro e e'
  obtain ⟨_, e2⟩ := upsert_exec D b t raw c cs keys upd s source hs o ctx hn ha hd hk hu hplain recs hr hlen
  obtain ⟨e3, e4⟩ := upsert_exec D b t raw c cs keys upd (D.after s e.sent) source hs o ctx' hn ha hd hk hu hplain recs hr hlen
  have h1 := hD.upsert s recs hr hlen hdiff
  have h2 := hD.upsert (D.after s e.sent) recs hr hlen hdiff
  rw [← e2] at h1
  rw [← e4] at h2
  exact ⟨e3, upserts_again h2 (upserts_present he hk' hu' h1 hself hdiff)⟩

/-- **C79 (keeping).** With `DoNothing` (`InsertIgnoreInto`) what was there stays, and of the records those with new keys are added behind it, in
their order. -/
theorem C79_kept (D : Database) (b : Builder) (t : Tab) (raw : Str → Bool) (c : Str) (cs keys upd : List Str)
    (hD : Upsert.Understands D b.lang t (c :: cs) keys upd) (he : Lawful D.eq) (s : D.State) (source : Logging.LogSource) (hs : source.Usable)
    (o : Outside V) (ctx ctx' : Ctx) (zero : Fetching.Kind → V) (conv : Fetching.Kind → Scalar → Option V) (get : Fetching.Kind → Scalar → V)
    (kind : Str → Fetching.Kind)
    (hn : t.name ≠ []) (ha : b.lang = .mysql → t.alias = []) (hd : c ∉ cs) (hk : keys ≠ []) (hk' : ∀ k ∈ keys, k ∈ c :: cs)
    (recs : List (List Scalar)) (hr : recs ≠ []) (hlen : ∀ r ∈ recs, r.length = (c :: cs).length)
    (hdiff : recs.Pairwise fun r r' => same D.eq keys (given (c :: cs) r) (given (c :: cs) r') = false)
    (hconv : ∀ s' : D.State, ∀ r ∈ D.rows s', ∀ x ∈ c :: cs, conv (kind x) (r x) = some (get (kind x) (r x))) :
    let e := Sending.exec o (D.conn source s Ctx) (keepQuery b t raw (c :: cs) keys recs) ctx
    let f := fetch o (D.conn source (D.after s e.sent) Ctx) (fromQuery b t) zero conv (reads t raw kind (c :: cs)) ctx' []
    e.fin = .ok ∧ f.fin = .ok ∧
    f.trace = ((D.rows s).map fun r => (c :: cs).map fun x => get (kind x) (r x)) ++
      (recs.filter fun rec => !(D.rows s).any fun x => same D.eq keys x (given (c :: cs) rec)).map
        fun rec => ((c :: cs).zip rec).map fun x => get (kind x.1) x.2 := by
  intro e f
  obtain ⟨e1, e2⟩ := keep_exec D b t raw c cs keys s source hs o ctx hn ha hd hk recs hr hlen
  have hups := hD.keep s recs hr hlen hdiff
  rw [← e2] at hups
  have hf := all_fetched D b t raw c cs keys upd hD (D.after s e.sent) source hs o ctx' zero conv get kind hn (hconv _)
  obtain ⟨new, h1, h2⟩ := upserts_keep he hk' hups hdiff
  refine ⟨e1, hf.1, ?_⟩
  rw [show f.trace = _ from hf.2, h1, List.map_append, rec_of_row _ _ _ new _ h2]

/-! ### A database that understands the statements -/

/-- Storing records in memory. -/
def put (eq : Scalar → Scalar → Bool) (cols keys upd : List Str) : List Row → List (List Scalar) → List Row
  | rows, [] => rows
  | rows, rec :: recs =>
    if rows.any fun x => same eq keys x (given cols rec) then
      put eq cols keys upd (rows.map fun x => if same eq keys x (given cols rec) then Row.set x (upd.map fun c => (c, given cols rec c)) else x) recs
    else put eq cols keys upd (rows ++ [given cols rec]) recs

theorem put_upserts (eq : Scalar → Scalar → Bool) (cols keys upd : List Str) (hd : cols.Nodup) (recs : List (List Scalar))
    (hlen : ∀ r ∈ recs, r.length = cols.length) (rows : List Row) : Upserts eq cols keys upd rows recs (put eq cols keys upd rows recs) := by
  induction recs generalizing rows with
  | nil => exact .done rows
  | cons rec recs ih =>
    have ih := ih fun r hr => hlen r (List.mem_cons_of_mem _ hr)
    unfold put
    split
    · rename_i h
      exact .change _ _ _ _ (List.any_eq_true.1 h) (ih _)
    · rename_i h
      refine .add _ _ _ (given cols rec) _ (fun x hx => ?_) (map_set cols hd rec (hlen rec (List.mem_cons_self ..)) _) (ih _)
      cases hs : same eq keys x (given cols rec)
      · rfl
      · exact (h (List.any_eq_true.2 ⟨x, hx, hs⟩)).elim

/-- One table in memory; NULL equals nothing. -/
def store (l : Lang) (t : Tab) (cols keys upd : List Str) : Database :=
  { State := List Row
    exec := fun text args s =>
      let recs := pieces (cols.length - 1) ((scalars args).length / cols.length) (scalars args)
      (put (fun x y => decide (x = y ∧ x ≠ .nil)) cols keys (if text = keepText l t cols keys recs.length then [] else upd) s recs, 0, 0)
    query := fun _ _ s => s.map fun r => cols.map r
    rows := id
    eq := fun x y => decide (x = y ∧ x ≠ .nil) }

theorem store_lawful (l : Lang) (t : Tab) (cols keys upd : List Str) : Lawful (store l t cols keys upd).eq where
  symm := by
    intro x y h
    simp only [store, decide_eq_true_eq] at *
    exact ⟨h.1.symm, h.1 ▸ h.2⟩
  trans := by
    intro x y z h h'
    simp only [store, decide_eq_true_eq] at *
    exact ⟨h.1.trans h'.1, h.2⟩

theorem differ (a x y u v : Str) (p q : Char) (hpq : p ≠ q) (k1 k2 : Str) (h1 : k1 = a ++ p :: x) (h2 : k2 = a ++ q :: y) : k1 ++ u ≠ k2 ++ v := by
  subst h1 h2
  intro h
  rw [List.append_assoc, List.append_assoc] at h
  have := List.append_cancel_left h
  simp only [List.cons_append, List.cons.injEq] at this
  exact hpq this.1

theorem keep_ne (l : Lang) (t : Tab) (cols keys upd : List Str) (n : Nat) : ¬ (upsertText l t cols keys upd n = keepText l t cols keys n) := by
  intro h
  unfold upsertText at h
  by_cases hm : l = .mysql
  · subst hm
    rw [← insert_head, List.append_assoc] at h
    exact differ "INSERT I".toList "TO ".toList "NORE INTO ".toList _ _ 'N' 'G' (by decide) _ _ (by decide +kernel) (by decide +kernel) h
  · have hk : keepText l t cols keys n = insertText l t cols n ++ (" ON CONFLICT (".toList ++ (commas (keys.map (quoteIdentifier l.dialect)) ++ (") DO NOTHING".toList ++ []))) := by
      unfold keepText
      cases l
      · exact (hm rfl).elim
      all_goals (simp only [List.append_assoc, List.append_nil])
    have hc : changeText l keys upd = " ON CONFLICT (".toList ++ (commas (keys.map (quoteIdentifier l.dialect)) ++ (") DO UPDATE SET ".toList ++
        commas (upd.map fun c => quoteIdentifier l.dialect c ++ " = EXCLUDED.".toList ++ quoteIdentifier l.dialect c))) := by
      unfold changeText
      cases l
      · exact (hm rfl).elim
      all_goals (simp only [List.append_assoc])
    rw [hk, hc] at h
    exact differ ") DO ".toList "PDATE SET ".toList "OTHING".toList _ _ 'U' 'N' (by decide) _ _ (by decide +kernel) (by decide +kernel)
      (List.append_cancel_left (List.append_cancel_left (List.append_cancel_left h)))

theorem flatten_count (k : Nat) (recs : List (List Scalar)) (hlen : ∀ r ∈ recs, r.length = k + 1) : recs.flatten.length / (k + 1) = recs.length := by
  have : recs.flatten.length = recs.length * (k + 1) := by
    induction recs with
    | nil => simp
    | cons r rs ih =>
      rw [List.flatten_cons, List.length_append, ih fun x hx => hlen x (List.mem_cons_of_mem _ hx), hlen r (List.mem_cons_self ..),
        List.length_cons (as := rs), Nat.add_mul, Nat.one_mul, Nat.add_comm]
  rw [this, Nat.mul_div_cancel _ (by omega)]

/-- The hypotheses of the theorems are met. -/
theorem store_understands (l : Lang) (t : Tab) (c : Str) (cs keys upd : List Str) (hd : (c :: cs).Nodup) :
    Upsert.Understands (store l t (c :: cs) keys upd) l t (c :: cs) keys upd := by
  have hrecs : ∀ recs : List (List Scalar), (∀ r ∈ recs, r.length = (c :: cs).length) →
      pieces ((c :: cs).length - 1) ((scalars (recs.flatten.map .val)).length / (c :: cs).length) (scalars (recs.flatten.map .val)) = recs := by
    intro recs hlen
    rw [scalars_vals, show (c :: cs).length = cs.length + 1 from rfl, flatten_count cs.length recs hlen, Nat.add_sub_cancel, pieces_flatten _ _ hlen]
  refine ⟨?_, ?_, fun s => rfl⟩
  · intro (s : List Row) recs hr hlen _
    show Upserts _ _ _ _ s recs (put _ _ _ _ s _)
    rw [hrecs recs hlen, if_neg (keep_ne l t (c :: cs) keys upd recs.length)]
    exact put_upserts _ _ _ _ hd recs hlen s
  · intro (s : List Row) recs hr hlen _
    show Upserts _ _ _ _ s recs (put _ _ _ _ s _)
    rw [hrecs recs hlen, if_pos rfl]
    exact put_upserts _ _ _ _ hd recs hlen s

/-- An example: of two records one is there already. -/
example :
    let o : Outside Scalar := { value := { verb := .insert, goType := some .postgres, env := 0 }, own := fun _ => .other, getFields := fun _ => .err []
                                setFields := fun _ _ => .err [], name := fun _ => ([], .ok []), show_ := fun _ => .ok [] }
    let D := store .postgres people ["id".toList, "name".toList] ["id".toList] ["name".toList]
    let b : Builder := { lang := .postgres, env := none }
    let recs := [[.int 1, .str "anna".toList], [.int 2, .str "bob".toList]]
    let e := Sending.exec o (D.conn .noLogger [anybody] Unit) (upsertQuery b people (fun _ => false) ["id".toList, "name".toList] ["id".toList] ["name".toList] recs) ()
    let f := fetch o (D.conn .noLogger (D.after [anybody] e.sent) Unit) (fromQuery b people) (fun _ => Scalar.nil) (fun _ v => some v)
      (reads people (fun _ => false) (fun _ => .custom 0) ["id".toList, "name".toList]) () []
    e.sent = some ((), "INSERT INTO people (id, name) VALUES ($1, $2), ($3, $4) ON CONFLICT (id) DO UPDATE SET name = EXCLUDED.name".toList,
      [.val (.int 1), .val (.str "anna".toList), .val (.int 2), .val (.str "bob".toList)]) ∧
    f.trace = [[.int 1, .str "anna".toList], [.int 2, .str "bob".toList]] ∧
    recs.Pairwise (fun r r' => same D.eq ["id".toList] (given ["id".toList, "name".toList] r) (given ["id".toList, "name".toList] r') = false) ∧
    (∀ rec ∈ recs, same D.eq ["id".toList] (given ["id".toList, "name".toList] rec) (given ["id".toList, "name".toList] rec) = true) := by
  decide +kernel

end RoundTrip

end Sq.Upserting
