import Verif.Proof.Contents
import Verif.Proof.Placed
import Verif.Props.Catalog
/-
C46 and C69: what the metadata read from a database contains.
-/
namespace Ddl.Contents
open Ddl Spec Ddl.Declared

/-! ### Specification -/

/-- Names as they are in every database: tables have different names, so have views, and the columns of a table have different names; no name is empty.
(Constraints, indexes and triggers need no names.) -/
structure NamesOk (r : Introspected) : Prop where
  tables : ∀ t ∈ r.tables, t.tableName ≠ []
  tablesDistinct : r.tables.Pairwise fun a b => ¬ (a.tableSchema = b.tableSchema ∧ a.tableName = b.tableName)
  views : ∀ t ∈ r.views, t.viewName ≠ []
  viewsDistinct : r.views.Pairwise fun a b => ¬ (a.viewSchema = b.viewSchema ∧ a.viewName = b.viewName)
  columns : ∀ c ∈ r.columns, c.columnName ≠ []
  columnsDistinct : r.columns.Pairwise fun a b => ¬ (a.tableSchema = b.tableSchema ∧ a.tableName = b.tableName ∧ a.columnName = b.columnName)

/-- The rows are of objects only: the parts are in the rows of their own. -/
structure Bare (r : Introspected) : Prop where
  tables : ∀ t ∈ r.tables, t.ignore = false ∧ t.columns = [] ∧ t.constraints = [] ∧ t.indexes = [] ∧ t.triggers = []
  views : ∀ v ∈ r.views, v.ignore = false ∧ v.indexes = [] ∧ v.triggers = []
  columns : ∀ c ∈ r.columns, c.ignore = false ∧ c.isPrimaryKey = false ∧ c.isUnique = false

/-- A column, marked as primary key or unique if there is such a constraint on it alone. -/
def withMarks (cs : List Constraint) (c : Column) : Column :=
  { c with isPrimaryKey := cs.any fun k => k.constraintType = .primaryKey ∧ k.columns = [c.columnName]
           isUnique := cs.any fun k => k.constraintType = .unique ∧ k.columns = [c.columnName] }

/-- What is in the rows is in the metadata, and nothing else. -/
structure HasAll (d : DatabaseMetadata) (r : Introspected) : Prop where
  /-- The tables are those of the rows. -/
  tables : ∀ s n, table? d s n = none ↔ ∀ t ∈ r.tables, ¬ (t.tableSchema = s ∧ t.tableName = n)
  /-- Each has the columns, constraints, indexes and triggers that the rows say, in that order. -/
  table : ∀ t ∈ r.tables, ∃ t', table? d t.tableSchema t.tableName = some t' ∧ t'.tableSchema = t.tableSchema ∧ t'.tableName = t.tableName ∧
    t'.sql = t.sql ∧
    t'.columns = (r.columns.filter fun c => c.tableSchema = t.tableSchema ∧ c.tableName = t.tableName).map (withMarks t'.constraints) ∧
    t'.constraints = (r.constraints.filter fun c => c.tableSchema = t.tableSchema ∧ c.tableName = t.tableName) ∧
    t'.indexes = (r.indexes.filter fun c => c.tableSchema = t.tableSchema ∧ c.tableName = t.tableName) ∧
    t'.triggers = (r.triggers.filter fun c => c.tableSchema = t.tableSchema ∧ c.tableName = t.tableName)
  /-- The same for views. -/
  views : ∀ s n, view? d s n = none ↔ ∀ v ∈ r.views, ¬ (v.viewSchema = s ∧ v.viewName = n)
  view : ∀ v ∈ r.views, ∃ v', view? d v.viewSchema v.viewName = some v' ∧ v'.viewSchema = v.viewSchema ∧ v'.viewName = v.viewName ∧
    v'.isMaterialized = v.isMaterialized ∧ v'.sql = v.sql ∧
    ((∀ t ∈ r.tables, ¬ (t.tableSchema = v.viewSchema ∧ t.tableName = v.viewName)) →
      v'.indexes = r.indexes.filter fun x => x.tableSchema = v.viewSchema ∧ x.tableName = v.viewName) ∧
    v'.triggers = r.triggers.filter fun x => x.tableSchema = v.viewSchema ∧ x.tableName = v.viewName
  /-- The functions of a schema. -/
  functions : ∀ s, ((find d.schemas s).map Schema.functions).getD [] = r.functions.filter fun f => f.functionSchema = s

/-! ### Tables -/

theorem fold_columns (cs : List Column) (t : Table) : cs.foldl Table.appendColumn t =
    { t with columns := (cs.foldl (fun p x => appendItem p.1 p.2 x) (t.columns, t.columnCache)).1
             columnCache := (cs.foldl (fun p x => appendItem p.1 p.2 x) (t.columns, t.columnCache)).2 } := by
  induction cs generalizing t with
  | nil => rfl
  | cons c cs ih => rw [List.foldl_cons, ih]; rfl

theorem markBy_keeps_found (items : List Column) (cache : Cache Str) (h : AllFound items cache) (c : Constraint) : AllFound (items.map (markBy · c)) cache := by
  intro p x hx hi
  rw [List.getElem?_map, Option.map_eq_some_iff] at hx
  obtain ⟨y, hy, rfl⟩ := hx
  have hn := markBy_names y c
  have := h p y hy (hn.2.symm.trans hi)
  have hk : Entry.key (markBy y c) = Entry.key y := hn.1
  rw [hk]
  exact this

theorem fold_constraints (cs : List Constraint) (t : Table) (h : AllFound t.columns t.columnCache) :
    ∃ cache, cs.foldl (fun t c => markColumn (t.appendConstraint c) c) t =
      { t with columns := t.columns.map fun x => cs.foldl markBy x, constraints := t.constraints ++ cs, constraintCache := cache } := by
  induction cs generalizing t with
  | nil => exact ⟨t.constraintCache, by simp⟩
  | cons c cs ih =>
    rw [List.foldl_cons, markColumn_columns (t.appendConstraint c) h c]
    obtain ⟨cache, e⟩ := ih { (t.appendConstraint c) with columns := (t.appendConstraint c).columns.map (markBy · c) } (markBy_keeps_found _ _ h c)
    refine ⟨cache, e.trans ?_⟩
    simp [Table.appendConstraint, appendItem, Function.comp_def]

theorem fold_indexes (cs : List Index) (t : Table) : ∃ cache, cs.foldl Table.appendIndex t = { t with indexes := t.indexes ++ cs, indexCache := cache } := by
  induction cs generalizing t with
  | nil => exact ⟨t.indexCache, by simp⟩
  | cons c cs ih =>
    obtain ⟨cache, e⟩ := ih (t.appendIndex c)
    exact ⟨cache, by rw [List.foldl_cons, e]; simp [Table.appendIndex, appendItem]⟩

theorem fold_triggers (cs : List Trigger) (t : Table) : ∃ cache, cs.foldl Table.appendTrigger t = { t with triggers := t.triggers ++ cs, triggerCache := cache } := by
  induction cs generalizing t with
  | nil => exact ⟨t.triggerCache, by simp⟩
  | cons c cs ih =>
    obtain ⟨cache, e⟩ := ih (t.appendTrigger c)
    exact ⟨cache, by rw [List.foldl_cons, e]; simp [Table.appendTrigger, appendItem]⟩

theorem vfold_indexes (cs : List Index) (t : View) : ∃ cache, cs.foldl View.appendIndex t = { t with indexes := t.indexes ++ cs, indexCache := cache } := by
  induction cs generalizing t with
  | nil => exact ⟨t.indexCache, by simp⟩
  | cons c cs ih =>
    obtain ⟨cache, e⟩ := ih (t.appendIndex c)
    exact ⟨cache, by rw [List.foldl_cons, e]; simp [View.appendIndex, appendItem]⟩

theorem vfold_triggers (cs : List Trigger) (t : View) : ∃ cache, cs.foldl View.appendTrigger t = { t with triggers := t.triggers ++ cs, triggerCache := cache } := by
  induction cs generalizing t with
  | nil => exact ⟨t.triggerCache, by simp⟩
  | cons c cs ih =>
    obtain ⟨cache, e⟩ := ih (t.appendTrigger c)
    exact ⟨cache, by rw [List.foldl_cons, e]; simp [View.appendTrigger]⟩

theorem withMarks_eq (cs : List Constraint) (x : Column) (h : x.ignore = false ∧ x.isPrimaryKey = false ∧ x.isUnique = false) :
    cs.foldl markBy x = withMarks cs x := by
  rw [fold_markBy]
  simp [withMarks, h.1, h.2.1, h.2.2]

theorem assemble_eq (r : Introspected) (hr : NamesOk r) (hb : Bare r) (t : Table) (ht : t ∈ r.tables) :
    (assemble r t).tableSchema = t.tableSchema ∧ (assemble r t).tableName = t.tableName ∧ (assemble r t).sql = t.sql ∧
    (assemble r t).columns = (r.columns.filter fun c => c.tableSchema = t.tableSchema ∧ c.tableName = t.tableName).map (withMarks (assemble r t).constraints) ∧
    (assemble r t).constraints = (r.constraints.filter fun c => c.tableSchema = t.tableSchema ∧ c.tableName = t.tableName) ∧
    (assemble r t).indexes = (r.indexes.filter fun c => c.tableSchema = t.tableSchema ∧ c.tableName = t.tableName) ∧
    (assemble r t).triggers = (r.triggers.filter fun c => c.tableSchema = t.tableSchema ∧ c.tableName = t.tableName) := by
  obtain ⟨-, b1, b2, b3, b4⟩ := hb.tables t ht
  unfold assemble
  dsimp only
  generalize hcs : (r.columns.filter fun c => decide (c.tableSchema = t.tableSchema ∧ c.tableName = t.tableName)) = cs
  generalize (r.constraints.filter fun c => decide (c.tableSchema = t.tableSchema ∧ c.tableName = t.tableName)) = ks
  generalize (r.indexes.filter fun c => decide (c.tableSchema = t.tableSchema ∧ c.tableName = t.tableName)) = is
  generalize (r.triggers.filter fun c => decide (c.tableSchema = t.tableSchema ∧ c.tableName = t.tableName)) = gs
  have hf := fold_append_found t.columns t.columnCache cs (by rw [b1]; exact allFound_nil _)
    (fun x hx => by
      rw [← hcs] at hx
      show decide (x.columnName = []) = false
      simpa using hr.columns x (List.mem_filter.1 hx).1)
    (by
      rw [← hcs, List.pairwise_filter]
      refine hr.columnsDistinct.imp ?_
      intro a b hab ha hb he
      simp only [decide_eq_true_eq] at ha hb
      exact hab ⟨ha.1.trans hb.1.symm, ha.2.trans hb.2.symm, he⟩)
    (fun x hx => by rw [b1]; rfl)
  rw [b1, List.nil_append] at hf
  rw [fold_columns, b1, hf.2]
  obtain ⟨c1, e1⟩ := fold_constraints ks { t with columns := cs, columnCache := (cs.foldl (fun p x => appendItem p.1 p.2 x) ([], t.columnCache)).2 }
    (by have := hf.1; rw [hf.2] at this; exact this)
  rw [e1]
  obtain ⟨c2, e2⟩ := fold_indexes is _
  rw [e2]
  obtain ⟨c3, e3⟩ := fold_triggers gs _
  rw [e3]
  refine ⟨rfl, rfl, rfl, ?_, by simp [b2], by simp [b3], by simp [b4]⟩
  simp only [b2, List.nil_append]
  apply List.map_congr_left
  intro x hx
  rw [← hcs] at hx
  exact withMarks_eq ks x (hb.columns x (List.mem_filter.1 hx).1)

theorem rowsOk {r : Introspected} (hr : NamesOk r) (hb : Bare r) : RowsOk r :=
  ⟨fun t ht => ⟨hr.tables t ht, (hb.tables t ht).1⟩, hr.tablesDistinct, fun v hv => ⟨hr.views v hv, (hb.views v hv).1⟩, hr.viewsDistinct⟩

/-- **C46, contents.** `WithDB` puts everything the database reports where it belongs: each table has its columns, marked by the constraints on them, its
constraints, named or not, its indexes and triggers; each view its indexes and triggers; each schema its functions. -/
theorem C46_contents (dia : Dialect) (r : Introspected) (hr : NamesOk r) (hb : Bare r) (hf : dia ≠ .postgres → r.functions = []) : HasAll (withDB dia r) r := by
  obtain ⟨-, ht⟩ := withDB_table (dia := dia) (rowsOk hr hb)
  obtain ⟨hv, hfun⟩ := withDB_view (dia := dia) (rowsOk hr hb)
  have findT : ∀ t ∈ r.tables, (r.tables.find? fun t' => decide (t'.tableSchema = t.tableSchema ∧ t'.tableName = t.tableName)) = some t := by
    intro t hm
    have := hr.tablesDistinct
    generalize r.tables = ts at hm this
    induction ts with
    | nil => cases hm
    | cons x xs ih =>
      rw [List.pairwise_cons] at this
      rcases List.mem_cons.1 hm with rfl | hm'
      · rw [List.find?_cons_of_pos (by simp)]
      · rw [List.find?_cons_of_neg (by simpa using this.1 t hm')]
        exact ih hm' this.2
  have findV : ∀ t ∈ r.views, (r.views.find? fun t' => decide (t'.viewSchema = t.viewSchema ∧ t'.viewName = t.viewName)) = some t := by
    intro t hm
    have := hr.viewsDistinct
    generalize r.views = ts at hm this
    induction ts with
    | nil => cases hm
    | cons x xs ih =>
      rw [List.pairwise_cons] at this
      rcases List.mem_cons.1 hm with rfl | hm'
      · rw [List.find?_cons_of_pos (by simp)]
      · rw [List.find?_cons_of_neg (by simpa using this.1 t hm')]
        exact ih hm' this.2
  refine ⟨fun s n => ?_, fun t hm => ?_, fun s n => ?_, fun v hm => ?_, fun s => ?_⟩
  · rw [ht, Option.map_eq_none_iff, List.find?_eq_none]
    simp
  · refine ⟨assemble r t, ?_, assemble_eq r hr hb t hm⟩
    rw [ht, findT t hm]; rfl
  · rw [hv, Option.map_eq_none_iff, List.find?_eq_none]
    simp
  · refine ⟨assembleView r v, ?_, ?_⟩
    · rw [hv, findV v hm]; rfl
    · obtain ⟨-, b1, b2⟩ := hb.views v hm
      unfold assembleView
      dsimp only
      obtain ⟨c1, e1⟩ := vfold_indexes (if (r.tables.any fun t => decide (t.tableSchema = v.viewSchema ∧ t.tableName = v.viewName)) = true then []
        else r.indexes.filter fun x => decide (x.tableSchema = v.viewSchema ∧ x.tableName = v.viewName)) v
      rw [e1]
      obtain ⟨c2, e2⟩ := vfold_triggers (r.triggers.filter fun x => decide (x.tableSchema = v.viewSchema ∧ x.tableName = v.viewName)) _
      rw [e2]
      refine ⟨rfl, rfl, rfl, rfl, fun hno => ?_, by simp [b2]⟩
      have : (r.tables.any fun t => decide (t.tableSchema = v.viewSchema ∧ t.tableName = v.viewName)) = false := by
        rw [List.any_eq_false]
        intro t htm
        simpa using hno t htm
      show v.indexes ++ (if _ then _ else _) = _
      rw [if_neg (by rw [this]; simp), b1]
      rfl
  · show functionsOf (withDB dia r) s = _
    rw [hfun]
    by_cases hd : dia = .postgres
    · rw [if_pos hd]
    · rw [if_neg hd, hf hd]; rfl

end Ddl.Contents

namespace Ddl.Catalog
open Contents

theorem each_right {α β : Type} {R : α → β → Prop} {as : List α} {bs : List β} (h : Each R as bs) : ∀ b ∈ bs, ∃ a, R a b := by
  induction h with
  | nil => simp
  | cons h _ ih =>
    intro b hb
    rcases List.mem_cons.1 hb with rfl | hb
    · exact ⟨_, h⟩
    · exact ih b hb

theorem reported_bare (num : Str → Bool) (d : Dialect) (hd : Known d) (sv : Server) (r : Introspected) (h : Reported num d sv r) : Bare r := by
  refine ⟨fun t ht => ?_, fun v hv => ?_, fun c hc => ?_⟩
  · obtain ⟨rows, -, he⟩ := h.tables
    obtain ⟨row, hs⟩ := each_right he t ht
    rcases hd with rfl | rfl | rfl <;> obtain ⟨_, _, _, _, rfl⟩ := hs <;> exact ⟨rfl, rfl, rfl, rfl, rfl⟩
  · obtain ⟨rows, -, he⟩ := h.views
    obtain ⟨row, hs⟩ := each_right he v hv
    rcases hd with rfl | rfl | rfl
    · obtain ⟨_, _, _, _, _, _, rfl⟩ := hs; exact ⟨rfl, rfl, rfl⟩
    · obtain ⟨_, _, _, _, _, _, _, _, rfl⟩ := hs; exact ⟨rfl, rfl, rfl⟩
    · obtain ⟨_, _, _, _, _, _, rfl⟩ := hs; exact ⟨rfl, rfl, rfl⟩
  · obtain ⟨rows, -, he⟩ := h.columns
    obtain ⟨row, hs⟩ := each_right he c hc
    rcases hd with rfl | rfl | rfl
    · obtain ⟨_, _, _, _, _, _, _, _, _, _, _, _, rfl⟩ := hs; exact ⟨rfl, rfl, rfl⟩
    · obtain ⟨_, _, _, _, _, _, _, _, _, _, _, _, _, _, _, _, _, _, _, _, _, _, _, _, _, _, rfl⟩ := hs; exact ⟨rfl, rfl, rfl⟩
    · obtain ⟨_, _, _, _, _, _, _, _, _, _, _, _, _, _, _, _, _, _, _, _, _, _, _, _, _, _, _, _, rfl⟩ := hs; exact ⟨rfl, rfl, rfl⟩

/-- **C69, contents (partial).** After `WithDB` the metadata has exactly what the database reported: its tables with their columns, constraints, indexes and triggers, its views with
theirs, its functions; nothing is added, lost or put elsewhere.  Missing: a list of extensions that breaks off. -/
theorem C69_contents_partial (num : Str → Bool) (d : Dialect) (sv : Server) (hx : d = .postgres → ∃ rows, Reports sv d .extensions rows) (L : Loaded)
    (h : loadDB num d sv = .ok L) :
    ∃ r, Reported num d sv r ∧ L.metadata.dialect = some d ∧ L.metadata.currentSchema = r.currentSchema ∧ (NamesOk r → HasAll L.metadata r) := by
  obtain ⟨hd, -, -, -, r, hr, hm⟩ := (C69_database_partial num d sv hx L).1 h
  refine ⟨r, hr, by rw [hm]; exact withDB_dialect d r, by rw [hm]; exact withDB_currentSchema d r, fun hn => ?_⟩
  rw [hm]
  refine C46_contents d r hn (reported_bare num d hd sv r hr) fun hp => ?_
  have := hr.functions
  rw [if_neg hp] at this
  exact this

end Ddl.Catalog

namespace Ddl.Catalog
open Contents

/-! ### Views on SQLite -/

theorem after_skip (s rest : Str) (h : ' ' ∉ s) : after " AS ".toList (s ++ rest) = after " AS ".toList rest := by
  induction s with
  | nil => rfl
  | cons c cs ih =>
    simp only [List.mem_cons, not_or] at h
    have : (" AS ".toList).isPrefixOf (c :: (cs ++ rest)) = false := by
      show ((' ' == c) && _) = false
      simp [h.1]
    rw [List.cons_append, after, this, if_neg (by simp), ih h.2]

/-- **C69, views on SQLite (partial).** SQLite keeps the statement that created a view.  Of a view created by this package, under a name without blanks, the query is read back as it was written.
Missing: other names and statements, see `C69_view_query_violated`. -/
theorem C69_view_query_partial (v : View) (hs : v.viewSchema = []) (hm : v.isMaterialized = false)
    (hb : ' ' ∉ Sq.quoteIdentifier .sqlite v.viewName) (ha : Sq.quoteIdentifier .sqlite v.viewName ≠ "AS".toList) :
    ∃ raw, CreateViewCommand.sql .sqlite { view := v } = .ok raw ∧
      readView .sqlite [.text v.viewName, .text raw] = .ok { viewName := v.viewName, sql := v.sql } := by
  have hq : qualified .sqlite v.viewSchema v.viewName = Sq.quoteIdentifier .sqlite v.viewName := by rw [hs]; rfl
  refine ⟨"CREATE ".toList ++ ("VIEW ".toList ++ (Sq.quoteIdentifier .sqlite v.viewName ++ " AS ".toList ++ v.sql)), ?_, ?_⟩
  · unfold CreateViewCommand.sql
    rw [hq]
    simp only [hm]
    rfl
  · generalize Sq.quoteIdentifier .sqlite v.viewName = q at hb ha ⊢
    have key : after " AS ".toList ("CREATE ".toList ++ ("VIEW ".toList ++ (q ++ " AS ".toList ++ v.sql))) = some v.sql := by
      have e : "CREATE ".toList ++ ("VIEW ".toList ++ (q ++ " AS ".toList ++ v.sql)) =
          "CREATE".toList ++ (' ' :: ("VIEW".toList ++ (' ' :: (q ++ (' ' :: 'A' :: 'S' :: ' ' :: v.sql))))) := by simp
      have s1 : ∀ r : Str, after " AS ".toList (' ' :: ("VIEW".toList ++ r)) = after " AS ".toList ("VIEW".toList ++ r) := fun _ => rfl
      have s2 : after " AS ".toList (' ' :: (q ++ (' ' :: 'A' :: 'S' :: ' ' :: v.sql))) = after " AS ".toList (q ++ (' ' :: 'A' :: 'S' :: ' ' :: v.sql)) := by
        have : (" AS ".toList).isPrefixOf (' ' :: (q ++ (' ' :: 'A' :: 'S' :: ' ' :: v.sql))) = false := by
          match q, ha, hb with
          | [], _, _ => rfl
          | [a], _, hb => 
            show ((' ' == ' ') && (('A' == a) && (('S' == ' ') && _))) = false
            simp
          | [a, b], ha, _ =>
            show ((' ' == ' ') && (('A' == a) && (('S' == b) && ((' ' == ' ') && true)))) = false
            by_cases h1 : a = 'A'
            · by_cases h2 : b = 'S'
              · subst h1 h2; exact absurd rfl ha
              · have : ('S' == b) = false := by simpa using Ne.symm h2
                simp [this]
            · have : ('A' == a) = false := by simpa using Ne.symm h1
              simp [this]
          | a :: b :: c :: r, _, hb =>
            simp only [List.mem_cons, not_or] at hb
            show ((' ' == ' ') && (('A' == a) && (('S' == b) && ((' ' == c) && _)))) = false
            have : (' ' == c) = false := by simpa using hb.2.2.1
            simp [this]
        rw [after, this, if_neg (by simp)]
      rw [e, after_skip _ _ (by decide), s1, after_skip _ _ (by decide), s2, after_skip _ _ hb]
      rfl
    unfold readView
    simp only [viewDests, scan, scanInto, Dest.assign, Cell.toText, Option.map_some, Option.bind_some, Res.map_ok, key]

example : ' ' ∉ Sq.quoteIdentifier .sqlite "active_film".toList ∧ Sq.quoteIdentifier .sqlite "active_film".toList ≠ "AS".toList := by decide +kernel

/-- The query is wrong if ` AS ` occurs in the name of the view, or if there is no blank around the first AS: of a statement written on several lines an alias
in the query is taken for the start of the query. -/
theorem C69_view_query_violated :
    (∃ raw, CreateViewCommand.sql .sqlite { view := { viewName := "known AS x".toList, sql := "SELECT 1".toList } } = .ok raw ∧
      readView .sqlite [.text "known AS x".toList, .text raw] = .ok { viewName := "known AS x".toList, sql := "x\" AS SELECT 1".toList }) ∧
    readView .sqlite [.text "v".toList, .text "CREATE VIEW v\nAS\nSELECT a AS b FROM t".toList] = .ok { viewName := "v".toList, sql := "b FROM t".toList } := by
  refine ⟨⟨_, rfl, ?_⟩, ?_⟩ <;> decide +kernel

/-! ### Example -/

/-- A SQLite database with one table, one view and one index. -/
def filmServer : Server where
  answer
    | .sql "SELECT sqlite_version()" => some { rows := [[.text "3.35.4".toList]] }
    | .sql "SELECT file FROM pragma_database_list WHERE name = 'main'" => some { rows := [[.text "/tmp/film.db".toList]] }
    | .script "sqlite_tables.sql" => some { rows := [[.text "film".toList, .text "CREATE TABLE film (id INTEGER PRIMARY KEY, title TEXT DEFAULT 'x')".toList]] }
    | .script "sqlite_columns.sql" => some { rows :=
        [[.text "film".toList, .text "id".toList, .text "INTEGER".toList, .int 0, .text []],
         [.text "film".toList, .text "title".toList, .text "TEXT".toList, .int 1, .text "'x'".toList]] }
    | .script "sqlite_constraints.sql" => some { rows :=
        [[.text "film".toList, .text "PRIMARY KEY".toList, .text "id".toList, .text [], .text [], .text [], .text []],
         [.text "film".toList, .text "UNIQUE".toList, .text "title".toList, .text [], .text [], .text [], .text []]] }
    | .script "sqlite_indexes.sql" => some { rows :=
        [[.text "film".toList, .text "film_title_idx".toList, .int 0, .text "title".toList, .text "CREATE INDEX film_title_idx ON film (title)".toList]] }
    | .script "sqlite_views.sql" => some { rows := [[.text "titles".toList, .text "CREATE VIEW titles AS SELECT title AS t FROM film".toList]] }
    | .script "sqlite_triggers.sql" => some { rows := [] }
    | _ => none

/-- `WithDB` reads all of it: the hypotheses of the theorems above are met, and this is what they say. -/
example : (loadDB (fun _ => false) .sqlite filmServer).map (fun L => L.versionNums) = .ok [3, 35, 4] := by decide +kernel

example : (loadDB (fun _ => false) .sqlite filmServer).map (fun L => (Spec.table? L.metadata [] "film".toList).map fun t =>
      t.columns.map fun c => (c.columnName, c.isPrimaryKey, c.isUnique)) =
    .ok (some [("id".toList, true, false), ("title".toList, false, true)]) := by decide +kernel

example : (loadDB (fun _ => false) .sqlite filmServer).map (fun L => (Spec.table? L.metadata [] "film".toList).map fun t =>
      (t.constraints.map Constraint.constraintName, t.indexes.map Index.indexName)) = .ok (some ([[], []], ["film_title_idx".toList])) := by decide +kernel

example : (loadDB (fun _ => false) .sqlite filmServer).map (fun L => (Spec.view? L.metadata [] "titles".toList).map View.sql) =
    .ok (some "SELECT title AS t FROM film".toList) := by decide +kernel

example : ∀ L, loadDB (fun _ => false) .sqlite { filmServer with alive := false } ≠ .ok L := by
  intro L h
  obtain ⟨-, h, -⟩ := (C69_database_partial _ _ _ (by simp) L).1 h
  cases h

end Ddl.Catalog
