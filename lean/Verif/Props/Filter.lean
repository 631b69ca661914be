import Verif.Spec.Filter
import Verif.Props.Quote
/-
C53: the rows an introspection query returns are the ones its filter asks for.
-/
namespace Ddl.Filt
open Ddl Spec.Filter

/-! ### Lists of names -/

/-- Without backslashes both scanners agree. -/
theorem scanBackslash_eq (q : Char) : ∀ (s : Str), '\\' ∉ s → Spec.scanBackslash q s = Spec.scan q s
  | [], _ => rfl
  | [_], _ => rfl
  | c :: d :: rest, h => by
    have hc : c ≠ '\\' := by intro e; exact h (by simp [e])
    have h1 := scanBackslash_eq q rest (by simp at h ⊢; exact h.2.2)
    have h2 := scanBackslash_eq q (d :: rest) (by simp at h ⊢; exact h.2)
    simp only [Spec.scanBackslash, Spec.scan, hc, if_false, h1, h2]

theorem escape_mem (q c : Char) : ∀ (s : Str), c ∈ Sq.escapeQuote q s → c = q ∨ c ∈ s
  | [] => by simp [Sq.escapeQuote]
  | [a] => by
    simp only [Sq.escapeQuote]; split <;> simp +contextual
  | [a, b] => by
    have := escape_mem q c [b]
    simp only [Sq.escapeQuote] at this ⊢
    split <;> split <;> simp_all <;> grind
  | a :: b :: e :: rest => by
    have h1 := escape_mem q c (e :: rest)
    have h2 := escape_mem q c (b :: e :: rest)
    simp only [Sq.escapeQuote]
    split
    · split
      · grind
      · grind
    · grind

theorem printList_backslash : ∀ (ns : List Str), (∀ n ∈ ns, '\\' ∉ n) → '\\' ∉ printList ns
  | [], _ => by simp [printList]
  | [s], h => by
    intro hm
    simp only [printList, List.mem_cons, List.mem_append, List.not_mem_nil, or_false] at hm
    rcases hm with hm | hm | hm
    · exact absurd hm (by decide)
    · rcases escape_mem _ _ _ hm with e | e
      · exact absurd e (by decide)
      · exact h s (by simp) e
    · exact absurd hm (by decide)
  | s :: t :: rest, h => by
    have ih := printList_backslash (t :: rest) (fun n hn => h n (by simp at hn ⊢; exact .inr hn))
    intro hm
    simp only [printList, List.mem_cons, List.mem_append, List.not_mem_nil, or_false,
      List.cons_append] at hm
    rcases hm with hm | (hm | hm) | hm | hm | hm
    · exact absurd hm (by decide)
    · rcases escape_mem _ _ _ hm with e | e
      · exact absurd e (by decide)
      · exact h s (by simp) e
    · exact absurd hm (by decide)
    · exact absurd hm (by decide)
    · exact absurd hm (by decide)
    · exact ih (by simpa [printList] using hm)

/-- `literal` on a text without MySQL backslashes. -/
theorem literal_eq (d : Dialect) (s : Str) (h : d = .mysql → '\\' ∉ s) :
    literal d s = Spec.scan '\'' s := by
  cases d <;> first | rfl | exact scanBackslash_eq _ _ (h rfl)

/-- The text `printList` writes denotes the names it was given. -/
theorem printList_denotes (d : Dialect) : ∀ (ns : List Str), ns ≠ [] → (∀ n ∈ ns, Plain d n) →
    NameList d (printList ns) ns
  | [], h, _ => absurd rfl h
  | [s], _, h => by
    have hb : d = .mysql → '\\' ∉ Sq.escapeQuote '\'' s ++ ['\''] := fun e hm => by
      have := printList_backslash [s] (fun n hn => (h n hn).2 e)
      exact this (by simp only [printList]; exact .tail _ hm)
    refine NameList.one ?_
    rw [literal_eq d _ hb]
    exact (Sq.C02_lossless_partial '\'' s [] (by simp)).2 (h s (by simp)).1
  | s :: t :: rest, _, h => by
    have hb : d = .mysql →
        '\\' ∉ Sq.escapeQuote '\'' s ++ '\'' :: ',' :: ' ' :: printList (t :: rest) := fun e hm => by
      have := printList_backslash (s :: t :: rest) (fun n hn => (h n hn).2 e)
      apply this
      simp only [printList, List.cons_append, List.append_assoc, List.nil_append]
      exact .tail _ hm
    have hl := (Sq.C02_lossless_partial '\'' s (',' :: ' ' :: printList (t :: rest)) (by simp)).2
      (h s (by simp)).1
    rw [← literal_eq d _ hb] at hl
    have := NameList.cons hl (printList_denotes d (t :: rest) (by simp) (fun n hn => h n (by simp at hn ⊢; exact .inr hn)))
    simpa [printList] using this

/-- A text denotes at most one list of names. -/
theorem nameList_unique (d : Dialect) {t : Str} {ns : List Str} (h : NameList d t ns) :
    ∀ {ms}, NameList d t ms → ns = ms := by
  induction h with
  | one h1 =>
    intro ms hm
    cases hm with
    | one h2 => rw [h1] at h2; simp at h2; simp [h2]
    | cons h2 _ => rw [h1] at h2; simp at h2
  | cons h1 _ ih =>
    intro ms hm
    cases hm with
    | one h2 => rw [h1] at h2; simp at h2
    | cons h2 h3 =>
      rw [h1] at h2; simp at h2
      obtain ⟨a, b⟩ := h2
      subst b
      rw [ih h3, a]

theorem exists_names (d : Dialect) {t : Str} {ns : List Str} (h : NameList d t ns) (P : List Str → Prop) :
    (∃ ms, NameList d t ms ∧ P ms) ↔ P ns :=
  ⟨fun ⟨ms, h1, h2⟩ => nameList_unique d h h1 ▸ h2, fun h2 => ⟨ns, h, h2⟩⟩

/-! ### LIKE -/

theorem like_all (fold : Char → Char) (s : Str) : Like fold ['%'] s := by
  have := Like.any (fold := fold) s Like.nil
  simpa using this

/-- A pattern `prefix%` without wildcards in the prefix. -/
theorem like_prefix (fold : Char → Char) : ∀ (p s : Str), '%' ∉ p → '_' ∉ p → ∀ q,
    (Like fold (p ++ q) s ↔ ∃ a b, s = a ++ b ∧ a.map fold = p.map fold ∧ Like fold q b)
  | [], s, _, _, q => by
    constructor
    · intro h; exact ⟨[], s, rfl, rfl, h⟩
    · rintro ⟨a, b, rfl, h, h2⟩
      have : a = [] := by simpa using h
      subst this; exact h2
  | c :: p, s, h1, h2, q => by
    have hc1 : c ≠ '%' := by intro e; exact h1 (by simp [e])
    have hc2 : c ≠ '_' := by intro e; exact h2 (by simp [e])
    have h1' : '%' ∉ p := fun h => h1 (.tail _ h)
    have h2' : '_' ∉ p := fun h => h2 (.tail _ h)
    constructor
    · intro h
      cases h with
      | any => exact absurd rfl hc1
      | single => exact absurd rfl hc2
      | char _ _ hf hl =>
        rename_i s' d _ _
        obtain ⟨a, b, e, e2, e3⟩ := (like_prefix fold p s' h1' h2' q).1 hl
        exact ⟨d :: a, b, by simp [e], by simp [e2, hf], e3⟩
    · rintro ⟨a, b, e, e2, e3⟩
      cases a with
      | nil => simp at e2
      | cons d a =>
        simp only [List.map_cons, List.cons.injEq] at e2
        subst e
        exact Like.char hc1 hc2 e2.1.symm ((like_prefix fold p (a ++ b) h1' h2' q).2 ⟨a, b, rfl, e2.2, e3⟩)

theorem like_single (fold : Char → Char) (q s : Str) :
    Like fold ('_' :: q) s ↔ ∃ c t, s = c :: t ∧ Like fold q t := by
  constructor
  · intro h
    cases h with
    | single c h => exact ⟨_, _, rfl, h⟩
    | char _ h2 => exact absurd rfl h2
  · rintro ⟨c, t, rfl, h⟩; exact Like.single c h

theorem like_pg (s : Str) : Like id "pg_%".toList s ↔ ∃ x rest, s = "pg".toList ++ x :: rest := by
  have := like_prefix id "pg".toList s (by decide) (by decide) ['_', '%']
  refine this.trans ⟨?_, ?_⟩
  · rintro ⟨a, b, rfl, h1, h2⟩
    obtain ⟨c, t, rfl, -⟩ := (like_single _ _ _).1 h2
    simp only [List.map_id] at h1
    exact ⟨c, t, by rw [h1]⟩
  · rintro ⟨x, rest, rfl⟩
    exact ⟨_, _, rfl, rfl, (like_single _ _ _).2 ⟨_, _, rfl, like_all _ _⟩⟩

theorem like_sqlite (s : Str) :
    Like Char.toLower "sqlite_%".toList s ↔ ∃ a c rest, s = a ++ c :: rest ∧ EqFold a "sqlite".toList := by
  have := like_prefix Char.toLower "sqlite".toList s (by decide) (by decide) ['_', '%']
  refine this.trans ⟨?_, ?_⟩
  · rintro ⟨a, b, rfl, h1, h2⟩
    obtain ⟨c, t, rfl, -⟩ := (like_single _ _ _).1 h2
    exact ⟨a, c, t, rfl, h1⟩
  · rintro ⟨a, c, rest, rfl, h⟩
    exact ⟨_, _, rfl, h, (like_single _ _ _).2 ⟨_, _, rfl, like_all _ _⟩⟩

theorem like_create (s : Str) :
    Like Char.toLower "CREATE TABLE '%".toList s ↔
      ∃ a rest, s = a ++ rest ∧ EqFold a "CREATE TABLE '".toList := by
  have := like_prefix Char.toLower "CREATE TABLE '".toList s (by decide) (by decide) ['%']
  refine this.trans ⟨?_, ?_⟩
  · rintro ⟨a, b, rfl, h1, h2⟩; exact ⟨a, b, rfl, h1⟩
  · rintro ⟨a, rest, rfl, h⟩; exact ⟨_, _, rfl, h, like_all _ _⟩

/-! ### WHERE clauses -/

/-- The conditions a line contributes. -/
def Line.conds (f : Filter) : Line → List Cond
  | .fixed => [.fixed]
  | .system _ cs => if f.includeSystem then [] else cs
  | .isIn guard col list => if (guard f).isEmpty then [] else [.isIn col (printList (list f))]
  | .notIn guard col list => if (guard f).isEmpty then [] else [.notIn col (printList (list f))]

/-- A line that can follow another condition. -/
def Line.follows : Line → Bool
  | .fixed => false
  | .system lead cs => lead && !cs.isEmpty
  | _ => true

theorem intersperse_append {α : Type} (x : α) : ∀ (a b : List α), a ≠ [] → b ≠ [] →
    (a ++ b).intersperse x = a.intersperse x ++ x :: b.intersperse x
  | [c], b, _, hb => by
    cases b with
    | nil => exact absurd rfl hb
    | cons d b => simp [List.intersperse]
  | c :: d :: a, b, _, hb => by
    have := intersperse_append x (d :: a) b (by simp) hb
    simp only [List.cons_append] at this ⊢
    simp [this]

theorem render_follow (f : Filter) (cs : List Cond) (hcs : cs ≠ []) (l : Line) (hl : Line.follows l = true) :
    (cs.map Tok.cond).intersperse .and ++ l.render f = ((cs ++ Line.conds f l).map Tok.cond).intersperse .and := by
  have hne : cs.map Tok.cond ≠ [] := by simpa using hcs
  cases l with
  | fixed => simp [Line.follows] at hl
  | system lead xs =>
    simp only [Line.follows, Bool.and_eq_true, Bool.not_eq_true', List.isEmpty_eq_false_iff] at hl
    simp only [Line.render, Line.conds, hl.1, if_true]
    split
    · simp
    · rw [List.map_append, intersperse_append _ _ _ hne (by simpa using hl.2)]; simp
  | isIn g c li =>
    simp only [Line.render, Line.conds]
    split
    · simp
    · rw [List.map_append, intersperse_append _ _ _ hne (by simp)]; simp
  | notIn g c li =>
    simp only [Line.render, Line.conds]
    split
    · simp
    · rw [List.map_append, intersperse_append _ _ _ hne (by simp)]; simp

theorem render_lines (f : Filter) : ∀ (ls : List Line) (cs : List Cond), cs ≠ [] →
    (∀ l ∈ ls, Line.follows l = true) →
    (cs.map Tok.cond).intersperse .and ++ renderWhere f ls
      = ((cs ++ ls.flatMap (Line.conds f)).map Tok.cond).intersperse .and
  | [], cs, _, _ => by simp [renderWhere]
  | l :: ls, cs, h, hl => by
    have h1 := render_follow f cs h l (hl l (by simp))
    have h2 := render_lines f ls (cs ++ Line.conds f l) (by simp [h]) (fun x hx => hl x (by simp [hx]))
    simp only [renderWhere, List.flatMap_cons] at h2 ⊢
    rw [← List.append_assoc, h1, h2]; simp

/-- What one `IN` line asks of a row. -/
theorem isIn_line (d : Dialect) (f : Filter) (g : Filter → List Str) (c : String)
    (h : ∀ n ∈ g f, Plain d n) (row : Row) :
    (∀ x ∈ Line.conds f (.isIn g c g), Parses d x) ∧
    ((∀ x ∈ Line.conds f (.isIn g c g), Holds d row x) ↔ (g f ≠ [] → row.col c ∈ g f)) := by
  simp only [Line.conds]
  by_cases he : (g f).isEmpty
  · simp [he]; intro hn; simp at he; exact absurd he hn
  · have hn : g f ≠ [] := by simpa using he
    have hd := printList_denotes d _ hn h
    simp only [he, Bool.false_eq_true, if_false, List.mem_singleton, forall_eq, Holds, Parses]
    exact ⟨⟨_, hd⟩, by simp [exists_names d hd (fun ns => row.col c ∈ ns), hn]⟩

theorem notIn_line (d : Dialect) (f : Filter) (g : Filter → List Str) (c : String)
    (h : ∀ n ∈ g f, Plain d n) (row : Row) :
    (∀ x ∈ Line.conds f (.notIn g c g), Parses d x) ∧
    ((∀ x ∈ Line.conds f (.notIn g c g), Holds d row x) ↔ row.col c ∉ g f) := by
  simp only [Line.conds]
  by_cases he : (g f).isEmpty
  · simp [he]; simp at he; simp [he]
  · have hn : g f ≠ [] := by simpa using he
    have hd := printList_denotes d _ hn h
    simp only [he, Bool.false_eq_true, if_false, List.mem_singleton, forall_eq, Holds, Parses]
    exact ⟨⟨_, hd⟩, by simp [exists_names d hd (fun ns => row.col c ∉ ns)]⟩

theorem selects_lines (d : Dialect) (f : Filter) (l0 : Line) (ls : List Line) (P : Row → Prop)
    (h0 : Line.conds f l0 ≠ [])
    (hr : Line.render f l0 = ((Line.conds f l0).map Tok.cond).intersperse .and)
    (hl : ∀ l ∈ ls, Line.follows l = true)
    (hp : ∀ l ∈ l0 :: ls, ∀ x ∈ Line.conds f l, Parses d x)
    (h : ∀ row : Row, (∀ l ∈ l0 :: ls, ∀ x ∈ Line.conds f l, Holds d row x) ↔ P row) :
    Selects d (renderWhere f (l0 :: ls)) P := by
  refine ⟨(l0 :: ls).flatMap (Line.conds f), ⟨by simp [h0], ?_, ?_⟩, ?_⟩
  · have := render_lines f ls (Line.conds f l0) h0 hl
    simp only [renderWhere, List.flatMap_cons] at this ⊢
    rw [hr, this]
  · intro c hc
    simp only [List.mem_flatMap] at hc
    obtain ⟨l, hl', hc⟩ := hc
    exact hp l hl' c hc
  · intro row
    rw [← h row]
    simp only [List.mem_flatMap]
    exact ⟨fun h l hl x hx => h x ⟨l, hl, hx⟩, fun h x ⟨l, hl, hx⟩ => h l hl x hx⟩

theorem fixed_conds (d : Dialect) (f : Filter) (row : Row) :
    (∀ x ∈ Line.conds f .fixed, Parses d x) ∧
    ((∀ x ∈ Line.conds f .fixed, Holds d row x) ↔ row.fixed) := by
  simp [Line.conds, Parses, Holds]

theorem postgres_system (f : Filter) (c : String) (row : Row) :
    (∀ x ∈ Line.conds f (postgresSystem c), Parses .postgres x) ∧
    ((∀ x ∈ Line.conds f (postgresSystem c), Holds .postgres row x) ↔
      (f.includeSystem = true ∨ ¬ (row.col c = "information_schema".toList ∨
        ∃ x rest, row.col c = "pg".toList ++ x :: rest))) := by
  simp only [Line.conds, postgresSystem]
  by_cases h : f.includeSystem = true
  · simp only [h, if_true]; simp
  · simp only [h, Bool.false_eq_true, if_false, List.mem_cons, List.not_mem_nil, or_false, forall_eq_or_imp,
      forall_eq, Parses, Holds, likeFold, like_pg, false_or, not_or, and_self, and_true, ne_eq]

theorem sqlite_system (f : Filter) (row : Row) :
    (∀ x ∈ Line.conds f sqliteSystem, Parses .sqlite x) ∧
    ((∀ x ∈ Line.conds f sqliteSystem, Holds .sqlite row x) ↔
      (f.includeSystem = true ∨ ¬ Hidden .sqlite ⟨none, "tbl_name", true⟩ row)) := by
  simp only [Line.conds, sqliteSystem]
  by_cases h : f.includeSystem = true
  · simp only [h, if_true]; simp
  · have hf : likeFold .sqlite = Char.toLower := rfl
    simp only [h, Bool.false_eq_true, if_false, List.mem_cons, List.not_mem_nil, or_false, forall_eq_or_imp,
      forall_eq, Parses, Holds, hf, like_sqlite, like_create, Hidden, false_or, not_or, and_self]

theorem mysql_names : NameList .mysql "'mysql', 'information_schema', 'performance_schema', 'sys'".toList
    ["mysql".toList, "information_schema".toList, "performance_schema".toList, "sys".toList] := by
  refine NameList.cons (more := "'information_schema', 'performance_schema', 'sys'".toList) (by decide) ?_
  refine NameList.cons (more := "'performance_schema', 'sys'".toList) (by decide) ?_
  refine NameList.cons (more := "'sys'".toList) (by decide) ?_
  exact NameList.one (by decide)

theorem mysql_system (f : Filter) (lead : Bool) (c : String) (row : Row) :
    (∀ x ∈ Line.conds f (mysqlSystem lead c), Parses .mysql x) ∧
    ((∀ x ∈ Line.conds f (mysqlSystem lead c), Holds .mysql row x) ↔
      (f.includeSystem = true ∨ row.col c ∉
        ["mysql".toList, "information_schema".toList, "performance_schema".toList, "sys".toList])) := by
  simp only [Line.conds, mysqlSystem]
  by_cases h : f.includeSystem = true
  · simp only [h, if_true]; simp
  · simp only [h, Bool.false_eq_true, if_false, List.mem_cons, List.not_mem_nil, or_false,
      forall_eq, Parses, Holds, false_or]
    exact ⟨⟨_, mysql_names⟩, exists_names _ mysql_names (fun ns => row.col c ∉ ns) |>.trans (by simp)⟩

theorem selects_postgres (f : Filter) (h : PlainFilter .postgres f) (k : Kind) (hk : k ≠ .functions)
    (s t : String) :
    Selects .postgres (renderWhere f (postgresBlock s t))
      (Wanted .postgres k ⟨some s, t, true⟩ f) := by
  have h1 := fun row => isIn_line .postgres f Filter.withSchemas s (fun n hn => h n (by simp [hn])) row
  have h2 := fun row => notIn_line .postgres f Filter.withoutSchemas s (fun n hn => h n (by simp [hn])) row
  have h3 := fun row => isIn_line .postgres f Filter.withTables t (fun n hn => h n (by simp [hn])) row
  have h4 := fun row => notIn_line .postgres f Filter.withoutTables t (fun n hn => h n (by simp [hn])) row
  have h5 := postgres_system f s
  have h6 := fixed_conds .postgres f
  have hw : wantedNames f k = f.withTables := by cases k <;> first | rfl | exact absurd rfl hk
  have hu : unwantedNames f k = f.withoutTables := by cases k <;> first | rfl | exact absurd rfl hk
  have r0 : Row := ⟨fun _ => [], True⟩
  refine selects_lines _ _ _ _ _ (by simp [Line.conds]) rfl (by simp [Line.follows, postgresSystem]) ?_ ?_
  · simp only [List.mem_cons, List.not_mem_nil, or_false, forall_eq_or_imp, forall_eq]
    exact ⟨(h6 r0).1, (h5 r0).1, (h1 r0).1, (h2 r0).1, (h3 r0).1, (h4 r0).1⟩
  · intro row
    simp only [List.mem_cons, List.not_mem_nil, or_false, forall_eq_or_imp, forall_eq, (h1 row).2, (h2 row).2,
      (h3 row).2, (h4 row).2, (h5 row).2, (h6 row).2, Wanted, Hidden, hw, hu, Option.some.injEq]
    simp [and_assoc]

theorem selects_columns (f : Filter) (h : PlainFilter .postgres f) (hc : f.withoutTables = []) :
    Selects .postgres (renderWhere f postgresColumnsBlock)
      (Wanted .postgres .columns ⟨some "schemas.nspname", "tables.relname", true⟩ f) := by
  have h1 := selects_postgres f h .columns (by decide) "schemas.nspname" "tables.relname"
  have : renderWhere f postgresColumnsBlock
      = renderWhere f (postgresBlock "schemas.nspname" "tables.relname") := by
    simp [renderWhere, postgresColumnsBlock, postgresBlock, Line.render, hc]
  rw [this]; exact h1

theorem selects_functions (f : Filter) (h : PlainFilter .postgres f) :
    Selects .postgres (renderWhere f postgresFunctionsBlock)
      (Wanted .postgres .functions ⟨some "schemas.nspname", "proc1.proname", true⟩ f) := by
  have h1 := fun row => isIn_line .postgres f Filter.withSchemas "schemas.nspname"
    (fun n hn => h n (by simp [hn])) row
  have h2 := fun row => notIn_line .postgres f Filter.withoutSchemas "schemas.nspname"
    (fun n hn => h n (by simp [hn])) row
  have h3 := fun row => isIn_line .postgres f Filter.withFunctions "proc1.proname"
    (fun n hn => h n (by simp [hn])) row
  have h4 := fun row => notIn_line .postgres f Filter.withoutFunctions "proc1.proname"
    (fun n hn => h n (by simp [hn])) row
  have h5 := postgres_system f "schemas.nspname"
  have h6 := fixed_conds .postgres f
  have r0 : Row := ⟨fun _ => [], True⟩
  refine selects_lines _ _ _ _ _ (by simp [Line.conds]) rfl (by simp [Line.follows, postgresSystem]) ?_ ?_
  · simp only [List.mem_cons, List.not_mem_nil, or_false, forall_eq_or_imp, forall_eq]
    exact ⟨(h6 r0).1, (h5 r0).1, (h1 r0).1, (h2 r0).1, (h3 r0).1, (h4 r0).1⟩
  · intro row
    simp only [List.mem_cons, List.not_mem_nil, or_false, forall_eq_or_imp, forall_eq, (h1 row).2, (h2 row).2,
      (h3 row).2, (h4 row).2, (h5 row).2, (h6 row).2, Wanted, Hidden, wantedNames, unwantedNames,
      Option.some.injEq]
    simp [and_assoc]

theorem selects_mysql (f : Filter) (h : PlainFilter .mysql f) (k : Kind) (hk : k ≠ .functions)
    (s t : String) :
    Selects .mysql (renderWhere f (mysqlBlock s t)) (Wanted .mysql k ⟨some s, t, true⟩ f) := by
  have h1 := fun row => isIn_line .mysql f Filter.withSchemas s (fun n hn => h n (by simp [hn])) row
  have h2 := fun row => notIn_line .mysql f Filter.withoutSchemas s (fun n hn => h n (by simp [hn])) row
  have h3 := fun row => isIn_line .mysql f Filter.withTables t (fun n hn => h n (by simp [hn])) row
  have h4 := fun row => notIn_line .mysql f Filter.withoutTables t (fun n hn => h n (by simp [hn])) row
  have h5 := mysql_system f true s
  have h6 := fixed_conds .mysql f
  have hw : wantedNames f k = f.withTables := by cases k <;> first | rfl | exact absurd rfl hk
  have hu : unwantedNames f k = f.withoutTables := by cases k <;> first | rfl | exact absurd rfl hk
  have r0 : Row := ⟨fun _ => [], True⟩
  refine selects_lines _ _ _ _ _ (by simp [Line.conds]) rfl (by simp [Line.follows, mysqlSystem]) ?_ ?_
  · simp only [List.mem_cons, List.not_mem_nil, or_false, forall_eq_or_imp, forall_eq]
    exact ⟨(h6 r0).1, (h5 r0).1, (h1 r0).1, (h2 r0).1, (h3 r0).1, (h4 r0).1⟩
  · intro row
    have h5' := (h5 row).2
    simp only [List.mem_cons, List.not_mem_nil, or_false] at h5'
    simp only [List.mem_cons, List.not_mem_nil, or_false, forall_eq_or_imp, forall_eq, (h1 row).2, (h2 row).2,
      (h3 row).2, (h4 row).2, (h6 row).2, Wanted, Hidden, hw, hu, Option.some.injEq]
    rw [h5']
    simp [and_assoc]

theorem selects_checks (f : Filter) (h : PlainFilter .mysql f) (hf : f.includeSystem = false) :
    Selects .mysql (renderWhere f mysqlChecksBlock)
      (Wanted .mysql .constraints ⟨some "tc.table_schema", "tc.table_name", false⟩ f) := by
  have h1 := fun row => isIn_line .mysql f Filter.withSchemas "tc.table_schema"
    (fun n hn => h n (by simp [hn])) row
  have h2 := fun row => notIn_line .mysql f Filter.withoutSchemas "tc.table_schema"
    (fun n hn => h n (by simp [hn])) row
  have h3 := fun row => isIn_line .mysql f Filter.withTables "tc.table_name"
    (fun n hn => h n (by simp [hn])) row
  have h4 := fun row => notIn_line .mysql f Filter.withoutTables "tc.table_name"
    (fun n hn => h n (by simp [hn])) row
  have h5 := mysql_system f false "tc.table_schema"
  have r0 : Row := ⟨fun _ => [], True⟩
  refine selects_lines _ _ _ _ _ (by simp [Line.conds, mysqlSystem, hf])
    (by simp [Line.conds, mysqlSystem, hf, Line.render]) (by simp [Line.follows]) ?_ ?_
  · simp only [List.mem_cons, List.not_mem_nil, or_false, forall_eq_or_imp, forall_eq]
    exact ⟨(h5 r0).1, (h1 r0).1, (h2 r0).1, (h3 r0).1, (h4 r0).1⟩
  · intro row
    have h5' := (h5 row).2
    simp only [List.mem_cons, List.not_mem_nil, or_false] at h5'
    simp only [List.mem_cons, List.not_mem_nil, or_false, forall_eq_or_imp, forall_eq, (h1 row).2, (h2 row).2,
      (h3 row).2, (h4 row).2, Wanted, Hidden, wantedNames, unwantedNames, Option.some.injEq]
    rw [h5']
    simp [and_assoc]

theorem selects_sqlite (f : Filter) (h : PlainFilter .sqlite f) (k : Kind) (hk : k ≠ .functions) :
    Selects .sqlite (renderWhere f sqliteBlock) (Wanted .sqlite k ⟨none, "tbl_name", true⟩ f) := by
  have h3 := fun row => isIn_line .sqlite f Filter.withTables "tbl_name" (fun n hn => h n (by simp [hn])) row
  have h4 := fun row => notIn_line .sqlite f Filter.withoutTables "tbl_name"
    (fun n hn => h n (by simp [hn])) row
  have h5 := sqlite_system f
  have h6 := fixed_conds .sqlite f
  have hw : wantedNames f k = f.withTables := by cases k <;> first | rfl | exact absurd rfl hk
  have hu : unwantedNames f k = f.withoutTables := by cases k <;> first | rfl | exact absurd rfl hk
  have r0 : Row := ⟨fun _ => [], True⟩
  refine selects_lines _ _ _ _ _ (by simp [Line.conds]) rfl (by simp [Line.follows, sqliteSystem]) ?_ ?_
  · simp only [List.mem_cons, List.not_mem_nil, or_false, forall_eq_or_imp, forall_eq]
    exact ⟨(h6 r0).1, (h5 r0).1, (h3 r0).1, (h4 r0).1⟩
  · intro row
    simp only [List.mem_cons, List.not_mem_nil, or_false, forall_eq_or_imp, forall_eq,
      (h3 row).2, (h4 row).2, (h5 row).2, (h6 row).2, Wanted, hw, hu]
    simp

/-! ### The property -/

/-- **C53 (partial).** For every dialect, kind of object and filter: the method sends a query (unless the
dialect has no such objects), and every WHERE clause of it is well formed and accepts exactly the rows the
filter asks for, `nil` standing for the default filter.  Missing: names in which a quote is doubled before
the end (and, on MySQL, backslashes); `WithoutTables` for PostgreSQL columns; `IncludeSystemCatalogs` for
MySQL constraints.  All three fail, see below. -/
theorem C53_filter_partial (d : Dialect) (k : Kind) (dflt arg : Option Filter) (f : Filter)
    (hf : Chosen dflt arg f) (parts : List Subject) (hs : subjects d k = some parts)
    (hplain : PlainFilter d f)
    (hcol : d = .postgres → k = .columns → f.withoutTables = [])
    (hchk : d = .mysql → k = .constraints → f.includeSystem = false) :
    ∃ wheres, queryWheres d k dflt arg = some wheres ∧ wheres.length = parts.length ∧
      ∀ (i : Nat) (w : List Tok) (s : Subject), wheres[i]? = some w → parts[i]? = some s →
        Selects d w (Wanted d k s f) := by
  have he : effectiveFilter dflt arg = f := by
    rcases hf with h | ⟨h1, h2⟩ | ⟨h1, h2, h3⟩
    · simp [effectiveFilter, h]
    · simp [effectiveFilter, h1, h2]
    · simp [effectiveFilter, h1, h2, h3]
  have one : ∀ (ls : List Line) (s0 : Subject), Selects d (renderWhere f ls) (Wanted d k s0 f) →
      ∀ (i : Nat) (w : List Tok) (s : Subject), [renderWhere f ls][i]? = some w → [s0][i]? = some s →
        Selects d w (Wanted d k s f) := by
    intro ls s0 h i w s h1 h2
    cases i with
    | zero => simp at h1 h2; subst h1; subst h2; exact h
    | succ i => simp at h1
  have more : ∀ (w0 : List Tok) (ws : List (List Tok)) (s0 : Subject) (ss : List Subject),
      Selects d w0 (Wanted d k s0 f) →
      (∀ (i : Nat) (w : List Tok) (s : Subject), ws[i]? = some w → ss[i]? = some s →
        Selects d w (Wanted d k s f)) →
      ∀ (i : Nat) (w : List Tok) (s : Subject), (w0 :: ws)[i]? = some w → (s0 :: ss)[i]? = some s →
        Selects d w (Wanted d k s f) := by
    intro w0 ws s0 ss h h' i w s h1 h2
    cases i with
    | zero => simp at h1 h2; subst h1; subst h2; exact h
    | succ i => simp at h1 h2; exact h' i w s h1 h2
  simp only [queryWheres, he]
  cases d with
  | sqlite =>
    have hb := selects_sqlite f hplain k
    cases k <;> simp [subjects] at hs <;> subst hs
    case constraints =>
      exact ⟨_, rfl, rfl, more _ _ _ _ (hb (by decide)) (more _ _ _ _ (hb (by decide)) (one _ _ (hb (by decide))))⟩
    all_goals exact ⟨_, rfl, rfl, one _ _ (hb (by decide))⟩
  | postgres =>
    have hb := selects_postgres f hplain k
    cases k <;> simp [subjects] at hs <;> subst hs
    case columns => exact ⟨_, rfl, rfl, one _ _ (selects_columns f hplain (hcol rfl rfl))⟩
    case functions => exact ⟨_, rfl, rfl, one _ _ (selects_functions f hplain)⟩
    case constraints =>
      exact ⟨_, rfl, rfl, more _ _ _ _ (hb (by decide) _ _) (more _ _ _ _ (hb (by decide) _ _)
        (more _ _ _ _ (hb (by decide) _ _) (one _ _ (hb (by decide) _ _))))⟩
    case views => exact ⟨_, rfl, rfl, more _ _ _ _ (hb (by decide) _ _) (one _ _ (hb (by decide) _ _))⟩
    all_goals exact ⟨_, rfl, rfl, one _ _ (hb (by decide) _ _)⟩
  | mysql =>
    have hb := selects_mysql f hplain k
    cases k <;> simp [subjects] at hs <;> subst hs
    case constraints =>
      exact ⟨_, rfl, rfl, more _ _ _ _ (hb (by decide) _ _) (one _ _ (selects_checks f hplain (hchk rfl rfl)))⟩
    all_goals exact ⟨_, rfl, rfl, one _ _ (hb (by decide) _ _)⟩
  | _ => simp [subjects] at hs

/-- A non-trivial filter meeting the hypotheses. -/
example : PlainFilter .mysql
    { withSchemas := ["app".toList, "o'brien".toList], withoutTables := ["tmp".toList] } := by
  intro s hs
  simp at hs
  rcases hs with (h | h) | h <;> subst h <;>
    exact ⟨by rw [← Sq.readBack_eq_iff]; decide, fun _ => by decide⟩

example : queryWheres .postgres .triggers none
      (some { withSchemas := ["app".toList, "o'brien".toList], withoutTables := ["tmp".toList] })
    = some [[.cond .fixed, .and, .cond (.ne "schemas.nspname" "information_schema"), .and,
        .cond (.notLike "schemas.nspname" "pg_%"), .and,
        .cond (.isIn "schemas.nspname" "'app', 'o''brien'".toList), .and,
        .cond (.notIn "tables.relname" "'tmp'".toList)]] := by decide +kernel

theorem mem_intersperse (conds : List Cond) (c : Cond) :
    Tok.cond c ∈ (conds.map Tok.cond).intersperse .and → c ∈ conds := by
  induction conds with
  | nil => simp
  | cons a cs ih =>
    cases cs with
    | nil => simp
    | cons b cs =>
      intro h
      simp only [List.map_cons, List.intersperse_cons₂, List.mem_cons, Tok.cond.injEq, reduceCtorEq,
        false_or] at h ih ⊢
      rcases h with h | h
      · exact .inl h
      · exact .inr (ih h)

theorem clause_parses {d : Dialect} {toks : List Tok} {conds : List Cond} (h : Clause d toks conds)
    {c : Cond} (hc : Tok.cond c ∈ toks) : c ∈ conds ∧ Parses d c := by
  have := mem_intersperse conds c (h.2.1 ▸ hc)
  exact ⟨this, h.2.2 c this⟩

/-- **C53.** Without `IncludeSystemCatalogs` no row of a reserved schema (PostgreSQL, MySQL) or reserved table
name (SQLite) is asked for. -/
theorem C53_system_hidden (d : Dialect) (k : Kind) (s : Subject) (f : Filter) (row : Row)
    (hf : f.includeSystem = false) (h : Wanted d k s f row) : ¬ System d s row := by
  have hh : ¬ Hidden d s row := by
    rcases h.2.1 with h | h
    · rw [hf] at h; cases h
    · exact h
  intro hs
  apply hh
  cases d with
  | sqlite => obtain ⟨rest, e⟩ := hs; exact .inl ⟨"sqlite".toList, '_', rest, e, rfl⟩
  | postgres =>
    obtain ⟨c, e, h⟩ := hs
    refine ⟨c, e, ?_⟩
    rcases h with h | ⟨rest, h⟩
    · exact .inl h
    · exact .inr ⟨'_', rest, h⟩
  | mysql => exact hs
  | _ => exact hs

/-- **C53 (violated: `_` is a wildcard).** With the zero filter the tables of an ordinary PostgreSQL schema
`pgtap`, which is no system schema, are never listed. -/
theorem C53_pg_prefix_violated :
    ∃ w, queryWheres .postgres .tables none none = some [w] ∧
      ∃ conds, Clause .postgres w conds ∧
        ∀ row : Row, row.col "schemas.nspname" = "pgtap".toList →
          ¬ System .postgres ⟨some "schemas.nspname", "tables.relname", true⟩ row ∧
          ¬ ∀ c ∈ conds, Holds .postgres row c := by
  obtain ⟨conds, hc, h⟩ := selects_postgres {} (by intro s hs; simp at hs) .tables (by decide)
    "schemas.nspname" "tables.relname"
  refine ⟨_, rfl, conds, hc, fun row hr => ⟨?_, fun hh => ?_⟩⟩
  · rintro ⟨c, e, h⟩
    simp only [Option.some.injEq] at e
    subst e
    rw [hr] at h
    rcases h with h | ⟨rest, h⟩
    · exact absurd h (by decide)
    · injection h with _ h; injection h with _ h; injection h with h _; exact absurd h (by decide)
  · have := ((h row).1 hh).2.1
    rcases this with h | h
    · cases h
    · exact h ⟨_, rfl, .inr ⟨'t', "ap".toList, hr⟩⟩

/-- **C53 (violated).** A SQLite table that was created by `CREATE TABLE 'orders' (...)` is never listed with the
zero filter, although its name is an ordinary one. -/
theorem C53_sqlite_quoted_violated :
    ∃ w, queryWheres .sqlite .tables none none = some [w] ∧
      ∃ conds, Clause .sqlite w conds ∧
        ∀ row : Row, row.col "tbl_name" = "orders".toList →
          row.col "sql" = "CREATE TABLE 'orders' (id INT)".toList →
          ¬ System .sqlite ⟨none, "tbl_name", true⟩ row ∧ ¬ ∀ c ∈ conds, Holds .sqlite row c := by
  obtain ⟨conds, hc, h⟩ := selects_sqlite {} (by intro s hs; simp at hs) .tables (by decide)
  refine ⟨_, rfl, conds, hc, fun row hr hq => ⟨?_, fun hh => ?_⟩⟩
  · rintro ⟨rest, h⟩
    rw [hr] at h
    injection h with h _; exact absurd h (by decide)
  · have := ((h row).1 hh).2.1
    rcases this with h | h
    · cases h
    · exact h (.inr ⟨"CREATE TABLE '".toList, "orders' (id INT)".toList, hq, rfl⟩)

/-- **C53 (violated).** `WithoutTables` alone makes the PostgreSQL columns query unparseable (`NOT IN ()`). -/
theorem C53_columns_violated (names : List Str) (h : names ≠ []) :
    ∃ w, queryWheres .postgres .columns none (some { withoutTables := names }) = some [w] ∧
      ¬ ∃ P, Selects .postgres w P := by
  refine ⟨_, rfl, ?_⟩
  rintro ⟨P, conds, hc, -⟩
  have := (clause_parses hc (c := .notIn "tables.relname" []) (by
    simp [renderWhere, postgresColumnsBlock, Line.render, effectiveFilter, h, printList])).2
  obtain ⟨ns, hn⟩ := this
  cases hn

/-- **C53 (violated).** With both `WithTables` and `WithoutTables` the PostgreSQL columns query returns no row at
all: it asks for tables that are and are not in `WithTables`. -/
theorem C53_columns_both_violated :
    ∃ w, queryWheres .postgres .columns none
        (some { withTables := ["a".toList], withoutTables := ["b".toList] }) = some [w] ∧
      Selects .postgres w (fun _ => False) := by
  refine ⟨_, rfl, ?_⟩
  have hd : NameList .postgres "'a'".toList ["a".toList] := NameList.one (by decide)
  refine ⟨[.fixed, .ne "schemas.nspname" "information_schema", .notLike "schemas.nspname" "pg_%",
    .isIn "tables.relname" "'a'".toList, .notIn "tables.relname" "'a'".toList], ⟨by simp, rfl, ?_⟩, ?_⟩
  · intro c hc
    simp only [List.mem_cons, List.not_mem_nil, or_false] at hc
    rcases hc with rfl | rfl | rfl | rfl | rfl
    · trivial
    · trivial
    · trivial
    · exact ⟨_, hd⟩
    · exact ⟨_, hd⟩
  · intro row
    simp only [iff_false]
    intro h
    have h1 := h (.isIn "tables.relname" "'a'".toList) (by simp)
    have h2 := h (.notIn "tables.relname" "'a'".toList) (by simp)
    exact (exists_names _ hd (fun ns => row.col "tables.relname" ∉ ns)).1 h2
      ((exists_names _ hd (fun ns => row.col "tables.relname" ∈ ns)).1 h1)

theorem not_clause_and {d : Dialect} {toks : List Tok} {conds : List Cond} : ¬ Clause d (.and :: toks) conds := by
  rintro ⟨h1, h2, -⟩
  cases conds with
  | nil => exact h1 rfl
  | cons a cs => cases cs <;> simp at h2

/-- **C53 (violated).** With `IncludeSystemCatalogs` the second part of the MySQL constraints query is never well
formed: its WHERE clause is empty or begins with `AND`. -/
theorem C53_mysql_checks_violated (f : Filter) (h : f.includeSystem = true) :
    ∃ w0 w, queryWheres .mysql .constraints none (some f) = some [w0, w] ∧
      (w = [] ∨ ∃ toks, w = .and :: toks) ∧ ¬ ∃ P, Selects .mysql w P := by
  have key : renderWhere f mysqlChecksBlock = [] ∨ ∃ toks, renderWhere f mysqlChecksBlock = .and :: toks := by
    simp only [renderWhere, mysqlChecksBlock, mysqlSystem, List.flatMap_cons, List.flatMap_nil, Line.render, h,
      if_true, List.nil_append, List.append_nil]
    split <;> split <;> split <;> split <;> simp
  refine ⟨_, _, rfl, key, ?_⟩
  rintro ⟨P, conds, hc, -⟩
  simp only [effectiveFilter] at hc
  rcases key with e | ⟨toks, e⟩
  · rw [e] at hc
    obtain ⟨h1, h2, -⟩ := hc
    cases conds with
    | nil => exact h1 rfl
    | cons a cs => cases cs <;> simp at h2
  · rw [e] at hc; exact not_clause_and hc

/-- **C53 (violated).** A filter for the table `a''b` lists the table `a'b` instead. -/
theorem C53_doubled_quote_violated : NameList .postgres (printList ["a''b".toList]) ["a'b".toList] :=
  NameList.one (by decide)

/-- **C53 (violated).** On MySQL a name with a backslash before a quote makes the query unparseable, the rest of
the name being read as SQL. -/
theorem C53_mysql_backslash_violated :
    literal .mysql ((printList ["\\' OR 1=1 -- ".toList]).drop 1) = some ("'".toList, " OR 1=1 -- '".toList) ∧
    ¬ ∃ ns, NameList .mysql (printList ["\\' OR 1=1 -- ".toList]) ns := by
  have hl : literal .mysql ((printList ["\\' OR 1=1 -- ".toList]).drop 1)
      = some ("'".toList, " OR 1=1 -- '".toList) := by decide
  refine ⟨hl, ?_⟩
  rintro ⟨ns, h⟩
  generalize hp : printList ["\\' OR 1=1 -- ".toList] = p at h hl
  cases h with
  | one h => rw [List.drop_one, List.tail_cons, h] at hl; simp at hl
  | cons h _ => rw [List.drop_one, List.tail_cons, h] at hl; simp at hl

end Ddl.Filt
