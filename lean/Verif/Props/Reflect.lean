import Verif.Spec.Reflect
import Verif.Proof.Declared
import Verif.Props.Field
/-
C66: a table struct and the table it stands for.
-/
namespace Sq.Reflecting
open Sq.Reflecting.Spec
open Sq.Spec (renderAt)
open Ddl.Declared (WrittenTag Each)

theorem tagValue_nil (k : String) : tagValue [] k = none := rfl

/-- The value of the last modifier of a name. -/
theorem tagValue_last (ms : List (Str × Str)) (k : String) :
    (∃ v, tagValue ms k = some v ∧ Last ms k.toList v) ∨ (tagValue ms k = none ∧ ∀ m ∈ ms, m.1 ≠ k.toList) := by
  unfold tagValue
  cases h : ms.reverse.find? fun m => m.1 = k.toList with
  | none =>
    right
    refine ⟨rfl, fun m hm => ?_⟩
    have := List.find?_eq_none.1 h m (by simpa using hm)
    simpa using this
  | some m =>
    left
    refine ⟨m.2, rfl, ?_⟩
    obtain ⟨h1, as, bs, h2, h3⟩ := List.find?_eq_some_iff_append.1 h
    have hk : m.1 = k.toList := by simpa using h1
    refine ⟨bs.reverse, as.reverse, ?_, fun x hx => ?_⟩
    · rw [← hk]
      have := congrArg List.reverse h2
      simpa using this
    · have := h3 x (by simpa using hx)
      simpa using this

/-- The choice of a name. -/
theorem called_of (given : Str) (ms : List (Str × Str)) (k : String) (go : Str) :
    Called given ms k.toList go
      (if (if given = [] then (tagValue ms k).getD [] else given) = [] then go else (if given = [] then (tagValue ms k).getD [] else given)) := by
  by_cases hg : given = []
  · subst hg
    simp only [if_true]
    rcases tagValue_last ms k with ⟨v, hv, hl⟩ | ⟨hv, hl⟩
    · rw [hv]
      by_cases h0 : v = []
      · subst h0
        exact .inr (.inr ⟨rfl, .inl hl, by simp⟩)
      · exact .inr (.inl ⟨rfl, v, h0, hl, by simp [h0]⟩)
    · rw [hv]
      exact .inr (.inr ⟨rfl, .inr hl, by simp⟩)
  · exact .inl ⟨hg, by simp [hg]⟩

/-- One field. -/
theorem reflectField_bound (lower : Str → Str) (t : TInfo) (f : SField) (h : Readable f) :
    ∃ f', reflectField lower t f = .ok f' ∧ FieldBound lower t f f' := by
  unfold reflectField
  cases he : f.exported with
  | false => exact ⟨f, rfl, .left f fun u => by rw [u.1] at he; cases he⟩
  | true =>
    rw [if_neg (by decide)]
    cases hv : f.val with
    | tableInfo _ | other => exact ⟨f, rfl, .left f fun ⟨_, _, _, _, u, _⟩ => by rw [hv] at u; cases u⟩
    | foreign n =>
      obtain ⟨x, rfl⟩ := h.2 n he hv
      have hl : FieldBound lower t f f := .left f fun ⟨_, _, _, _, u, _⟩ => by rw [hv] at u; cases u
      simp only [FVal.getName, Res.bind_ok]
      by_cases hx : x = []
      · subst hx
        obtain ⟨ms, hms⟩ := h.1 (.inr ⟨he, hv⟩)
        rw [if_neg (by simp), columnName, Ddl.Declared.writtenTag_lexK true hms]
        exact ⟨f, rfl, hl⟩
      · rw [if_pos hx]
        exact ⟨f, rfl, hl⟩
    | typed ty fi neg =>
      simp only [FVal.getName, Res.bind_ok]
      by_cases hx : fi.name = []
      · obtain ⟨ms, hms⟩ := h.1 (.inl ⟨he, ty, fi, neg, hv, hx⟩)
        rw [if_neg (by simp [hx]), columnName, Ddl.Declared.writtenTag_lexK true hms]
        refine ⟨_, rfl, ?_⟩
        have hc := called_of [] ms "name" (lower f.goName)
        simp only [if_true] at hc
        rw [← he]
        exact .bound f ty fi neg ms _ he hv hx hms hc
      · rw [if_pos hx]
        exact ⟨f, rfl, .left f fun ⟨_, _, _, _, u, u'⟩ => by rw [hv] at u; cases u; exact hx u'⟩

theorem reflectFields_bound (lower : Str → Str) (t : TInfo) (fs : List SField) (h : ∀ f ∈ fs, Readable f) :
    ∃ fs', reflectFields lower t fs = .ok fs' ∧ Each (FieldBound lower t) fs fs' := by
  induction fs with
  | nil => exact ⟨[], rfl, trivial⟩
  | cons f fs ih =>
    obtain ⟨f', h1, h2⟩ := reflectField_bound lower t f (h f (by simp))
    obtain ⟨fs', h3, h4⟩ := ih fun g hg => h g (List.mem_cons_of_mem _ hg)
    exact ⟨f' :: fs', by rw [reflectFields, h1, Res.bind_ok, h3]; rfl, h2, h4⟩

/-- **C66.** After `ReflectTable(&t, alias)` on a table struct whose tags can be read, the struct stands for the table named by its `TableInfo`, else by the
`sq` tag of the embedded `TableInfo`, else by the lower-case type name, known by `alias`; every exported field of a field type that was not yet bound is the
column of that table named by the field's tag, else by the lower-case Go name; nothing else changed. -/
theorem C66_bound (lower : Str → Str) (s : SType) (al : Str) (f : SField) (t : TInfo) (fs : List SField) (hs : TableStruct s f t fs)
    (ht : t.schema = [] ∨ t.name = [] → ∃ mods, WrittenTag f.sqTag mods) (hr : ∀ g ∈ fs, Readable g) :
    ∃ t' fs', reflectTable lower (.pointer s) al = .ok { typeName := s.typeName, fields := { f with val := .tableInfo t' } :: fs' } ∧
      t'.alias = al ∧
      (∀ mods, WrittenTag f.sqTag mods → Called t.schema mods "schema".toList [] t'.schema ∧ Called t.name mods "name".toList (lower s.typeName) t'.name) ∧
      (t.schema ≠ [] → t.name ≠ [] → t'.schema = t.schema ∧ t'.name = t.name) ∧
      Each (FieldBound lower t') fs fs' := by
  obtain ⟨h1, h2, h3, h4⟩ := hs
  have hn : ∃ t', tableNames lower s.typeName f.sqTag t = .ok t' ∧
      (∀ mods, WrittenTag f.sqTag mods → Called t.schema mods "schema".toList [] t'.schema ∧ Called t.name mods "name".toList (lower s.typeName) t'.name) ∧
      (t.schema ≠ [] → t.name ≠ [] → t'.schema = t.schema ∧ t'.name = t.name) := by
    unfold tableNames
    by_cases h0 : t.schema = [] ∨ t.name = []
    · obtain ⟨ms, hms⟩ := ht h0
      rw [if_pos h0, Ddl.Declared.writtenTag_lexK true hms]
      refine ⟨_, rfl, fun mods hm => ?_, fun a b => ?_⟩
      · have e : mods = ms := by
          have := (Ddl.Declared.writtenTag_lexK true hm).symm.trans (Ddl.Declared.writtenTag_lexK true hms)
          simpa using this
        subst e
        refine ⟨?_, called_of t.name mods "name" (lower s.typeName)⟩
        have := called_of t.schema mods "schema" []
        dsimp only
        generalize (if t.schema = [] then (tagValue mods "schema").getD [] else t.schema) = x at this
        by_cases hx : x = []
        · subst hx; simpa using this
        · rw [if_neg hx] at this; exact this
      · rcases h0 with h0 | h0
        · exact absurd h0 a
        · exact absurd h0 b
    · rw [if_neg h0]
      rw [not_or] at h0
      refine ⟨_, rfl, fun mods _ => ⟨.inl ⟨h0.1, rfl⟩, .inl ⟨h0.2, ?_⟩⟩, fun _ _ => ⟨rfl, ?_⟩⟩ <;> simp [h0.2]
  obtain ⟨t', e1, e2, e3⟩ := hn
  obtain ⟨fs', e4, e5⟩ := reflectFields_bound lower { t' with «alias» := al } fs hr
  refine ⟨{ t' with «alias» := al }, fs', ?_, rfl, e2, e3, e5⟩
  simp only [reflectTable, h1, h2, h4, if_neg (show ¬ (true = false) by decide), h3, e1, Res.bind_ok, e4, Res.map]

theorem typed_node (ty : FType) (n : Str) (t : TInfo) :
    (FVal.typed ty { tableName := t.name, tableAlias := t.alias, name := n } false).node = newField n t := by cases ty <;> rfl

/-- **C66, one column.** A field bound by `ReflectTable` is, in every query and dialect, written as the column `n` of the table under the name the query
knows it by, and `LoadTable` declares for it a column of the same name `n` with the field type's default type and the field's `ddl` tag. -/
theorem C66_one_column (lower : Str → Str) (t : TInfo) (f f' : SField) (hu : Unbound f) (h : FieldBound lower t f f') :
    ∃ mods n, WrittenTag f.sqTag mods ∧ Called [] mods "name".toList (lower f.goName) n ∧
      ∀ d, (renderAt { d := d } f'.val.node).status = .ok ∧
        (renderAt { d := d } f'.val.node).query = qualified d (if t.alias ≠ [] then t.alias else t.name) n ∧
        f'.decl d = .ok (.column n (defaultColumnType d f.val) f.ddlTag) := by
  cases h with
  | left hn => exact absurd hu hn
  | bound ty fi neg mods n he hv hn hm hc =>
    refine ⟨mods, n, hm, hc, fun d => ?_⟩
    dsimp only
    rw [typed_node]
    obtain ⟨h1, h2⟩ := Sq.Fields.C56_column d n t
    refine ⟨h1, ?_, ?_⟩
    · rw [h2]
      unfold qualified
      by_cases ha : t.alias = []
      · by_cases hb : t.name = []
        · simp [ha, hb]
        · simp [ha, hb]
      · simp [ha]
    · unfold SField.decl
      dsimp only
      rw [if_neg (by simp [he]), hv]
      cases ty <;> rfl

/-- **C66, the table in queries.** -/
theorem C66_table (d : Dialect) (t : TInfo) : (renderAt { d := d } (tableNode t)).status = .ok ∧
    (renderAt { d := d } (tableNode t)).query = qualified d t.schema t.name := by
  refine ⟨rfl, ?_⟩
  by_cases h : t.schema = [] <;> simp [renderAt, tableNode, ren, tableAppend, qualified, h, W.wr, exec, exec1, bufString, Piece.str]

/-! ### What the struct declares -/

section columns
open Ddl
open Ddl.Declared (colNames)

theorem loadColumn_names {num : Str → Bool} {d : Dialect} {t t' : Table} {name type config : Str}
    (h : loadColumnConfig num d t name type config = .ok t') : ∀ n, n ∈ colNames t' ↔ n ∈ colNames t ∨ n = name := by
  unfold loadColumnConfig at h
  obtain ⟨ms, -, h⟩ := (Res.bind_eq_ok _ _ _).1 h
  dsimp only at h
  have fold : ∀ s r, foldRes (columnModifier num d) s ms = .ok r → s.1.columnName = r.1.columnName ∧ DeclOnly s.2 r.2 := fun s r hs =>
    foldRes_inv _ (fun (a b : Column × Table) => a.1.columnName = b.1.columnName ∧ DeclOnly a.2 b.2)
        (fun _ => ⟨rfl, .refl _⟩) (fun _ _ _ h1 h2 => ⟨h1.1.trans h2.1, h1.2.trans h2.2⟩)
        (fun a b a' hh => columnModifier_only hh) ms _ _ hs
  cases hp : t.cachedColumnPosition name with
  | some p =>
    rw [hp] at h
    obtain ⟨hb, hg, x, hx, hk, -⟩ := get_of_lookup hp
    obtain ⟨⟨y, t1⟩, hy, rfl⟩ := map_eq_ok h
    obtain ⟨h1, h2⟩ := fold _ _ hy
    dsimp only at h1 h2
    rw [hx] at h1
    have e : t1.columns = t.columns := by rw [h2.eq]
    have hk' : x.columnName = name := hk
    have hset : (t.columns.set p y).map Column.columnName = t.columns.map Column.columnName := by
      have : y.columnName = x.columnName := h1.symm
      rw [List.map_set, this]
      refine List.ext_getElem? fun i => ?_
      rw [List.getElem?_set]
      split
      · subst_vars
        split
        · simp [hx]
        · next hl => simp only [List.length_map, Nat.not_lt] at hl; simp [List.getElem?_eq_none hl]
      · rfl
    intro n
    simp only [colNames, e, hset]
    refine ⟨Or.inl, fun hn => hn.elim id fun hn => ?_⟩
    rw [hn, ← hk']
    exact List.mem_map_of_mem (List.mem_of_getElem? hx)
  | none =>
    rw [hp] at h
    obtain ⟨⟨y, t1⟩, hy, rfl⟩ := map_eq_ok h
    obtain ⟨h1, h2⟩ := fold _ _ hy
    dsimp only at h1 h2
    have e : t1.columns = t.columns := by rw [h2.eq]
    intro n
    have e2 : (t1.appendColumn y).columns = t.columns ++ [y] := by rw [← e]; rfl
    rw [colNames, e2]
    simp [colNames, ← h1]

theorem tableModifier_columns {d : Dialect} {t t' : Table} {m : Str × Str} (h : tableModifier d t m = .ok t') : t'.columns = t.columns := by
  unfold tableModifier at h
  split at h
  · cases h; rfl
  split at h
  · split at h
    · obtain ⟨⟨v, ms⟩, -, rfl⟩ := map_eq_ok h
      rfl
    · cases h; rfl
  split at h
  · cases h; rfl
  · rw [(declare_only h).eq]

/-- The columns a list of fields declares. -/
theorem loadFields_names {num : Str → Bool} {d : Dialect} (fs : List FieldDecl) {t : Table} {r : Table × Bool} (h : loadFields num d t fs = .ok r)
    (hr : r.2 = false) : ∀ n, n ∈ colNames r.1 ↔ n ∈ colNames t ∨ ∃ type tag, FieldDecl.column n type tag ∈ fs := by
  induction fs generalizing t with
  | nil => cases h; simp
  | cons f fs ih =>
    rw [loadFields] at h
    obtain ⟨⟨t1, stop⟩, h1, h2⟩ := (Res.bind_eq_ok _ _ _).1 h
    dsimp only at h2
    cases stop with
    | true => cases h2; cases hr
    | false =>
      intro n
      rw [ih h2 n]
      cases f with
      | other tag =>
        obtain ⟨t2, ht2, he⟩ := map_eq_ok h1
        obtain ⟨rfl, -⟩ := Prod.mk.inj he
        unfold loadTableConfig at ht2
        obtain ⟨ms, -, ht2⟩ := (Res.bind_eq_ok _ _ _).1 ht2
        have := foldRes_inv _ (fun a b : Table => b.columns = a.columns) (fun _ => rfl) (fun _ _ _ a b => b.trans a)
          (fun _ _ _ hh => tableModifier_columns hh) ms _ _ ht2
        simp [colNames, this]
      | column name type tag =>
        rw [loadField] at h1
        split at h1
        · cases h1
        · obtain ⟨t2, ht2, he⟩ := map_eq_ok h1
          cases he
          rw [loadColumn_names ht2 n]
          constructor
          · rintro ((h | rfl) | ⟨ty, tg, h⟩)
            · exact .inl h
            · exact .inr ⟨_, _, List.mem_cons_self⟩
            · exact .inr ⟨ty, tg, List.mem_cons_of_mem _ h⟩
          · rintro (h | ⟨ty, tg, h⟩)
            · exact .inl (.inl h)
            · rcases List.mem_cons.1 h with h | h
              · cases h; exact .inl (.inr rfl)
              · exact .inr ⟨ty, tg, h⟩

theorem map_modify_name (cs : List Column) (n : Nat) (f : Column → Column) (hf : ∀ c, (f c).columnName = c.columnName) :
    (cs.modify n f).map Column.columnName = cs.map Column.columnName := by
  refine List.ext_getElem? fun i => ?_
  rw [List.getElem?_map, List.getElem?_modify, List.getElem?_map]
  cases cs[i]? with
  | none => rfl
  | some c => by_cases h : n = i <;> simp [h, hf]

theorem declareConstraint_columns {d : Dialect} {t t' : Table} {kind : ConstraintType} {name : Str} {cols : List Str} {e : Str}
    {edit : Constraint → Constraint} (h : t.declareConstraint d kind name cols e edit = .ok t') : t'.columns = t.columns := by
  unfold Table.declareConstraint at h
  split at h
  · cases h
  · unfold Table.putConstraint at h
    split at h <;>
    · obtain ⟨⟨y, t1⟩, hy, rfl⟩ := map_eq_ok h
      cases hy
      rfl

theorem colOp_names {d : Dialect} {n : Nat} {t t' : Table} {op : ColOp} (h : op.run d n t = .ok t') : colNames t' = colNames t := by
  cases op with
  | primaryKey | unique =>
    simp only [ColOp.run] at h
    split at h
    · rw [colNames, declareConstraint_columns h]; rfl
    · cases h
  | identity => cases h; exact map_modify_name _ _ _ (fun c => by split <;> rfl)
  | alwaysIdentity => cases h; exact map_modify_name _ _ _ (fun c => by split <;> rfl)
  | _ => cases h; exact map_modify_name _ _ _ (fun c => rfl)

theorem tOp_names {d : Dialect} {t t' : Table} {op : TOp} (h : op.run d t = .ok t') : colNames t' = colNames t := by
  cases op with
  | ignore => cases h; rfl
  | virtualTable => cases h; rfl
  | column name ops =>
    simp only [TOp.run, runColumn] at h
    split at h
    · cases h
    · exact foldRes_inv _ (fun a b : Table => colNames b = colNames a) (fun _ => rfl) (fun _ _ _ a b => b.trans a)
        (fun _ _ _ hh => colOp_names hh) ops _ _ h
  | constraint =>
    simp only [TOp.run] at h
    rw [colNames, declareConstraint_columns h]; rfl
  | exclude =>
    simp only [TOp.run] at h
    split at h
    · cases h
    split at h
    · cases h
    unfold Table.putConstraint at h
    split at h <;>
    · obtain ⟨⟨y, t1⟩, hy, rfl⟩ := map_eq_ok h
      cases hy
      rfl
  | index =>
    simp only [TOp.run] at h
    split at h
    · cases h
    unfold Table.putIndex at h
    split at h <;>
    · obtain ⟨y, hy, rfl⟩ := map_eq_ok h
      rfl
  | trigger trg =>
    simp only [TOp.run] at h
    split at h
    · cases h
    split at h
    · cases h
    split at h <;> (cases h; rfl)

theorem markColumn_names (t : Table) (c : Constraint) : colNames (markColumn t c) = colNames t := by
  unfold markColumn
  split
  · split
    · rfl
    · split
      · exact map_modify_name _ _ _ (fun c => rfl)
      · exact map_modify_name _ _ _ (fun c => rfl)
      · rfl
  · rfl

theorem markColumns_names (cs : List Constraint) (t : Table) : colNames (cs.foldl markColumn t) = colNames t := by
  induction cs generalizing t with
  | nil => rfl
  | cons c cs ih => rw [List.foldl_cons, ih, markColumn_names]

theorem loadFields_stops {num : Str → Bool} {d : Dialect} (fs : List FieldDecl) {t : Table} {r : Table × Bool} (h : loadFields num d t fs = .ok r) :
    r.2 = true → r.1.ignore = true := by
  induction fs generalizing t with
  | nil => cases h; intro h; cases h
  | cons f fs ih =>
    rw [loadFields] at h
    obtain ⟨⟨t1, stop⟩, h1, h2⟩ := (Res.bind_eq_ok _ _ _).1 h
    dsimp only at h2
    cases stop with
    | false => exact ih h2
    | true =>
      cases h2
      intro _
      cases f with
      | other tag =>
        obtain ⟨t2, -, he⟩ := map_eq_ok h1
        obtain ⟨rfl, hh⟩ := Prod.mk.inj he
        exact hh
      | column => 
        rw [loadField] at h1
        split at h1
        · cases h1
        · obtain ⟨t2, -, he⟩ := map_eq_ok h1
          cases he

/-- The columns of a loaded table. -/
theorem load_names {num : Str → Bool} {d : Dialect} {t t' : Table} {decl : TableDecl} (h : t.load num d decl = .ok t') (hi : t'.ignore = false) :
    ∀ n, n ∈ colNames t' ↔ n ∈ colNames t ∨ ∃ type tag, FieldDecl.column n type tag ∈ decl.fields := by
  unfold Table.load at h
  split at h
  · cases h
  · dsimp only at h
    split at h
    · cases h
    · obtain ⟨⟨t1, stop⟩, h1, h2⟩ := (Res.bind_eq_ok _ _ _).1 h
      dsimp only at h2
      cases stop with
      | true => cases h2; rw [loadFields_stops _ h1 rfl] at hi; cases hi
      | false =>
        obtain ⟨t2, ht2, rfl⟩ := map_eq_ok h2
        intro n
        have e1 : colNames t2 = colNames t1 := foldRes_inv _ (fun a b : Table => colNames b = colNames a) (fun _ => rfl)
          (fun _ _ _ a b => b.trans a) (fun _ _ _ hh => tOp_names hh) _ _ _ ht2
        have e2 : colNames (fts5Columns t2) = colNames t2 := by unfold fts5Columns; split <;> rfl
        rw [markColumns_names, e2, e1, loadFields_names _ h1 rfl n]
        rfl

theorem declFields_mem {d : Dialect} (fs : List SField) {ds : List FieldDecl} (h : declFields d fs = .ok ds) (n : Str) :
    (∃ type tag, FieldDecl.column n type tag ∈ ds) ↔ ∃ f ∈ fs, f.exported = true ∧ f.val.getName = some (.ok n) := by
  induction fs generalizing ds with
  | nil => cases h; simp
  | cons f fs ih =>
    rw [declFields] at h
    obtain ⟨x, h1, h2⟩ := (Res.bind_eq_ok _ _ _).1 h
    obtain ⟨xs, h3, rfl⟩ := map_eq_ok h2
    have hx : (∃ type tag, FieldDecl.column n type tag = x) ↔ f.exported = true ∧ f.val.getName = some (.ok n) := by
      unfold SField.decl at h1
      cases he : f.exported with
      | false => rw [he] at h1; cases h1; simp
      | true =>
        rw [he, if_neg (by decide)] at h1
        cases hv : f.val.getName with
        | none => rw [hv] at h1; cases h1; simp
        | some r =>
          rw [hv] at h1
          obtain ⟨m, rfl, rfl⟩ := map_eq_ok h1
          simp [eq_comm]
    have := ih h3
    constructor
    · rintro ⟨ty, tg, hm⟩
      rcases List.mem_cons.1 hm with hm | hm
      · exact ⟨f, by simp, hx.1 ⟨ty, tg, hm⟩⟩
      · obtain ⟨g, hg, hh⟩ := this.1 ⟨ty, tg, hm⟩
        exact ⟨g, List.mem_cons_of_mem _ hg, hh⟩
    · rintro ⟨g, hg, hh⟩
      rcases List.mem_cons.1 hg with rfl | hg
      · obtain ⟨ty, tg, e⟩ := hx.2 hh
        exact ⟨ty, tg, by rw [e]; simp⟩
      · obtain ⟨ty, tg, hm⟩ := this.2 ⟨g, hg, hh⟩
        exact ⟨ty, tg, List.mem_cons_of_mem _ hm⟩

/-- **C66, migrations.** Loading a table struct (its tags and its `DDL` method, whatever they say) into the wanted metadata gives a table with the name and
schema the struct has in queries, whose columns are exactly those its exported fields are bound to. -/
theorem C66_columns (num : Str → Bool) (d : Dialect) (s : SType) (ddl : Dialect → List TOp) (decl : TableDecl) (t : Table)
    (h1 : s.decl d ddl = .ok decl) (h2 : ({ tableSchema := decl.schema, tableName := decl.name } : Table).load num d decl = .ok t)
    (hi : t.ignore = false) (hn : decl.Named) :
    t.tableName = s.info.name ∧ t.tableSchema = s.info.schema ∧
      ∀ n, n ∈ t.columns.map Column.columnName ↔ ∃ f ∈ s.fields, f.exported = true ∧ f.val.getName = some (.ok n) := by
  obtain ⟨fs, h3, rfl⟩ := map_eq_ok h1
  have hinv := load_inv hn h2 ⟨allFound_nil _, allFound_nil _, allFound_nil _, allFound_nil _⟩
  refine ⟨hinv.2.1, hinv.2.2, fun n => ?_⟩
  rw [← declFields_mem s.fields h3 n, ← Ddl.Declared.colNames, load_names h2 hi n]
  simp [colNames]

end columns

/-- **C66, default types.** On SQLite, PostgreSQL and MySQL the type of a column without a `type` modifier is one of the dialect that holds the field's values. -/
theorem C66_types (d : Dialect) (hd : d = .sqlite ∨ d = .postgres ∨ d = .mysql) (ty : FType) (fi : FInfo) (neg : Bool) :
    ∃ x ∈ holds d ty, defaultColumnType d (.typed ty fi neg) = x.toList := by
  rcases hd with rfl | rfl | rfl <;> cases ty <;> simp [defaultColumnType, holds]

/-! ### What is accepted, and calling it again -/

theorem reflectFields_ok (lower : Str → Str) (t : TInfo) (fs fs' : List SField) (h : reflectFields lower t fs = .ok fs') :
    Each (fun f f' => reflectField lower t f = .ok f') fs fs' := by
  induction fs generalizing fs' with
  | nil => cases h; trivial
  | cons f fs ih =>
    rw [reflectFields] at h
    obtain ⟨f', h1, h2⟩ := (Res.bind_eq_ok _ _ _).1 h
    obtain ⟨fs'', h3, rfl⟩ := Ddl.map_eq_ok h2
    exact ⟨h1, ih _ h3⟩

theorem each_mem {α β : Type} {R : α → β → Prop} : ∀ {as : List α} {bs : List β}, Each R as bs → ∀ a ∈ as, ∃ b ∈ bs, R a b
  | [], [], _, a, h => by cases h
  | a :: as, b :: bs, h, x, hx => by
    rcases List.mem_cons.1 hx with rfl | hx
    · exact ⟨b, by simp, h.1⟩
    · obtain ⟨y, hy, hr⟩ := each_mem h.2 x hx
      exact ⟨y, List.mem_cons_of_mem _ hy, hr⟩

/-- **C66, what is accepted.** `ReflectTable` succeeds only on a pointer to a table struct, and only if the braces in every tag it had to read are balanced. -/
theorem C66_accepts (lower : Str → Str) (x : Target) (al : Str) (s' : SType) (h : reflectTable lower x al = .ok s') :
    ∃ s f t fs, x = .pointer s ∧ TableStruct s f t fs ∧ (t.schema = [] ∨ t.name = [] → Sq.Spec.Balanced f.sqTag) ∧
      ∀ g ∈ fs, Unbound g → Sq.Spec.Balanced g.sqTag := by
  cases x with
  | nilInterface | nilPointer | notPointer | pointerToOther => cases h
  | pointer s =>
    simp only [reflectTable] at h
    cases hf : s.fields with
    | nil => rw [hf] at h; cases h
    | cons f fs =>
      rw [hf] at h
      dsimp only at h
      split at h
      · cases h
      next he =>
      cases hv : f.val with
      | typed | foreign | other => rw [hv] at h; cases h
      | tableInfo t =>
        rw [hv] at h
        dsimp only at h
        split at h
        · cases h
        next hm =>
        obtain ⟨t', h1, h2⟩ := (Res.bind_eq_ok _ _ _).1 h
        obtain ⟨fs', h3, -⟩ := Ddl.map_eq_ok h2
        refine ⟨s, f, t, fs, rfl, ⟨hf, by simpa using he, by simpa using hm, hv⟩, fun h0 => ?_, fun g hg hu => ?_⟩
        · unfold tableNames at h1
          obtain ⟨t1, h4, -⟩ := Ddl.map_eq_ok h1
          rw [if_pos h0] at h4
          obtain ⟨ms, h5, -⟩ := Ddl.map_eq_ok h4
          exact C32_accepts_only_balanced true _ _ h5
        · obtain ⟨g', -, hr⟩ := each_mem (reflectFields_ok _ _ _ _ h3) g hg
          obtain ⟨he, ty, fi, neg, hv, hn⟩ := hu
          unfold reflectField at hr
          rw [if_neg (by simp [he]), hv] at hr
          simp only [FVal.getName, Res.bind_ok, hn] at hr
          rw [if_neg (by simp)] at hr
          obtain ⟨n, h6, -⟩ := Ddl.map_eq_ok hr
          obtain ⟨ms, h5, -⟩ := Ddl.map_eq_ok h6
          exact C32_accepts_only_balanced true _ _ h5

theorem reflectField_again (lower : Str → Str) (t t' : TInfo) (f f' : SField) (hl : lower f.goName ≠ [])
    (h : reflectField lower t f = .ok f') : reflectField lower t' f' = .ok f' := by
  have h' := h
  unfold reflectField at h
  cases he : f.exported with
  | false =>
    rw [he] at h
    cases h
    unfold reflectField
    rw [he]; rfl
  | true =>
    rw [he, if_neg (by decide)] at h
    cases hv : f.val with
    | tableInfo _ | other =>
      rw [hv] at h
      cases h
      unfold reflectField
      rw [he, hv]; rfl
    | foreign n =>
      rw [hv] at h
      simp only [FVal.getName] at h
      obtain ⟨x, rfl, hx0⟩ := (Res.bind_eq_ok _ _ _).1 h
      have e : f' = f := by
        split at hx0
        · cases hx0; rfl
        · obtain ⟨n, -, rfl⟩ := Ddl.map_eq_ok hx0; rfl
      subst e
      unfold reflectField
      rw [he, if_neg (by decide), hv]
      simp only [FVal.getName, Res.bind_ok]
      split at hx0
      next hx => rw [if_pos hx]
      next hx =>
        rw [if_neg hx]
        obtain ⟨n, hn, -⟩ := Ddl.map_eq_ok hx0
        rw [hn]; rfl
    | typed ty fi neg =>
      rw [hv] at h
      simp only [FVal.getName, Res.bind_ok] at h
      split at h
      next hx =>
        cases h
        unfold reflectField
        rw [he, if_neg (by decide), hv]
        simp only [FVal.getName, Res.bind_ok, if_pos hx]
      next hx =>
        obtain ⟨n, hn, rfl⟩ := Ddl.map_eq_ok h
        obtain ⟨ms, -, rfl⟩ := Ddl.map_eq_ok hn
        unfold reflectField
        simp only [FVal.getName, Res.bind_ok, freshInfo]
        rw [if_neg (by simp [he]), if_pos]
        intro h0
        split at h0
        · exact hl h0
        next h1 => exact h1 h0

theorem reflectFields_again (lower : Str → Str) (t t' : TInfo) (fs fs' : List SField) (hl : ∀ f ∈ fs, lower f.goName ≠ [])
    (h : reflectFields lower t fs = .ok fs') : reflectFields lower t' fs' = .ok fs' := by
  induction fs generalizing fs' with
  | nil => cases h; rfl
  | cons f fs ih =>
    rw [reflectFields] at h
    obtain ⟨f', h1, h2⟩ := (Res.bind_eq_ok _ _ _).1 h
    obtain ⟨fs'', h3, rfl⟩ := Ddl.map_eq_ok h2
    rw [reflectFields, reflectField_again lower t t' f f' (hl f (by simp)) h1, Res.bind_ok,
      ih fs'' (fun g hg => hl g (List.mem_cons_of_mem _ hg)) h3]
    rfl

/-- **C66, calling it again.** A second call only changes the alias in the `TableInfo`; the fields keep what the first call gave them. -/
theorem C66_again (lower : Str → Str) (s s' : SType) (al al' : Str) (hl : ∀ f ∈ s.fields, lower f.goName ≠ []) (hs : lower s.typeName ≠ [])
    (h : reflectTable lower (.pointer s) al = .ok s') :
    ∃ f fs, s'.fields = f :: fs ∧ f.val = .tableInfo s'.info ∧
      reflectTable lower (.pointer s') al' =
        .ok { s' with fields := { f with val := .tableInfo { schema := s'.info.schema, name := s'.info.name, «alias» := al' } } :: fs } := by
  simp only [reflectTable] at h
  cases hf : s.fields with
  | nil => rw [hf] at h; cases h
  | cons f fs =>
    rw [hf] at h
    dsimp only at h
    split at h
    · cases h
    next he =>
    cases hv : f.val with
    | typed | foreign | other => rw [hv] at h; cases h
    | tableInfo t =>
      rw [hv] at h
      dsimp only at h
      split at h
      · cases h
      next hm =>
      obtain ⟨t', h1, h2⟩ := (Res.bind_eq_ok _ _ _).1 h
      obtain ⟨fs', h3, rfl⟩ := Ddl.map_eq_ok h2
      refine ⟨_, fs', rfl, rfl, ?_⟩
      have hnm : t'.name ≠ [] := by
        unfold tableNames at h1
        obtain ⟨t1, -, rfl⟩ := Ddl.map_eq_ok h1
        dsimp only
        split
        · exact hs
        · assumption
      have h4 : tableNames lower s.typeName f.sqTag { t' with «alias» := al } = .ok { t' with «alias» := al } := by
        unfold tableNames
        dsimp only
        split
        next h0 =>
          have hsch : t'.schema = [] := h0.resolve_right hnm
          -- the tag was read the first time, and gave no schema
          unfold tableNames at h1
          obtain ⟨t1, h5, e⟩ := Ddl.map_eq_ok h1
          split at h5
          next h6 =>
            obtain ⟨ms, h7, rfl⟩ := Ddl.map_eq_ok h5
            rw [h7]
            subst e
            dsimp only at hsch hnm ⊢
            simp only [Res.map, hsch, if_neg hnm, if_true]
            have : (tagValue ms "schema").getD [] = [] := by
              by_cases hh : t.schema = []
              · simpa [hh] using hsch
              · simp [hh] at hsch
            rw [this]
          next h6 =>
            cases h5
            subst e
            exact absurd (Or.inl hsch) h6
        · simp [Res.map, hnm]
      simp only [reflectTable]
      rw [if_neg he, if_neg hm, h4, Res.bind_ok]
      dsimp only
      rw [reflectFields_again lower _ _ fs fs' (fun g hg => hl g (by rw [hf]; exact List.mem_cons_of_mem _ hg)) h3]
      rfl

/-! ### An example -/

/-- `type ACTOR struct { sq.TableInfo; ACTOR_ID sq.NumberField `ddl:"primarykey"`; FIRST_NAME sq.StringField `sq:"name={first name}"`; secret sq.StringField }` -/
def actor : SType := { typeName := "ACTOR", fields := [
  { goName := "TableInfo", embedded := true, sqTag := "schema=public", val := .tableInfo {} },
  { goName := "ACTOR_ID", ddlTag := "primarykey", val := .typed .number {} false },
  { goName := "FIRST_NAME", sqTag := "name={first name}", val := .typed .string {} false },
  { goName := "secret", exported := false, val := .typed .string {} false }] }

def lowerAscii (s : Str) : Str := s.map Char.toLower

/-- Its binding as `a`. -/
def actorBound : SType := { typeName := "ACTOR", fields := [
  { goName := "TableInfo", embedded := true, sqTag := "schema=public", val := .tableInfo { schema := "public", name := "actor", «alias» := "a" } },
  { goName := "ACTOR_ID", ddlTag := "primarykey", val := .typed .number { tableName := "actor", tableAlias := "a", name := "actor_id" } false },
  { goName := "FIRST_NAME", sqTag := "name={first name}", val := .typed .string { tableName := "actor", tableAlias := "a", name := "first name" } false },
  { goName := "secret", exported := false, val := .typed .string {} false }] }

private instance : DecidablePred Sq.Spec.Word := fun s => inferInstanceAs (Decidable (s ≠ [] ∧ ∀ c ∈ s, _))
private instance : DecidablePred Sq.Spec.Gap := fun s => inferInstanceAs (Decidable (s ≠ [] ∧ ∀ c ∈ s, _))

/-- The hypotheses of `C66_bound` are met. -/
theorem C66_example_struct : ∃ f t fs, TableStruct actor f t fs ∧ f.sqTag = "schema=public".toList ∧ fs.length = 3 := ⟨_, _, _, ⟨rfl, rfl, rfl, rfl⟩, rfl, rfl⟩

theorem C66_example_table_tag : WrittenTag "schema=public" [("schema", "public")] :=
  .inr ⟨[(" ", { name := "schema", value := some "public", bare := true })], by decide +kernel, by
    simp only [List.mem_singleton]; rintro p rfl; exact ⟨by decide, by decide, by intro v h; cases h; rw [if_pos rfl]; decide⟩, by decide +kernel⟩

theorem C66_example_name_tag : WrittenTag "name={first name}" [("name", "first name")] :=
  .inr ⟨[(" ", { name := "name", value := some "first name" })], by decide +kernel, by
    simp only [List.mem_singleton]; rintro p rfl; exact ⟨by decide, by decide, by intro v h; cases h; rw [if_neg (by decide)]; show Sq.Spec.depth 0 _ = _; decide⟩, by decide +kernel⟩

theorem C66_example_no_tag : WrittenTag "" [] := .inl ⟨[], by decide +kernel, by simp, rfl⟩

theorem C66_example_readable : ∀ g ∈ actor.fields.tail, Readable g := by
  intro g hg
  have h3 : ∀ n, g.exported = true → g.val = .foreign n → ∃ x, n = .ok x := by
    simp [actor] at hg
    rcases hg with rfl | rfl | rfl <;> (intro n _ h; cases h)
  refine ⟨fun h => ?_, h3⟩
  simp [actor] at hg
  rcases hg with rfl | rfl | rfl
  · exact ⟨_, C66_example_no_tag⟩
  · exact ⟨_, C66_example_name_tag⟩
  · exact ⟨_, C66_example_no_tag⟩

/-- And the result. -/
theorem C66_example : reflectTable lowerAscii (.pointer actor) "a" = .ok actorBound := by decide +kernel

/-- The bound fields in queries. -/
theorem C66_example_queries :
    ((actorBound.fields.drop 1).take 2).map (fun f => (renderAt { d := .postgres } f.val.node).query) =
      ["a.actor_id".toList, "a.\"first name\"".toList] ∧
    (renderAt { d := .postgres } (tableNode actorBound.info)).query = "public.actor".toList := by decide +kernel

def actorWanted : Res Ddl.Table := (actorBound.decl .postgres).bind fun decl =>
  ({ tableSchema := decl.schema, tableName := decl.name } : Ddl.Table).load (fun _ => false) .postgres decl

/-- The bound struct as a wanted table. -/
theorem C66_example_ddl : (match actorWanted with
    | .ok t => decide (t.ignore = false ∧ t.tableName = "actor".toList ∧ t.tableSchema = "public".toList ∧
        t.columns.map (fun c => (c.columnName, c.columnType)) = [("actor_id".toList, "INT".toList), ("first name".toList, "TEXT".toList)])
    | _ => false) = true := by decide +kernel

/-! ### What does not hold -/

/-- **C66, violated: another alias.** `ReflectTable` on a struct that was bound before gives the table the new alias but leaves the columns with the old one:
the query refers to a table it does not contain. -/
theorem C66_again_violated : ∃ s', reflectTable lowerAscii (.pointer actorBound) "b" = .ok s' ∧
    s'.info.alias = "b".toList ∧
    ((s'.fields.drop 1).take 2).map (fun f => (renderAt { d := .postgres } f.val.node).query) =
      ["a.actor_id".toList, "a.\"first name\"".toList] := by
  refine ⟨{ actorBound with fields := { actorBound.fields.headD { goName := [], val := .other } with
    val := .tableInfo { schema := "public", name := "actor", «alias» := "b" } } :: actorBound.fields.tail }, by decide +kernel, rfl, by decide +kernel⟩

/-- **C66, violated: some arguments panic** instead of giving an error: an empty name in a tag, a nil pointer, a nil interface. -/
theorem C66_panics_violated :
    reflectTable lowerAscii (.pointer { typeName := "T", fields := [{ goName := "TableInfo", embedded := true, sqTag := "name=", val := .tableInfo {} }] }) [] = .panic ∧
    reflectTable lowerAscii .nilPointer [] = .panic ∧ reflectTable lowerAscii .nilInterface [] = .panic := by decide +kernel

/-- **C66, violated: a field of a type of one's own** (any `Field` outside the package's eight types, for instance one that embeds `sq.NumberField`) is passed
over without an error and stays unnamed. -/
theorem C66_foreign_violated (lower : Str → Str) (t : TInfo) (f : SField) (mods : List (Str × Str)) (h : f.val = .foreign (.ok []))
    (hw : WrittenTag f.sqTag mods) : reflectField lower t f = .ok f := by
  unfold reflectField
  split
  · rfl
  · rw [h]
    simp only [FVal.getName, Res.bind_ok, columnName, Ddl.Declared.writtenTag_lexK true hw]
    rfl

end Sq.Reflecting
