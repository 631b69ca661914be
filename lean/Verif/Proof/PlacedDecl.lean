import Verif.Proof.LoadDb
import Verif.Proof.Placed
/-
What `WithTables` declares carries the names of its table and schema.
-/
namespace Ddl.PlacedDecl
open Ddl Spec

/-- Same name and schema, and indexes and triggers stay placed. -/
structure KeepsP (t t' : Table) : Prop where
  name : t'.tableName = t.tableName
  schema : t'.tableSchema = t.tableSchema
  parts : PlacedTable t → PlacedTable t'

theorem KeepsP.refl (t : Table) : KeepsP t t := ⟨rfl, rfl, id⟩
theorem KeepsP.trans {a b c : Table} (h : KeepsP a b) (h' : KeepsP b c) : KeepsP a c :=
  ⟨h'.name.trans h.name, h'.schema.trans h.schema, fun p => h'.parts (h.parts p)⟩

/-- Indexes and triggers are as before. -/
theorem KeepsP.of_same {a b : Table} (h1 : b.tableName = a.tableName) (h2 : b.tableSchema = a.tableSchema) (h3 : b.indexes = a.indexes)
    (h4 : b.triggers = a.triggers) : KeepsP a b :=
  ⟨h1, h2, fun p => ⟨by rw [h1, h2, h3]; exact p.indexes, by rw [h1, h2, h4]; exact p.triggers⟩⟩

theorem KeepsP.map_ok {α : Type} {t : Table} {r : Res α} {f : α → Table} {t' : Table} (h : r.map f = .ok t') (hf : ∀ a, r = .ok a → KeepsP t (f a)) :
    KeepsP t t' := by
  obtain ⟨a, ha, rfl⟩ := map_eq_ok h
  exact hf a ha

theorem putIndex_p {t t' : Table} {name : Str} {new : Index} {edit : Index → Res Index}
    (he : ∀ x x', (x = new ∨ x ∈ t.indexes) → PlacedTable t → edit x = .ok x' → x'.tableSchema = t.tableSchema ∧ x'.tableName = t.tableName)
    (h : t.putIndex name new edit = .ok t') : KeepsP t t' := by
  unfold Table.putIndex at h
  split at h
  · rename_i n hn
    obtain ⟨x, hx, rfl⟩ := map_eq_ok h
    refine ⟨rfl, rfl, fun p => ⟨fun y hy => ?_, p.triggers⟩⟩
    rcases List.mem_or_eq_of_mem_set hy with hy | rfl
    · exact p.indexes y hy
    · refine he _ _ ?_ p hx
      cases hg : t.indexes[n]? with
      | none => exact .inl rfl
      | some z => exact .inr (List.mem_of_getElem? hg)
  · obtain ⟨x, hx, rfl⟩ := map_eq_ok h
    refine ⟨rfl, rfl, fun p => ⟨fun y hy => ?_, p.triggers⟩⟩
    rcases List.mem_append.1 hy with hy | hy
    · exact p.indexes y hy
    · rw [List.mem_singleton.1 hy]
      exact he _ _ (.inl rfl) p hx

theorem loadIndexConfig_p {d : Dialect} {t t' : Table} {cols : List Str} {config : Str} (h : loadIndexConfig d t cols config = .ok t') :
    KeepsP t t' := by
  unfold loadIndexConfig at h
  obtain ⟨⟨v, ms⟩, -, h⟩ := (Res.bind_eq_ok _ _ _).1 h
  dsimp only at h
  generalize (if v ≠ ".".toList ∧ v ≠ [] then splitOn ',' v else cols) = cols' at h
  by_cases hc : cols' = []
  · rw [if_pos hc] at h; cases h
  · rw [if_neg hc] at h
    refine putIndex_p (fun x x' hx p hxx => ?_) h
    have := foldRes_inv (indexModifier d) (fun a b => b.tableSchema = a.tableSchema ∧ b.tableName = a.tableName) (fun _ => ⟨rfl, rfl⟩)
      (fun _ _ _ h1 h2 => ⟨h2.1.trans h1.1, h2.2.trans h1.2⟩) (fun a b a' hh => by
        unfold indexModifier at hh
        repeat' split at hh
        all_goals first | (cases hh; exact ⟨rfl, rfl⟩) | cases hh) ms _ _ hxx
    rcases hx with rfl | hx
    · exact this
    · exact ⟨this.1.trans (p.indexes x hx).1, this.2.trans (p.indexes x hx).2⟩

theorem putConstraint_p {t t' : Table} {name : Str} {new : Constraint} {edit : Constraint × Table → Res (Constraint × Table)}
    (he : ∀ s r, s.2 = t → edit s = .ok r → KeepsP t r.2) (h : t.putConstraint name new edit = .ok t') : KeepsP t t' := by
  unfold Table.putConstraint at h
  split at h
  all_goals
    obtain ⟨r, hr, rfl⟩ := map_eq_ok h
    exact (he _ _ rfl hr).trans (.of_same rfl rfl rfl rfl)

theorem constraintModifier_p {d : Dialect} {cols : List Str} {s r : Constraint × Table} {m : Str × Str}
    (h : constraintModifier d cols s m = .ok r) : KeepsP s.2 r.2 := by
  unfold constraintModifier at h
  repeat' split at h
  all_goals first
    | (cases h; exact .refl _)
    | (cases h; done)
    | (obtain ⟨t, ht, rfl⟩ := map_eq_ok h
       exact loadIndexConfig_p ht)

theorem loadConstraintConfig_p {d : Dialect} {t t' : Table} {kind : ConstraintType} {isRef : Bool} {cols : List Str} {config : Str}
    (h : loadConstraintConfig d t kind isRef cols config = .ok t') : KeepsP t t' := by
  unfold loadConstraintConfig at h
  obtain ⟨⟨v, ms⟩, -, h⟩ := (Res.bind_eq_ok _ _ _).1 h
  dsimp only at h
  generalize (if (!isRef) = true ∧ v ≠ ".".toList ∧ v ≠ [] then splitOn ',' v else cols) = cols' at h
  by_cases hc : cols' = []
  · rw [if_pos hc] at h; cases h
  · rw [if_neg hc] at h
    refine putConstraint_p (fun s r hst hs => ?_) h
    subst hst
    have := foldRes_inv _ (fun (a b : Constraint × Table) => KeepsP a.2 b.2) (fun _ => .refl _) (fun _ _ _ => .trans)
      (fun a b a' hh => constraintModifier_p hh) ms _ _ hs
    exact this

theorem declare_p {d : Dialect} {t t' : Table} {cols : List Str} {k v : Str} (h : declare d t cols k v = .ok t') : KeepsP t t' := by
  unfold declare at h
  repeat' split at h
  all_goals first
    | exact loadConstraintConfig_p h
    | exact loadIndexConfig_p h
    | cases h

theorem columnModifier_p {num : Str → Bool} {d : Dialect} {s r : Column × Table} {m : Str × Str}
    (h : columnModifier num d s m = .ok r) : KeepsP s.2 r.2 := by
  unfold columnModifier at h
  repeat' split at h
  · cases h; exact .refl _
  · cases h; exact .refl _
  · obtain ⟨t, ht, rfl⟩ := map_eq_ok h
    exact declare_p ht

theorem loadColumnConfig_p {num : Str → Bool} {d : Dialect} {t t' : Table} {name type config : Str}
    (h : loadColumnConfig num d t name type config = .ok t') : KeepsP t t' := by
  unfold loadColumnConfig at h
  obtain ⟨ms, -, h⟩ := (Res.bind_eq_ok _ _ _).1 h
  dsimp only at h
  have fold : ∀ s r, foldRes (columnModifier num d) s ms = .ok r → KeepsP s.2 r.2 := fun s r hs =>
    foldRes_inv _ (fun (a b : Column × Table) => KeepsP a.2 b.2) (fun _ => .refl _) (fun _ _ _ => .trans) (fun a b a' hh => columnModifier_p hh) ms _ _ hs
  split at h
  all_goals
    obtain ⟨r, hr, rfl⟩ := map_eq_ok h
    exact (fold _ _ hr).trans (.of_same rfl rfl rfl rfl)

theorem tableModifier_p {d : Dialect} {t t' : Table} {m : Str × Str} (h : tableModifier d t m = .ok t') : KeepsP t t' := by
  unfold tableModifier at h
  repeat' split at h
  · cases h; exact .refl _
  · obtain ⟨r, hr, rfl⟩ := map_eq_ok h
    exact .of_same rfl rfl rfl rfl
  · cases h; exact .refl _
  · cases h; exact .of_same rfl rfl rfl rfl
  · exact declare_p h

theorem loadFields_p {num : Str → Bool} {d : Dialect} (fs : List FieldDecl) {t : Table} {r : Table × Bool}
    (h : loadFields num d t fs = .ok r) : KeepsP t r.1 := by
  induction fs generalizing t with
  | nil => cases h; exact .refl _
  | cons f fs ih =>
    rw [loadFields] at h
    obtain ⟨⟨t1, stop⟩, h1, h2⟩ := (Res.bind_eq_ok _ _ _).1 h
    have k1 : KeepsP t t1 := by
      cases f with
      | other tag =>
        obtain ⟨t2, ht2, he⟩ := map_eq_ok h1
        cases he
        unfold loadTableConfig at ht2
        obtain ⟨ms, -, ht2⟩ := (Res.bind_eq_ok _ _ _).1 ht2
        exact foldRes_inv _ KeepsP .refl (fun _ _ _ => .trans) (fun _ _ _ hh => tableModifier_p hh) ms _ _ ht2
      | column name type tag =>
        rw [loadField] at h1
        split at h1
        · cases h1
        · obtain ⟨t2, ht2, he⟩ := map_eq_ok h1
          cases he
          exact loadColumnConfig_p ht2
    split at h2
    · cases h2; exact k1
    · exact k1.trans (ih h2)

/-! ### The builder -/

/-- A trigger's text names the schema of its table. -/
def TrigPlaced (schema : Str) : TOp → Prop
  | .trigger trg => trg.tableSchema = schema
  | _ => True

theorem declareConstraint_p {d : Dialect} {t t' : Table} {kind : ConstraintType} {name : Str} {cols : List Str} {e : Str}
    {edit : Constraint → Constraint} (h : t.declareConstraint d kind name cols e edit = .ok t') : KeepsP t t' := by
  unfold Table.declareConstraint at h
  split at h
  · cases h
  · refine putConstraint_p (fun s r hst hs => ?_) h
    cases hs
    rw [hst]
    exact .refl _

theorem colOp_p {d : Dialect} {n : Nat} {t t' : Table} {op : ColOp} (h : op.run d n t = .ok t') : KeepsP t t' := by
  cases op with
  | primaryKey =>
    simp only [ColOp.run] at h
    split at h
    · exact declareConstraint_p h
    · cases h
  | unique =>
    simp only [ColOp.run] at h
    split at h
    · exact declareConstraint_p h
    · cases h
  | _ => cases h; exact .of_same rfl rfl rfl rfl

theorem idxOp_fold_p (name s tn : Str) (ops : List IdxOp) (c : Index) (hc : c.tableSchema = s ∧ c.tableName = tn) :
    (ops.foldl (IdxOp.run name s tn) c).tableSchema = s ∧ (ops.foldl (IdxOp.run name s tn) c).tableName = tn := by
  induction ops generalizing c with
  | nil => exact hc
  | cons op ops ih =>
    refine ih _ ?_
    cases op <;> simp only [IdxOp.run] <;> first | exact hc | exact ⟨rfl, rfl⟩ | exact ⟨trivial, trivial⟩

theorem tOp_p {d : Dialect} {t t' : Table} {op : TOp} (hop : TrigPlaced t.tableSchema op) (h : op.run d t = .ok t') : KeepsP t t' := by
  cases op with
  | ignore => cases h; exact .of_same rfl rfl rfl rfl
  | virtualTable m args => cases h; exact .of_same rfl rfl rfl rfl
  | column name ops =>
    simp only [TOp.run] at h
    unfold runColumn at h
    split at h
    · cases h
    · exact foldRes_inv _ KeepsP .refl (fun _ _ _ => .trans) (fun _ _ _ hh => colOp_p hh) ops _ _ h
  | constraint kind name cols e ops =>
    simp only [TOp.run] at h
    exact declareConstraint_p h
  | exclude name it cols exprs ops' ops =>
    simp only [TOp.run] at h
    repeat' split at h
    · cases h
    · cases h
    · refine putConstraint_p (fun s r hst hs => ?_) h
      cases hs
      rw [hst]
      exact .refl _
  | index name cols exprs ops =>
    simp only [TOp.run] at h
    split at h
    · cases h
    · refine putIndex_p (fun x x' _ _ hx => ?_) h
      cases hx
      exact idxOp_fold_p _ _ _ _ _ ⟨rfl, rfl⟩
  | trigger trg =>
    simp only [TOp.run] at h
    repeat' split at h
    · cases h
    · cases h
    · cases h
      refine ⟨rfl, rfl, fun p => ⟨p.indexes, fun x hx => ?_⟩⟩
      rcases mem_modify_of hx with hx | ⟨y, hy, rfl⟩
      · exact p.triggers x hx
      · exact p.triggers y (List.mem_of_getElem? hy)
    · rename_i _ hn _ _
      cases h
      refine ⟨rfl, rfl, fun p => ⟨p.indexes, fun x hx => ?_⟩⟩
      rcases List.mem_append.1 hx with hx | hx
      · exact p.triggers x hx
      · rw [List.mem_singleton.1 hx]
        exact ⟨hop, Classical.not_not.1 hn⟩

theorem foldTOps_p {d : Dialect} (ops : List TOp) {t t' : Table} (hn : ∀ op ∈ ops, TrigPlaced t.tableSchema op)
    (h : foldRes (TOp.run d) t ops = .ok t') : KeepsP t t' := by
  induction ops generalizing t with
  | nil => cases h; exact .refl _
  | cons op ops ih =>
    rw [foldRes] at h
    obtain ⟨t1, h1, h2⟩ := (Res.bind_eq_ok _ _ _).1 h
    have k := tOp_p (hn op (by simp)) h1
    exact k.trans (ih (fun o ho => by rw [k.schema]; exact hn o (List.mem_cons_of_mem _ ho)) h2)

/-- The triggers a declaration's DDL method makes name the schema of the table. -/
def TrigsPlaced (decl : TableDecl) : Prop := ∀ d, ∀ op ∈ decl.ddl d, TrigPlaced decl.schema op

theorem load_p {num : Str → Bool} {d : Dialect} {t t' : Table} {decl : TableDecl} (hn : TrigsPlaced decl) (h : t.load num d decl = .ok t')
    (hs : t.tableSchema = decl.schema) (ht : t.tableName = decl.name) (p : PlacedTable t) :
    t'.tableName = decl.name ∧ t'.tableSchema = decl.schema ∧ PlacedTable t' := by
  unfold Table.load at h
  split at h
  · cases h
  · dsimp only at h
    split at h
    · cases h
    · obtain ⟨⟨t1, stop⟩, h1, h2⟩ := (Res.bind_eq_ok _ _ _).1 h
      have k1 := loadFields_p _ h1
      have p0 : PlacedTable { t with tableSchema := decl.schema, tableName := decl.name } := by
        refine ⟨?_, ?_⟩
        · have := p.indexes; rw [hs, ht] at this; exact this
        · have := p.triggers; rw [hs, ht] at this; exact this
      dsimp only at h2 k1
      have q : ∀ x : Table, KeepsP t1 x → x.tableName = decl.name ∧ x.tableSchema = decl.schema ∧ PlacedTable x := fun x k =>
        ⟨k.name.trans k1.name, k.schema.trans k1.schema, k.parts (k1.parts p0)⟩
      split at h2
      · cases h2; exact q _ (.refl _)
      · obtain ⟨t2, ht2, rfl⟩ := map_eq_ok h2
        have k := foldTOps_p _ (fun o ho => by rw [show t1.tableSchema = decl.schema from k1.schema]; exact hn d o ho) ht2
        refine q _ (k.trans ?_)
        have kf : KeepsP t2 (fts5Columns t2) := by
          unfold fts5Columns
          split
          · exact .of_same rfl rfl rfl rfl
          · exact .refl _
        refine kf.trans ?_
        generalize fts5Columns t2 = t3
        generalize t2.constraints = cs
        clear q ht2 h2 k1 h1 h kf k
        induction cs generalizing t3 with
        | nil => exact .refl _
        | cons c cs ih =>
          obtain ⟨a, b, c', e⟩ := markColumn_placed t3 c
          exact (KeepsP.of_same b a c' e).trans (ih _)

/-! ### Databases -/

/-- Every table that can be found carries its name and schema, and so do its parts. -/
def TablesPlaced (d : DatabaseMetadata) : Prop := ∀ s n t, table? d s n = some t → t.tableSchema = s ∧ t.tableName = n ∧ PlacedTable t

theorem withTables_placed {num : Str → Bool} {dia : Dialect} (decls : List TableDecl) (hn : ∀ x ∈ decls, x.Named) (hp : ∀ x ∈ decls, TrigsPlaced x)
    {d d' : DatabaseMetadata} (h : DbInv d) (ht : TablesInv d) (hd : TablesPlaced d) (hl : withTables num dia decls d = .ok d') : TablesPlaced d' := by
  induction decls generalizing d with
  | nil => cases hl; exact hd
  | cons x decls ih =>
    unfold withTables at hl
    rw [foldRes] at hl
    obtain ⟨d1, h1, h2⟩ := (Res.bind_eq_ok _ _ _).1 hl
    obtain ⟨-, i1, i2, t', ht', -, hk⟩ := loadTable_ok h ht (hn x (by simp)) h1
    refine ih (fun y hy => hn y (List.mem_cons_of_mem _ hy)) (fun y hy => hp y (List.mem_cons_of_mem _ hy)) i1 i2 ?_ h2
    have h3 : t'.tableName = x.name ∧ t'.tableSchema = x.schema ∧ PlacedTable t' := by
      cases hf : table? d x.schema x.name with
      | none =>
        rw [hf] at ht'
        exact load_p (hp x (by simp)) ht' rfl rfl ⟨fun _ hx => absurd hx List.not_mem_nil, fun _ hx => absurd hx List.not_mem_nil⟩
      | some t =>
        rw [hf] at ht'
        obtain ⟨a, b, c⟩ := hd _ _ _ hf
        exact load_p (hp x (by simp)) ht' a b c
    intro s n t hst
    rw [hk] at hst
    split at hst
    · rename_i hsn
      unfold unlessIgnored at hst
      split at hst
      · cases hst
      · cases hst
        rw [hsn.1, hsn.2]
        exact ⟨h3.2.1, h3.1, h3.2.2⟩
    · exact hd s n t hst

/-- There are neither views nor functions. -/
def TablesOnly (d : DatabaseMetadata) : Prop := (∀ s ∈ d.schemas, s.views = [] ∧ s.functions = []) ∧ d.extensions = []

theorem withTables_only {num : Str → Bool} {dia : Dialect} (decls : List TableDecl) {d d' : DatabaseMetadata} (h : TablesOnly d)
    (hl : withTables num dia decls d = .ok d') : TablesOnly d' := by
  induction decls generalizing d with
  | nil => cases hl; exact h
  | cons x decls ih =>
    unfold withTables at hl
    rw [foldRes] at hl
    obtain ⟨d1, h1, h2⟩ := (Res.bind_eq_ok _ _ _).1 hl
    refine ih ?_ h2
    clear h2 hl ih
    unfold DatabaseMetadata.loadTable at h1
    split at h1
    · cases h1
    have put : ∀ (s s' : Schema), (s.views = [] ∧ s.functions = []) →
        s.putTable x.name { tableSchema := x.schema, tableName := x.name } (fun t => t.load num dia x) = .ok s' → s'.views = [] ∧ s'.functions = [] := by
      intro s s' hs hp
      unfold Schema.putTable at hp
      split at hp
      all_goals
        obtain ⟨t, -, rfl⟩ := map_eq_ok hp
        exact hs
    unfold DatabaseMetadata.putSchema at h1
    split at h1
    · rename_i n hn
      obtain ⟨s', hs', rfl⟩ := map_eq_ok h1
      refine ⟨fun s hs => ?_, h.2⟩
      rcases List.mem_or_eq_of_mem_set hs with hs | rfl
      · exact h.1 s hs
      · refine put _ _ ?_ hs'
        cases hg : d.schemas[n]? with
        | none => exact ⟨rfl, rfl⟩
        | some z => exact h.1 z (List.mem_of_getElem? hg)
    · obtain ⟨s', hs', rfl⟩ := map_eq_ok h1
      refine ⟨fun s hs => ?_, h.2⟩
      rcases List.mem_append.1 hs with hs | hs
      · exact h.1 s hs
      · rw [List.mem_singleton.1 hs]
        exact put _ _ ⟨rfl, rfl⟩ hs'

end Ddl.PlacedDecl
