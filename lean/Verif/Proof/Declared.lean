import Verif.Spec.Declared
import Verif.Props.NoPanic
import Verif.Proof.Load
/-
Proofs about `ddl` struct tags (Spec/Declared): loading a written tag gives what it stands for.
-/
namespace Ddl.Declared
open Sq.Spec (Modifier Gap writeMods Word Balanced)

/-! ### Reading the text -/

theorem written_lexK (k : Bool) {text : Str} {pairs : List (Str × Str)} (h : Written text pairs) : Sq.lexModifiers k text = .ok pairs := by
  obtain ⟨ms, rfl, hg, rfl⟩ := h
  exact Sq.C32_roundtrip k ms (fun p hp => (hg p hp).1) (fun p hp => (hg p hp).2)

theorem written_lex {text : Str} {pairs : List (Str × Str)} (h : Written text pairs) : Sq.lexModifiers false text = .ok pairs := written_lexK false h

theorem writtenTag_lexK (k : Bool) {text : Str} {pairs : List (Str × Str)} (h : WrittenTag text pairs) : Sq.lexModifiers k text = .ok pairs := by
  rcases h with h | ⟨ms, ht, hg, rfl⟩
  · exact written_lexK k h
  cases ms with
  | nil => simp [writeMods] at ht
  | cons p ms =>
    obtain ⟨g, m⟩ := p
    have h1 := hg (g, m) (by simp)
    cases g with
    | nil => exact absurd rfl h1.1.1
    | cons c g =>
      simp only [writeMods, List.cons_append, List.cons.injEq] at ht
      obtain ⟨-, rfl⟩ := ht
      have hrest : Sq.lexModifiers k (writeMods ms) = .ok (ms.map fun p => p.2.read) :=
        Sq.C32_roundtrip k ms (fun p hp => (hg p (by simp [hp])).1) (fun p hp => (hg p (by simp [hp])).2)
      have hc := Sq.cutValue_modifier g (fun c hc => h1.1.2 c (by simp [hc])) m h1.2 (writeMods ms)
        (Sq.tokenEnd_mods ms (fun p hp => (hg p (by simp [hp])).1))
      have hne := Sq.write_ne_nil m h1.2
      have hl : (writeMods ms).length < (g ++ m.write ++ writeMods ms).length := by
        have : 0 < m.write.length := List.length_pos_iff.2 hne
        simp only [List.length_append]; omega
      exact Sq.lexModifiers_step k _ m.write _ m.read _ (by intro h; simp [hne] at h) hc hl hne (Sq.splitModifier_write m h1.2) hrest

theorem writtenTag_lex {text : Str} {pairs : List (Str × Str)} (h : WrittenTag text pairs) : Sq.lexModifiers false text = .ok pairs := writtenTag_lexK false h

theorem writtenValue_lex {text first : Str} {pairs : List (Str × Str)} (h : WrittenValue text first pairs) :
    Sq.lexValue false text = .ok (first, pairs) := by
  rcases h with ⟨rfl, rfl, rfl⟩ | ⟨rest, rfl, hw, ms, rfl, hg, rfl⟩
  · unfold Sq.lexValue
    simp only [Sq.cutValue, List.dropWhile, Res.bind]
    rw [Sq.lexModifiers.eq_def]
    simp [Res.map]
  · exact Sq.C32_tag_roundtrip false first hw ms (fun p hp => (hg p hp).1) (fun p hp => (hg p hp).2)

theorem splitOn_plain (c : Char) (x : Str) (h : c ∉ x) : splitOn c x = [x] := by
  induction x with
  | nil => rfl
  | cons a x ih =>
    simp only [List.mem_cons, not_or] at h
    rw [splitOn, if_neg (Ne.symm h.1), ih h.2]

theorem splitOn_cut (c : Char) (x y : Str) (h : c ∉ x) : splitOn c (x ++ c :: y) = x :: splitOn c y := by
  induction x with
  | nil => simp [splitOn]
  | cons a x ih =>
    simp only [List.mem_cons, not_or] at h
    rw [List.cons_append, splitOn, if_neg (Ne.symm h.1), ih h.2]

theorem splitOn_commas : ∀ (xs : List Str), xs ≠ [] → (∀ x ∈ xs, ',' ∉ x) → splitOn ',' (commas xs) = xs
  | [], h, _ => absurd rfl h
  | [x], _, h => splitOn_plain _ _ (h x (by simp))
  | x :: y :: xs, _, h => by
    rw [commas, splitOn_cut _ _ _ (h x (by simp)), splitOn_commas (y :: xs) (by simp) (fun z hz => h z (by simp [hz]))]

theorem commas_dot : ∀ (xs : List Str), (∀ x ∈ xs, Plain x) → '.' ∉ commas xs
  | [], _ => by simp [commas]
  | [x], h => (h x (by simp)).2.2
  | x :: y :: xs, h => by
    rw [commas]
    simp only [List.mem_append, List.mem_cons, not_or]
    exact ⟨(h x (by simp)).2.2, by decide, commas_dot (y :: xs) (fun z hz => h z (by simp [hz]))⟩

theorem commas_ne : ∀ (xs : List Str), xs ≠ [] → (∀ x ∈ xs, x ≠ []) → commas xs ≠ []
  | [], h, _ => absurd rfl h
  | [x], _, h => h x (by simp)
  | x :: y :: xs, _, h => by rw [commas]; simp

/-- The columns named by the first word. -/
theorem cols_read {cols : List Str} {text : Str} (h : ColsText cols text) (own : List Str) :
    (if text ≠ ".".toList ∧ text ≠ [] then splitOn ',' text else own) = ownOr own cols := by
  rcases h with ⟨rfl, rfl | rfl⟩ | ⟨hne, hp, rfl⟩
  · simp [ownOr]
  · simp [ownOr]
  · have h1 : commas cols ≠ [] := commas_ne cols hne fun x hx => (hp x hx).1
    have h2 : commas cols ≠ ".".toList := by
      intro h
      exact commas_dot cols hp (by rw [h]; decide)
    rw [if_pos ⟨h2, h1⟩, splitOn_commas cols hne fun x hx => (hp x hx).2.1, ownOr, if_neg hne]

theorem ignore_read (d : Dialect) {ds : List Str} {v : Str} (h : DialectsText ds v) : ignoreFor d v = ignores d ds := by
  obtain ⟨rfl, h⟩ := h
  have hn : ∀ x : Str, (decide (some x = dialectName d)) = named d x := by
    intro x
    unfold named
    cases d <;> simp [dialectName, dialectWord, eq_comm]
  unfold ignoreFor ignores
  cases ds with
  | nil => rfl
  | cons x xs =>
    have h1 : commas (x :: xs) ≠ [] := commas_ne _ (by simp) fun y hy => (h y hy).1
    rw [splitOn_commas _ (by simp) fun y hy => (h y hy).2]
    simp only [h1, decide_false, Bool.false_or, List.isEmpty_cons]
    congr 1
    funext y
    exact hn y

theorem setReferences_read {r : Ref} {text : Str} (h : r.Says text) (c : Constraint) (own : List Str) :
    setReferences c own text =
      { c with referencesSchema := r.schema.getD c.referencesSchema, referencesTable := r.table,
               referencesColumns := if r.cols = [] then own else r.cols } := by
  obtain ⟨ht, hs, hc, rfl⟩ := h
  have hd := commas_dot r.cols hc
  have hcm : r.cols ≠ [] → splitOn ',' (commas r.cols) = r.cols := fun hne => splitOn_commas _ hne fun x hx => (hc x hx).2.1
  have dot : ".".toList = ['.'] := rfl
  unfold setReferences splitN3
  cases hsch : r.schema with
  | none =>
    by_cases hne : r.cols = []
    · rw [if_pos hne, if_pos hne, List.append_nil, List.nil_append, splitOn_plain _ _ ht.2.2]
      rfl
    · rw [if_neg hne, if_neg hne, dot, List.nil_append, List.singleton_append, splitOn_cut _ _ _ ht.2.2, splitOn_plain _ _ hd]
      simp only [hcm hne]
      rfl
  | some s =>
    obtain ⟨hs1, hne⟩ := hs s hsch
    rw [if_neg hne, if_neg hne, dot]
    have e : s ++ ['.'] ++ r.table ++ (['.'] ++ commas r.cols) = s ++ '.' :: (r.table ++ '.' :: commas r.cols) := by simp
    simp only [e]
    rw [splitOn_cut _ _ _ hs1.2.2, splitOn_cut _ _ _ ht.2.2, splitOn_plain _ _ hd]
    simp only [List.tail_cons, List.foldl_nil, hcm hne, Option.getD_some]

/-! ### The last value -/

theorem lastOf_nil {α β : Type} (f : α → Option β) : lastOf f [] = none := rfl

theorem lastOf_cons {α β : Type} (f : α → Option β) (a : α) (l : List α) : lastOf f (a :: l) = (lastOf f l).or (f a) := by
  unfold lastOf
  rw [List.filterMap_cons]
  cases f a with
  | none => simp
  | some b =>
    simp only []
    rw [List.getLast?_cons]
    cases (l.filterMap f).getLast? <;> rfl

theorem or_getD {β : Type} (a b : Option β) (c : β) : (a.or b).getD c = a.getD (b.getD c) := by cases a <;> rfl

theorem modifierValue_nil (n : String) : modifierValue [] n = [] := rfl

theorem modifierValue_cons (p : Str × Str) (ps : List (Str × Str)) (n : String) :
    modifierValue (p :: ps) n =
      ((((ps.reverse.find? fun m => m.1 = n.toList).or (if p.1 = n.toList then some p else none)).map Prod.snd).getD []) := by
  unfold modifierValue
  rw [List.reverse_cons, List.find?_append]
  congr 3
  rw [List.find?_cons, List.find?_nil]
  by_cases h : p.1 = n.toList <;> simp [h]

/-! ### Folds over modifiers -/

theorem foldRes_each {α τ : Type} {R : τ → Str × Str → Prop} {f : α → Str × Str → Res α} {edit : α → τ → α}
    (hf : ∀ a t p, R t p → f a p = .ok (edit a t)) : ∀ (ts : List τ) (ps : List (Str × Str)) (a : α), Each R ts ps →
    foldRes f a ps = .ok (ts.foldl edit a)
  | [], [], a, _ => rfl
  | t :: ts, p :: ps, a, h => by
    rw [foldRes, hf a t p h.1]
    exact foldRes_each hf ts ps (edit a t) h.2
  | [], _ :: _, _, h => h.elim
  | _ :: _, [], _, h => h.elim

/-! ### Indexes -/

def idxEdit (at_ : Place) (x : Index) : IdxTag → Index
  | .unique => { x with isUnique := true }
  | .using m => { x with indexType := m.map Char.toUpper }
  | .where e => { x with predicate := e }
  | .include cs => { x with includeColumns := cs }
  | .ignore ds => { x with ignore := x.ignore || ignores at_.dialect ds }

theorem indexModifier_says (at_ : Place) (x : Index) (t : IdxTag) (p : Str × Str) (h : t.Says p) :
    indexModifier at_.dialect x p = .ok (idxEdit at_ x t) := by
  obtain ⟨k, v⟩ := p
  cases t with
  | unique => cases h; rfl
  | «using» m => cases h; rfl
  | «where» e => cases h; rfl
  | «include» cs =>
    obtain ⟨rfl, hne, hc, rfl⟩ := h
    simp [indexModifier, idxEdit, splitOn_commas cs hne hc]
  | ignore ds =>
    obtain ⟨h1, h2⟩ := h
    dsimp only at h1 h2
    subst h1
    simp [indexModifier, idxEdit, ignore_read _ h2]

/-- An index with modifiers, from any starting point. -/
def idxFrom (at_ : Place) (x : Index) (mods : List IdxTag) : Index :=
  { x with
    isUnique := x.isUnique || mods.any fun | .unique => true | _ => false
    indexType := ((lastOf (fun | .using m => some m | _ => none) mods).map fun m => m.map Char.toUpper).getD x.indexType
    predicate := (lastOf (fun | .where e => some e | _ => none) mods).getD x.predicate
    includeColumns := (lastOf (fun | .include cs => some cs | _ => none) mods).getD x.includeColumns
    ignore := x.ignore || mods.any fun | .ignore ds => ignores at_.dialect ds | _ => false }

theorem map_or {α β : Type} (f : α → β) (a b : Option α) : (a.or b).map f = (a.map f).or (b.map f) := by cases a <;> rfl

theorem idxFrom_fold (at_ : Place) (mods : List IdxTag) : ∀ x, mods.foldl (idxEdit at_) x = idxFrom at_ x mods := by
  induction mods with
  | nil => intro x; simp [idxFrom, lastOf_nil]
  | cons m ms ih =>
    intro x
    rw [List.foldl_cons, ih]
    unfold idxFrom
    cases m <;> simp [idxEdit, lastOf_cons, map_or, or_getD, Bool.or_assoc, -List.map_map]

def IdxTag.key : IdxTag → String
  | .unique => "unique" | .using _ => "using" | .where _ => "where" | .include _ => "include" | .ignore _ => "ignore"

theorem IdxTag.says_key {m : IdxTag} {p : Str × Str} (h : m.Says p) : p.1 = m.key.toList := by
  cases m with
  | unique => exact h
  | «using» m => rw [h]; rfl
  | «where» e => rw [h]; rfl
  | «include» cs => exact h.1
  | ignore ds => exact h.1

theorem noName_index {mods : List IdxTag} {pairs : List (Str × Str)} (h : Each IdxTag.Says mods pairs) :
    pairs.reverse.find? (fun m => m.1 = "name".toList) = none := by
  rw [List.find?_eq_none]
  intro p hp
  rw [List.mem_reverse] at hp
  induction mods generalizing pairs with
  | nil =>
    cases pairs with
    | nil => cases hp
    | cons _ _ => exact h.elim
  | cons m ms ih =>
    cases pairs with
    | nil => exact h.elim
    | cons q qs =>
      rcases List.mem_cons.1 hp with rfl | hp
      · have hk : m.key.toList ≠ "name".toList := by cases m <;> (unfold IdxTag.key; dsimp only; decide)
        rw [IdxTag.says_key h.1]
        simpa using hk
      · exact ih h.2 hp

theorem position_none {α : Type} [Entry α Str] (items : List α) (cache : Cache Str) (k : Str) (h : k ∉ items.map (Entry.key (κ := Str))) :
    (cachedPosition items cache k).1 = none := by
  cases hp : (cachedPosition items cache k).1 with
  | none => rfl
  | some n =>
    obtain ⟨-, -, x, hx, hk, -⟩ := get_of_lookup hp
    exact absurd (List.mem_map.2 ⟨x, List.mem_of_getElem? hx, hk⟩) h

def Place.of (d : Dialect) (t : Table) : Place := ⟨d, t.tableSchema, t.tableName⟩

theorem loadIndex_says {d : Dialect} {t : Table} {own : List Str} {i : IdxDecl} {text : Str} (h : i.Says text)
    (ho : own ≠ [] ∨ i.cols ≠ []) (hf : (i.index (.of d t) own).indexName ∉ t.indexes.map Index.indexName) :
    loadIndexConfig d t own text = .ok (t.appendIndex (i.index (.of d t) own)) := by
  obtain ⟨first, pairs, hw, hc, he⟩ := h
  unfold loadIndexConfig
  rw [writtenValue_lex hw]
  simp only [Res.bind, cols_read hc own]
  have hne : ownOr own i.cols ≠ [] := by unfold ownOr; split <;> simp_all
  rw [if_neg hne]
  have hnn : modifierValue pairs "name" = [] := by
    unfold modifierValue
    rw [noName_index he]
    rfl
  rw [hnn, if_pos rfl]
  unfold Table.putIndex
  have hn : t.cachedIndexPosition (generateName .index t.tableName (ownOr own i.cols)) = none :=
    position_none t.indexes t.indexCache _ hf
  rw [hn]
  simp only
  rw [foldRes_each (f := indexModifier d) (fun a x p => indexModifier_says (.of d t) a x p) i.mods pairs _ he, idxFrom_fold]
  simp only [Res.map]
  congr 2

/-! ### Constraints -/

/-- Schema, table and columns of a reference. -/
abbrev RefState := Str × Str × List Str

def refEdit (cols : List Str) (s : RefState) (r : Ref) : RefState := (r.schema.getD s.1, r.table, if r.cols = [] then cols else r.cols)

def conEdit (at_ : Place) (cols : List Str) (c : Constraint) : ConTag → Constraint
  | .name _ => c
  | .references r =>
    { c with referencesSchema := r.schema.getD c.referencesSchema, referencesTable := r.table,
             referencesColumns := if r.cols = [] then cols else r.cols }
  | .onUpdate a => { c with updateRule := a.sql.toList }
  | .onDelete a => { c with deleteRule := a.sql.toList }
  | .deferrable => { c with isDeferrable := c.isDeferrable || at_.dialect ≠ .mysql }
  | .deferred => { c with isDeferrable := c.isDeferrable || at_.dialect ≠ .mysql, isInitiallyDeferred := c.isInitiallyDeferred || at_.dialect ≠ .mysql }
  | .ignore ds => { c with ignore := c.ignore || ignores at_.dialect ds }
  | .index _ => c

def conFrom (at_ : Place) (cols : List Str) (c : Constraint) (mods : List ConTag) : Constraint :=
  let s := (mods.filterMap ConTag.ref?).foldl (refEdit cols) (c.referencesSchema, c.referencesTable, c.referencesColumns)
  { c with
    referencesSchema := s.1, referencesTable := s.2.1, referencesColumns := s.2.2
    updateRule := ((lastOf (fun | .onUpdate a => some a | _ => none) mods).map fun a => a.sql.toList).getD c.updateRule
    deleteRule := ((lastOf (fun | .onDelete a => some a | _ => none) mods).map fun a => a.sql.toList).getD c.deleteRule
    isDeferrable := c.isDeferrable || (at_.dialect ≠ .mysql && mods.any fun | .deferrable => true | .deferred => true | _ => false)
    isInitiallyDeferred := c.isInitiallyDeferred || (at_.dialect ≠ .mysql && mods.any fun | .deferred => true | _ => false)
    ignore := c.ignore || mods.any fun | .ignore ds => ignores at_.dialect ds | _ => false }

theorem conFrom_fold (at_ : Place) (cols : List Str) (mods : List ConTag) : ∀ c, mods.foldl (conEdit at_ cols) c = conFrom at_ cols c mods := by
  induction mods with
  | nil => intro x; simp [conFrom, lastOf_nil]
  | cons m ms ih =>
    intro x
    rw [List.foldl_cons, ih]
    unfold conFrom
    by_cases h : at_.dialect = .mysql <;> cases m <;>
      simp [h, conEdit, lastOf_cons, map_or, or_getD, Bool.or_assoc, ConTag.ref?, refEdit, List.filterMap_cons, -List.map_map]

theorem rule_read (a : Action) : ruleOf a.word.toList = some a.sql.toList := by cases a <;> decide

theorem deferrable_mysql (c : Constraint) (d : Dialect) :
    (if d = .mysql then c else { c with isDeferrable := true }) = { c with isDeferrable := c.isDeferrable || d ≠ .mysql } := by
  by_cases h : d = .mysql <;> simp [h]

theorem deferred_mysql (c : Constraint) (d : Dialect) :
    (if d = .mysql then c else { c with isDeferrable := true, isInitiallyDeferred := true }) =
      { c with isDeferrable := c.isDeferrable || d ≠ .mysql, isInitiallyDeferred := c.isInitiallyDeferred || d ≠ .mysql } := by
  by_cases h : d = .mysql <;> simp [h]

theorem conMod_says {d : Dialect} {cols : List Str} (hcols : cols ≠ []) (c : Constraint) (t : Table) (m : ConTag) (p : Str × Str) (h : m.Says p)
    (hf : ∀ x ∈ indexesOf (.of d t) cols [m], x.indexName ∉ t.indexes.map Index.indexName) :
    constraintModifier d cols (c, t) p = .ok (conEdit (.of d t) cols c m, (indexesOf (.of d t) cols [m]).foldl Table.appendIndex t) := by
  obtain ⟨k, v⟩ := p
  cases m with
  | name n => cases h.1; rfl
  | references r =>
    obtain ⟨rfl, hr⟩ := h
    have e := setReferences_read hr c cols
    dsimp only at e
    simp [constraintModifier, e, conEdit, indexesOf]
  | onUpdate a => cases h; simp [constraintModifier, rule_read, conEdit, indexesOf]
  | onDelete a => cases h; simp [constraintModifier, rule_read, conEdit, indexesOf]
  | deferrable =>
    cases h
    simp only [constraintModifier, deferrable_mysql, conEdit, indexesOf, Place.of]
    rfl
  | deferred =>
    cases h
    simp only [constraintModifier, deferred_mysql, conEdit, indexesOf, Place.of]
    rfl
  | ignore ds =>
    obtain ⟨rfl, h2⟩ := h
    dsimp only at h2
    simp [constraintModifier, conEdit, ignore_read _ h2, indexesOf, Place.of]
  | index i =>
    obtain ⟨rfl, h2⟩ := h
    dsimp only at h2
    have := loadIndex_says (d := d) (t := t) (own := cols) h2 (Or.inl hcols) (hf _ (by simp [indexesOf]))
    simp [constraintModifier, this, conEdit, indexesOf]

/-- No name twice, and none that is in use. -/
def Fresh (old new : List Str) : Prop := new.Nodup ∧ ∀ n ∈ new, n ∉ old

theorem Fresh.split {old a b : List Str} (h : Fresh old (a ++ b)) : Fresh old a ∧ Fresh (old ++ a) b := by
  obtain ⟨hn, hf⟩ := h
  rw [List.nodup_append] at hn
  refine ⟨⟨hn.1, fun n hn' => hf n (by simp [hn'])⟩, hn.2.1, fun n hb => ?_⟩
  simp only [List.mem_append, not_or]
  exact ⟨hf n (by simp [hb]), fun ha => hn.2.2 n ha n hb rfl⟩

theorem appendIndexes_indexes (is : List Index) : ∀ t : Table, (is.foldl Table.appendIndex t).indexes = t.indexes ++ is := by
  induction is with
  | nil => simp
  | cons x xs ih => intro t; rw [List.foldl_cons, ih]; simp [Table.appendIndex, appendItem]

theorem appendIndexes_of (d : Dialect) (is : List Index) : ∀ t : Table, Place.of d (is.foldl Table.appendIndex t) = .of d t := by
  induction is with
  | nil => intro _; rfl
  | cons x xs ih => intro t; rw [List.foldl_cons, ih]; rfl

theorem appendIndexes_rest (is : List Index) : ∀ t : Table,
    (is.foldl Table.appendIndex t) = { t with indexes := t.indexes ++ is, indexCache := (is.foldl Table.appendIndex t).indexCache } := by
  induction is with
  | nil => intro t; simp
  | cons x xs ih =>
    intro t
    rw [List.foldl_cons, ih]
    simp [Table.appendIndex, appendItem]

theorem indexesOf_cons (at_ : Place) (cols : List Str) (m : ConTag) (ms : List ConTag) :
    indexesOf at_ cols (m :: ms) = indexesOf at_ cols [m] ++ indexesOf at_ cols ms := by
  unfold indexesOf
  rw [← List.filterMap_append]
  rfl

theorem conFold_says {d : Dialect} {cols : List Str} (hcols : cols ≠ []) : ∀ (mods : List ConTag) (pairs : List (Str × Str)) (c : Constraint)
    (t : Table), Each ConTag.Says mods pairs →
    Fresh (t.indexes.map Index.indexName) ((indexesOf (.of d t) cols mods).map Index.indexName) →
    foldRes (constraintModifier d cols) (c, t) pairs =
      .ok (mods.foldl (conEdit (.of d t) cols) c, (indexesOf (.of d t) cols mods).foldl Table.appendIndex t)
  | [], [], c, t, _, _ => rfl
  | [], _ :: _, _, _, h, _ => h.elim
  | _ :: _, [], _, _, h, _ => h.elim
  | m :: ms, p :: ps, c, t, h, hf => by
    rw [indexesOf_cons, List.map_append] at hf
    obtain ⟨h1, h2⟩ := hf.split
    rw [foldRes, conMod_says hcols c t m p h.1 (fun x hx => h1.2 _ (List.mem_map.2 ⟨x, hx, rfl⟩))]
    have ht := appendIndexes_of d (indexesOf (.of d t) cols [m]) t
    have hi := appendIndexes_indexes (indexesOf (.of d t) cols [m]) t
    have := conFold_says hcols ms ps (conEdit (.of d t) cols c m) ((indexesOf (.of d t) cols [m]).foldl Table.appendIndex t) h.2
      (by rw [ht, hi, List.map_append]; exact h2)
    rw [ht] at this
    simp only [Res.bind]
    rw [this, indexesOf_cons _ _ m ms, List.foldl_append]
    rfl

def ConTag.key : ConTag → String
  | .name _ => "name" | .references _ => "references" | .onUpdate _ => "onupdate" | .onDelete _ => "ondelete" | .deferrable => "deferrable"
  | .deferred => "deferred" | .ignore _ => "ignore" | .index _ => "index"

theorem ConTag.says_key {m : ConTag} {p : Str × Str} (h : m.Says p) : p.1 = m.key.toList := by
  cases m with
  | name n => rw [h.1]; rfl
  | references r => exact h.1
  | onUpdate a => rw [h]; rfl
  | onDelete a => rw [h]; rfl
  | deferrable => exact h
  | deferred => exact h
  | ignore ds => exact h.1
  | index i => exact h.1

/-- The name given, or none. -/
theorem name_read : ∀ {mods : List ConTag} {pairs : List (Str × Str)}, Each ConTag.Says mods pairs →
    (pairs.reverse.find? fun m => m.1 = "name".toList).map Prod.snd = lastOf ConTag.name? mods ∧ (∀ n, lastOf ConTag.name? mods = some n → n ≠ [])
  | [], [], _ => ⟨rfl, by simp [lastOf_nil]⟩
  | [], _ :: _, h => h.elim
  | _ :: _, [], h => h.elim
  | m :: ms, p :: ps, h => by
    obtain ⟨h1, h2⟩ := name_read h.2
    rw [lastOf_cons, List.reverse_cons, List.find?_append, map_or, h1]
    have hm : ([p].find? fun m => m.1 = "name".toList).map Prod.snd = ConTag.name? m ∧ ∀ n, ConTag.name? m = some n → n ≠ [] := by
      rw [List.find?_cons, List.find?_nil, ConTag.says_key h.1]
      cases m with
      | name n => rw [h.1.1]; exact ⟨by simp [ConTag.key, ConTag.name?], fun k hk => by cases hk; exact h.1.2⟩
      | _ => exact ⟨by simp [ConTag.key, ConTag.name?], fun k hk => by cases hk⟩
    rw [hm.1]
    refine ⟨rfl, fun n hn => ?_⟩
    cases hl : lastOf ConTag.name? ms with
    | none => rw [hl] at hn; exact hm.2 n hn
    | some k => rw [hl] at hn; cases hn; exact h2 _ hl

theorem name_choice {mods : List ConTag} {pairs : List (Str × Str)} (h : Each ConTag.Says mods pairs) (g : Str) :
    (if modifierValue pairs "name" = [] then g else modifierValue pairs "name") = (lastOf ConTag.name? mods).getD g := by
  obtain ⟨h1, h2⟩ := name_read h
  unfold modifierValue
  rw [h1]
  cases hl : lastOf ConTag.name? mods with
  | none => rfl
  | some n => simp [h2 n hl]

theorem refs_one (first : Option Ref) (mods : List ConTag) (h : OneRef first mods) (cols : List Str) :
    (mods.filterMap ConTag.ref?).foldl (refEdit cols) ((first.bind Ref.schema).getD [], (first.map Ref.table).getD [],
      (first.map fun r => if r.cols = [] then cols else r.cols).getD []) =
    (((refOf first mods).bind Ref.schema).getD [], ((refOf first mods).map Ref.table).getD [],
      ((refOf first mods).map fun r => if r.cols = [] then cols else r.cols).getD []) := by
  unfold OneRef at h
  unfold refOf
  cases first with
  | some r =>
    have : mods.filterMap ConTag.ref? = [] := by
      apply List.eq_nil_of_length_eq_zero
      simp only [Option.toList_some, List.length_cons, List.length_nil] at h
      omega
    rw [this]; rfl
  | none =>
    cases hr : mods.filterMap ConTag.ref? with
    | nil => rfl
    | cons r rs =>
      rw [hr] at h
      cases rs with
      | nil => rfl
      | cons _ _ => simp at h

theorem loadConstraint_core {d : Dialect} {t : Table} {cols : List Str} {kind : ConstraintType} (first : Option Ref) {mods : List ConTag}
    {pairs : List (Str × Str)} (hcols : cols ≠ []) (he : Each ConTag.Says mods pairs) (hr : OneRef first mods)
    (hf : Fresh (t.indexes.map Index.indexName) ((indexesOf (.of d t) cols mods).map Index.indexName))
    (hc : (constraintOf (.of d t) kind kind.nameKind cols (refOf first mods) mods).constraintName ∉ t.constraints.map Constraint.constraintName) :
    t.putConstraint ((lastOf ConTag.name? mods).getD (generateName kind.nameKind t.tableName cols))
      { tableSchema := t.tableSchema, tableName := t.tableName
        constraintName := (lastOf ConTag.name? mods).getD (generateName kind.nameKind t.tableName cols), constraintType := kind, columns := cols }
      (fun s => foldRes (constraintModifier d cols)
        ({ s.1 with constraintType := kind,
                    referencesSchema := (first.bind Ref.schema).getD s.1.referencesSchema
                    referencesTable := (first.map Ref.table).getD s.1.referencesTable
                    referencesColumns := (first.map fun r => if r.cols = [] then cols else r.cols).getD s.1.referencesColumns }, s.2) pairs) =
    .ok (((indexesOf (.of d t) cols mods).foldl Table.appendIndex t).appendConstraint
      (constraintOf (.of d t) kind kind.nameKind cols (refOf first mods) mods)) := by
  unfold Table.putConstraint
  have hn : t.cachedConstraintPosition ((lastOf ConTag.name? mods).getD (generateName kind.nameKind t.tableName cols)) = none :=
    position_none t.constraints t.constraintCache _ hc
  rw [hn]
  simp only
  rw [conFold_says hcols mods pairs _ t he hf, conFrom_fold]
  simp only [Res.map]
  congr 2
  have := refs_one first mods hr cols
  simp only [conFrom, constraintOf]
  rw [this]
  simp only [Bool.false_or]
  rfl

theorem loadConstraint_says {d : Dialect} {t : Table} {own : List Str} {kind : ConstraintType} {c : ConDecl} {text : Str} (h : c.Says text)
    (ho : own ≠ [] ∨ c.cols ≠ []) (hr : OneRef none c.mods)
    (hf : Fresh (t.indexes.map Index.indexName) ((indexesOf (.of d t) (ownOr own c.cols) c.mods).map Index.indexName))
    (hc : (constraintOf (.of d t) kind kind.nameKind (ownOr own c.cols) (refOf none c.mods) c.mods).constraintName ∉
      t.constraints.map Constraint.constraintName) :
    loadConstraintConfig d t kind false own text =
    .ok (((indexesOf (.of d t) (ownOr own c.cols) c.mods).foldl Table.appendIndex t).appendConstraint
      (constraintOf (.of d t) kind kind.nameKind (ownOr own c.cols) (refOf none c.mods) c.mods)) := by
  obtain ⟨first, pairs, hw, hct, he⟩ := h
  have hne : ownOr own c.cols ≠ [] := by unfold ownOr; split <;> simp_all
  unfold loadConstraintConfig
  rw [writtenValue_lex hw]
  have := cols_read hct own
  simp only [Res.bind, Bool.not_false, true_and, Bool.false_eq_true, if_false]
  simp only [not_true_eq_false, not_false_eq_true, true_and, this]
  rw [if_neg hne, name_choice he]
  exact loadConstraint_core none hne he hr hf hc

theorem loadReferences_says {d : Dialect} {t : Table} {own : List Str} {r : Ref} {mods : List ConTag} {text first : Str} {pairs : List (Str × Str)}
    (hw : WrittenValue text first pairs) (hs : r.Says first) (he : Each ConTag.Says mods pairs) (ho : own ≠ []) (hr : OneRef (some r) mods)
    (hf : Fresh (t.indexes.map Index.indexName) ((indexesOf (.of d t) own mods).map Index.indexName))
    (hc : (constraintOf (.of d t) .foreignKey .foreignKey own (refOf (some r) mods) mods).constraintName ∉
      t.constraints.map Constraint.constraintName) :
    loadConstraintConfig d t .foreignKey true own text =
    .ok (((indexesOf (.of d t) own mods).foldl Table.appendIndex t).appendConstraint
      (constraintOf (.of d t) .foreignKey .foreignKey own (refOf (some r) mods) mods)) := by
  unfold loadConstraintConfig
  rw [writtenValue_lex hw]
  simp only [Res.bind, Bool.not_true, Bool.false_eq_true, false_and, if_false]
  rw [if_neg ho, name_choice he]
  simp only [if_true, setReferences_read hs]
  exact loadConstraint_core (kind := .foreignKey) (some r) ho he hr hf hc

/-! ### Declarations -/

def conNames (t : Table) : List Str := t.constraints.map Constraint.constraintName
def idxNames (t : Table) : List Str := t.indexes.map Index.indexName

/-- The constraints and indexes of a list of declarations. -/
def consOf (at_ : Place) (xs : List (List Str × Decl)) : List Constraint := xs.filterMap fun x => x.2.constraint? at_ x.1
def idxsOf (at_ : Place) (xs : List (List Str × Decl)) : List Index := xs.flatMap fun x => x.2.indexes at_ x.1

/-- One declaration. -/
def declApp (d : Dialect) (t : Table) (x : List Str × Decl) : Table :=
  match x.2.constraint? (.of d t) x.1 with
  | some c => ((x.2.indexes (.of d t) x.1).foldl Table.appendIndex t).appendConstraint c
  | none => (x.2.indexes (.of d t) x.1).foldl Table.appendIndex t

theorem declare_says {d : Dialect} {t : Table} {own : List Str} {x : Decl} {p : Str × Str} (h : x.Says p) (ho : x.Ok own)
    (hf : Fresh (idxNames t) ((idxsOf (.of d t) [(own, x)]).map Index.indexName))
    (hc : Fresh (conNames t) ((consOf (.of d t) [(own, x)]).map Constraint.constraintName)) :
    declare d t own p.1 p.2 = .ok (declApp d t (own, x)) := by
  obtain ⟨k, v⟩ := p
  have hf' : Fresh (idxNames t) ((x.indexes (.of d t) own).map Index.indexName) := by
    simpa [idxsOf] using hf
  have hc' : ∀ c, x.constraint? (.of d t) own = some c → c.constraintName ∉ conNames t := by
    intro c hx
    exact hc.2 _ (by simp [consOf, hx])
  cases x with
  | primaryKey c =>
    obtain ⟨rfl, hs⟩ := h
    dsimp only at hs
    have := loadConstraint_says (kind := .primaryKey) hs ho.1 ho.2 hf' (hc' _ rfl)
    simpa [declare, declApp, Decl.constraint?, Decl.indexes, ConstraintType.nameKind] using this
  | unique c =>
    obtain ⟨rfl, hs⟩ := h
    dsimp only at hs
    have := loadConstraint_says (kind := .unique) hs ho.1 ho.2 hf' (hc' _ rfl)
    simpa [declare, declApp, Decl.constraint?, Decl.indexes, ConstraintType.nameKind] using this
  | foreignKey c =>
    obtain ⟨rfl, hs⟩ := h
    dsimp only at hs
    have := loadConstraint_says (kind := .foreignKey) hs ho.1 ho.2 hf' (hc' _ rfl)
    simpa [declare, declApp, Decl.constraint?, Decl.indexes, ConstraintType.nameKind] using this
  | references r mods =>
    obtain ⟨rfl, first, pairs, hw, hs, he⟩ := h
    dsimp only at hw
    have := loadReferences_says hw hs he ho.1 ho.2 hf' (hc' _ rfl)
    simpa [declare, declApp, Decl.constraint?, Decl.indexes, ConstraintType.nameKind] using this
  | index i =>
    obtain ⟨rfl, hs⟩ := h
    dsimp only at hs
    have := loadIndex_says (d := d) (t := t) hs ho (hf'.2 _ (by simp [Decl.indexes]))
    simpa [declare, declApp, Decl.constraint?, Decl.indexes, ConstraintType.nameKind] using this

theorem declApp_rest (d : Dialect) (t : Table) (x : List Str × Decl) :
    declApp d t x = { t with indexes := t.indexes ++ idxsOf (.of d t) [x], constraints := t.constraints ++ consOf (.of d t) [x],
                             indexCache := (declApp d t x).indexCache, constraintCache := (declApp d t x).constraintCache } := by
  obtain ⟨own, x⟩ := x
  have e := appendIndexes_rest (x.indexes (.of d t) own) t
  unfold declApp
  dsimp only
  split
  · rename_i c hc
    rw [e]
    simp [Table.appendConstraint, appendItem, idxsOf, consOf, hc]
  · rename_i hc
    rw [e]
    simp [idxsOf, consOf, hc]

theorem declApp_of (d : Dialect) (t : Table) (x : List Str × Decl) : Place.of d (declApp d t x) = .of d t := by
  rw [declApp_rest]; rfl

theorem declApps_rest (d : Dialect) (xs : List (List Str × Decl)) : ∀ t : Table,
    xs.foldl (declApp d) t = { t with indexes := t.indexes ++ idxsOf (.of d t) xs, constraints := t.constraints ++ consOf (.of d t) xs,
                                      indexCache := (xs.foldl (declApp d) t).indexCache, constraintCache := (xs.foldl (declApp d) t).constraintCache } := by
  induction xs with
  | nil => intro t; simp [idxsOf, consOf]
  | cons x xs ih =>
    intro t
    have h1 := declApp_rest d t x
    rw [List.foldl_cons, ih (declApp d t x), declApp_of]
    have e1 : idxsOf (.of d t) (x :: xs) = idxsOf (.of d t) [x] ++ idxsOf (.of d t) xs := by simp [idxsOf]
    have e2 : consOf (.of d t) (x :: xs) = consOf (.of d t) [x] ++ consOf (.of d t) xs := by
      unfold consOf; rw [← List.filterMap_append]; rfl
    rw [e1, e2, ← List.append_assoc, ← List.append_assoc]
    rw [h1]

theorem declApps_of (d : Dialect) (xs : List (List Str × Decl)) (t : Table) : Place.of d (xs.foldl (declApp d) t) = .of d t := by
  rw [declApps_rest]; rfl

/-! ### Dialect prefixes -/

theorem forDialect_plain (d : Dialect) (k : Str) (h : ':' ∉ k) : forDialect d k = some k := by
  unfold forDialect; rw [if_neg h]

theorem takeWhile_colon (o k : Str) (h : ':' ∉ o) : (o ++ ':' :: k).takeWhile (· ≠ ':') = o ∧ ((o ++ ':' :: k).dropWhile (· ≠ ':')).tail = k := by
  induction o with
  | nil => simp
  | cons c o ih =>
    simp only [List.mem_cons, not_or] at h
    have hc : c ≠ ':' := Ne.symm h.1
    obtain ⟨h1, h2⟩ := ih h.2
    rw [List.cons_append, List.takeWhile_cons_of_pos (by simpa using hc), List.dropWhile_cons_of_pos (by simpa using hc), h1, h2]
    exact ⟨rfl, rfl⟩

theorem forDialect_prefix (d : Dialect) (o k : Str) (h : ':' ∉ o) : forDialect d (o ++ ':' :: k) = if named d o then some k else none := by
  unfold forDialect
  obtain ⟨h1, h2⟩ := takeWhile_colon o k h
  rw [if_pos (by simp), h1, h2]
  have : (some o = dialectName d) ↔ named d o = true := by
    unfold named
    cases d <;> simp [dialectName, dialectWord, eq_comm]
  by_cases hn : named d o = true
  · rw [if_pos (this.2 hn), if_pos hn]
  · rw [if_neg (fun e => hn (this.1 e)), if_neg hn]

/-- A modifier that says something, read for a dialect. -/
theorem tag_read {α : Type} {R : α → Str × Str → Prop} (hR : ∀ a p, R a p → ':' ∉ p.1) (d : Dialect) (t : Tag α) (p : Str × Str)
    (h : t.Says R p) : (t.only.all (named d) = true → ∃ k, forDialect d p.1 = some k ∧ R t.tag (k, p.2)) ∧
      (t.only.all (named d) = false → forDialect d p.1 = none) := by
  unfold Tag.Says at h
  cases ho : t.only with
  | none =>
    rw [ho] at h
    exact ⟨fun _ => ⟨p.1, forDialect_plain d _ (hR _ _ h), h⟩, fun hh => by simp at hh⟩
  | some o =>
    rw [ho] at h
    obtain ⟨hc, k, hk, hr⟩ := h
    rw [hk, forDialect_prefix d o k hc]
    simp only [Option.all_some]
    exact ⟨fun hn => ⟨k, by rw [if_pos hn], hr⟩, fun hn => by rw [hn]; rfl⟩

def Decl.key : Decl → String
  | .primaryKey _ => "primarykey" | .unique _ => "unique" | .foreignKey _ => "foreignkey" | .references _ _ => "references" | .index _ => "index"

theorem Decl.says_key {x : Decl} {p : Str × Str} (h : x.Says p) : p.1 = x.key.toList := by
  cases x <;> exact h.1

def ColTag.key : ColTag → String
  | .type _ => "type" | .autoIncrement => "auto_increment" | .autoincrement => "autoincrement" | .identity => "identity"
  | .alwaysIdentity => "alwaysidentity" | .notNull => "notnull" | .onUpdateCurrentTimestamp => "onupdatecurrenttimestamp"
  | .expr _ => "expr" | .storedExpr _ => "storedexpr" | .collate _ => "collate" | .default _ => "default" | .ignore _ => "ignore"
  | .decl x => x.key

theorem ColTag.says_key {x : ColTag} {p : Str × Str} (h : x.Says p) : p.1 = x.key.toList := by
  cases x with
  | type t => rw [h]; rfl
  | expr t => rw [h]; rfl
  | storedExpr t => rw [h]; rfl
  | collate t => rw [h]; rfl
  | default t => rw [h]; rfl
  | ignore ds => exact h.1
  | decl x => exact Decl.says_key h
  | _ => exact h

theorem Decl.key_colon (x : Decl) : ':' ∉ x.key.toList := by cases x <;> (unfold Decl.key; dsimp only; decide)

theorem ColTag.key_colon (x : ColTag) : ':' ∉ x.key.toList := by
  cases x with
  | decl x => exact Decl.key_colon x
  | _ => unfold ColTag.key; dsimp only; decide

def TabTag.key : TabTag → String
  | .virtual _ _ => "virtual" | .ignore _ => "ignore" | .decl x => x.key

theorem TabTag.says_key {x : TabTag} {p : Str × Str} (h : x.Says p) : p.1 = x.key.toList := by
  cases x with
  | «virtual» m args => exact h.1
  | ignore ds => exact h.1
  | decl x => exact Decl.says_key h

theorem TabTag.key_colon (x : TabTag) : ':' ∉ x.key.toList := by
  cases x with
  | decl x => exact Decl.key_colon x
  | _ => unfold TabTag.key; dsimp only; decide

/-! ### Columns -/

def bracketed (num : Str → Bool) (at_ : Place) (e : Str) : Str :=
  if at_.dialect ≠ .postgres ∧ simpleDefault num e = false then "(".toList ++ e ++ ")".toList else e

def colEdit (num : Str → Bool) (at_ : Place) (c : Column) : ColTag → Column
  | .type t => { c with columnType := t }
  | .autoIncrement => { c with isAutoincrement := c.isAutoincrement || at_.dialect = .mysql }
  | .autoincrement => { c with isAutoincrement := c.isAutoincrement || at_.dialect = .sqlite }
  | .identity => if at_.dialect = .postgres then { c with identity := "BY DEFAULT AS IDENTITY".toList } else c
  | .alwaysIdentity => if at_.dialect = .postgres then { c with identity := "ALWAYS AS IDENTITY".toList } else c
  | .notNull => { c with isNotNull := true }
  | .onUpdateCurrentTimestamp => { c with onUpdateCurrentTimestamp := c.onUpdateCurrentTimestamp || at_.dialect = .mysql }
  | .expr e => { c with generatedExpr := e, generatedExprStored := at_.dialect = .postgres }
  | .storedExpr e => { c with generatedExpr := e, generatedExprStored := true }
  | .collate x => { c with collationName := x }
  | .default e => { c with columnDefault := bracketed num at_ e }
  | .ignore ds => { c with ignore := c.ignore || ignores at_.dialect ds }
  | .decl _ => c

theorem simple_read (num : Str → Bool) (e : Str) : needsExpressionBrackets num e = !simpleDefault num e := by
  have hk : (["TRUE", "FALSE", "CURRENT_DATE", "CURRENT_TIME", "CURRENT_TIMESTAMP", "NULL"].any fun w => eqFold e w.toList) =
      ["true", "false", "current_date", "current_time", "current_timestamp", "null"].any fun w => e.map Char.toLower == w.toList := by
    simp only [List.any_cons, List.any_nil, eqFold]
    rfl
  unfold needsExpressionBrackets simpleDefault
  rw [hk]
  generalize (["true", "false", "current_date", "current_time", "current_timestamp", "null"].any fun w => e.map Char.toLower == w.toList) = b
  by_cases h1 : e.length ≥ 2 ∧ e.head? = some '\'' ∧ e.getLast? = some '\''
  · simp [h1]
  · rw [if_neg h1]
    by_cases h2 : e.length ≥ 2 ∧ e.head? = some '(' ∧ e.getLast? = some ')'
    · cases b <;> cases num e <;> simp [h2]
    · rw [if_neg h2]
      have e1 : (decide (2 ≤ e.length) && e.head? == some '\'' && e.getLast? == some '\'') = false := by
        rw [Bool.eq_false_iff]; intro h; apply h1; simpa [and_assoc] using h
      have e2 : (decide (2 ≤ e.length) && e.head? == some '(' && e.getLast? == some ')') = false := by
        rw [Bool.eq_false_iff]; intro h; apply h2; simpa [and_assoc] using h
      rw [e1, e2]
      cases b <;> cases num e <;> rfl

theorem columnEdit_says (num : Str → Bool) (at_ : Place) (m : ColTag) (p : Str × Str) (h : m.Says p) (hd : m.decl? = none) :
    ∃ f, columnEdit num at_.dialect p.1 p.2 = some f ∧ ∀ c, f c = colEdit num at_ c m := by
  obtain ⟨k, v⟩ := p
  cases m with
  | type t => cases h; exact ⟨_, rfl, fun c => rfl⟩
  | autoIncrement => cases h; exact ⟨_, rfl, fun c => rfl⟩
  | autoincrement => cases h; exact ⟨_, rfl, fun c => rfl⟩
  | identity => cases h; exact ⟨_, rfl, fun c => rfl⟩
  | alwaysIdentity => cases h; exact ⟨_, rfl, fun c => rfl⟩
  | notNull => cases h; exact ⟨_, rfl, fun c => rfl⟩
  | onUpdateCurrentTimestamp => cases h; exact ⟨_, rfl, fun c => rfl⟩
  | expr t => cases h; exact ⟨_, rfl, fun c => rfl⟩
  | storedExpr t => cases h; exact ⟨_, rfl, fun c => rfl⟩
  | collate t => cases h; exact ⟨_, rfl, fun c => rfl⟩
  | default t =>
    simp only [ColTag.Says, Prod.mk.injEq] at h
    obtain ⟨rfl, rfl⟩ := h
    refine ⟨_, rfl, fun c => ?_⟩
    simp only [colEdit, bracketed, simple_read]
    by_cases hp : at_.dialect = .postgres <;> cases simpleDefault num v <;> simp [hp]
  | ignore ds =>
    obtain ⟨rfl, h2⟩ := h
    dsimp only at h2
    refine ⟨_, rfl, fun c => ?_⟩
    simp [colEdit, ignore_read _ h2]
  | decl x => cases hd

theorem columnEdit_decl (num : Str → Bool) (d : Dialect) (x : Decl) (v : Str) : columnEdit num d x.key.toList v = none := by
  cases x <;> simp [columnEdit, Decl.key]

def colFrom (num : Str → Bool) (at_ : Place) (c : Column) (tags : List ColTag) : Column :=
  let generated := lastOf (fun | .expr e => some (e, decide (at_.dialect = .postgres)) | .storedExpr e => some (e, true) | _ => none) tags
  { c with
    columnType := (lastOf (fun | .type t => some t | _ => none) tags).getD c.columnType
    isAutoincrement := c.isAutoincrement || tags.any fun
      | .autoIncrement => at_.dialect = .mysql | .autoincrement => at_.dialect = .sqlite | _ => false
    identity := if at_.dialect = .postgres then
        (lastOf (fun | .identity => some "BY DEFAULT AS IDENTITY".toList | .alwaysIdentity => some "ALWAYS AS IDENTITY".toList | _ => none) tags).getD c.identity
      else c.identity
    isNotNull := c.isNotNull || tags.any fun | .notNull => true | _ => false
    onUpdateCurrentTimestamp := c.onUpdateCurrentTimestamp || tags.any fun | .onUpdateCurrentTimestamp => at_.dialect = .mysql | _ => false
    generatedExpr := (generated.map Prod.fst).getD c.generatedExpr
    generatedExprStored := (generated.map Prod.snd).getD c.generatedExprStored
    collationName := (lastOf (fun | .collate c => some c | _ => none) tags).getD c.collationName
    columnDefault := ((lastOf (fun | .default e => some e | _ => none) tags).map (bracketed num at_)).getD c.columnDefault
    ignore := c.ignore || tags.any fun | .ignore ds => ignores at_.dialect ds | _ => false }

theorem map_getD {α β : Type} (o : Option α) (f : α → β) (a : α) : (o.map f).getD (f a) = f (o.getD a) := by cases o <;> rfl

theorem colFrom_fold (num : Str → Bool) (at_ : Place) (tags : List ColTag) : ∀ c, tags.foldl (colEdit num at_) c = colFrom num at_ c tags := by
  induction tags with
  | nil => intro x; simp [colFrom, lastOf_nil]
  | cons m ms ih =>
    intro x
    rw [List.foldl_cons, ih]
    unfold colFrom
    by_cases h : at_.dialect = .postgres <;> cases m <;>
      simp [h, colEdit, lastOf_cons, map_or, or_getD, Bool.or_assoc, -List.map_map]
    all_goals (generalize lastOf _ ms = o; cases o <;> simp)

theorem columnOf_eq (num : Str → Bool) (at_ : Place) (name type : Str) (tags : List ColTag) :
    columnOf num at_ name type tags =
      tags.foldl (colEdit num at_) { tableSchema := at_.schema, tableName := at_.table, columnName := name, columnType := type } := by
  rw [colFrom_fold]
  unfold columnOf colFrom
  simp only [Bool.false_or]
  rfl

theorem colMod_says {num : Str → Bool} {d : Dialect} (c : Column) (t : Table) (m : ColTag) (p : Str × Str) (h : m.Says p) (k : Str)
    (hk : forDialect d k = some p.1)
    (ho : ∀ x, m.decl? = some x → x.Ok [c.columnName])
    (hf : Fresh (idxNames t) ((idxsOf (.of d t) (m.decl?.toList.map fun x => ([c.columnName], x))).map Index.indexName))
    (hc : Fresh (conNames t) ((consOf (.of d t) (m.decl?.toList.map fun x => ([c.columnName], x))).map Constraint.constraintName)) :
    columnModifier num d (c, t) (k, p.2) =
      .ok (colEdit num (.of d t) c m, (m.decl?.toList.map fun x => ([c.columnName], x)).foldl (declApp d) t) := by
  unfold columnModifier
  simp only [hk]
  cases hd : m.decl? with
  | none =>
    obtain ⟨f, h1, h2⟩ := columnEdit_says num (.of d t) m p h hd
    have h1' : columnEdit num d p.1 p.2 = some f := h1
    rw [h1']
    simp [h2]
  | some x =>
    cases m with
    | decl y =>
      cases hd
      have hs : x.Says p := h
      rw [Decl.says_key hs, columnEdit_decl]
      have := declare_says hs (ho x rfl) hf hc
      rw [Decl.says_key hs] at this
      simp [this, colEdit, Res.map]
    | _ => cases hd

/-! ### The tag of a column -/

/-- The modifiers that apply, one tag at a time. -/
theorem applicable_cons {α : Type} (d : Dialect) (t : Tag α) (ts : List (Tag α)) :
    applicable d (t :: ts) = (if t.only.all (named d) then [t.tag] else []) ++ applicable d ts := by
  unfold applicable
  rw [List.filterMap_cons]
  split
  · rename_i h
    split at h
    · cases h
    · rename_i h2; rw [if_neg h2]; rfl
  · rename_i h
    split at h
    · cases h; rename_i h2; rw [if_pos h2]; rfl
    · cases h

def ownDecls (own : List Str) (ds : List Decl) : List (List Str × Decl) := ds.map fun x => (own, x)

theorem consOf_append (at_ : Place) (a b : List (List Str × Decl)) : consOf at_ (a ++ b) = consOf at_ a ++ consOf at_ b :=
  List.filterMap_append
theorem idxsOf_append (at_ : Place) (a b : List (List Str × Decl)) : idxsOf at_ (a ++ b) = idxsOf at_ a ++ idxsOf at_ b :=
  List.flatMap_append

theorem declApps_idxNames (d : Dialect) (xs : List (List Str × Decl)) (t : Table) :
    idxNames (xs.foldl (declApp d) t) = idxNames t ++ (idxsOf (.of d t) xs).map Index.indexName := by
  rw [declApps_rest]; simp [idxNames]

theorem declApps_conNames (d : Dialect) (xs : List (List Str × Decl)) (t : Table) :
    conNames (xs.foldl (declApp d) t) = conNames t ++ (consOf (.of d t) xs).map Constraint.constraintName := by
  rw [declApps_rest]; simp [conNames]

theorem colEdit_name (num : Str → Bool) (at_ : Place) (c : Column) (m : ColTag) : (colEdit num at_ c m).columnName = c.columnName := by
  cases m <;> simp only [colEdit] <;> (try split) <;> rfl

/-- Nothing declared here is in use. -/
structure AllFresh (d : Dialect) (t : Table) (xs : List (List Str × Decl)) : Prop where
  idx : Fresh (idxNames t) ((idxsOf (.of d t) xs).map Index.indexName)
  con : Fresh (conNames t) ((consOf (.of d t) xs).map Constraint.constraintName)
  ok : ∀ x ∈ xs, x.2.Ok x.1

theorem AllFresh.split {d : Dialect} {t : Table} {a b : List (List Str × Decl)} (h : AllFresh d t (a ++ b)) :
    AllFresh d t a ∧ AllFresh d (a.foldl (declApp d) t) b := by
  have h1 := h.idx
  have h2 := h.con
  rw [idxsOf_append, List.map_append] at h1
  rw [consOf_append, List.map_append] at h2
  refine ⟨⟨h1.split.1, h2.split.1, fun x hx => h.ok x (by simp [hx])⟩, ?_, ?_, fun x hx => h.ok x (by simp [hx])⟩
  · rw [declApps_of, declApps_idxNames]; exact h1.split.2
  · rw [declApps_of, declApps_conNames]; exact h2.split.2

theorem colFold_says {num : Str → Bool} {d : Dialect} : ∀ (tags : List (Tag ColTag)) (pairs : List (Str × Str)) (c : Column) (t : Table),
    Each (Tag.Says ColTag.Says) tags pairs →
    AllFresh d t (ownDecls [c.columnName] ((applicable d tags).filterMap ColTag.decl?)) →
    foldRes (columnModifier num d) (c, t) pairs =
      .ok ((applicable d tags).foldl (colEdit num (.of d t)) c,
        (ownDecls [c.columnName] ((applicable d tags).filterMap ColTag.decl?)).foldl (declApp d) t)
  | [], [], c, t, _, _ => rfl
  | [], _ :: _, _, _, h, _ => h.elim
  | _ :: _, [], _, _, h, _ => h.elim
  | g :: gs, p :: ps, c, t, h, hf => by
    obtain ⟨h1, h2⟩ := tag_read (fun a p hp => by rw [ColTag.says_key hp]; exact ColTag.key_colon a) d g p h.1
    rw [applicable_cons] at hf ⊢
    by_cases hg : g.only.all (named d) = true
    · obtain ⟨k, hk, hs⟩ := h1 hg
      rw [if_pos hg, List.singleton_append] at hf ⊢
      have e : ownDecls [c.columnName] ((g.tag :: applicable d gs).filterMap ColTag.decl?) =
          (g.tag.decl?.toList.map fun x => ([c.columnName], x)) ++ ownDecls [c.columnName] ((applicable d gs).filterMap ColTag.decl?) := by
        unfold ownDecls
        rw [List.filterMap_cons]
        cases g.tag.decl? <;> rfl
      rw [e] at hf ⊢
      obtain ⟨f1, f2⟩ := hf.split
      have hm := colMod_says (num := num) c t g.tag (k, p.2) hs p.1 hk (fun x hx => f1.ok ([c.columnName], x) (by simp [hx])) f1.idx f1.con
      rw [foldRes, hm]
      have := colFold_says (num := num) gs ps (colEdit num (.of d t) c g.tag) ((g.tag.decl?.toList.map fun x => ([c.columnName], x)).foldl (declApp d) t) h.2
        (by rw [colEdit_name]; exact f2)
      simp only [Res.bind]
      rw [this, colEdit_name, declApps_of, List.foldl_append]
      rfl
    · have hg' : g.only.all (named d) = false := by simpa using hg
      rw [if_neg hg, List.nil_append] at hf ⊢
      have hm : columnModifier num d (c, t) p = .ok (c, t) := by unfold columnModifier; rw [h2 hg']
      rw [foldRes, hm]
      exact colFold_says gs ps c t h.2 hf

def colNames (t : Table) : List Str := t.columns.map Column.columnName

theorem loadColumn_says {num : Str → Bool} {d : Dialect} {t : Table} {name type text : Str} {tags : List (Tag ColTag)}
    (h : (Field.column name type tags).Says text) (hn : name ∉ colNames t) (hf : AllFresh d t ((Field.column name type tags).decls d)) :
    loadColumnConfig num d t name type text =
      .ok ((((Field.column name type tags).decls d).foldl (declApp d) t).appendColumn (columnOf num (.of d t) name type (applicable d tags))) := by
  obtain ⟨pairs, hw, he⟩ := h
  unfold loadColumnConfig
  rw [writtenTag_lex hw]
  have hp : t.cachedColumnPosition name = none := position_none t.columns t.columnCache _ hn
  simp only [Res.bind, hp]
  rw [colFold_says tags pairs _ t he hf, columnOf_eq]
  rfl

/-! ### The tag of a table -/

/-- What a modifier of a table does, apart from its declarations. -/
def tabEdit (d : Dialect) (t : Table) : TabTag → Table
  | .virtual m args => if d = .sqlite then { t with virtualTable := m, virtualTableArgs := t.virtualTableArgs ++ args.map argument } else t
  | .ignore ds => { t with ignore := t.ignore || ignores d ds }
  | .decl x => declApp d t ([], x)

theorem tabMod_says {d : Dialect} (t : Table) (m : TabTag) (p : Str × Str) (h : m.Says p) (k : Str) (hk : forDialect d k = some p.1)
    (hf : AllFresh d t (m.decl?.toList.map fun x => ([], x))) : tableModifier d t (k, p.2) = .ok (tabEdit d t m) := by
  obtain ⟨k', v⟩ := p
  unfold tableModifier
  simp only [hk]
  cases m with
  | «virtual» md args =>
    obtain ⟨rfl, hw⟩ := h
    dsimp only at hw
    simp only [if_true, tabEdit]
    split
    · rw [writtenValue_lex hw]
      have e : args.map (fun x => if x.2 = [] then x.1 else x.1 ++ "=".toList ++ x.2) = args.map argument := by
        apply List.map_congr_left
        intro x _
        simp [argument]
      simp only [Res.map, e]
    · rfl
  | ignore ds =>
    obtain ⟨rfl, h2⟩ := h
    dsimp only at h2
    simp [tabEdit, ignore_read _ h2]
  | decl x =>
    have hs : x.Says (k', v) := h
    have hk' := Decl.says_key hs
    dsimp only at hk'
    have hv : x.key.toList ≠ "virtual".toList ∧ x.key.toList ≠ "ignore".toList := by cases x <;> (unfold Decl.key; dsimp only; decide)
    have hx := declare_says hs (hf.ok ([], x) (by simp [TabTag.decl?])) hf.idx hf.con
    dsimp only at hx
    rw [if_neg (by rw [hk']; exact hv.1), if_neg (by rw [hk']; exact hv.2), hx]
    rfl

theorem tabEdit_of (d : Dialect) (t : Table) (m : TabTag) : Place.of d (tabEdit d t m) = .of d t := by
  cases m with
  | «virtual» md args => simp only [tabEdit]; split <;> rfl
  | ignore ds => rfl
  | decl x => exact declApp_of d t _

theorem tabEdit_idx (d : Dialect) (t : Table) (m : TabTag) :
    (tabEdit d t m).indexes = t.indexes ++ idxsOf (.of d t) (m.decl?.toList.map fun x => ([], x)) ∧
    (tabEdit d t m).constraints = t.constraints ++ consOf (.of d t) (m.decl?.toList.map fun x => ([], x)) ∧
    (tabEdit d t m).columns = t.columns ∧ (tabEdit d t m).triggers = t.triggers := by
  cases m with
  | «virtual» md args => simp only [tabEdit]; split <;> simp [TabTag.decl?, idxsOf, consOf]
  | ignore ds => simp [tabEdit, TabTag.decl?, idxsOf, consOf]
  | decl x =>
    simp only [tabEdit]
    rw [declApp_rest]
    simp [TabTag.decl?]

theorem tabFold_says {d : Dialect} : ∀ (tags : List (Tag TabTag)) (pairs : List (Str × Str)) (t : Table),
    Each (Tag.Says TabTag.Says) tags pairs → AllFresh d t (ownDecls [] ((applicable d tags).filterMap TabTag.decl?)) →
    foldRes (tableModifier d) t pairs = .ok ((applicable d tags).foldl (tabEdit d) t)
  | [], [], t, _, _ => rfl
  | [], _ :: _, _, h, _ => h.elim
  | _ :: _, [], _, h, _ => h.elim
  | g :: gs, p :: ps, t, h, hf => by
    obtain ⟨h1, h2⟩ := tag_read (fun a p hp => by rw [TabTag.says_key hp]; exact TabTag.key_colon a) d g p h.1
    rw [applicable_cons] at hf ⊢
    by_cases hg : g.only.all (named d) = true
    · obtain ⟨k, hk, hs⟩ := h1 hg
      rw [if_pos hg, List.singleton_append] at hf ⊢
      have e : ownDecls [] ((g.tag :: applicable d gs).filterMap TabTag.decl?) =
          (g.tag.decl?.toList.map fun x => ([], x)) ++ ownDecls [] ((applicable d gs).filterMap TabTag.decl?) := by
        unfold ownDecls
        rw [List.filterMap_cons]
        cases g.tag.decl? <;> rfl
      rw [e] at hf
      have h1 := hf.idx
      have h2 := hf.con
      rw [idxsOf_append, List.map_append] at h1
      rw [consOf_append, List.map_append] at h2
      have f1 : AllFresh d t (g.tag.decl?.toList.map fun x => ([], x)) := hf.split.1
      obtain ⟨i1, i2, -, -⟩ := tabEdit_idx d t g.tag
      have f2 : AllFresh d (tabEdit d t g.tag) (ownDecls [] ((applicable d gs).filterMap TabTag.decl?)) := by
        refine ⟨?_, ?_, fun x hx => hf.ok x (by simp [hx])⟩
        · rw [tabEdit_of, idxNames, i1, List.map_append]; exact h1.split.2
        · rw [tabEdit_of, conNames, i2, List.map_append]; exact h2.split.2
      rw [foldRes, tabMod_says t g.tag (k, p.2) hs p.1 hk f1]
      exact tabFold_says gs ps _ h.2 f2
    · have hg' : g.only.all (named d) = false := by simpa using hg
      rw [if_neg hg, List.nil_append] at hf ⊢
      have hm : tableModifier d t p = .ok t := by unfold tableModifier; rw [h2 hg']
      rw [foldRes, hm]
      exact tabFold_says gs ps t h.2 hf

theorem loadTable_says {d : Dialect} {t : Table} {text : Str} {tags : List (Tag TabTag)} (h : (Field.table tags).Says text)
    (hf : AllFresh d t ((Field.table tags).decls d)) :
    loadTableConfig d t text = .ok ((applicable d tags).foldl (tabEdit d) t) := by
  obtain ⟨pairs, hw, he⟩ := h
  unfold loadTableConfig
  rw [writtenTag_lex hw]
  exact tabFold_says tags pairs t he hf

/-- Everything the tag of a table does. -/
theorem tabFold_rest (d : Dialect) (tags : List TabTag) : ∀ t : Table,
    ((tags.foldl (tabEdit d) t).indexes = t.indexes ++ idxsOf (.of d t) (ownDecls [] (tags.filterMap TabTag.decl?))) ∧
    ((tags.foldl (tabEdit d) t).constraints = t.constraints ++ consOf (.of d t) (ownDecls [] (tags.filterMap TabTag.decl?))) ∧
    ((tags.foldl (tabEdit d) t).columns = t.columns) ∧ ((tags.foldl (tabEdit d) t).triggers = t.triggers) ∧
    (Place.of d (tags.foldl (tabEdit d) t) = .of d t) := by
  induction tags with
  | nil => intro t; simp [ownDecls, idxsOf, consOf]
  | cons m ms ih =>
    intro t
    obtain ⟨a, b, c, e, f⟩ := ih (tabEdit d t m)
    obtain ⟨a', b', c', e'⟩ := tabEdit_idx d t m
    have hd : ownDecls [] ((m :: ms).filterMap TabTag.decl?) =
        (m.decl?.toList.map fun x => ([], x)) ++ ownDecls [] (ms.filterMap TabTag.decl?) := by
      unfold ownDecls
      rw [List.filterMap_cons]
      cases m.decl? <;> rfl
    rw [List.foldl_cons, a, b, c, e, f, a', b', c', e', tabEdit_of, hd, idxsOf_append, consOf_append]
    simp

def virtualOf : TabTag → Option (Str × List (Str × Str))
  | .virtual m args => some (m, args)
  | _ => none

def ignoredBy (d : Dialect) : TabTag → Bool
  | .ignore ds => ignores d ds
  | _ => false

/-- The module and arguments after more of them. -/
def virtualAfter (vs : List (Str × List (Str × Str))) (s : Str × List Str) : Str × List Str :=
  ((vs.getLast?.map Prod.fst).getD s.1, s.2 ++ (vs.flatMap Prod.snd).map argument)

theorem virtualAfter_append (a b : List (Str × List (Str × Str))) (s : Str × List Str) :
    virtualAfter (a ++ b) s = virtualAfter b (virtualAfter a s) := by
  unfold virtualAfter
  rw [List.getLast?_append]
  cases b.getLast? <;> simp

def virtualsOf (d : Dialect) (tags : List TabTag) : List (Str × List (Str × Str)) := if d = .sqlite then tags.filterMap virtualOf else []

theorem virtualsOf_append (d : Dialect) (a b : List TabTag) : virtualsOf d (a ++ b) = virtualsOf d a ++ virtualsOf d b := by
  unfold virtualsOf; split <;> simp

theorem tabEdit_virtual (d : Dialect) (t : Table) (m : TabTag) :
    ((tabEdit d t m).virtualTable, (tabEdit d t m).virtualTableArgs) = virtualAfter (virtualsOf d [m]) (t.virtualTable, t.virtualTableArgs) ∧
    (tabEdit d t m).ignore = (t.ignore || ignoredBy d m) := by
  cases m with
  | «virtual» md args =>
    by_cases h : d = .sqlite <;> simp [tabEdit, h, virtualsOf, virtualOf, virtualAfter, ignoredBy]
  | ignore ds => by_cases h : d = .sqlite <;> simp [tabEdit, h, virtualsOf, virtualOf, virtualAfter, ignoredBy]
  | decl x =>
    simp only [tabEdit]
    rw [declApp_rest]
    by_cases h : d = .sqlite <;> simp [h, virtualsOf, virtualOf, virtualAfter, ignoredBy]

theorem tabFold_virtual (d : Dialect) (tags : List TabTag) : ∀ t : Table,
    ((tags.foldl (tabEdit d) t).virtualTable, (tags.foldl (tabEdit d) t).virtualTableArgs) =
      virtualAfter (virtualsOf d tags) (t.virtualTable, t.virtualTableArgs) ∧
    (tags.foldl (tabEdit d) t).ignore = (t.ignore || tags.any (ignoredBy d)) := by
  induction tags with
  | nil => intro t; simp [virtualsOf, virtualAfter]
  | cons m ms ih =>
    intro t
    obtain ⟨a, b⟩ := ih (tabEdit d t m)
    obtain ⟨a', b'⟩ := tabEdit_virtual d t m
    rw [List.foldl_cons, a, b, a', b']
    rw [show m :: ms = [m] ++ ms from rfl, virtualsOf_append, virtualAfter_append]
    simp [Bool.or_assoc]

/-! ### Fields -/

/-- The struct field is this one, its tag written out. -/
def Field.Is : Field → FieldDecl → Prop
  | .column name type tags, .column name' type' text => name' = name ∧ type' = type ∧ (Field.column name type tags).Says text
  | .table tags, .other text => (Field.table tags).Says text
  | _, _ => False

theorem Field.virtuals_eq (d : Dialect) (tags : List (Tag TabTag)) : (Field.table tags).virtuals d = virtualsOf d (applicable d tags) := by
  simp only [Field.virtuals, virtualsOf]
  split
  · congr 1
  · rfl

theorem Field.ignored_eq (d : Dialect) (tags : List (Tag TabTag)) : (Field.table tags).ignored d = (applicable d tags).any (ignoredBy d) := by
  simp only [Field.ignored]
  congr 1

def Field.isTable : Field → Bool
  | .column _ _ _ => false
  | .table _ => true

/-- What loading fields adds to a table. -/
structure Adds (num : Str → Bool) (d : Dialect) (t t' : Table) (fs : List Field) : Prop where
  place : Place.of d t' = .of d t
  columns : t'.columns = t.columns ++ fs.flatMap (Field.columns num (.of d t))
  constraints : t'.constraints = t.constraints ++ consOf (.of d t) (fs.flatMap (Field.decls d))
  indexes : t'.indexes = t.indexes ++ idxsOf (.of d t) (fs.flatMap (Field.decls d))
  triggers : t'.triggers = t.triggers
  virt : (t'.virtualTable, t'.virtualTableArgs) = virtualAfter (fs.flatMap (Field.virtuals d)) (t.virtualTable, t.virtualTableArgs)
  ignore : t'.ignore = (t.ignore || fs.any (Field.ignored d))

theorem loadField_says {num : Str → Bool} {d : Dialect} {t : Table} {f : Field} {fd : FieldDecl} (h : f.Is fd)
    (hc : Fresh (colNames t) ((f.columns num (.of d t)).map Column.columnName)) (hn : ∀ c ∈ f.columns num (.of d t), c.columnName ≠ [])
    (hf : AllFresh d t (f.decls d)) :
    ∃ t', loadField num d t fd = .ok (t', f.isTable && t'.ignore) ∧ Adds num d t t' [f] := by
  cases f with
  | column name type tags =>
    cases fd with
    | other text => exact h.elim
    | column name' type' text =>
      obtain ⟨rfl, rfl, hs⟩ := h
      have h1 := loadColumn_says (num := num) hs (hc.2 name' (List.mem_map.2 ⟨columnOf num (.of d t) name' type' (applicable d tags), List.mem_singleton.2 rfl, rfl⟩)) hf
      have h2 : name' ≠ [] := hn (columnOf num (.of d t) name' type' (applicable d tags)) (List.mem_singleton.2 rfl)
      rw [loadField, if_neg h2, h1]
      refine ⟨_, rfl, ?_⟩
      have e := declApps_rest d ((Field.column name' type' tags).decls d) t
      generalize ((Field.column name' type' tags).decls d).foldl (declApp d) t = t1 at e ⊢
      rw [e]
      refine ⟨rfl, ?_, ?_, ?_, rfl, ?_, ?_⟩ <;> simp [Table.appendColumn, appendItem, Field.columns, Place.of, Field.virtuals, virtualAfter, Field.ignored]
  | table tags =>
    cases fd with
    | column name' type' text => exact h.elim
    | other text =>
      have h1 := loadTable_says (d := d) (t := t) h hf
      rw [loadField, h1]
      refine ⟨_, rfl, ?_⟩
      obtain ⟨a, b, c, e, f⟩ := tabFold_rest d (applicable d tags) t
      obtain ⟨g, i⟩ := tabFold_virtual d (applicable d tags) t
      refine ⟨f, by rw [c]; simp [Field.columns], by rw [b]; simp [Field.decls, ownDecls], by rw [a]; simp [Field.decls, ownDecls], e,
        by rw [g]; simp [Field.virtuals_eq], by rw [i]; simp [Field.ignored_eq]⟩

theorem Adds.trans {num : Str → Bool} {d : Dialect} {t t' t'' : Table} {f : Field} {fs : List Field} (h : Adds num d t t' [f])
    (h' : Adds num d t' t'' fs) : Adds num d t t'' (f :: fs) := by
  have hp := h.place
  refine ⟨h'.place.trans hp, ?_, ?_, ?_, h'.triggers.trans h.triggers, ?_, ?_⟩
  · rw [h'.columns, h.columns, hp]; simp
  · rw [h'.constraints, h.constraints, hp]; simp [consOf_append]
  · rw [h'.indexes, h.indexes, hp]; simp [idxsOf_append]
  · rw [h'.virt, h.virt, ← virtualAfter_append]; simp
  · rw [h'.ignore, h.ignore]; simp [Bool.or_assoc]

theorem loadFields_says {num : Str → Bool} {d : Dialect} : ∀ {fs : List Field} {fds : List FieldDecl} {t : Table}, Each Field.Is fs fds →
    Fresh (colNames t) ((fs.flatMap (Field.columns num (.of d t))).map Column.columnName) →
    (∀ c ∈ fs.flatMap (Field.columns num (.of d t)), c.columnName ≠ []) → AllFresh d t (fs.flatMap (Field.decls d)) → t.ignore = false →
    (fs.any (Field.ignored d) = false → ∃ t', loadFields num d t fds = .ok (t', false) ∧ Adds num d t t' fs) ∧
    (fs.any (Field.ignored d) = true → ∃ t', loadFields num d t fds = .ok (t', true) ∧ t'.ignore = true)
  | [], [], t, _, _, _, _, hi => ⟨fun _ => ⟨t, rfl, rfl, by simp, by simp [consOf], by simp [idxsOf], rfl, by simp [virtualAfter], by simp⟩,
      fun h => by simp at h⟩
  | [], _ :: _, _, h, _, _, _, _ => h.elim
  | _ :: _, [], _, h, _, _, _, _ => h.elim
  | f :: fs, fd :: fds, t, h, hc, hn, hf, hi => by
    rw [List.flatMap_cons, List.map_append] at hc
    rw [List.flatMap_cons] at hn hf
    obtain ⟨t1, h1, a1⟩ := loadField_says (num := num) h.1 hc.split.1 (fun c hc => hn c (by simp [hc])) hf.split.1
    have i1 : t1.ignore = f.ignored d := by rw [a1.ignore, hi]; simp
    have stop : (f.isTable && t1.ignore) = f.ignored d := by
      cases f with
      | column => rfl
      | table tags => simpa [Field.isTable] using i1
    rw [stop] at h1
    rw [loadFields, h1]
    simp only [Res.bind]
    cases hg : f.ignored d with
    | true =>
      simp only [if_true]
      refine ⟨fun h => by simp [hg] at h, fun _ => ⟨t1, rfl, by rw [i1, hg]⟩⟩
    | false =>
      simp only [Bool.false_eq_true, if_false]
      have hf2 := hf.idx
      have hf3 := hf.con
      rw [idxsOf_append, List.map_append] at hf2
      rw [consOf_append, List.map_append] at hf3
      have hp := a1.place
      have c1 : colNames t1 = colNames t ++ (f.columns num (.of d t)).map Column.columnName := by rw [colNames, a1.columns]; simp [colNames]
      have x1 : idxNames t1 = idxNames t ++ (idxsOf (.of d t) (f.decls d)).map Index.indexName := by rw [idxNames, a1.indexes]; simp [idxNames]
      have x2 : conNames t1 = conNames t ++ (consOf (.of d t) (f.decls d)).map Constraint.constraintName := by
        rw [conNames, a1.constraints]; simp [conNames]
      have ih := loadFields_says (num := num) (d := d) (t := t1) h.2 (by rw [hp, c1]; exact hc.split.2)
        (by rw [hp]; exact fun c hc => hn c (by simp only [List.mem_append]; exact Or.inr hc))
        ⟨by rw [hp, x1]; exact hf2.split.2, by rw [hp, x2]; exact hf3.split.2, fun x hx => hf.ok x (by simp only [List.mem_append]; exact Or.inr hx)⟩
        (by rw [i1, hg])
      refine ⟨fun hh => ?_, fun hh => ?_⟩
      · obtain ⟨t', h2, a2⟩ := ih.1 (by simpa [hg] using hh)
        exact ⟨t', h2, a1.trans a2⟩
      · obtain ⟨t', h2, a2⟩ := ih.2 (by simpa [hg] using hh)
        exact ⟨t', h2, a2⟩

/-! ### Marks -/

/-- The mark a constraint gives a column. -/
def markBy (x : Column) (c : Constraint) : Column :=
  if x.ignore = false ∧ c.columns = [x.columnName] then
    match c.constraintType with
    | .primaryKey => { x with isPrimaryKey := true }
    | .unique => { x with isUnique := true }
    | _ => x
  else x

theorem modify_found (items : List Column) (cache : Cache Str) (h : AllFound items cache) (k : Str) (f : Column → Column) (n : Nat)
    (hp : (cachedPosition items cache k).1 = some n) :
    items.modify n f = items.map fun x => if x.ignore = false ∧ k = x.columnName then f x else x := by
  obtain ⟨-, hg, x, hx, hk, hi⟩ := get_of_lookup hp
  apply List.ext_getElem?
  intro i
  rw [List.getElem?_modify, List.getElem?_map]
  cases hy : items[i]? with
  | none => rfl
  | some y =>
    simp only [Option.map_eq_map, Option.map_some, Option.some.injEq]
    by_cases hni : n = i
    · subst hni
      rw [hx] at hy
      cases hy
      rw [if_pos rfl, if_pos ⟨hi, hk.symm⟩]
    · rw [if_neg hni, if_neg]
      rintro ⟨h1, h2⟩
      have := (h i y hy h1).2
      rw [show Entry.key y = k from h2.symm, hg] at this
      cases this
      exact hni rfl

theorem not_found (items : List Column) (cache : Cache Str) (h : AllFound items cache) (k : Str)
    (hp : (cachedPosition items cache k).1 = none) : ∀ x ∈ items, ¬ (x.ignore = false ∧ k = x.columnName) := by
  rintro x hx ⟨h1, h2⟩
  obtain ⟨i, hi⟩ := List.mem_iff_getElem?.1 hx
  obtain ⟨a, b⟩ := h i x hi h1
  have := (cachedPosition_iff items cache k i).2 ⟨by rw [h2]; exact a, by rw [h2]; exact b, x, hi, h2.symm, h1⟩
  rw [hp] at this
  cases this

theorem markColumn_columns (t : Table) (h : AllFound t.columns t.columnCache) (c : Constraint) :
    markColumn t c = { t with columns := t.columns.map (markBy · c) } := by
  have same : ∀ t : Table, (∀ x ∈ t.columns, markBy x c = x) → t = { t with columns := t.columns.map (markBy · c) } := by
    intro t ht
    have : t.columns.map (markBy · c) = t.columns := by
      conv => rhs; rw [← List.map_id t.columns]
      exact List.map_congr_left ht
    rw [this]
  unfold markColumn
  split
  · rename_i col hcol
    split
    · rename_i hp
      apply same
      intro x hx
      unfold markBy
      rw [if_neg]
      rw [hcol]
      rintro ⟨h1, h2⟩
      exact not_found _ _ h col hp x hx ⟨h1, by simpa using h2⟩
    · rename_i n hp
      split
      · rename_i hk
        rw [modify_found _ _ h col _ n hp]
        congr 1
        apply List.map_congr_left
        intro x _
        simp [markBy, hcol, hk]
      · rename_i hk
        rw [modify_found _ _ h col _ n hp]
        congr 1
        apply List.map_congr_left
        intro x _
        simp [markBy, hcol, hk]
      · rename_i h1 h2
        apply same
        intro x _
        unfold markBy
        split
        · split <;> simp_all
        · rfl
  · rename_i hcol
    apply same
    intro x _
    unfold markBy
    rw [if_neg]
    rintro ⟨-, h2⟩
    exact hcol _ h2

theorem fold_mark (cs : List Constraint) : ∀ t : Table, TabInv t → cs.foldl markColumn t = { t with columns := t.columns.map fun x => cs.foldl markBy x } := by
  induction cs with
  | nil => intro t _; simp
  | cons c cs ih =>
    intro t h
    rw [List.foldl_cons, ih _ ((markColumn_keeps t c).1 h), markColumn_columns t h.columns c]
    simp [Function.comp_def]

theorem markBy_names (x : Column) (c : Constraint) : (markBy x c).columnName = x.columnName ∧ (markBy x c).ignore = x.ignore := by
  unfold markBy
  split
  · split <;> exact ⟨rfl, rfl⟩
  · exact ⟨rfl, rfl⟩

theorem fold_markBy (cs : List Constraint) : ∀ x : Column, cs.foldl markBy x =
    { x with isPrimaryKey := x.isPrimaryKey || (!x.ignore && cs.any fun c => c.constraintType = .primaryKey && c.columns = [x.columnName])
             isUnique := x.isUnique || (!x.ignore && cs.any fun c => c.constraintType = .unique && c.columns = [x.columnName]) } := by
  induction cs with
  | nil => intro x; simp
  | cons c cs ih =>
    intro x
    rw [List.foldl_cons, ih]
    unfold markBy
    by_cases h : x.ignore = false ∧ c.columns = [x.columnName]
    · rw [if_pos h]
      cases hk : c.constraintType <;> simp [hk, h.1, h.2]
    · rw [if_neg h]
      by_cases h1 : x.ignore = false
      · have : c.columns ≠ [x.columnName] := fun e => h ⟨h1, e⟩
        simp [h1, this]
      · simp [h1]

end Ddl.Declared
