import Verif.Spec.Field
import Verif.Props.Clauses
import Verif.Props.Columns
/-
C56: modifiers, formats and methods of fields.
-/
namespace Sq.Fields
open Sq Sq.Spec

/-! ### Executions and text before them -/

theorem exec1_pre (d : Dialect) (i : Instr) (s : St) (pre : List Piece) :
    exec1 d i { s with out := pre ++ s.out } = { exec1 d i s with out := pre ++ (exec1 d i s).out } := by
  cases i
  case text t => simp [exec1]
  case bind pn v =>
    simp only [exec1]
    split
    · split <;> simp
    · simp
  case named n v => simp only [exec1]; split <;> simp
  case param n v =>
    simp only [exec1]
    split
    · split <;> simp
    · simp
  case forget ns => simp [exec1]

theorem exec_pre (d : Dialect) (is : List Instr) (s : St) (pre : List Piece) :
    exec d is { s with out := pre ++ s.out } = { exec d is s with out := pre ++ (exec d is s).out } := by
  induction is generalizing s with
  | nil => rfl
  | cons i is ih => rw [exec_cons, exec_cons, exec1_pre, ih]

theorem wrapped (m : Mode) (n k : Node) (a : W) (pre post : Str) (hn : ren n m [] = a ⨟ .wr [])
    (hw : ren k m [] = W.when (decide (pre ≠ [])) (.wr pre) ⨟ a ⨟ .wr post) (hok : (renderAt m n).status = .ok) :
    (renderAt m k).status = .ok ∧ (renderAt m k).args = (renderAt m n).args ∧ (renderAt m k).params = (renderAt m n).params ∧
    (renderAt m k).query = pre ++ (renderAt m n).query ++ post := by
  have hok' : (ren n m []).st = .ok := hok
  rw [hn] at hok'
  have ha := (seq_ok hok').1
  have h1 : ∀ t, (a ⨟ .wr t) = { code := a.code ++ [.text t], st := .ok } := by
    intro t; unfold W.seq; rw [ha]; rfl
  rw [h1] at hw hn
  unfold renderAt
  rw [hn]
  by_cases hp : pre = []
  · subst hp
    simp only [ne_eq, not_true_eq_false, decide_false, when_false, ok_seq] at hw
    rw [hw]
    simp [exec_append, exec1, bufString, Piece.str]
  · simp only [ne_eq, hp, not_false_eq_true, decide_true, when_true] at hw
    rw [hw]
    simp only [W.seq, W.wr, List.cons_append, List.nil_append, exec_cons, exec_append, exec1, exec_nil]
    have e := exec_pre m.d a.code {} [.text pre]
    simp only [List.append_nil] at e
    rw [e]
    simp [bufString, Piece.str]

/-! ### Chains of modifiers -/

theorem lastOf_cons {α β : Type} (g : α → Option β) (x : α) (xs : List α) :
    ((x :: xs).filterMap g).getLast? = ((xs.filterMap g).getLast?).or (g x) := by
  rw [List.filterMap_cons]
  cases g x with
  | none => simp
  | some b =>
    rw [List.getLast?_cons]
    cases (xs.filterMap g).getLast? <;> simp

def infoOf (fi : FInfo) (xs : List Modifier) : FInfo :=
  { fi with alias := (aliasOf xs).getD fi.alias, desc := (sortOf xs).or fi.desc, nullsFirst := (nullsOf xs).or fi.nullsFirst,
            collation := ((xs.filterMap fun | .collate c => some c | _ => none).getLast?).getD fi.collation }

theorem infoOf_cons (fi : FInfo) (x : Modifier) (xs : List Modifier) : infoOf (fi.modify x) xs = infoOf fi (x :: xs) := by
  unfold infoOf aliasOf sortOf nullsOf
  simp only [lastOf_cons]
  cases x <;> simp [FInfo.modify] <;>
    first
    | (cases ((List.filterMap (fun x => match x with | .as_ a => some a | _ => none) xs).getLast? : Option Str) <;> rfl)
    | (cases (List.filterMap (fun x => match x with | .collate a => some a | _ => none) xs).getLast? <;> rfl)
    | rfl

theorem modified_field (fi : FInfo) (raw neg : Bool) (vals : List Node) (xs : List Modifier) :
    modified (.field fi raw neg vals) xs = .field (infoOf fi xs) raw (if nots xs % 2 = 1 then !neg else neg) vals := by
  unfold modified
  induction xs generalizing fi neg with
  | nil => simp [infoOf, aliasOf, sortOf, nullsOf, nots]
  | cons x xs ih =>
    rw [List.foldl_cons]
    show List.foldl _ (Node.field (fi.modify x) raw (match x with | .not_ => !neg | _ => neg) vals) xs = _
    rw [ih, infoOf_cons]
    have hn : nots (x :: xs) = nots xs + (match x with | .not_ => 1 | _ => 0) := by
      unfold nots; rw [List.countP_cons]; cases x <;> simp
    rw [hn]
    clear hn ih
    generalize nots xs = k
    congr 1
    cases x <;> simp only [Nat.add_zero]
    rcases Nat.mod_two_eq_zero_or_one k with h | h
    · rw [if_neg (by omega), if_pos (by omega)]
    · rw [if_pos (by omega), if_neg (by omega)]; simp

theorem modified_checked (sub : Bool) (avail : List Str) (fi : FInfo) (xs : List Modifier) :
    modified (.checkedField sub avail fi) xs = .checkedField sub avail (infoOf fi xs) := by
  unfold modified
  induction xs generalizing fi with
  | nil => simp [infoOf, aliasOf, sortOf, nullsOf]
  | cons x xs ih => rw [List.foldl_cons, modify, ih, infoOf_cons]

theorem suffix_eq (d : Dialect) (fi : FInfo) (xs : List Modifier) (hc : fi.collation = []) (hd : fi.desc = none)
    (hn : fi.nullsFirst = none) : fieldSuffix d (infoOf fi xs) = modifierText d xs := by
  unfold fieldSuffix modifierText infoOf collationText collationOf
  simp only [hc, hd, hn, Option.or_none]
  congr 1
  · congr 1
    cases sortOf xs with
    | none => rfl
    | some b => cases b <;> rfl
  · cases nullsOf xs with
    | none => rfl
    | some b => cases b <;> rfl

theorem info_suffix (m : Mode) (fi : FInfo) (vals : List Obj) (hc : fi.collation = []) (hd : fi.desc = none)
    (hn : fi.nullsFirst = none) (he : fi.err = none) : ∃ a : W, fieldInfoAppend m fi vals = a ⨟ .wr [] ∧
    ∀ xs, fieldInfoAppend m (infoOf fi xs) vals = a ⨟ .wr (modifierText m.d xs) := by
  have h0 : fieldSuffix m.d fi = [] := by simp [fieldSuffix, hc, hd, hn]
  refine ⟨if fi.formats ≠ [] then
      match chooseFormat m.d fi.formats with
      | none => .fail "CustomField formats has no default format"
      | some f => bprintf m f vals
     else .wr (columnName m fi), ?_, ?_⟩
  · unfold fieldInfoAppend
    simp only [he, h0]
    rfl
  · intro xs
    have he' : (infoOf fi xs).err = none := he
    have hf : (infoOf fi xs).formats = fi.formats := rfl
    have hcol : columnName m (infoOf fi xs) = columnName m fi := rfl
    unfold fieldInfoAppend
    simp only [he', hf, suffix_eq m.d fi xs hc hd hn, hcol]
    rfl

/-- **C56, modifiers.** Whatever chain of `As`, `Asc`, `Desc`, `NullsFirst`, `NullsLast`, `Collate` and `Not` is called on a field,
the field renders as before with the last collation, the last sort order and the last null order behind it, each once and in that
order, and with NOT in front if `Not` was called an odd number of times; its values are bound as before, and its alias is the last one. -/
theorem C56_modifiers (m : Mode) (f : Node) (hf : Unmodified f) (xs : List Modifier) (hn : HasNot f ∨ nots xs = 0)
    (hok : (renderAt m f).status = .ok) :
    let g := modified f xs
    (renderAt m g).status = .ok ∧ (renderAt m g).args = (renderAt m f).args ∧ (renderAt m g).params = (renderAt m f).params ∧
    (renderAt m g).query = (if nots xs % 2 = 1 then "NOT ".toList else []) ++ (renderAt m f).query ++ modifierText m.d xs ∧
    g.alias = (aliasOf xs).getD f.alias ∧ g.name = f.name := by
  intro g
  have key : ∃ a : W, ren f m [] = a ⨟ .wr [] ∧ ren g m [] =
      W.when (decide ((if nots xs % 2 = 1 then "NOT ".toList else []) ≠ [])) (.wr (if nots xs % 2 = 1 then "NOT ".toList else [])) ⨟
      a ⨟ .wr (modifierText m.d xs) := by
    have hst : (ren f m []).st = .ok := hok
    cases f <;> simp only [Unmodified] at hf
    case field fi raw neg vals =>
      obtain ⟨rfl, h1, h2, h3⟩ := hf
      have he : fi.err = none := by
        rw [ren] at hst
        have := (seq_ok hst).2
        unfold fieldInfoAppend at this
        split at this
        · simp [W.fail] at this
        · assumption
      obtain ⟨a, ha1, ha2⟩ := info_suffix (if raw then m.std else m.call none m.ex) fi ((objs vals).map PV.toObj) h1 h2 h3 he
      have hd : (if raw then m.std else m.call none m.ex).d = m.d := by cases raw <;> rfl
      refine ⟨a, ?_, ?_⟩
      · rw [ren, ha1]; rfl
      · show ren (modified _ xs) m [] = _
        rw [modified_field, ren, ha2 xs, hd]
        by_cases hk : nots xs % 2 = 1
        · simp [hk]
        · simp [hk]
    case checkedField sub avail fi =>
      obtain ⟨h1, h2, h3⟩ := hf
      have hk : nots xs = 0 := by rcases hn with h | h; exact h.elim; exact h
      have hg : g = .checkedField sub avail (infoOf fi xs) := modified_checked sub avail fi xs
      rw [hg]
      rw [ren] at hst
      rw [ren, ren]
      unfold checkedFieldAppend at hst ⊢
      have e1 : (infoOf fi xs).tableAlias = fi.tableAlias := rfl
      have e2 : (infoOf fi xs).name = fi.name := rfl
      rw [e1, e2]
      split at hst
      · simp [W.fail] at hst
      rename_i c1
      rw [if_neg c1, if_neg c1]
      split at hst
      · simp [W.fail] at hst
      rename_i c2
      rw [if_neg c2, if_neg c2]
      have he : fi.err = none := by
        unfold fieldInfoAppend at hst
        split at hst
        · simp [W.fail] at hst
        · assumption
      obtain ⟨a, ha1, ha2⟩ := info_suffix (m.std.call none m.std.ex) fi [] h1 h2 h3 he
      refine ⟨a, ha1, ?_⟩
      rw [ha2 xs]
      simp [hk]
      rfl
  obtain ⟨a, h1, h2⟩ := key
  obtain ⟨r1, r2, r3, r4⟩ := wrapped m f g a _ _ h1 h2 hok
  refine ⟨r1, r2, r3, r4, ?_, ?_⟩
  · cases f <;> simp only [Unmodified] at hf
    · show (modified _ xs).alias = _; rw [modified_field]; rfl
    · show (modified _ xs).alias = _; rw [modified_checked]; rfl
  · cases f <;> simp only [Unmodified] at hf
    · show (modified _ xs).name = _; rw [modified_field]; rfl
    · show (modified _ xs).name = _; rw [modified_checked]; rfl

/-- The hypotheses hold of a column and of a field made from a format with a bound value. -/
theorem C56_applies (d : Dialect) :
    (renderAt { d := d } (modified (newField "name".toList { name := "users".toList, alias := "u".toList })
      [.desc, .nullsLast, .as_ "n".toList, .asc])).query = (renderAt { d := d } (newField "name".toList { name := "users".toList, alias := "u".toList })).query ++
        " ASC NULLS LAST".toList ∧
    (renderAt { d := d } (modified (fieldf "lower({})" [.scalar (.int 1)]) [.nullsFirst, .not_])).query =
      "NOT ".toList ++ (renderAt { d := d } (fieldf "lower({})" [.scalar (.int 1)])).query ++ " NULLS FIRST".toList := by
  have h1 := C56_modifiers { d := d } (newField "name".toList { name := "users".toList, alias := "u".toList }) ⟨rfl, rfl, rfl, rfl⟩
    [.desc, .nullsLast, .as_ "n".toList, .asc] (.inl trivial) (by cases d <;> decide +kernel)
  have h2 := C56_modifiers { d := d } (fieldf "lower({})" [.scalar (.int 1)]) ⟨rfl, rfl, rfl, rfl⟩ [.nullsFirst, .not_] (.inl trivial)
    (by cases d <;> decide +kernel)
  refine ⟨?_, ?_⟩
  · rw [h1.2.2.2.1]; rfl
  · rw [h2.2.2.2.1]; rfl

/-! ### Formats -/

theorem last_mem (k : Str) (fs : List (Str × Str)) (hn : fs.Pairwise fun a b => a.1 ≠ b.1) (r : Option Str) :
    (∀ f, fs.foldl (fun r p => if p.1 = k then some p.2 else r) r = some f ↔ ((k, f) ∈ fs ∨ (∀ g, (k, g) ∉ fs) ∧ r = some f)) := by
  induction fs generalizing r with
  | nil => intro f; simp
  | cons p fs ih =>
    intro f
    rw [List.foldl_cons, ih (List.pairwise_cons.1 hn).2]
    obtain ⟨a, b⟩ := p
    have hp := (List.pairwise_cons.1 hn).1
    by_cases h : a = k
    · subst h
      have hno : ∀ g, (a, g) ∉ fs := fun g hg => hp (a, g) hg rfl
      simp only [if_true, List.mem_cons, Prod.mk.injEq, true_and, Option.some.injEq]
      constructor
      · rintro (h | ⟨_, rfl⟩)
        · exact absurd h (hno f)
        · left; left; rfl
      · rintro ((rfl | h) | ⟨h, _⟩)
        · exact .inr ⟨hno, rfl⟩
        · exact absurd h (hno f)
        · exact absurd (Or.inl rfl) (h b)
    · have h' : ¬ k = a := fun e => h e.symm
      simp only [if_neg h, List.mem_cons, Prod.mk.injEq, h', false_and, false_or]

theorem choose_iff (d : Dialect) (fs : List (Str × Str)) (hn : fs.Pairwise fun a b => a.1 ≠ b.1) (f : Str) :
    chooseFormat d fs = some f ↔ Chosen fs d f := by
  unfold chooseFormat Chosen
  have h1 := last_mem "default".toList fs hn none
  have h2 := last_mem d.nm fs hn none
  simp only [reduceCtorEq, and_false, or_false] at h1 h2
  cases e1 : fs.foldl (fun r p => if p.1 = "default".toList then some p.2 else r) none with
  | none =>
    simp only [e1, reduceCtorEq, false_iff]
    rintro ⟨⟨g, hg⟩, _⟩
    rw [← h1 g, e1] at hg
    exact absurd hg (by simp)
  | some dflt =>
    have hd := (h1 dflt).1 e1
    simp only [e1]
    cases e2 : fs.foldl (fun r p => if p.1 = d.nm then some p.2 else r) none with
    | none =>
      have hno : ∀ g, (d.nm, g) ∉ fs := by
        intro g hg
        rw [← h2 g, e2] at hg
        exact absurd hg (by simp)
      simp only [e2, Option.some.injEq]
      constructor
      · rintro rfl; exact ⟨⟨_, hd⟩, .inr ⟨hno, hd⟩⟩
      · rintro ⟨_, h | ⟨_, h⟩⟩
        · exact absurd h (hno f)
        · rw [← h1 f, e1] at h; exact Option.some.inj h
    | some g =>
      have hg := (h2 g).1 e2
      simp only [e2, Option.some.injEq]
      constructor
      · rintro rfl; exact ⟨⟨_, hd⟩, .inl hg⟩
      · rintro ⟨_, h | ⟨h, _⟩⟩
        · rw [← h2 f, e2] at h; exact Option.some.inj h
        · exact absurd hg (h g)

/-- **C56, formats.** A field with formats per dialect renders as a field with the format of the dialect in use, or the default
format if the dialect has none. -/
theorem C56_dialect_format (m : Mode) (formats : List (Str × Str)) (hn : formats.Pairwise fun a b => a.1 ≠ b.1) (vals : List Node)
    (f : Str) (hc : Chosen formats m.d f) :
    renderAt m (fieldfDialect formats vals) = renderAt m (.field { formats := [("default".toList, f)] } false false vals) := by
  have h1 := (choose_iff m.d formats hn f).2 hc
  have h2 : chooseFormat m.d [("default".toList, f)] = some f := by cases h : m.d <;> rfl
  have hne : formats ≠ [] := by
    rintro rfl
    obtain ⟨⟨g, hg⟩, _⟩ := hc
    simp at hg
  unfold renderAt fieldfDialect
  have e : ren (.field { formats := formats } false false vals) m [] =
      ren (.field { formats := [("default".toList, f)] } false false vals) m [] := by
    rw [ren, ren]
    show _ ⨟ fieldInfoAppend (m.call none m.ex) _ _ = _ ⨟ fieldInfoAppend (m.call none m.ex) _ _
    have hd : (m.call none m.ex).d = m.d := rfl
    unfold fieldInfoAppend
    simp only [hd, h1, h2, ne_eq, hne, not_false_eq_true, if_true, reduceCtorEq]
    rfl
  rw [e]

/-- Without a default format it is an error. -/
theorem C56_default_needed (m : Mode) (formats : List (Str × Str)) (hne : formats ≠ []) (hd : ∀ f, ("default".toList, f) ∉ formats) (vals : List Node) :
    ∃ e, (renderAt m (fieldfDialect formats vals)).status = .err e := by
  have hl : ∀ (fs : List (Str × Str)) (r : Option Str), (∀ f, ("default".toList, f) ∉ fs) →
      fs.foldl (fun r p => if p.1 = "default".toList then some p.2 else r) r = r := by
    intro fs
    induction fs with
    | nil => intro r _; rfl
    | cons p fs ih =>
      intro r h
      rw [List.foldl_cons, if_neg (fun e => h p.2 (by rw [← e]; simp)), ih _ (fun f hf => h f (List.mem_cons_of_mem _ hf))]
  have h1 : chooseFormat m.d formats = none := by
    unfold chooseFormat
    simp only [hl formats none hd]
  refine ⟨"CustomField formats has no default format".toList, ?_⟩
  have hdl : (m.call none m.ex).d = m.d := rfl
  show (ren (.field { formats := formats } false false vals) m []).st = _
  rw [ren]
  show (_ ⨟ fieldInfoAppend (m.call none m.ex) _ _).st = _
  unfold fieldInfoAppend
  simp only [hdl, h1, ne_eq, hne, not_false_eq_true, if_true]
  rfl

/-- **C56, map order.** Go visits the formats in any order; the order makes no difference. -/
theorem C56_map_order (m : Mode) (fs gs : List (Str × Str)) (hn : fs.Pairwise fun a b => a.1 ≠ b.1) (hp : fs.Perm gs) (vals : List Node) :
    renderAt m (fieldfDialect fs vals) = renderAt m (fieldfDialect gs vals) := by
  have hn' : gs.Pairwise fun a b => a.1 ≠ b.1 := (hp.pairwise_iff (fun h e => h e.symm)).1 hn
  have hc : ∀ d, chooseFormat d fs = chooseFormat d gs := by
    intro d
    apply Option.ext
    intro f
    rw [choose_iff d fs hn f, choose_iff d gs hn' f]
    unfold Chosen
    simp only [hp.mem_iff]
  have he : (fs = []) ↔ (gs = []) := ⟨fun h => by subst h; exact List.nil_perm.1 hp, fun h => by subst h; exact List.perm_nil.1 hp⟩
  have e : ren (.field { formats := fs } false false vals) m [] = ren (.field { formats := gs } false false vals) m [] := by
    rw [ren, ren]
    unfold fieldInfoAppend
    simp only [hc, ne_eq, he]
    rfl
  unfold renderAt fieldfDialect
  rw [e]

/-! ### Methods -/

/-- **C56, methods.** Every predicate or assignment method of every field type means the function it is named after, applied to the
field and the argument (and so writes the SQL of C54). -/
theorem C56_methods : ∀ e ∈ methods, ∃ c, namedAfter e.name = some c ∧ ∀ f v, e.call f v = (c f v).node := by
  intro e he
  simp only [methods, List.mem_cons, List.mem_nil_iff, or_false] at he
  rcases he with rfl | he
  · exact ⟨_, rfl, fun f v => rfl⟩
  repeat (rcases he with rfl | he; exact ⟨_, rfl, fun f v => rfl⟩)

/-- **C56, columns.** A field of a table is written as the column of that table under the name the query knows it by: the alias if there
is one, else the table's name; a table without either leaves the bare column. -/
theorem C56_column (d : Dialect) (name : Str) (t : TInfo) :
    (renderAt { d := d } (newField name t)).status = .ok ∧
    (renderAt { d := d } (newField name t)).query =
      (if t.alias ≠ [] then quoteIdentifier d t.alias ++ ".".toList ++ quoteIdentifier d name
       else if t.name ≠ [] then quoteIdentifier d t.name ++ ".".toList ++ quoteIdentifier d name
       else quoteIdentifier d name) := by
  have h := C25_qualifier_dropped_iff_excluded { tableName := t.name, tableAlias := t.alias, name := name } rfl rfl false { d := d }
    (by intro i j _ a b ha; simp at ha)
  unfold renderAt newField
  rw [h]
  refine ⟨rfl, ?_⟩
  by_cases h1 : t.alias = [] <;> by_cases h2 : t.name = [] <;>
    simp [h1, h2, Sq.qualifier, fieldSuffix, W.seq, W.wr, exec, exec1, bufString, Piece.str]

/-- **C56, sort order (violated).** The sort order is written wherever the field is used, not only in ORDER BY: comparing a field after
`Desc` is no SQL, and neither is selecting it. -/
theorem C56_sort_leaks_violated (d : Dialect) :
    (renderAt { d := d } (Call.node (.eq (modified (Ex.col "u" "a") [.desc]) (Ex.col "u" "b")))).query = "u.a DESC = u.b".toList := by
  cases d <;> decide +kernel

/-- **C56, null order (violated).** NULLS FIRST and NULLS LAST are written for MySQL and SQL Server too, which have no such clause; the
error comes from the server. -/
theorem C56_nulls_violated (d : Dialect) (_h : d = .mysql ∨ d = .sqlserver) :
    (renderAt { d := d } (modified (Ex.col "u" "a") [.nullsLast])).query = "u.a NULLS LAST".toList ∧
    (renderAt { d := d } (modified (Ex.col "u" "a") [.nullsLast])).status = .ok := by
  cases d <;> decide +kernel

/-- **C56, schemas (violated).** Fields of two tables with one name in different schemas are written alike, so a query over both
cannot say which it means. -/
theorem C56_schema_violated (m : Mode) (name table s1 s2 : Str) :
    renderAt m (newField name { schema := s1, name := table }) = renderAt m (newField name { schema := s2, name := table }) := rfl

end Sq.Fields
