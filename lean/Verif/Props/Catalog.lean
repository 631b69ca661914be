import Verif.Spec.Catalog
import Verif.Props.Sprintf
import Verif.Props.Load
/-
C69: what the database reports is what the metadata says.
-/
namespace Ddl.Catalog
open Sq (atoi formatInt)

theorem toString_int (i : Int) : i.repr.toList = formatInt i := by
  unfold formatInt
  cases i with
  | ofNat n =>
    rw [if_neg (by simp)]
    simp [Int.repr, Nat.repr]
  | negSucc n =>
    rw [if_pos (by exact Int.negSucc_lt_zero n)]
    simp [Int.repr, Nat.repr]

theorem isText_iff (c : Cell) (v : Str) : IsText c v ↔ c.toText = some v := by
  unfold IsText
  cases c with
  | null => simp [Cell.toText]
  | text s => simp [Cell.toText]
  | int i => simp [Cell.toText, toString_int, eq_comm]
  | bool b =>
    have h : ∀ b : Bool, (toString b).toList = if b then "true".toList else "false".toList := by decide
    simp only [Cell.toText, reduceCtorEq, false_and, exists_false, false_or, Cell.bool.injEq, Option.some.injEq, ← h]
    constructor
    · rintro ⟨_, rfl, rfl⟩; rfl
    · rintro rfl; exact ⟨_, rfl, rfl⟩

theorem isBool_iff (c : Cell) (v : Bool) : IsBool c v ↔ c.toBool = some v := by
  unfold IsBool
  cases c with
  | null => simp [Cell.toBool]
  | text s =>
    have disj : ∀ x ∈ ["1", "t", "T", "TRUE", "true", "True"], ∀ y ∈ ["0", "f", "F", "FALSE", "false", "False"], x.toList ≠ y.toList := by decide
    have h1 : (∃ x, x ∈ ["1", "t", "T", "TRUE", "true", "True"] ∧ Cell.text s = .text x.toList) ↔
        (["1", "t", "T", "TRUE", "true", "True"].any fun w => s = w.toList) = true := by
      simp only [List.any_eq_true, decide_eq_true_eq, Cell.text.injEq]
    have h0 : (∃ x, x ∈ ["0", "f", "F", "FALSE", "false", "False"] ∧ Cell.text s = .text x.toList) ↔
        (["0", "f", "F", "FALSE", "false", "False"].any fun w => s = w.toList) = true := by
      simp only [List.any_eq_true, decide_eq_true_eq, Cell.text.injEq]
    simp only [Cell.toBool, parseBool, reduceCtorEq, false_or]
    cases v with
    | true =>
      simp only [if_true, h1]
      split
      · simp_all
      · split <;> simp_all
    | false =>
      simp only [Bool.false_eq_true, if_false, h0]
      split
      · rename_i h
        constructor
        · intro h'
          obtain ⟨x, hx, ex⟩ := h1.2 h
          obtain ⟨y, hy, ey⟩ := h0.2 h'
          exact absurd (Cell.text.inj (ex.symm.trans ey)) (disj x hx y hy)
        · intro h'; cases h'
      · split <;> simp_all
  | int i =>
    simp only [Cell.toBool, reduceCtorEq, false_or, false_and, exists_false, or_false, and_false, Cell.int.injEq]
    cases v <;> simp only [Bool.false_eq_true, if_false, if_true] <;> split <;> simp_all
    all_goals omega
  | bool b => simp [Cell.toBool]

theorem isInt_iff (c : Cell) (v : Int) : IsInt c v ↔ c.toInt = some v := by
  unfold IsInt
  cases c <;> simp [Cell.toInt]

/-- The names of the constraint types. -/
def typeNames : List (ConstraintType × Str) :=
  [(.primaryKey, "PRIMARY KEY".toList), (.foreignKey, "FOREIGN KEY".toList), (.unique, "UNIQUE".toList), (.check, "CHECK".toList),
    (.exclude, "EXCLUDE".toList)]

theorem name_mem (t : ConstraintType) (h : ∀ v, t ≠ .other v) : (t, t.name) ∈ typeNames := by
  cases t with
  | other v => exact absurd rfl (h v)
  | _ => decide

theorem names_inj : ∀ p ∈ typeNames, ∀ q ∈ typeNames, p.2 = q.2 → p.1 = q.1 := by decide

theorem constraintType_eq (s : Str) : constraintType s = (((typeNames.find? fun p => s = p.2).map Prod.fst).getD (.other s)) := by
  unfold constraintType typeNames
  generalize "PRIMARY KEY".toList = a
  generalize "FOREIGN KEY".toList = b
  generalize "UNIQUE".toList = c
  generalize "CHECK".toList = d
  generalize "EXCLUDE".toList = e
  simp only [List.find?_cons, List.find?_nil]
  repeat' split
  all_goals simp_all

theorem isType_iff (t : ConstraintType) (s : Str) : IsType t s ↔ t = constraintType s := by
  have inj : ∀ t u : ConstraintType, (∀ v, t ≠ .other v) → (∀ v, u ≠ .other v) → t.name = u.name → t = u :=
    fun t u ht hu h => names_inj _ (name_mem t ht) _ (name_mem u hu) h
  have name_of : ∀ p ∈ typeNames, p.1.name = p.2 ∧ ∀ v, p.1 ≠ .other v := by
    intro p hp
    simp only [typeNames, List.mem_cons, List.not_mem_nil, or_false] at hp
    rcases hp with rfl | rfl | rfl | rfl | rfl <;> exact ⟨rfl, fun v hv => by cases hv⟩
  have hc : IsType (constraintType s) s := by
    rw [constraintType_eq]
    cases hf : typeNames.find? (fun p => s = p.2) with
    | none =>
      refine ⟨rfl, ?_⟩
      rintro u - k hk rfl
      have := List.find?_eq_none.1 hf _ (name_mem k hk)
      simp at this
    | some p =>
      have h1 := List.find?_some hf
      have h2 := name_of p (List.mem_of_find?_eq_some hf)
      refine ⟨?_, ?_⟩
      · simp only [Option.map_some, Option.getD_some]
        rw [h2.1]
        simpa using h1
      · intro u hu
        exact absurd hu (h2.2 u)
  constructor
  · rintro ⟨h1, h2⟩
    obtain ⟨c1, c2⟩ := hc
    generalize constraintType s = u at c1 c2
    by_cases ht : ∃ v, t = .other v
    · obtain ⟨v, rfl⟩ := ht
      by_cases hu : ∃ w, u = .other w
      · obtain ⟨w, rfl⟩ := hu
        exact congrArg _ (h1.symm.trans c1)
      · exact absurd c1 (h2 v rfl u fun w hw => hu ⟨w, hw⟩)
    · by_cases hu : ∃ w, u = .other w
      · obtain ⟨w, rfl⟩ := hu
        exact absurd h1 (c2 w rfl t fun v hv => ht ⟨v, hv⟩)
      · exact inj t u (fun v hv => ht ⟨v, hv⟩) (fun w hw => hu ⟨w, hw⟩) (h1.symm.trans c1)
  · rintro rfl; exact hc

theorem rowOf {h : List String} (hn : h.Nodup) (cells : List Cell) (hl : cells.length = h.length) : ∃ r : Row, cells = h.map r := by
  induction h generalizing cells with
  | nil => exact ⟨fun _ => .null, by simpa using hl⟩
  | cons x xs ih =>
    rw [List.nodup_cons] at hn
    match cells, hl with
    | c :: cs, hl =>
      obtain ⟨r, hr⟩ := ih hn.2 cs (by simpa using hl)
      refine ⟨fun y => if y = x then c else r y, ?_⟩
      simp only [List.map_cons, if_true, List.cons.injEq, true_and]
      rw [hr]
      apply List.map_congr_left
      intro y hy
      rw [if_neg (by rintro rfl; exact hn.1 hy)]

theorem scanInto_length {ρ : Type} : ∀ (ds : List (Dest ρ)) (cs : List Cell) (x y : ρ), scanInto ds cs x = some y → cs.length = ds.length
  | [], [], _, _, _ => rfl
  | d :: ds, c :: cs, x, y, h => by
    simp only [scanInto, Option.bind_eq_some_iff] at h
    obtain ⟨z, -, h⟩ := h
    simp [scanInto_length ds cs z y h]
  | [], _ :: _, _, _, h => by simp [scanInto] at h
  | _ :: _, [], _, _, h => by simp [scanInto] at h

theorem scan_ok {ρ : Type} (ds : List (Dest ρ)) (cs : List Cell) (x y : ρ) : scan ds cs x = .ok y ↔ scanInto ds cs x = some y := by
  unfold scan
  split <;> simp_all

/-- Reading a row of the right length by the names of its columns. -/
theorem scan_rows {ρ : Type} (ds : List (Dest ρ)) (h : List String) (hn : h.Nodup) (hl : h.length = ds.length) (x : ρ) (cells : List Cell) (y : ρ) :
    scan ds cells x = .ok y ↔ ∃ r : Row, cells = h.map r ∧ scanInto ds (h.map r) x = some y := by
  rw [scan_ok]
  constructor
  · intro hs
    obtain ⟨r, rfl⟩ := rowOf hn cells (by rw [scanInto_length _ _ _ _ hs, hl])
    exact ⟨r, rfl, hs⟩
  · rintro ⟨r, rfl, hs⟩
    exact hs

theorem map_ok_iff {α β : Type} (r : Res α) (f : α → β) (y : β) : r.map f = .ok y ↔ ∃ x, r = .ok x ∧ f x = y := by
  cases r <;> simp [Res.map]

theorem bind_ok_iff {α β : Type} (r : Res α) (f : α → Res β) (y : β) : r.bind f = .ok y ↔ ∃ x, r = .ok x ∧ f x = .ok y := by
  cases r <;> simp [Res.bind]

theorem readAll_each {σ α : Type} (reader : σ → List Cell → Res (α × σ)) (h : List String) (Says : Row → α → Prop)
    (hr : ∀ s cells x, (∃ s', reader s cells = .ok (x, s')) ↔ ∃ r : Row, cells = h.map r ∧ Says r x) :
    ∀ (rows : List (List Cell)) (s : σ) (xs : List α), readAll reader s rows = .ok xs ↔
      ∃ rs : List Row, rows = rs.map (fun r => h.map r) ∧ Each Says rs xs
  | [], s, xs => by
    simp only [readAll, Res.ok.injEq]
    constructor
    · rintro rfl; exact ⟨[], rfl, .nil⟩
    · rintro ⟨rs, hrs, he⟩
      cases rs with
      | nil => cases he; rfl
      | cons => simp at hrs
  | row :: rows, s, xs => by
    simp only [readAll, bind_ok_iff, map_ok_iff]
    constructor
    · rintro ⟨⟨x, s'⟩, h1, ys, h2, rfl⟩
      obtain ⟨r, h3, h4⟩ := (hr s row x).1 ⟨s', h1⟩
      obtain ⟨rs, h5, h6⟩ := (readAll_each reader h Says hr rows s' ys).1 h2
      exact ⟨r :: rs, by simp [h3, h5], .cons h4 h6⟩
    · rintro ⟨rs, hrs, he⟩
      cases he with
      | nil => simp at hrs
      | @cons r x rs xs h1 h2 =>
        simp only [List.map_cons, List.cons.injEq] at hrs
        obtain ⟨s', h3⟩ := (hr s row x).2 ⟨r, hrs.1, h1⟩
        exact ⟨(x, s'), h3, xs, (readAll_each reader h Says hr rows s' xs).2 ⟨rs, hrs.2, h2⟩, rfl⟩

theorem finish_ok {α : Type} (a : Answer) (x y : α) : finish a x = .ok y ↔ x = y ∧ a.endErr = none ∧ a.closeErr = none := by
  unfold finish
  cases a.closeErr <;> cases a.endErr <;> simp

theorem query_ok (sv : Server) (q : Query) (a : Answer) : sv.query q = .ok a ↔ sv.answer q = some a := by
  unfold Server.query
  split <;> simp_all

theorem getRows_iff {σ α : Type} (sv : Server) (d : Dialect) (w : What) (script : String) (hs : scriptName d w = some script) (s : σ)
    (reader : σ → List Cell → Res (α × σ)) (Says : Row → α → Prop)
    (hr : ∀ s cells x, (∃ s', reader s cells = .ok (x, s')) ↔ ∃ r : Row, cells = (header d w).map r ∧ Says r x) (xs : List α) :
    getRows sv (.script script) s reader = .ok xs ↔ ∃ rows, Reports sv d w rows ∧ Each Says rows xs := by
  unfold getRows
  simp only [bind_ok_iff, query_ok, finish_ok, readAll_each reader _ Says hr]
  constructor
  · rintro ⟨a, h1, ys, ⟨rs, h2, h3⟩, rfl, h4, h5⟩
    exact ⟨rs, ⟨_, a, hs, h1, h2, h4, h5⟩, h3⟩
  · rintro ⟨rs, ⟨_, a, hs', h1, h2, h4, h5⟩, h3⟩
    cases hs.symm.trans hs'
    exact ⟨a, h1, xs, ⟨rs, h2, h3⟩, rfl, h4, h5⟩

/-- The dialects that can be introspected. -/
def Known (d : Dialect) : Prop := d = .sqlite ∨ d = .postgres ∨ d = .mysql

theorem plainly_iff {α : Type} (f : List Cell → Res α) (s : Unit) (cells : List Cell) (x : α) :
    (∃ s', plainly f s cells = .ok (x, s')) ↔ f cells = .ok x := by
  simp only [plainly, map_ok_iff]
  constructor
  · rintro ⟨_, y, h, e⟩; cases e; exact h
  · intro h; exact ⟨(), x, h, rfl⟩

/-- The row can be scanned and what comes out satisfies `P`. -/
def Scans {ρ : Type} (ds : List (Dest ρ)) (cs : List Cell) (x : ρ) (P : ρ → Prop) : Prop := ∃ z, scanInto ds cs x = some z ∧ P z

theorem scans_text {ρ : Type} (set : Str → ρ → ρ) (ds : List (Dest ρ)) (c : Cell) (cs : List Cell) (x : ρ) (P : ρ → Prop) :
    Scans (.text set :: ds) (c :: cs) x P ↔ ∃ v, IsText c v ∧ Scans ds cs (set v x) P := by
  simp only [Scans, scanInto, Dest.assign, Option.bind_eq_some_iff, Option.map_eq_some_iff, isText_iff]
  constructor
  · rintro ⟨z, ⟨_, ⟨v, h, rfl⟩, h'⟩, p⟩; exact ⟨v, h, z, h', p⟩
  · rintro ⟨v, h, z, h', p⟩; exact ⟨z, ⟨_, ⟨v, h, rfl⟩, h'⟩, p⟩

theorem scans_bool {ρ : Type} (set : Bool → ρ → ρ) (ds : List (Dest ρ)) (c : Cell) (cs : List Cell) (x : ρ) (P : ρ → Prop) :
    Scans (.bool set :: ds) (c :: cs) x P ↔ ∃ v, IsBool c v ∧ Scans ds cs (set v x) P := by
  simp only [Scans, scanInto, Dest.assign, Option.bind_eq_some_iff, Option.map_eq_some_iff, isBool_iff]
  constructor
  · rintro ⟨z, ⟨_, ⟨v, h, rfl⟩, h'⟩, p⟩; exact ⟨v, h, z, h', p⟩
  · rintro ⟨v, h, z, h', p⟩; exact ⟨z, ⟨_, ⟨v, h, rfl⟩, h'⟩, p⟩

theorem scans_int {ρ : Type} (set : Int → ρ → ρ) (ds : List (Dest ρ)) (c : Cell) (cs : List Cell) (x : ρ) (P : ρ → Prop) :
    Scans (.int set :: ds) (c :: cs) x P ↔ ∃ v, IsInt c v ∧ Scans ds cs (set v x) P := by
  simp only [Scans, scanInto, Dest.assign, Option.bind_eq_some_iff, Option.map_eq_some_iff, isInt_iff]
  constructor
  · rintro ⟨z, ⟨_, ⟨v, h, rfl⟩, h'⟩, p⟩; exact ⟨v, h, z, h', p⟩
  · rintro ⟨v, h, z, h', p⟩; exact ⟨z, ⟨_, ⟨v, h, rfl⟩, h'⟩, p⟩

theorem scans_nil {ρ : Type} (x : ρ) (P : ρ → Prop) : Scans ([] : List (Dest ρ)) [] x P ↔ P x := by
  simp [Scans, scanInto]

theorem scan_bind {ρ β : Type} (ds : List (Dest ρ)) (h : List String) (hn : h.Nodup) (hl : h.length = ds.length) (x : ρ) (cells : List Cell)
    (f : ρ → Res β) (y : β) :
    (scan ds cells x).bind f = .ok y ↔ ∃ r : Row, cells = h.map r ∧ Scans ds (h.map r) x fun z => f z = .ok y := by
  rw [bind_ok_iff]
  simp only [scan_rows ds h hn hl, Scans]
  constructor
  · rintro ⟨z, ⟨r, h1, h2⟩, h3⟩; exact ⟨r, h1, z, h2, h3⟩
  · rintro ⟨r, h1, z, h2, h3⟩; exact ⟨z, ⟨r, h1, h2⟩, h3⟩

theorem scan_map {ρ β : Type} (ds : List (Dest ρ)) (h : List String) (hn : h.Nodup) (hl : h.length = ds.length) (x : ρ) (cells : List Cell)
    (f : ρ → β) (y : β) :
    (scan ds cells x).map f = .ok y ↔ ∃ r : Row, cells = h.map r ∧ Scans ds (h.map r) x fun z => y = f z := by
  have : (scan ds cells x).map f = (scan ds cells x).bind fun z => .ok (f z) := by cases scan ds cells x <;> rfl
  rw [this, scan_bind ds h hn hl]
  simp only [Res.ok.injEq, eq_comm]

theorem scan_plain {ρ : Type} (ds : List (Dest ρ)) (h : List String) (hn : h.Nodup) (hl : h.length = ds.length) (x : ρ) (cells : List Cell) (y : ρ) :
    scan ds cells x = .ok y ↔ ∃ r : Row, cells = h.map r ∧ Scans ds (h.map r) x fun z => y = z := by
  rw [scan_rows ds h hn hl]
  simp [Scans, eq_comm]

syntax "cells" "[" ident,* "]" : tactic
macro_rules
  | `(tactic| cells [$xs:ident,*]) => `(tactic| simp only [$[$xs:ident],*, header, List.map_cons, List.map_nil, scans_text, scans_bool, scans_int, scans_nil,
      exists_and_left])

/-! ### Tables -/

theorem readTable_iff (d : Dialect) (hd : Known d) (cells : List Cell) (t : Table) :
    readTable d cells = .ok t ↔ ∃ r : Row, cells = (header d .tables).map r ∧ SaysTable d r t := by
  unfold readTable
  rcases hd with rfl | rfl | rfl
  · rw [scan_plain _ (header .sqlite .tables) (by decide) (by decide)]
    cells [tableDests, SaysTable]
  · rw [scan_plain _ (header .postgres .tables) (by decide) (by decide)]
    cells [tableDests, SaysTable]
  · rw [scan_plain _ (header .mysql .tables) (by decide) (by decide)]
    cells [tableDests, SaysTable]

/-- **C69, tables.** `GetTables` succeeds exactly when the database reports all its rows, and then returns what they say, in order. -/
theorem C69_tables (d : Dialect) (hd : Known d) (sv : Server) (ts : List Table) :
    getTables d sv = .ok ts ↔ ∃ rows, Reports sv d .tables rows ∧ Each (SaysTable d) rows ts := by
  unfold getTables
  have hr : ∀ s cells x, (∃ s', plainly (readTable d) s cells = .ok (x, s')) ↔ ∃ r : Row, cells = (header d .tables).map r ∧ SaysTable d r x :=
    fun s cells x => (plainly_iff _ s cells x).trans (readTable_iff d hd cells x)
  rcases hd with rfl | rfl | rfl <;> exact getRows_iff sv _ .tables _ rfl () _ _ hr ts

/-! ### Columns -/

theorem trimSuffix_iff (raw t : Str) : Ungenerated raw t ↔ t = trimSuffix " GENERATED ALWAYS".toList raw := by
  unfold Ungenerated trimSuffix
  generalize " GENERATED ALWAYS".toList = p
  split
  · rename_i h
    obtain ⟨u, hu⟩ := List.isSuffixOf_iff_suffix.1 h
    subst hu
    simp only [List.length_append, Nat.add_sub_cancel, List.take_left']
    constructor
    · rintro (h | ⟨-, h⟩)
      · exact (List.append_cancel_right h).symm
      · exact absurd rfl (h u)
    · rintro rfl; exact .inl rfl
  · rename_i h
    constructor
    · rintro (rfl | ⟨rfl, -⟩)
      · exact absurd (List.isSuffixOf_iff_suffix.2 ⟨t, rfl⟩) h
      · rfl
    · rintro rfl
      refine .inr ⟨rfl, ?_⟩
      rintro u rfl
      exact h (List.isSuffixOf_iff_suffix.2 ⟨u, rfl⟩)

theorem readColumn_iff (num : Str → Bool) (d : Dialect) (hd : Known d) (cells : List Cell) (c : Column) :
    readColumn num d cells = .ok c ↔ ∃ r : Row, cells = (header d .columns).map r ∧ SaysColumn num d r c := by
  unfold readColumn
  rcases hd with rfl | rfl | rfl
  · rw [scan_map _ (header .sqlite .columns) (by decide) (by decide)]
    have : ∀ x : Str, (if x ≠ [] then toExpr num .sqlite x else x) = if x = [] then [] else toExpr num .sqlite x := by
      intro x; by_cases hx : x = [] <;> simp [hx]
    cells [columnDests, SaysColumn, trimSuffix_iff, exists_eq_left, this]
  · rw [scan_map _ (header .postgres .columns) (by decide) (by decide)]
    cells [columnDests, SaysColumn]
  · rw [scan_map _ (header .mysql .columns) (by decide) (by decide)]
    have : ∀ x : Str, (if x ≠ [] then dropBackslash x else x) = dropBackslash x := by
      intro x; by_cases hx : x = [] <;> simp [hx, dropBackslash]
    cells [columnDests, SaysColumn, this]

/-- **C69, columns.** -/
theorem C69_columns (num : Str → Bool) (d : Dialect) (hd : Known d) (sv : Server) (cs : List Column) :
    getColumns num d sv = .ok cs ↔ ∃ rows, Reports sv d .columns rows ∧ Each (SaysColumn num d) rows cs := by
  unfold getColumns
  have hr : ∀ s cells x, (∃ s', plainly (readColumn num d) s cells = .ok (x, s')) ↔
      ∃ r : Row, cells = (header d .columns).map r ∧ SaysColumn num d r x :=
    fun s cells x => (plainly_iff _ s cells x).trans (readColumn_iff num d hd cells x)
  rcases hd with rfl | rfl | rfl <;> exact getRows_iff sv _ .columns _ rfl () _ _ hr cs

/-! ### Constraints -/

theorem readConstraintRow_iff (d : Dialect) (hd : Known d) (raw : RawCon) (cells : List Cell) (c : Constraint) :
    (∃ raw', readConstraintRow d raw cells = .ok (c, raw')) ↔ ∃ r : Row, cells = (header d .constraints).map r ∧ SaysConstraint d r c := by
  unfold readConstraintRow
  have key : ∀ x, (∃ raw', Res.map (fun c : ConRow => (readConstraint d c.1 c.2.columns c.2.exprs c.2.referencesColumns c.2.operators, c.2)) x = .ok (c, raw')) ↔
      Res.map (fun c : ConRow => readConstraint d c.1 c.2.columns c.2.exprs c.2.referencesColumns c.2.operators) x = .ok c := by
    intro x
    cases x <;> simp [Res.map]
  rw [key]
  clear key
  rcases hd with rfl | rfl | rfl
  · rw [scan_map _ (header .sqlite .constraints) (by decide) (by decide)]
    have : ∀ (c : Constraint) a b e f e' f', readConstraint .sqlite c a e b f = readConstraint .sqlite c a e' b f' := fun _ _ _ _ _ _ _ => rfl
    simp only [this _ _ _ _ _ [] []]
    cells [constraintDests, SaysConstraint, isType_iff, exists_eq_left]
  · rw [scan_map _ (header .postgres .constraints) (by decide) (by decide)]
    cells [constraintDests, SaysConstraint, isType_iff, exists_eq_left]
  · rw [scan_map _ (header .mysql .constraints) (by decide) (by decide)]
    have : ∀ (c : Constraint) a b e f e' f', readConstraint .mysql c a e b f = readConstraint .mysql c a e' b f' := fun _ _ _ _ _ _ _ => rfl
    simp only [this _ _ _ _ _ [] []]
    cells [constraintDests, SaysConstraint, isType_iff, exists_eq_left]

/-- **C69, constraints.** -/
theorem C69_constraints (d : Dialect) (hd : Known d) (sv : Server) (cs : List Constraint) :
    getConstraints d sv = .ok cs ↔ ∃ rows, Reports sv d .constraints rows ∧ Each (SaysConstraint d) rows cs := by
  unfold getConstraints
  have hr := readConstraintRow_iff d hd
  rcases hd with rfl | rfl | rfl <;> exact getRows_iff sv _ .constraints _ rfl {} _ _ hr cs

/-! ### Indexes -/

theorem readIndexRow_iff (d : Dialect) (hd : Known d) (raw : RawIdx) (cells : List Cell) (x : Index) :
    (∃ raw', readIndexRow d raw cells = .ok (x, raw')) ↔ ∃ r : Row, cells = (header d .indexes).map r ∧ SaysIndex d r x := by
  unfold readIndexRow
  have key : ∀ (y : Res IdxRow) (f : IdxRow → Res Index), (∃ raw', (y.bind fun z => (f z).map fun i => (i, z.2)) = .ok (x, raw')) ↔ y.bind f = .ok x := by
    intro y f
    cases y <;> simp only [Res.bind_ok, Res.bind_err, Res.bind_panic, Res.bind_hang, reduceCtorEq, exists_false]
    rename_i z
    cases f z <;> simp [Res.map]
  rcases hd with rfl | rfl | rfl
  · show (∃ raw', ((scan (indexDests .sqlite) cells ({}, raw)).bind fun z => (readIndexSQLite z.1 z.2.columns).map fun i => (i, z.2)) = .ok (x, raw')) ↔ _
    rw [key, scan_bind _ (header .sqlite .indexes) (by decide) (by decide)]
    cells [indexDests, SaysIndex]
  · have e : ∀ z : IdxRow, (if z.2.numKeyColumns < 0 then Res.panic
        else (readIndexPg z.1 z.2.numKeyColumns.toNat z.2.columns z.2.exprs).map fun i => (i, z.2)) =
        (if z.2.numKeyColumns < 0 then Res.panic else readIndexPg z.1 z.2.numKeyColumns.toNat z.2.columns z.2.exprs).map fun i => (i, z.2) := by
      intro z; split <;> rfl
    show (∃ raw', ((scan (indexDests .postgres) cells ({}, raw)).bind fun z => if z.2.numKeyColumns < 0 then Res.panic
        else (readIndexPg z.1 z.2.numKeyColumns.toNat z.2.columns z.2.exprs).map fun i => (i, z.2)) = .ok (x, raw')) ↔ _
    simp only [e]
    rw [key, scan_bind _ (header .postgres .indexes) (by decide) (by decide)]
    have e2 : ∀ z : IdxRow, (if z.2.numKeyColumns < 0 then Res.panic else readIndexPg z.1 z.2.numKeyColumns.toNat z.2.columns z.2.exprs) = .ok x ↔
        ∃ n : Nat, z.2.numKeyColumns = n ∧ readIndexPg z.1 n z.2.columns z.2.exprs = .ok x := by
      intro z
      split
      · simp only [reduceCtorEq, false_iff]
        rintro ⟨n, hn, -⟩
        omega
      · constructor
        · intro h
          exact ⟨_, by omega, h⟩
        · rintro ⟨n, hn, h⟩
          rw [hn]; exact h
    simp only [e2]
    cells [indexDests, SaysIndex]
    constructor
    · rintro ⟨r, h, a, ha, b, hb, c, hc, d, hd, e, he, v, hv, f, hf, g, hg, i, hi, n, rfl, hr⟩
      exact ⟨r, h, a, ha, b, hb, c, hc, d, hd, e, he, n, hv, f, hf, g, hg, i, hi, hr⟩
    · rintro ⟨r, h, a, ha, b, hb, c, hc, d, hd, e, he, n, hv, f, hf, g, hg, i, hi, hr⟩
      exact ⟨r, h, a, ha, b, hb, c, hc, d, hd, e, he, n, hv, f, hf, g, hg, i, hi, n, rfl, hr⟩
  · show (∃ raw', ((scan (indexDests .mysql) cells ({}, raw)).bind fun z => (readIndexMySQL z.1 z.2.columns z.2.exprs).map fun i => (i, z.2)) = .ok (x, raw')) ↔ _
    rw [key, scan_bind _ (header .mysql .indexes) (by decide) (by decide)]
    cells [indexDests, SaysIndex]

/-- **C69, indexes.** -/
theorem C69_indexes (d : Dialect) (hd : Known d) (sv : Server) (xs : List Index) :
    getIndexes d sv = .ok xs ↔ ∃ rows, Reports sv d .indexes rows ∧ Each (SaysIndex d) rows xs := by
  unfold getIndexes
  have hr := readIndexRow_iff d hd
  rcases hd with rfl | rfl | rfl <;> exact getRows_iff sv _ .indexes _ rfl {} _ _ hr xs

/-! ### Triggers -/

theorem mysqlTriggerSQL_eq (schema table name sql timing event : Str) :
    mysqlTriggerSQL { tableSchema := schema, tableName := table, triggerName := name, sql := sql } timing event =
      "CREATE TRIGGER ".toList ++ Sq.quoteIdentifier .mysql name ++ " ".toList ++ timing ++ " ".toList ++ event ++
        " ON ".toList ++ qualifiedName schema table ++ " FOR EACH ROW ".toList ++ sql := by
  unfold mysqlTriggerSQL qualifiedName
  generalize "CREATE TRIGGER ".toList = a
  generalize " ON ".toList = b
  generalize " FOR EACH ROW ".toList = c
  by_cases h : schema = [] <;> simp [h]

theorem readTrigger_iff (d : Dialect) (hd : Known d) (raw : RawTrg) (cells : List Cell) (t : Trigger) :
    (∃ raw', readTrigger d raw cells = .ok (t, raw')) ↔ ∃ r : Row, cells = (header d .triggers).map r ∧ SaysTrigger d r t := by
  unfold readTrigger
  have key : ∀ (y : Res TrgRow) (f : TrgRow → TrgRow), (∃ raw', y.map f = .ok (t, raw')) ↔ y.map (fun z => (f z).1) = .ok t := by
    intro y f
    cases y <;> simp only [Res.map, reduceCtorEq, exists_false, Res.ok.injEq]
    rename_i z
    constructor
    · rintro ⟨w, hw⟩; rw [hw]
    · rintro rfl; exact ⟨(f z).2, rfl⟩
  rw [key]
  rcases hd with rfl | rfl | rfl
  · rw [scan_map _ (header .sqlite .triggers) (by decide) (by decide)]
    cells [triggerDests, SaysTrigger]
  · rw [scan_map _ (header .postgres .triggers) (by decide) (by decide)]
    cells [triggerDests, SaysTrigger]
  · rw [scan_map _ (header .mysql .triggers) (by decide) (by decide)]
    cells [triggerDests, SaysTrigger, mysqlTriggerSQL_eq]

/-- **C69, triggers.** -/
theorem C69_triggers (d : Dialect) (hd : Known d) (sv : Server) (ts : List Trigger) :
    getTriggers d sv = .ok ts ↔ ∃ rows, Reports sv d .triggers rows ∧ Each (SaysTrigger d) rows ts := by
  unfold getTriggers
  have hr := readTrigger_iff d hd
  rcases hd with rfl | rfl | rfl <;> exact getRows_iff sv _ .triggers _ rfl {} _ _ hr ts

/-! ### Functions -/

/-- **C69, functions.** They are read on PostgreSQL only. -/
theorem C69_functions (d : Dialect) (sv : Server) (fs : List Function) :
    getFunctions d sv = .ok fs ↔ d = .postgres ∧ ∃ rows, Reports sv d .functions rows ∧ Each SaysFunction rows fs := by
  cases d with
  | postgres =>
    simp only [true_and]
    refine getRows_iff sv .postgres .functions "postgres_functions.sql" rfl () (plainly fun r => scan functionDests r {}) SaysFunction ?_ fs
    intro s cells x
    rw [plainly_iff, scan_plain _ (header .postgres .functions) (by decide) (by decide)]
    cells [functionDests, SaysFunction]
  | _ => simp [getFunctions, unsupported]

/-! ### Views -/

theorem after_spec (sep : Str) : ∀ s : Str, (∀ q, after sep s = some q → ∃ p, s = p ++ sep ++ q ∧ ∀ p' q', s = p' ++ sep ++ q' → p.length ≤ p'.length) ∧
    (after sep s = none → ∀ p' q', s ≠ p' ++ sep ++ q')
  | [] => by
    constructor
    · intro q h
      unfold after at h
      split at h
      · cases h
        rename_i h
        exact ⟨[], by simp [h], by simp⟩
      · cases h
    · intro h p' q' e
      unfold after at h
      split at h
      · cases h
      · rename_i hne
        simp at e
        exact hne e.2.1
  | c :: cs => by
    obtain ⟨ih1, ih2⟩ := after_spec sep cs
    constructor
    · intro q h
      unfold after at h
      split at h
      · rename_i hp
        obtain ⟨t, ht⟩ := List.isPrefixOf_iff_prefix.1 hp
        cases h
        exact ⟨[], by rw [← ht]; simp, by simp⟩
      · rename_i hp
        obtain ⟨p, e, hm⟩ := ih1 q h
        refine ⟨c :: p, by rw [e]; simp, ?_⟩
        intro p' q' e'
        cases p' with
        | nil => exact absurd (List.isPrefixOf_iff_prefix.2 ⟨q', by simpa using e'.symm⟩) hp
        | cons x xs =>
          simp only [List.cons_append, List.cons.injEq] at e'
          have := hm xs q' e'.2
          simpa using this
    · intro h p' q' e'
      unfold after at h
      split at h
      · cases h
      · rename_i hp
        cases p' with
        | nil => exact absurd (List.isPrefixOf_iff_prefix.2 ⟨q', by simpa using e'.symm⟩) hp
        | cons x xs =>
          simp only [List.cons_append, List.cons.injEq] at e'
          exact ih2 h xs q' e'.2

theorem afterAs_iff (raw q : Str) : AfterAs raw q ↔ q = (after " AS ".toList raw).getD raw := by
  obtain ⟨h1, h2⟩ := after_spec " AS ".toList raw
  unfold AfterAs
  generalize " AS ".toList = sep at *
  cases hA : after sep raw with
  | none =>
    have := h2 hA
    simp only [Option.getD_none]
    constructor
    · rintro (⟨p, e, -⟩ | ⟨e, -⟩)
      · exact absurd e (this p q)
      · exact e.symm
    · rintro rfl; exact .inr ⟨rfl, this⟩
  | some t =>
    obtain ⟨p, e, hm⟩ := h1 t hA
    simp only [Option.getD_some]
    constructor
    · rintro (⟨p', e', hm'⟩ | ⟨-, h⟩)
      · have l1 := hm _ _ e'
        have l2 := hm' _ _ e
        have hl : p.length = p'.length := by omega
        have e2 := e.symm.trans e'
        rw [List.append_assoc, List.append_assoc] at e2
        have := List.append_inj_right e2 hl
        exact (List.append_cancel_left this).symm
      · exact absurd e (h p t)
    · rintro rfl; exact .inl ⟨p, e, hm⟩

theorem readView_iff (d : Dialect) (hd : Known d) (cells : List Cell) (v : View) :
    readView d cells = .ok v ↔ ∃ r : Row, cells = (header d .views).map r ∧ SaysView d r v := by
  unfold readView
  rcases hd with rfl | rfl | rfl
  · rw [scan_map _ (header .sqlite .views) (by decide) (by decide)]
    cells [viewDests, SaysView, afterAs_iff, exists_eq_left]
    refine exists_congr fun r => and_congr_right fun _ => exists_congr fun n => and_congr_right fun _ => exists_congr fun x => and_congr_right fun _ => ?_
    cases after " AS ".toList x <;> rfl
  · rw [scan_map _ (header .postgres .views) (by decide) (by decide)]
    cells [viewDests, SaysView]
  · rw [scan_map _ (header .mysql .views) (by decide) (by decide)]
    cells [viewDests, SaysView]

/-- **C69, views.** -/
theorem C69_views (d : Dialect) (hd : Known d) (sv : Server) (vs : List View) :
    getViews d sv = .ok vs ↔ ∃ rows, Reports sv d .views rows ∧ Each (SaysView d) rows vs := by
  unfold getViews
  have hr : ∀ s cells x, (∃ s', plainly (readView d) s cells = .ok (x, s')) ↔ ∃ r : Row, cells = (header d .views).map r ∧ SaysView d r x :=
    fun s cells x => (plainly_iff _ s cells x).trans (readView_iff d hd cells x)
  rcases hd with rfl | rfl | rfl <;> exact getRows_iff sv _ .views _ rfl () _ _ hr vs

/-! ### Extensions -/

/-- **C69, extensions (partial).** If the database reports all extensions, they are read.  Missing: that `GetExtensions` fails otherwise
(`C69_extensions_violated`). -/
theorem C69_extensions_partial (sv : Server) (rows : List Row) (h : Reports sv .postgres .extensions rows) (es : List Str) :
    getExtensions .postgres sv = .ok es ↔ Each SaysExtension rows es := by
  obtain ⟨s, a, hs, ha, hrows, -, -⟩ := h
  cases hs
  unfold getExtensions
  rw [if_neg (by simp), bind_ok_iff]
  have hr : ∀ s cells x, (∃ s', plainly (fun r => (scan extensionDests r ([], [])).map fun x => x.1 ++ '@' :: x.2) s cells = .ok (x, s')) ↔
      ∃ r : Row, cells = (header .postgres .extensions).map r ∧ SaysExtension r x := by
    intro s cells x
    rw [plainly_iff, scan_map _ (header .postgres .extensions) (by decide) (by decide)]
    have : ∀ a b : Str, a ++ '@' :: b = a ++ "@".toList ++ b := by simp
    cells [extensionDests, SaysExtension, this]
  have hnd : (header .postgres .extensions).Nodup := by decide
  constructor
  · rintro ⟨a', ha', h⟩
    cases ((query_ok sv _ a').1 ha').symm.trans ha
    obtain ⟨rs, e, he⟩ := (readAll_each _ _ SaysExtension hr a.rows () es).1 h
    rw [hrows] at e
    clear ha ha' h hrows
    have : ∀ (rows rs : List Row) (es : List Str), rows.map (fun r => (header .postgres .extensions).map r) = rs.map (fun r => (header .postgres .extensions).map r) →
        Each SaysExtension rs es → Each SaysExtension rows es := by
      intro rows
      induction rows with
      | nil => intro rs es e he; cases rs with
        | nil => exact he
        | cons => simp at e
      | cons r rows ih =>
        intro rs es e he
        cases he with
        | nil => simp at e
        | cons h1 h2 =>
          simp only [List.map_cons, List.cons.injEq] at e
          refine .cons ?_ (ih _ _ e.2 h2)
          simp only [header, List.map_cons, List.map_nil, List.cons.injEq, and_true] at e
          obtain ⟨n, v, hn, hv, rfl⟩ := h1
          exact ⟨n, v, by rw [e.1.1]; exact hn, by rw [e.1.2]; exact hv, rfl⟩
    exact this _ _ _ e he
  · intro he
    exact ⟨a, (query_ok sv _ a).2 ha, (readAll_each _ _ SaysExtension hr a.rows () es).2 ⟨rows, hrows, he⟩⟩

/-- An answer of one extension that breaks off there. -/
def brokenOff : Answer := { rows := [[.text "plpgsql".toList, .text "1.0".toList]], endErr := some "connection lost".toList }

/-- If the connection is lost in the middle of the list, `GetExtensions` returns the first part of the list as if it were complete. -/
theorem C69_extensions_violated :
    getExtensions .postgres { answer := fun _ => some brokenOff } = .ok ["plpgsql@1.0".toList] ∧
    ∀ rows, ¬ Reports { answer := fun _ => some brokenOff } .postgres .extensions rows := by
  refine ⟨rfl, ?_⟩
  rintro rows ⟨s, a, -, h, -, h', -⟩
  cases h
  cases h'

/-! ### Single values -/

theorem scan_one (cells : List Cell) (v : Str) : scan [Dest.text fun v _ => v] cells [] = .ok v ↔ ∃ c, cells = [c] ∧ IsText c v := by
  rw [scan_ok]
  constructor
  · intro h
    have hl := scanInto_length _ _ _ _ h
    match cells, hl with
    | [c], _ =>
      refine ⟨c, rfl, (isText_iff c v).2 ?_⟩
      simp only [scanInto, Dest.assign, Option.bind_eq_some_iff, Option.map_eq_some_iff] at h
      obtain ⟨_, ⟨w, hw, rfl⟩, h⟩ := h
      cases h
      exact hw
  · rintro ⟨c, rfl, h⟩
    simp [scanInto, Dest.assign, (isText_iff c v).1 h]

theorem firstText_iff (a : Answer) (v : Str) : firstText a = .ok v ↔ (a.rows = [] ∧ v = []) ∨ ∃ c rest, a.rows = [c] :: rest ∧ IsText c v := by
  unfold firstText
  cases hr : a.rows with
  | nil => simp [eq_comm]
  | cons r rs =>
    simp only [scan_one, reduceCtorEq, false_and, false_or, List.cons.injEq]
    constructor
    · rintro ⟨c, rfl, h⟩; exact ⟨c, rs, ⟨rfl, rfl⟩, h⟩
    · rintro ⟨c, _, ⟨rfl, -⟩, h⟩; exact ⟨c, rfl, h⟩

theorem oneText_iff (sv : Server) (q : String) (v : Str) : oneText sv (.sql q) = .ok v ↔ Replies sv q v := by
  unfold oneText Replies
  simp only [bind_ok_iff, query_ok, firstText_iff, finish_ok]
  constructor
  · rintro ⟨a, h1, w, h2, rfl, h3, h4⟩
    exact ⟨a, h1, h3, h4, h2⟩
  · rintro ⟨a, h1, h3, h4, h2⟩
    exact ⟨a, h1, v, h2, rfl, h3, h4⟩

/-- **C69, the name of the database.** -/
theorem C69_database_name (d : Dialect) (sv : Server) (v : Str) :
    getDatabaseName d sv = .ok v ↔ ∃ q, nameQuery d = some q ∧ Replies sv q v := by
  cases d <;> simp [getDatabaseName, nameQuery, oneText_iff, unsupported]

/-- **C69, the current schema.** SQLite has none. -/
theorem C69_current_schema (d : Dialect) (hd : Known d) (sv : Server) (v : Str) :
    getCurrentSchema d sv = .ok v ↔ (d = .sqlite ∧ v = []) ∨ ∃ q, schemaQuery d = some q ∧ Replies sv q v := by
  rcases hd with rfl | rfl | rfl
  · simp only [getCurrentSchema, schemaQuery, Res.ok.injEq, true_and, reduceCtorEq, false_and, exists_false, or_false]
    exact eq_comm
  · simp [getCurrentSchema, schemaQuery, oneText_iff]
  · simp [getCurrentSchema, schemaQuery, oneText_iff]

theorem splitOn_join (c : Char) (xs : List Str) (hne : xs ≠ []) (h : ∀ x ∈ xs, c ∉ x) : splitOn c ([c].intercalate xs) = xs := by
  induction xs with
  | nil => exact absurd rfl hne
  | cons x xs ih =>
    have one : ∀ (x rest : Str), c ∉ x → splitOn c (x ++ c :: rest) = x :: splitOn c rest := by
      intro x
      induction x with
      | nil => intro rest _; simp [splitOn]
      | cons y ys ihy =>
        intro rest hy
        simp only [List.mem_cons, not_or] at hy
        simp only [List.cons_append, splitOn, if_neg (Ne.symm hy.1), ihy rest hy.2]
    have last : ∀ (x : Str), c ∉ x → splitOn c x = [x] := by
      intro x
      induction x with
      | nil => intro _; rfl
      | cons y ys ihy =>
        intro hy
        simp only [List.mem_cons, not_or] at hy
        simp only [splitOn, if_neg (Ne.symm hy.1), ihy hy.2]
    cases xs with
    | nil => simpa [List.intercalate] using last x (h x (by simp))
    | cons y ys =>
      have := ih (by simp) (fun z hz => h z (List.mem_cons_of_mem _ hz))
      have e : [c].intercalate (x :: y :: ys) = x ++ c :: [c].intercalate (y :: ys) := by simp [List.intercalate]
      rw [e, one x _ (h x (by simp)), this]

theorem join_splitOn (c : Char) (s : Str) : [c].intercalate (splitOn c s) = s ∧ splitOn c s ≠ [] ∧ ∀ x ∈ splitOn c s, c ∉ x := by
  induction s with
  | nil => simp [splitOn, List.intercalate]
  | cons y ys ih =>
    obtain ⟨h1, h2, h3⟩ := ih
    unfold splitOn
    cases hs : splitOn c ys with
    | nil => exact absurd hs h2
    | cons w ws =>
      rw [hs] at h1 h3
      by_cases hy : y = c
      · subst hy
        rw [if_pos rfl]
        refine ⟨?_, by simp, ?_⟩
        · rw [← h1]; simp [List.intercalate]
        · intro x hx
          rcases List.mem_cons.1 hx with rfl | hx
          · simp
          · exact h3 x hx
      · rw [if_neg hy]
        refine ⟨?_, by simp, ?_⟩
        · rw [← h1]
          cases ws <;> simp [List.intercalate]
        · intro x hx
          rcases List.mem_cons.1 hx with rfl | hx
          · have := h3 w (by simp)
            simp only [List.mem_cons, not_or]
            exact ⟨Ne.symm hy, this⟩
          · exact h3 x (List.mem_cons_of_mem _ hx)

theorem atoi_chars {p : Str} {n : Int} (h : Sq.atoi p = some n) (c : Char) (hc : c ∈ p) : c = '-' ∨ c = '+' ∨ c.isDigit := by
  unfold Sq.atoi at h
  split at h
  rename_i neg ds he
  by_cases hd : ds ≠ [] ∧ ds.all Char.isDigit
  · have hall := List.all_eq_true.1 hd.2
    match p, he with
    | [], he => cases hc
    | a :: r, he =>
      by_cases h1 : a = '-'
      · subst h1
        cases he
        rcases List.mem_cons.1 hc with rfl | hc
        · exact .inl rfl
        · exact .inr (.inr (hall c hc))
      · by_cases h2 : a = '+'
        · subst h2
          cases he
          rcases List.mem_cons.1 hc with rfl | hc
          · exact .inr (.inl rfl)
          · exact .inr (.inr (hall c hc))
        · have : ds = a :: r := by
            split at he
            · rename_i e; cases e; exact absurd rfl h1
            · rename_i e; cases e; exact absurd rfl h2
            · cases he; rfl
          subst this
          exact .inr (.inr (hall c hc))
  · simp only [if_neg hd] at h
    cases h

theorem atoi_plain {p : Str} {n : Int} (h : Sq.atoi p = some n) : '.' ∉ p ∧ ' ' ∉ p := by
  constructor
  · intro hc
    rcases atoi_chars h _ hc with h | h | h <;> revert h <;> decide
  · intro hc
    rcases atoi_chars h _ hc with h | h | h <;> revert h <;> decide

theorem each_mem {α β : Type} {R : α → β → Prop} {as : List α} {bs : List β} (h : Each R as bs) : ∀ a ∈ as, ∃ b, R a b := by
  induction h with
  | nil => simp
  | cons h _ ih =>
    intro a ha
    rcases List.mem_cons.1 ha with rfl | ha
    · exact ⟨_, h⟩
    · exact ih a ha

theorem parse_iff (ws : List Str) (ns : List Int) :
    ws.foldr (fun w r => match Sq.atoi w with
      | none => Res.err "version".toList
      | some n => r.map (n :: ·)) (.ok []) = .ok ns ↔ Each (fun p n => Sq.atoi p = some n) ws ns := by
  induction ws generalizing ns with
  | nil =>
    simp only [List.foldr_nil, Res.ok.injEq]
    constructor
    · rintro rfl; exact .nil
    · intro h; cases h; rfl
  | cons w ws ih =>
    simp only [List.foldr_cons]
    cases hw : Sq.atoi w with
    | none =>
      simp only [reduceCtorEq, false_iff]
      intro h
      cases h with
      | cons h _ => rw [hw] at h; cases h
    | some n =>
      simp only [map_ok_iff, ih]
      constructor
      · rintro ⟨x, hx, rfl⟩; exact .cons hw hx
      · intro h
        cases h with
        | cons h1 h2 => cases hw.symm.trans h1; exact ⟨_, h2, rfl⟩

theorem parseVersion_iff (s : Str) (ns : List Int) :
    parseVersion s = .ok ns ↔ ∃ parts, parts ≠ [] ∧ s = ".".toList.intercalate parts ∧ Each (fun p n => Sq.atoi p = some n) parts ns := by
  have hdot : ".".toList = ['.'] := rfl
  have hp : parseVersion s = .ok ns ↔ Each (fun p n => Sq.atoi p = some n) (splitOn '.' s) ns := parse_iff _ _
  rw [hp, hdot]
  obtain ⟨h1, h2, -⟩ := join_splitOn '.' s
  constructor
  · intro h; exact ⟨_, h2, h1.symm, h⟩
  · rintro ⟨parts, hne, rfl, h⟩
    rw [splitOn_join '.' parts hne fun x hx => ?_]
    · exact h
    · obtain ⟨n, hn⟩ := each_mem h x hx
      exact (atoi_plain hn).1

theorem mem_join (c : Char) (x : Char) (parts : List Str) (h : x ∈ [c].intercalate parts) : x = c ∨ ∃ p ∈ parts, x ∈ p := by
  induction parts with
  | nil => simp [List.intercalate] at h
  | cons p ps ih =>
    cases ps with
    | nil => exact .inr ⟨p, by simp, by simpa [List.intercalate] using h⟩
    | cons q qs =>
      have e : [c].intercalate (p :: q :: qs) = p ++ c :: [c].intercalate (q :: qs) := by simp [List.intercalate]
      rw [e, List.mem_append, List.mem_cons] at h
      rcases h with h | h | h
      · exact .inr ⟨p, by simp, h⟩
      · exact .inl h
      · rcases ih h with h | ⟨r, hr, h⟩
        · exact .inl h
        · exact .inr ⟨r, List.mem_cons_of_mem _ hr, h⟩

theorem untilBlank_spec (s : Str) : ∃ rest, s = untilBlank s ++ rest ∧ (rest = [] ∨ rest.head? = some ' ') := by
  induction s with
  | nil => exact ⟨[], rfl, .inl rfl⟩
  | cons c cs ih =>
    by_cases h : c = ' '
    · subst h; exact ⟨' ' :: cs, rfl, .inr rfl⟩
    · obtain ⟨rest, h1, h2⟩ := ih
      refine ⟨rest, ?_, h2⟩
      have : untilBlank (c :: cs) = c :: untilBlank cs := by simp [untilBlank, h]
      rw [this, List.cons_append, ← h1]

theorem untilBlank_cut (s rest : Str) (h : ' ' ∉ s) (hr : rest = [] ∨ rest.head? = some ' ') : untilBlank (s ++ rest) = s := by
  induction s with
  | nil =>
    rcases hr with rfl | hr
    · rfl
    · cases rest with
      | nil => rfl
      | cons c cs => simp at hr; subst hr; simp [untilBlank]
  | cons c cs ih =>
    simp only [List.mem_cons, not_or] at h
    have := ih h.2
    have hc : c ≠ ' ' := Ne.symm h.1
    have e : untilBlank (c :: (cs ++ rest)) = c :: untilBlank (cs ++ rest) := by simp [untilBlank, hc]
    rw [List.cons_append, e, this]

/-- **C69, the version.** It is read if it consists of numbers with dots between them, with on PostgreSQL a remark after a blank, and is then these numbers;
otherwise there is an error. -/
theorem C69_version (d : Dialect) (sv : Server) (ns : List Int) :
    getVersionNums d sv = .ok ns ↔ ∃ q v, versionQuery d = some q ∧ Replies sv q v ∧ VersionText d ns v := by
  have hdot : ".".toList = ['.'] := rfl
  have hnb : ∀ parts ns, Each (fun p n => Sq.atoi p = some n) parts ns → ' ' ∉ ".".toList.intercalate parts := by
    intro parts ns h hc
    rw [hdot] at hc
    rcases mem_join _ _ _ hc with h' | ⟨p, hp, h'⟩
    · revert h'; decide
    · obtain ⟨n, hn⟩ := each_mem h p hp
      exact (atoi_plain hn).2 h'
  have hv : ∀ v ns, parseVersion (if d = .postgres then untilBlank v else v) = .ok ns ↔ VersionText d ns v := by
    intro v ns
    rw [parseVersion_iff]
    unfold VersionText
    by_cases hd : d = .postgres
    · simp only [if_pos hd, hd, true_and]
      constructor
      · rintro ⟨parts, h1, h2, h3⟩
        obtain ⟨rest, h4, h5⟩ := untilBlank_spec v
        exact ⟨parts, rest, h1, by rw [← h2]; exact h4, h3, h5⟩
      · rintro ⟨parts, rest, h1, rfl, h3, h5⟩
        exact ⟨parts, h1, untilBlank_cut _ _ (hnb _ _ h3) h5, h3⟩
    · simp only [if_neg hd, hd, false_and, or_false]
      constructor
      · rintro ⟨parts, h1, h2, h3⟩; exact ⟨parts, [], h1, by simpa using h2, h3, rfl⟩
      · rintro ⟨parts, rest, h1, h2, h3, rfl⟩; exact ⟨parts, h1, by simpa using h2, h3⟩
  have key : ∀ q : String, ((sv.query (.sql q)).bind fun a => (firstText a).bind fun s =>
      (parseVersion (if d = .postgres then untilBlank s else s)).bind fun ns => finish a ns) = .ok ns ↔ ∃ v, Replies sv q v ∧ VersionText d ns v := by
    intro q
    simp only [bind_ok_iff, query_ok, firstText_iff, hv, finish_ok, Replies]
    constructor
    · rintro ⟨a, h1, v, h2, ns', h3, rfl, h4, h5⟩; exact ⟨v, ⟨a, h1, h4, h5, h2⟩, h3⟩
    · rintro ⟨v, ⟨a, h1, h4, h5, h2⟩, h3⟩; exact ⟨a, h1, v, h2, ns, h3, rfl, h4, h5⟩
  unfold getVersionNums
  cases d <;> simp only [versionQuery, unsupported, reduceCtorEq, false_and, exists_false, Option.some.injEq, exists_and_left, exists_eq_left'] <;>
    first | exact key _ | trivial

/-- The versions of the usual form are among them. -/
theorem versionText_digits (d : Dialect) (ns : List Nat) (hne : ns ≠ []) (h : ∀ n ∈ ns, n < 2^63) :
    VersionText d (ns.map Int.ofNat) (".".toList.intercalate (ns.map fun n => (toString n).toList)) := by
  refine ⟨_, [], by simpa using hne, (List.append_nil _).symm, ?_, .inl rfl⟩
  clear hne
  induction ns with
  | nil => exact .nil
  | cons n ns ih =>
    refine .cons ?_ (ih fun m hm => h m (List.mem_cons_of_mem _ hm))
    have e : (toString n).toList = Nat.toDigits 10 n := by simp [toString, Nat.repr]
    show Sq.atoi (toString n).toList = _
    rw [e, Sq.atoi_toDigits n (h n (by simp))]
    rfl

/-- A server that gives the same text as the answer to every query. -/
def saying (s : String) : Server := { answer := fun _ => some { rows := [[.text s.toList]] } }

example : getVersionNums .sqlite (saying "3.35.4") = .ok [3, 35, 4] ∧ getVersionNums .postgres (saying "13.3 (Debian 13.3-1.pgdg100+1)") = .ok [13, 3] ∧
    getVersionNums .mysql (saying "8.0.25") = .ok [8, 0, 25] := by decide +kernel

/-- What distributions, forks and previews report as their version is not of this form: the version is not read, and with it nothing at all. -/
theorem C69_version_violated (num : Str → Bool) :
    (∀ ns, getVersionNums .mysql (saying "8.0.31-0ubuntu0.20.04.1") ≠ .ok ns) ∧ (∀ ns, getVersionNums .mysql (saying "10.5.12-MariaDB") ≠ .ok ns) ∧
    (∀ ns, getVersionNums .postgres (saying "16beta1") ≠ .ok ns) ∧ ∀ L, loadDB num .mysql (saying "8.0.31-0ubuntu0.20.04.1") ≠ .ok L := by
  have h1 : getVersionNums .mysql (saying "8.0.31-0ubuntu0.20.04.1") = .err "version".toList := by decide +kernel
  have h2 : getVersionNums .mysql (saying "10.5.12-MariaDB") = .err "version".toList := by decide +kernel
  have h3 : getVersionNums .postgres (saying "16beta1") = .err "version".toList := by decide +kernel
  refine ⟨fun ns => by rw [h1]; simp, fun ns => by rw [h2]; simp, fun ns => by rw [h3]; simp, fun L hL => ?_⟩
  unfold loadDB at hL
  have h0 : newIntrospector .mysql (saying "8.0.31-0ubuntu0.20.04.1") = .ok () := by decide +kernel
  rw [h0, h1] at hL
  cases hL

/-- Without a selected database MySQL answers `SELECT database()` with NULL, without a search path that exists PostgreSQL answers
`SELECT current_schema()` with NULL: both are errors rather than "none". -/
theorem C69_no_schema_violated :
    getCurrentSchema .mysql { answer := fun _ => some { rows := [[.null]] } } = .err "scanning".toList ∧
    getCurrentSchema .postgres { answer := fun _ => some { rows := [[.null]] } } = .err "scanning".toList ∧
    getDatabaseName .mysql { answer := fun _ => some { rows := [[.null]] } } = .err "scanning".toList := by decide +kernel

/-! ### The whole database -/

/-- **C69 (partial).** `WithDB` succeeds exactly if the database is of a known dialect, answers, and answers every query without an error and with values that can be
read; the metadata is then what `WithDB` (C46) makes of exactly what was reported.  Missing: the case of a list of extensions that breaks off,
see `C69_extensions_violated`. -/
theorem C69_database_partial (num : Str → Bool) (d : Dialect) (sv : Server) (hx : d = .postgres → ∃ rows, Reports sv d .extensions rows) (L : Loaded) :
    loadDB num d sv = .ok L ↔ Known d ∧ sv.alive = true ∧
      (∃ q v, versionQuery d = some q ∧ Replies sv q v ∧ VersionText d L.versionNums v) ∧
      (∃ q, nameQuery d = some q ∧ Replies sv q L.databaseName) ∧
      ∃ r, Reported num d sv r ∧ L.metadata = withDB d r := by
  by_cases hd : Known d
  · have h0 : newIntrospector d sv = .ok () ↔ sv.alive = true := by
      unfold newIntrospector
      rcases hd with rfl | rfl | rfl <;> cases sv.alive <;> simp
    have he : ∀ es, (if d = .postgres then getExtensions d sv else .ok []) = .ok es ↔
        if d = .postgres then ∃ rows, Reports sv d .extensions rows ∧ Each SaysExtension rows es else es = [] := by
      intro es
      by_cases hp : d = .postgres
      · subst hp
        obtain ⟨rows, hrows⟩ := hx rfl
        simp only [if_pos]
        constructor
        · intro h; exact ⟨rows, hrows, (C69_extensions_partial sv rows hrows es).1 h⟩
        · rintro ⟨rows', h1, h2⟩; exact (C69_extensions_partial sv rows' h1 es).2 h2
      · simp only [if_neg hp, Res.ok.injEq]
        exact eq_comm
    have hf : ∀ fs, (if d = .postgres then getFunctions d sv else .ok []) = .ok fs ↔
        if d = .postgres then ∃ rows, Reports sv d .functions rows ∧ Each SaysFunction rows fs else fs = [] := by
      intro fs
      by_cases hp : d = .postgres
      · subst hp
        simp [C69_functions]
      · simp only [if_neg hp, Res.ok.injEq]
        exact eq_comm
    unfold loadDB
    simp only [bind_ok_iff, h0, he, hf, C69_version, C69_database_name, C69_current_schema d hd, C69_tables d hd, C69_views d hd, C69_columns num d hd,
      C69_constraints d hd, C69_indexes d hd, C69_triggers d hd]
    constructor
    · rintro ⟨_, a, vs, b, n, c, cs, h1, es, h2, ts, h3, ws, h4, ccs, h5, xs, h6, is, h7, fs, h8, gs, h9, h⟩
      cases h
      exact ⟨hd, a, b, c, _, ⟨h1, h3, h4, h5, h6, h7, h9, h8, h2⟩, rfl⟩
    · rintro ⟨-, a, b, c, r, hr, h⟩
      refine ⟨(), a, _, b, _, c, _, hr.currentSchema, _, hr.extensions, _, hr.tables, _, hr.views, _, hr.columns, _, hr.constraints, _, hr.indexes, _,
        hr.functions, _, hr.triggers, ?_⟩
      cases L
      simp only at h
      rw [h]
  · have : newIntrospector d sv = unsupported := by
      unfold newIntrospector
      rw [if_pos]
      simp only [Known, not_or] at hd
      exact hd
    unfold loadDB
    rw [this]
    simp [unsupported, hd]

end Ddl.Catalog
