import Verif.Spec.Store
import Verif.Props.Written
import Verif.Props.Renders
import Verif.Props.Columns
import Verif.Props.Send
/-
C78: records stored with Valuesx are the records that Fetch reads.
-/
namespace Sq.Storing
open Sq Sq.Spec Sq.Chain Sq.Exprs Sq.Exprs.Writing Sq.Spec.Store

/-- Text and values only. -/
def Flat (xs : List Part) : Prop := ∀ p ∈ xs, (∃ t, p = .text t) ∨ ∃ a, p = .value a

theorem append_same {d : Dialect} (p : Part) (hp : (∃ t, p = .text t) ∨ ∃ a, p = .value a) {s t : St} (h : Same d s t) :
    Same d (p.append d s) (p.append d t) := by
  obtain ⟨so, sa, sp⟩ := s
  obtain ⟨to, ta, tp⟩ := t
  obtain ⟨h1, h2, h3⟩ := same_iff.1 h
  simp only at h1 h2 h3
  subst h2 h3
  rw [same_iff]
  rcases hp with ⟨x, rfl⟩ | ⟨a, rfl⟩ <;> simp [Part.append, Writing.bufString_append, h1]

theorem appendParts_append (d : Dialect) (ps qs : List Part) (s : St) : appendParts d (ps ++ qs) s = appendParts d qs (appendParts d ps s) := by
  simp [appendParts]

/-- The parts render, and what they add is the text and values of `xs`. -/
structure Adds (d : Dialect) (ps xs : List Part) : Prop where
  ok : ∀ k m, Part.placed k m ∈ ps → (renderAt m k).status = .ok
  eq : ∀ s t, Same d s t → Same d (appendParts d ps s) (appendParts d xs t)

theorem Adds.nil (d : Dialect) : Adds d [] [] := ⟨fun _ _ h => (List.not_mem_nil h).elim, fun _ _ h => h⟩

theorem Adds.append {d : Dialect} {ps xs qs ys : List Part} (h : Adds d ps xs) (k : Adds d qs ys) : Adds d (ps ++ qs) (xs ++ ys) := by
  refine ⟨fun n m hm => ?_, fun s t hst => ?_⟩
  · rcases List.mem_append.1 hm with hm | hm
    · exact h.ok n m hm
    · exact k.ok n m hm
  · rw [appendParts_append, appendParts_append]
    exact k.eq _ _ (h.eq _ _ hst)

theorem Adds.text {d : Dialect} (t : Str) : Adds d [.text t] [.text t] :=
  ⟨fun _ _ h => by simp at h, fun _ _ h => append_same (.text t) (.inl ⟨t, Eq.refl _⟩) h⟩

theorem Adds.cons {d : Dialect} (t : Str) {ps xs : List Part} (h : Adds d ps xs) : Adds d (.text t :: ps) (.text t :: xs) := (Adds.text t).append h

theorem Adds.scalar {d : Dialect} (a : Scalar) (m : Mode) (hm : m.d = d) : Adds d [.placed (.scalar a) m] [.value (.val a)] := by
  subst hm
  refine ⟨fun k m h => ?_, fun s t h => ?_⟩
  · simp only [List.mem_singleton, Part.placed.injEq] at h
    obtain ⟨rfl, rfl⟩ := h
    rfl
  · refine Same.trans (t := (Part.value (.val a)).append m.d s) ?_ (append_same (.value (.val a)) (.inr ⟨_, Eq.refl _⟩) h)
    show Same m.d (exec m.d (ren (.scalar a) m []).code s) _
    simp only [ren, W.emit, exec, List.foldl_cons, List.foldl_nil, exec1, Part.append]
    split <;> exact Same.rfl

/-- A construct adds what its form adds. -/
theorem Adds.construct {d : Dialect} {n : Node} {m : Mode} (hm : m.d = d) {ps xs : List Part} (hc : Spec.construct m n = some ps) (hn : Needs m n)
    (h : Adds d ps xs) : Adds d [.placed n m] xs := by
  subst hm
  have hok : (renderAt m n).status = .ok := (C62_renders m n ps hc).2 ⟨hn, h.ok⟩
  refine ⟨fun k m' hk => ?_, fun s t hst => ?_⟩
  · simp only [List.mem_singleton, Part.placed.injEq] at hk
    obtain ⟨rfl, rfl⟩ := hk
    exact hok
  · exact Same.trans (C55_written m n ps hc hok s) (h.eq s t hst)

theorem Adds.listed {d : Dialect} (sep : Str) {α : Type} (f g : α → List Part) (xs : List α) (h : ∀ x ∈ xs, Adds d (f x) (g x)) :
    Adds d (listed sep (xs.map f)) (listed sep (xs.map g)) := by
  induction xs with
  | nil => exact Adds.nil d
  | cons x xs ih =>
    have h1 := h x (List.mem_cons_self ..)
    have h2 := ih fun y hy => h y (List.mem_cons_of_mem _ hy)
    cases xs with
    | nil => exact h1
    | cons y ys => exact h1.append (Adds.cons sep h2)

/-! ### The text of flat parts -/

/-- The `i`-th value in the text of a dialect. -/
def ph (d : Dialect) (i : Nat) : Str := (if numbered d then Piece.ph i else Piece.anon).str d

/-- The text, when `i` values were there before. -/
def flat (d : Dialect) : Nat → List Part → Str
  | _, [] => []
  | i, .text t :: ps => t ++ flat d i ps
  | i, .value _ :: ps => ph d (i + 1) ++ flat d (i + 1) ps
  | i, _ :: ps => flat d i ps

def vals : List Part → List Arg
  | [] => []
  | .value a :: ps => a :: vals ps
  | _ :: ps => vals ps

theorem vals_append (ps qs : List Part) : vals (ps ++ qs) = vals ps ++ vals qs := by
  induction ps with
  | nil => rfl
  | cons p ps ih => cases p <;> simp [vals, ih]

theorem flat_append (d : Dialect) (i : Nat) (ps qs : List Part) : flat d i (ps ++ qs) = flat d i ps ++ flat d (i + (vals ps).length) qs := by
  induction ps generalizing i with
  | nil => rfl
  | cons p ps ih =>
    cases p with
    | value a =>
      simp only [List.cons_append, flat, vals, List.length_cons, ih, List.append_assoc]
      rw [show i + 1 + (vals ps).length = i + ((vals ps).length + 1) by omega]
    | _ => simp only [List.cons_append, flat, vals, ih, List.append_assoc]

theorem written_flat (d : Dialect) (xs : List Part) (hx : Flat xs) (s : St) :
    written d (appendParts d xs s) =
      { text := bufString d s.out ++ flat d s.args.length xs, args := s.args ++ vals xs, params := s.params } := by
  induction xs generalizing s with
  | nil => simp [appendParts, written, flat, vals]
  | cons p xs ih =>
    have ih := ih (fun q hq => hx q (List.mem_cons_of_mem _ hq))
    show written d (appendParts d xs (p.append d s)) = _
    rw [ih]
    rcases hx p (List.mem_cons_self ..) with ⟨t, rfl⟩ | ⟨a, rfl⟩
    · simp [Part.append, Writing.bufString_append, flat, vals, bufString, Piece.str]
    · simp [Part.append, Writing.bufString_append, flat, vals, bufString, ph]

theorem Flat.append {xs ys : List Part} (h : Flat xs) (k : Flat ys) : Flat (xs ++ ys) := fun p hp =>
  (List.mem_append.1 hp).elim (h p) (k p)
theorem Flat.nil : Flat [] := fun _ h => (List.not_mem_nil h).elim
theorem Flat.text (t : Str) : Flat [.text t] := fun p hp => .inl ⟨t, by simpa using hp⟩
theorem Flat.value (a : Arg) : Flat [.value a] := fun p hp => .inr ⟨a, by simpa using hp⟩
theorem Flat.cons (t : Str) {xs : List Part} (h : Flat xs) : Flat (.text t :: xs) := (Flat.text t).append h
theorem Flat.listed (sep : Str) {α : Type} (g : α → List Part) (xs : List α) (h : ∀ x ∈ xs, Flat (g x)) : Flat (listed sep (xs.map g)) := by
  induction xs with
  | nil => exact Flat.nil
  | cons x xs ih =>
    have h1 := h x (List.mem_cons_self ..)
    have h2 := ih fun y hy => h y (List.mem_cons_of_mem _ hy)
    cases xs with
    | nil => exact h1
    | cons y ys => exact h1.append (Flat.cons sep h2)

/-- What `ToSQL` returns for a construct. -/
theorem toSQL_adds {d : Dialect} {n : Node} {xs : List Part} (h : Adds d [.placed n { d := d }] xs) (hx : Flat xs) :
    (toSQL d n).status = .ok ∧ (toSQL d n).query = flat d 0 xs ∧ (toSQL d n).args = vals xs := by
  have h1 : (renderAt { d := d } n).status = .ok := h.ok n { d := d } (List.mem_singleton.2 (Eq.refl _))
  have h2 : written d (appendSQL { d := d } n {}) = _ := Eq.trans (h.eq {} {} Same.rfl) (written_flat d xs hx {})
  refine ⟨h1, ?_, ?_⟩
  · show bufString d (appendSQL { d := d } n {}).out = _
    have := congrArg Written.text h2
    simpa only [written, bufString, List.map_nil, List.flatten_nil, List.nil_append, List.length_nil] using this
  · show (appendSQL { d := d } n {}).args = _
    have := congrArg Written.args h2
    simpa only [written, List.nil_append] using this

/-! ### Fields, tables, keys -/

theorem Adds.field {d : Dialect} (t : Tab) (raw : Str → Bool) (c : Str) (m : Mode) (hm : m.d = d) (hn : t.name ≠ []) :
    Adds d [.placed (t.field raw c) m]
      [.text (if isExcluded m.ex t.label then quoteIdentifier d c else t.column d c)] := by
  subst hm
  have hl : t.label ≠ [] := by unfold Tab.label; split <;> assumption
  have hcol : ∀ m' : Mode, m'.d = m.d → m'.ex = m.ex →
      columnName m' { tableName := t.name, tableAlias := t.alias, name := c } =
        if isExcluded m.ex t.label then quoteIdentifier m.d c else t.column m.d c := by
    intro m' h1 h2
    unfold columnName
    simp only [h1, h2]
    show (if t.label = [] ∨ isExcluded m.ex t.label = true then [] else quoteIdentifier m.d t.label ++ ".".toList) ++ quoteIdentifier m.d c = _
    by_cases he : isExcluded m.ex t.label = true
    · rw [if_pos (.inr he), if_pos he]; rfl
    · rw [if_neg (by simp [hl, he]), if_neg he]; rfl
  have hr : ren (t.field raw c) m [] = { code := [.text (if isExcluded m.ex t.label then quoteIdentifier m.d c else t.column m.d c), .text []], st := .ok } := by
    unfold Tab.field
    rw [ren]
    simp only [fieldInfoAppend, ne_eq, not_true_eq_false, if_false, W.when, W.seq, W.ok, W.wr, objs, List.map_nil]
    rw [hcol _ (by split <;> rfl) (by split <;> rfl)]
    simp [fieldSuffix]
  refine ⟨fun k m' hk => ?_, fun s u hst => ?_⟩
  · simp only [List.mem_singleton, Part.placed.injEq] at hk
    rw [hk.1, hk.2]
    show (ren (t.field raw c) m []).st = .ok
    rw [hr]
  · refine Same.trans (t := (Part.text (if isExcluded m.ex t.label then quoteIdentifier m.d c else t.column m.d c)).append m.d s) ?_
      (append_same _ (.inl ⟨_, Eq.refl _⟩) hst)
    show Same m.d (exec m.d (ren (t.field raw c) m []).code s) _
    rw [hr, same_iff]
    simp [exec, exec1, Part.append, bufString, Piece.str]

theorem excluded_self (x : Str) : isExcluded [x] x = true := (isExcluded_iff [x] (by
  intro i j hij a b _ hb
  cases j with
  | zero => omega
  | succ j => simp at hb) x).2 (by simp)
theorem excluded_nil (x : Str) : isExcluded [] x = false := by simp [isExcluded]

theorem Adds.source {d : Dialect} (t : Tab) (m : Mode) (hm : m.d = d) : Adds d (source m t.node) [.text (t.text d), .text (t.source d |>.drop (t.text d).length)] := by
  subst hm
  have h1 : Adds m.d [.placed t.node m] [.text (t.text m.d)] :=
    Adds.construct rfl (show Spec.construct m t.node = some [Part.text (t.text m.d)] from rfl) trivial (Adds.text _)
  refine h1.append (?_ : Adds m.d (named m.d t.node.alias) _)
  show Adds m.d (named m.d t.alias) _
  unfold named Tab.source
  rw [List.drop_left]
  split
  · exact ⟨fun _ _ h => (List.not_mem_nil h).elim, fun s u h => by
      refine h.trans ?_
      rw [same_iff]
      simp [appendParts, Part.append, bufString, Piece.str]⟩
  · refine ⟨fun _ _ h => by simp at h, fun s u h => ?_⟩
    refine Same.trans ((Adds.text " AS ".toList).append (Adds.text (quoteIdentifier m.d t.alias)) |>.eq s u h) ?_
    rw [same_iff]
    simp [appendParts, Part.append, bufString, Piece.str]

theorem Adds.key {d : Dialect} (t : Tab) (raw : Str → Bool) (key : Str) (v : Scalar) (hn : t.name ≠ []) (env : Env) (kw : Str) :
    Adds d (condition { d := d, env := env } kw (and_ [keyIs t raw key v]))
      [.text kw, .text (t.column d key), .text " = ".toList, .value (.val v)] := by
  refine Adds.cons kw ?_
  have hf := Adds.field (d := d) t raw key { d := d } rfl hn
  rw [show isExcluded (({ d := d } : Mode).ex) t.label = false from excluded_nil _] at hf
  have hp : Adds d [.placed (t.field raw key) { d := d }, .text " = ".toList, .placed (.scalar v) { d := d }]
      [.text (t.column d key), .text " = ".toList, .value (.val v)] := hf.append (Adds.cons _ (Adds.scalar v _ rfl))
  have hform : form (.eq (t.field raw key) (.scalar v)) = [.operand (t.field raw key), .text " = ".toList, .operand (.scalar v)] := by
    simp [form, bracketed, Tab.field, Node.kind]
  have hw : ∀ s, appendStatus { d := d } (keyIs t raw key v) = .ok ∧ _ := fun s => C54_written d (.eq (t.field raw key) (.scalar v)) (by
    rw [hform]
    intro p hp'
    simp only [List.mem_cons, List.not_mem_nil, or_false] at hp'
    rcases hp' with rfl | rfl | rfl
    · exact hp.ok (t.field raw key) { d := d } (by simp)
    · trivial
    · exact hp.ok (.scalar v) { d := d } (by simp)) s
  rw [hform] at hw
  have hk : Adds d [.placed (keyIs t raw key v) { d := d }] [.text (t.column d key), .text " = ".toList, .value (.val v)] := by
    refine ⟨fun k m' h => ?_, fun s u h => ?_⟩
    · simp only [List.mem_singleton, Part.placed.injEq] at h
      rw [h.1, h.2]
      exact (hw {}).1
    · exact Eq.trans (hw s).2 (hp.eq s u h)
  refine Adds.construct (m := { d := d, env := env, meth := .top true }) rfl (ps := [.placed (keyIs t raw key v) { d := d }]) rfl ?_ hk
  intro p hp'
  rw [List.mem_singleton.1 hp']
  nofun

/-! ### The parts of the statements -/

theorem adds_items {d : Dialect} (t : Tab) (raw : Str → Bool) (cols : List Str) (env : Env) (hn : t.name ≠ []) :
    Adds d (items { d := d, env := env } (cols.map (t.field raw))) (listed ", ".toList (cols.map fun c => [.text (t.column d c)])) := by
  unfold Spec.items
  rw [List.map_map]
  refine Adds.listed _ _ _ cols fun c _ => ?_
  have hf := Adds.field (d := d) t raw c { d := d } rfl hn
  rw [show isExcluded (({ d := d } : Mode).ex) t.label = false from excluded_nil _] at hf
  exact hf

theorem adds_columns {d : Dialect} (t : Tab) (raw : Str → Bool) (cols : List Str) (env : Env) (hn : t.name ≠ []) :
    Adds d (values { d := d, env := env, ex := [t.label] } (cols.map (t.field raw)))
      (listed ", ".toList (cols.map fun c => [.text (quoteIdentifier d c)])) := by
  unfold Spec.values
  rw [List.map_map]
  refine Adds.listed _ _ _ cols fun c _ => ?_
  have hf := Adds.field (d := d) t raw c { d := d, env := env, ex := [t.label] } rfl hn
  rw [show isExcluded (({ d := d, env := env, ex := [t.label] } : Mode).ex) t.label = true from excluded_self _] at hf
  exact hf

/-- One row of values. -/
def rowParts (rec : List Scalar) : List Part := .text "(".toList :: listed ", ".toList (rec.map fun v => [.value (.val v)]) ++ [.text ")".toList]

theorem adds_rows {d : Dialect} (recs : List (List Scalar)) :
    Adds d (listed ", ".toList ((recs.map (·.map Node.scalar)).map (row { d := d }))) (listed ", ".toList (recs.map rowParts)) := by
  rw [List.map_map]
  refine Adds.listed _ _ _ recs fun rec _ => ?_
  show Adds d (.text "(".toList :: values { d := d } (rec.map Node.scalar) ++ [.text ")".toList]) _
  refine Adds.cons _ (Adds.append ?_ (Adds.text _))
  unfold Spec.values
  rw [List.map_map]
  exact Adds.listed _ _ _ rec fun v _ => Adds.scalar v _ rfl

/-- One assignment. -/
def setPart (f : Str → Str) (x : Str × Scalar) : List Part := [.text (f x.1), .text " = ".toList, .value (.val x.2)]

theorem adds_sets {d : Dialect} (t : Tab) (raw : Str → Bool) (cols : List Str) (rec : List Scalar) (m : Mode) (hm : m.d = d) (hn : t.name ≠ []) :
    Adds d (assignments m ((cols.map (t.field raw)).zip (rec.map Node.scalar)))
      (listed ", ".toList ((cols.zip rec).map (setPart fun c => if isExcluded m.ex t.label then quoteIdentifier d c else t.column d c))) := by
  subst hm
  unfold Spec.assignments
  rw [List.zip_map, List.map_map]
  refine Adds.listed _ _ _ (cols.zip rec) fun x _ => ?_
  exact (Adds.field t raw x.1 { d := m.d, ex := m.ex } rfl hn).append (Adds.cons _ (Adds.scalar x.2 _ rfl))

/-! ### Their texts -/

theorem flat_texts (d : Dialect) (i : Nat) {α : Type} (f : α → Str) (xs : List α) :
    flat d i (listed ", ".toList (xs.map fun x => [.text (f x)])) = commas (xs.map f) ∧
    vals (listed ", ".toList (xs.map fun x => [.text (f x)])) = [] := by
  induction xs with
  | nil => exact ⟨rfl, rfl⟩
  | cons x xs ih =>
    cases xs with
    | nil => simp [listed, flat, vals, commas]
    | cons y ys =>
      refine ⟨?_, ih.2⟩
      have := ih.1
      simp only [List.map_cons, listed, List.cons_append, List.nil_append, flat] at this ⊢
      rw [this]
      simp [commas, List.intersperse]

theorem slot_ph (l : Lang) (i : Nat) : ph l.dialect i = slot l i := by
  cases l <;> rfl

theorem flat_values (l : Lang) (i : Nat) (vs : List Scalar) :
    flat l.dialect i (listed ", ".toList (vs.map fun v => [.value (.val v)])) = commas ((List.range' (i + 1) vs.length).map (slot l)) ∧
    vals (listed ", ".toList (vs.map fun v => [.value (.val v)])) = vs.map .val := by
  induction vs generalizing i with
  | nil => exact ⟨rfl, rfl⟩
  | cons x xs ih =>
    cases xs with
    | nil => simp [listed, flat, vals, commas, slot_ph]
    | cons y ys =>
      have := ih (i + 1)
      refine ⟨?_, ?_⟩
      · have := this.1
        simp only [List.map_cons, listed, List.cons_append, List.nil_append, flat, List.length_cons, List.range'_succ] at this ⊢
        rw [this, slot_ph]
        simp [commas, List.intersperse]
      · have := this.2
        simp only [List.map_cons, listed, List.cons_append, List.nil_append, vals] at this ⊢
        rw [this]

theorem flat_row (l : Lang) (i : Nat) (rec : List Scalar) :
    flat l.dialect i (rowParts rec) = rowText l rec.length (i + 1) ∧ vals (rowParts rec) = rec.map .val := by
  have h := flat_values l i rec
  refine ⟨?_, ?_⟩
  · simp only [rowParts, List.cons_append, flat, flat_append, h.1, h.2, rowText, List.append_nil, List.append_assoc]
  · simp only [rowParts, List.cons_append, vals, vals_append, h.2, List.append_nil]

theorem flat_rows (l : Lang) (k : Nat) (i : Nat) (recs : List (List Scalar)) (hk : ∀ r ∈ recs, r.length = k) :
    flat l.dialect i (listed ", ".toList (recs.map rowParts)) = commas ((List.range recs.length).map fun j => rowText l k (i + j * k + 1)) ∧
    vals (listed ", ".toList (recs.map rowParts)) = recs.flatten.map .val := by
  induction recs generalizing i with
  | nil => exact ⟨rfl, rfl⟩
  | cons r rs ih =>
    have hr := flat_row l i r
    have hlen := hk r (List.mem_cons_self ..)
    have ih := ih (i + k) fun x hx => hk x (List.mem_cons_of_mem _ hx)
    have hrng : (List.range (rs.length + 1)).map (fun j => rowText l k (i + j * k + 1)) =
        rowText l k (i + 1) :: (List.range rs.length).map fun j => rowText l k (i + k + j * k + 1) := by
      rw [List.range_succ_eq_map, List.map_cons, List.map_map]
      simp only [Nat.zero_mul, Nat.add_zero]
      congr 1
      refine List.map_congr_left fun j _ => ?_
      simp only [Function.comp]
      rw [Nat.succ_mul]
      congr 2
      omega
    rw [List.length_cons, hrng]
    cases rs with
    | nil => simp [listed, hr, hlen, commas]
    | cons y ys =>
      refine ⟨?_, ?_⟩
      · show flat l.dialect i (rowParts r ++ .text ", ".toList :: listed ", ".toList ((y :: ys).map rowParts)) = _
        rw [flat_append, hr.1, hr.2, flat, List.length_map, hlen, ih.1]
        simp only [List.length_cons, List.range_succ_eq_map, List.map_cons, commas, List.intersperse_cons_cons, List.flatten_cons]
      · show vals (rowParts r ++ .text ", ".toList :: listed ", ".toList ((y :: ys).map rowParts)) = _
        rw [vals_append, hr.2, show ∀ t ps, vals (.text t :: ps) = vals ps from fun _ _ => rfl, ih.2]
        simp

theorem flat_source (d : Dialect) (t : Tab) (i : Nat) :
    flat d i [.text (t.text d), .text (t.source d |>.drop (t.text d).length)] = t.source d ∧
    vals [.text (t.text d), .text (t.source d |>.drop (t.text d).length)] = [] := by
  refine ⟨?_, rfl⟩
  simp only [flat, List.append_nil]
  unfold Tab.source
  rw [List.drop_left]

theorem commas_cons (x : Str) (xs : List Str) (h : xs ≠ []) : commas (x :: xs) = x ++ (", ".toList ++ commas xs) := by
  cases xs with
  | nil => exact (h rfl).elim
  | cons y ys => simp [commas, List.intersperse]

theorem flat_sets (l : Lang) (f : Str → Str) (i : Nat) (cols : List Str) (rec : List Scalar) (hlen : rec.length = cols.length) :
    flat l.dialect i (listed ", ".toList ((cols.zip rec).map (setPart f))) =
      commas ((cols.zip (List.range' (i + 1) cols.length)).map fun x => f x.1 ++ " = ".toList ++ slot l x.2) ∧
    vals (listed ", ".toList ((cols.zip rec).map (setPart f))) = rec.map .val := by
  induction cols generalizing i rec with
  | nil => cases rec with
    | nil => exact ⟨rfl, rfl⟩
    | cons => simp at hlen
  | cons c cs ih => cases rec with
    | nil => simp at hlen
    | cons v vs =>
      have hl : vs.length = cs.length := by simpa using hlen
      have ih := ih (i + 1) vs hl
      cases cs with
      | nil => cases vs with
        | nil => simp [listed, setPart, flat, vals, commas, slot_ph]
        | cons => simp at hl
      | cons c' cs => cases vs with
        | nil => simp at hl
        | cons v' vs =>
          have hz : ((c :: c' :: cs).zip (List.range' (i + 1) (c :: c' :: cs).length)).map (fun x => f x.1 ++ " = ".toList ++ slot l x.2) =
              (f c ++ " = ".toList ++ slot l (i + 1)) ::
                ((c' :: cs).zip (List.range' (i + 1 + 1) (c' :: cs).length)).map (fun x => f x.1 ++ " = ".toList ++ slot l x.2) := rfl
          rw [hz, commas_cons _ _ (by simp [List.range'_succ]), ← ih.1, List.map_cons, ← ih.2]
          show flat l.dialect i (setPart f (c, v) ++ .text ", ".toList :: listed ", ".toList (((c' :: cs).zip (v' :: vs)).map (setPart f))) = _ ∧
            vals (setPart f (c, v) ++ .text ", ".toList :: listed ", ".toList (((c' :: cs).zip (v' :: vs)).map (setPart f))) = _
          generalize listed ", ".toList (((c' :: cs).zip (v' :: vs)).map (setPart f)) = L
          simp only [setPart, List.cons_append, List.nil_append, flat, vals, slot_ph, List.append_assoc, and_self]

theorem flat_listed {α : Type} (g : α → List Part) (xs : List α) (h : ∀ x ∈ xs, Flat (g x)) : Flat (listed ", ".toList (xs.map g)) :=
  Flat.listed _ g xs h

theorem flat_text (d : Dialect) (i : Nat) (t : Str) (ps : List Part) : flat d i (.text t :: ps) = t ++ flat d i ps := rfl
theorem flat_value (d : Dialect) (i : Nat) (a : Arg) (ps : List Part) : flat d i (.value a :: ps) = ph d (i + 1) ++ flat d (i + 1) ps := rfl
theorem flat_nil (d : Dialect) (i : Nat) : flat d i [] = [] := rfl
theorem vals_text (t : Str) (ps : List Part) : vals (.text t :: ps) = vals ps := rfl
theorem vals_value (a : Arg) (ps : List Part) : vals (.value a :: ps) = a :: vals ps := rfl
theorem vals_nil : vals [] = [] := rfl

/-! ### SELECT -/

/-- What follows for `ToSQL("", q)`. -/
theorem own {n : Node} {l : Lang} (hq : queryDialect n = l.dialect) {ps xs : List Part} (hc : Spec.construct { d := l.dialect } n = some ps)
    (hn : Needs { d := l.dialect } n) (h : Adds l.dialect ps xs) (hx : Flat xs) :
    (ownSQL n).status = .ok ∧ (ownSQL n).query = flat l.dialect 0 xs ∧ (ownSQL n).args = vals xs := by
  unfold ownSQL
  rw [hq]
  exact toSQL_adds (Adds.construct rfl hc hn h) hx

theorem node_ne (t : Tab) : t.node ≠ .nil := by simp [Tab.node]

theorem node_answers (t : Tab) (env : Env) : ¬ Refuses t.node env := by simp [Tab.node, Refuses]

/-- The table with its alias, as flat parts. -/
def srcParts (d : Dialect) (t : Tab) : List Part := [.text (t.text d), .text (t.source d |>.drop (t.text d).length)]
theorem srcParts_flat (d : Dialect) (t : Tab) : Flat (srcParts d t) := Flat.cons _ (Flat.text _)
theorem flat_src (d : Dialect) (t : Tab) (i : Nat) : flat d i (srcParts d t) = t.source d := (flat_source d t i).1
theorem vals_src (d : Dialect) (t : Tab) : vals (srcParts d t) = [] := rfl

/-- The condition on the key, as flat parts. -/
def keyParts (d : Dialect) (t : Tab) (key : Str) (v : Scalar) : List Part := [.text " WHERE ".toList, .text (t.column d key), .text " = ".toList, .value (.val v)]
theorem keyParts_flat (d : Dialect) (t : Tab) (key : Str) (v : Scalar) : Flat (keyParts d t key v) :=
  Flat.cons _ (Flat.cons _ (Flat.cons _ (Flat.value _)))
theorem flat_key (l : Lang) (t : Tab) (key : Str) (v : Scalar) (i : Nat) :
    flat l.dialect i (keyParts l.dialect t key v) = " WHERE ".toList ++ keyText l t key (i + 1) := by
  simp only [keyParts, flat, slot_ph, keyText, List.append_assoc, List.append_nil]
theorem vals_key (d : Dialect) (t : Tab) (key : Str) (v : Scalar) : vals (keyParts d t key v) = [.val v] := rfl

theorem adds_src (d : Dialect) (t : Tab) (env : Env) : Adds d (source { d := d, env := env } t.node) (srcParts d t) := Adds.source t _ rfl
theorem adds_key (d : Dialect) (t : Tab) (raw : Str → Bool) (key : Str) (v : Scalar) (hn : t.name ≠ []) (env : Env) :
    Adds d (condition { d := d, env := env } " WHERE ".toList (and_ [keyIs t raw key v])) (keyParts d t key v) := Adds.key t raw key v hn env _

/-- **C78 (reading).** `Select(columns...).From(table)` is the statement that reads these columns of the records of the table. -/
theorem C78_select (b : Builder) (t : Tab) (raw : Str → Bool) (cols : List Str) (hn : t.name ≠ []) (hc : cols ≠ []) :
    (ownSQL (selectQuery b t raw cols)).status = .ok ∧
    (ownSQL (selectQuery b t raw cols)).query = selectText b.lang t cols ∧
    (ownSQL (selectQuery b t raw cols)).args = [] := by
  have h := own (n := selectQuery b t raw cols) (l := b.lang) rfl
    (xs := [.text "SELECT ".toList] ++ (listed ", ".toList (cols.map fun c => [.text (t.column b.lang.dialect c)]) ++ (.text " FROM ".toList :: srcParts b.lang.dialect t)))
    (ps := [.text "SELECT ".toList] ++ (items { d := b.lang.dialect, env := b.env } (cols.map (t.field raw)) ++
      (.text " FROM ".toList :: source { d := b.lang.dialect, env := b.env } t.node)))
    (by
        simp [selectQuery, Chain.select, SelectCall.run, SelectStart.run, SelectQ.node, Spec.construct, whereOf, and_, with_, distinct, joined,
        ifAny, filtered, asks, condition, number, ifTable, Tab.node, effEnv]
        rfl)
    (show SelectNeeds _ _ _ (cols.map (t.field raw)) [] t.node [] from ⟨by simpa using hc, fun h => (h rfl).elim, fun h => (h rfl).elim, fun x hx => by
      rw [List.mem_singleton.1 hx]
      exact node_answers t _⟩)
    ((Adds.text _).append ((adds_items t raw cols _ hn).append (Adds.cons _ (adds_src _ t _))))
    (Flat.cons _ (Flat.append (flat_listed _ _ fun c _ => Flat.text _) (Flat.cons _ (srcParts_flat _ _))))
  have ht := fun i => flat_texts b.lang.dialect i (t.column b.lang.dialect) cols
  refine ⟨h.1, h.2.1.trans ?_, h.2.2.trans ?_⟩ <;> clear h
  · unfold selectText
    generalize "SELECT ".toList = k0
    generalize " FROM ".toList = k1
    simp only [List.cons_append, List.nil_append, flat_text, flat_append, (ht _).1, flat_src, List.append_assoc]
  · simp only [List.cons_append, List.nil_append, vals_text, vals_append, (ht 0).2, vals_src]

/-- **C78 (reading one).** `Select(columns...).From(table).Where(key.Eq(v))`. -/
theorem C78_select_key (b : Builder) (t : Tab) (raw : Str → Bool) (cols : List Str) (key : Str) (v : Scalar) (hn : t.name ≠ []) (hc : cols ≠ []) :
    (ownSQL (selectKeyQuery b t raw cols key v)).status = .ok ∧
    (ownSQL (selectKeyQuery b t raw cols key v)).query = selectKeyText b.lang t cols key ∧
    (ownSQL (selectKeyQuery b t raw cols key v)).args = [.val v] := by
  have h := own (n := selectKeyQuery b t raw cols key v) (l := b.lang) rfl
    (xs := [.text "SELECT ".toList] ++ (listed ", ".toList (cols.map fun c => [.text (t.column b.lang.dialect c)]) ++ (.text " FROM ".toList :: (srcParts b.lang.dialect t ++ keyParts b.lang.dialect t key v))))
    (ps := [.text "SELECT ".toList] ++ (items { d := b.lang.dialect, env := b.env } (cols.map (t.field raw)) ++
      (.text " FROM ".toList :: (source { d := b.lang.dialect, env := b.env } t.node ++
        condition { d := b.lang.dialect, env := b.env } " WHERE ".toList (and_ [keyIs t raw key v])))))
    (by
        simp [selectKeyQuery, Chain.select, SelectCall.run, SelectStart.run, SelectQ.node, Spec.construct, whereOf, and_, with_, distinct, joined,
        ifAny, filtered, asks, condition, number, ifTable, Tab.node, effEnv]
        rfl)
    (show SelectNeeds _ _ _ (cols.map (t.field raw)) [] t.node [] from ⟨by simpa using hc, fun h => (h rfl).elim, fun h => (h rfl).elim, fun x hx => by
      rw [List.mem_singleton.1 hx]
      exact node_answers t _⟩)
    ((Adds.text _).append ((adds_items t raw cols _ hn).append (Adds.cons _ ((adds_src _ t _).append (adds_key _ t raw key v hn _)))))
    (Flat.cons _ (Flat.append (flat_listed _ _ fun c _ => Flat.text _) (Flat.cons _ ((srcParts_flat _ _).append (keyParts_flat _ _ _ _)))))
  have ht := fun i => flat_texts b.lang.dialect i (t.column b.lang.dialect) cols
  refine ⟨h.1, h.2.1.trans ?_, h.2.2.trans ?_⟩ <;> clear h
  · unfold selectKeyText selectText
    generalize "SELECT ".toList = k0
    generalize " FROM ".toList = k1
    simp only [List.cons_append, List.nil_append, flat_text, flat_append, (ht _).1, (ht 0).2, vals_src, flat_src, flat_key, List.append_assoc, List.length_nil, Nat.add_zero, Nat.zero_add]
  · simp only [List.cons_append, List.nil_append, vals_text, vals_append, (ht 0).2, vals_nil, vals_src, vals_key]

/-- **C78 (removing).** `DeleteFrom(table).Where(key.Eq(v))`. -/
theorem C78_delete (b : Builder) (t : Tab) (raw : Str → Bool) (key : Str) (v : Scalar) (hn : t.name ≠ []) :
    (ownSQL (deleteQuery b t raw key v)).status = .ok ∧
    (ownSQL (deleteQuery b t raw key v)).query = deleteText b.lang t key ∧
    (ownSQL (deleteQuery b t raw key v)).args = [.val v] := by
  have h := own (n := deleteQuery b t raw key v) (l := b.lang) rfl
    (xs := [.text "DELETE FROM ".toList] ++ (srcParts b.lang.dialect t ++ keyParts b.lang.dialect t key v))
    (ps := [.text "DELETE FROM ".toList] ++ (source { d := b.lang.dialect, env := b.env } t.node ++
        condition { d := b.lang.dialect, env := b.env } " WHERE ".toList (and_ [keyIs t raw key v])))
    (by
        simp [deleteQuery, Chain.delete, DeleteCall.run, DeleteStart.run, DeleteQ.node, Spec.construct, deleteParts, deleted, and_, with_, joined,
        ifAny, filtered, asks, condition, number, ifTable, Tab.node, effEnv, Node.kind]
        rfl)
    (show DeleteNeeds _ _ _ [t.node] .nil [] [] [] from
      { table := ⟨t.node, [], rfl, node_ne t, fun h => (h rfl).elim⟩
        usingAllowed := fun h => (h rfl).elim
        joinable := fun h => (h rfl).elim
        hooksAnswer := fun x hx => by
          rw [List.mem_singleton.1 hx]
          exact node_answers t _
        limitsAllowed := ⟨fun h => by simp [Chain.delete, DeleteCall.run, DeleteStart.run] at h, fun h => by simp [Chain.delete, DeleteCall.run, DeleteStart.run] at h⟩
        single := fun h => by simp [Chain.delete, DeleteCall.run, DeleteStart.run] at h
        returningAllowed := fun h => (h rfl).elim })
    ((Adds.text _).append ((adds_src _ t _).append (adds_key _ t raw key v hn _)))
    (Flat.cons _ ((srcParts_flat _ _).append (keyParts_flat _ _ _ _)))
  refine ⟨h.1, h.2.1.trans ?_, h.2.2.trans ?_⟩ <;> clear h
  · unfold deleteText
    generalize "DELETE FROM ".toList = k0
    simp only [List.cons_append, List.nil_append, flat_text, flat_append, vals_src, flat_src, flat_key, List.append_assoc, List.length_nil, Nat.add_zero, Nat.zero_add]
  · simp only [List.cons_append, List.nil_append, vals_text, vals_append, vals_src, vals_key]

/-- **C78 (changing).** `Update(table).Setx(...).Where(key.Eq(v))`. -/
theorem C78_update (b : Builder) (t : Tab) (raw : Str → Bool) (cols : List Str) (rec : List Scalar) (key : Str) (v : Scalar) (hn : t.name ≠ [])
    (hc : cols ≠ []) (hlen : rec.length = cols.length) :
    (ownSQL (updateQuery b t raw cols rec key v)).status = .ok ∧
    (ownSQL (updateQuery b t raw cols rec key v)).query = updateText b.lang t cols key ∧
    (ownSQL (updateQuery b t raw cols rec key v)).args = rec.map .val ++ [.val v] := by
  let ex : List Str := if b.lang = .mysql then [] else [t.label]
  have hset : setAll t raw cols [rec] = (cols.map (t.field raw)).zip (rec.map Node.scalar) := by simp [setAll]
  have hne : (cols.map (t.field raw)).zip (rec.map Node.scalar) ≠ [] := by
    cases cols with
    | nil => exact (hc rfl).elim
    | cons c cs => cases rec with
      | nil => simp at hlen
      | cons v vs => simp
  have h := own (n := updateQuery b t raw cols rec key v) (l := b.lang) rfl
    (xs := [.text "UPDATE ".toList] ++ (srcParts b.lang.dialect t ++ (.text " SET ".toList :: (listed ", ".toList ((cols.zip rec).map (setPart fun c => if isExcluded ex t.label then quoteIdentifier b.lang.dialect c else t.column b.lang.dialect c)) ++ keyParts b.lang.dialect t key v))))
    (ps := [.text "UPDATE ".toList] ++ (source { d := b.lang.dialect, env := b.env } t.node ++ (.text " SET ".toList ::
        (assignments { d := b.lang.dialect, env := b.env, ex := ex } ((cols.map (t.field raw)).zip (rec.map Node.scalar)) ++
        condition { d := b.lang.dialect, env := b.env } " WHERE ".toList (and_ [keyIs t raw key v])))))
    (by
      have hq : Spec.qualifier t.node = t.label := rfl
      obtain ⟨l, env⟩ := b
      cases l <;> simp [updateQuery, Chain.update, UpdateCall.run, UpdateStart.run, UpdateQ.node, Spec.construct, and_, with_, joined,
        ifAny, condition, number, ifTable, effEnv, Lang.dialect, hset, ex, hq])
    (show UpdateNeeds _ _ _ t.node .nil [] [] (setAll t raw cols [rec]) [] [] from
      { mapperWorks := fun _ => ⟨rfl, fun s hs => by
          rw [hset] at hs
          obtain ⟨c, _, hc'⟩ := List.mem_map.1 (List.of_mem_zip (show (s.1, s.2) ∈ _ from hs)).1
          rw [← hc']
          simp [Tab.field]⟩
        someTable := node_ne t
        something := by
          rw [hset]
          exact hne
        fromAllowed := fun h => (h rfl).elim
        joinable := fun h => (h rfl).elim
        hooksAnswer := fun x hx => by
          rcases List.mem_cons.1 hx with rfl | hx
          · exact node_answers t _
          · rw [List.mem_singleton.1 hx]
            exact id
        limitsAllowed := ⟨fun h => by simp [Chain.update, UpdateCall.run, UpdateStart.run] at h, fun h => by simp [Chain.update, UpdateCall.run, UpdateStart.run] at h⟩
        returningAllowed := fun h => (h rfl).elim })
    ((Adds.text _).append ((adds_src _ t _).append (Adds.cons _ ((adds_sets t raw cols rec { d := b.lang.dialect, env := b.env, ex := ex } rfl hn).append (adds_key _ t raw key v hn _)))))
    (Flat.cons _ ((srcParts_flat _ _).append (Flat.cons _ (Flat.append (flat_listed _ _ fun c _ => Flat.cons _ (Flat.cons _ (Flat.value _))) (keyParts_flat _ _ _ _)))))
  have htg : (fun c => if isExcluded ex t.label then quoteIdentifier b.lang.dialect c else t.column b.lang.dialect c) = target b.lang t := by
    funext c
    unfold target
    by_cases hm : b.lang = .mysql
    · rw [if_pos hm, if_neg (by simp [ex, hm, excluded_nil])]
    · rw [if_neg hm, if_pos (by simp [ex, hm, excluded_self])]
  rw [htg] at h
  have ht := fun i => flat_sets b.lang (target b.lang t) i cols rec hlen
  refine ⟨h.1, h.2.1.trans ?_, h.2.2.trans ?_⟩ <;> clear h
  · unfold updateText
    generalize "UPDATE ".toList = k0
    generalize " SET ".toList = k1
    simp only [List.cons_append, List.nil_append, flat_text, flat_append, vals_src, flat_src, flat_key, List.append_assoc, List.length_nil, Nat.add_zero, (ht _).1, (ht 0).2, Nat.zero_add, List.length_map, hlen]
  · simp only [List.cons_append, List.nil_append, vals_text, vals_append, vals_src, vals_key, (ht 0).2]

/-- **C78 (storing).** `InsertInto(table).Valuesx(...)` with one `Set` per column and record. -/
theorem C78_insert (b : Builder) (t : Tab) (raw : Str → Bool) (c : Str) (cs : List Str) (recs : List (List Scalar)) (hn : t.name ≠ [])
    (ha : b.lang = .mysql → t.alias = []) (hd : c ∉ cs) (hr : recs ≠ []) (hlen : ∀ r ∈ recs, r.length = (c :: cs).length) :
    (ownSQL (insertQuery b t raw (c :: cs) recs)).status = .ok ∧
    (ownSQL (insertQuery b t raw (c :: cs) recs)).query = insertText b.lang t (c :: cs) recs.length ∧
    (ownSQL (insertQuery b t raw (c :: cs) recs)).args = recs.flatten.map .val := by
  have hdata : columnInsert Node.name (setAll t raw (c :: cs) recs) = ((c :: cs).map (t.field raw), recs.map (·.map Node.scalar)) := by
    have := C26_rectangular Node.name (t.field raw c) (cs.map (t.field raw)) (by
      intro g hg
      obtain ⟨x, hx, rfl⟩ := List.mem_map.1 hg
      show x ≠ c
      rintro rfl
      exact hd hx) (recs.map (·.map Node.scalar)) (by simpa using hr) (by
      intro r hr
      obtain ⟨x, hx, rfl⟩ := List.mem_map.1 hr
      simpa using hlen x hx)
    rw [← List.map_cons] at this
    rw [← this]
    congr 1
    simp only [setAll, mapperCalls, rowCalls, List.map_map, List.flatMap]
    rfl
  have h := own (n := insertQuery b t raw (c :: cs) recs) (l := b.lang) rfl
    (xs := [.text "INSERT INTO ".toList] ++ (srcParts b.lang.dialect t ++ (.text " (".toList :: (listed ", ".toList ((c :: cs).map fun c => [.text (quoteIdentifier b.lang.dialect c)]) ++ (.text ")".toList :: .text " VALUES ".toList :: listed ", ".toList (recs.map rowParts))))))
    (ps := [.text "INSERT INTO ".toList] ++ (source { d := b.lang.dialect, env := b.env } t.node ++ (.text " (".toList ::
        (values { d := b.lang.dialect, env := b.env, ex := [t.label] } ((c :: cs).map (t.field raw)) ++ (.text ")".toList :: .text " VALUES ".toList ::
        listed ", ".toList ((recs.map (·.map Node.scalar)).map (row { d := b.lang.dialect })))))))
    (by
      have hq : Spec.qualifier t.node = t.label := rfl
      obtain ⟨l, env⟩ := b
      cases l <;> simp [insertQuery, Chain.insert, InsertCall.run, InsertStart.run, InsertQ.node, Spec.construct, and_, with_, joined,
        ifAny, condition, number, ifTable, effEnv, Lang.dialect, insertData, hdata, supply, conflict, hq, hr])
    (show InsertNeeds _ _ t.node [] [] (setAll t raw (c :: cs) recs) .nil [] from
      { mapperWorks := fun _ => ⟨rfl, fun s hs => by
          obtain ⟨rec, _, hs⟩ := List.mem_flatMap.1 hs
          obtain ⟨c, _, hc'⟩ := List.mem_map.1 (List.of_mem_zip (show (s.1, s.2) ∈ _ from hs)).1
          rw [← hc']
          simp [Tab.field]⟩
        ignoreAllowed := fun h => by simp [Chain.insert, InsertCall.run, InsertStart.run] at h
        someTable := node_ne t
        aliasAllowed := fun h hm => h (ha (by
          obtain ⟨l, env⟩ := b
          cases l <;> simp [Lang.dialect] at hm ⊢))
        rowAliasAllowed := fun _ h => (h rfl).elim
        something := .inl (by
          show (columnInsert Node.name (setAll t raw (c :: cs) recs)).2 ≠ []
          rw [hdata]
          simpa using hr)
        constraintAllowed := fun h => (h rfl).elim
        returningAllowed := fun h => (h rfl).elim })
    ((Adds.text _).append ((adds_src _ t _).append (Adds.cons _ ((adds_columns t raw _ _ hn).append (Adds.cons _ (Adds.cons _ (adds_rows recs)))))))
    (Flat.cons _ ((srcParts_flat _ _).append (Flat.cons _ (Flat.append (flat_listed _ _ fun c _ => Flat.text _) (Flat.cons _ (Flat.cons _
      (flat_listed _ _ fun r _ => Flat.cons _ (Flat.append (flat_listed _ _ fun c _ => Flat.value _) (Flat.text _)))))))))
  have ht := fun i => flat_texts b.lang.dialect i (quoteIdentifier b.lang.dialect) (c :: cs)
  have hv := fun i => flat_rows b.lang (c :: cs).length i recs hlen
  refine ⟨h.1, h.2.1.trans ?_, h.2.2.trans ?_⟩ <;> clear h
  · unfold insertText
    generalize "INSERT INTO ".toList = k0
    generalize " (".toList = k1
    rw [show ") VALUES ".toList = ")".toList ++ " VALUES ".toList by decide +kernel]
    generalize ")".toList = k2
    generalize " VALUES ".toList = k3
    simp only [List.cons_append, List.nil_append, flat_text, flat_append, vals_src, flat_src, List.append_assoc, List.length_nil, Nat.add_zero, (ht _).1, (ht 0).2, (hv _).1, Nat.zero_add]
  · simp only [List.cons_append, List.nil_append, vals_text, vals_append, vals_src, (ht 0).2, (hv 0).2]

/-! ### Storing and reading -/

section RoundTrip
open Sq.Sending Sq.Fetching.Spec Sq.Spec.Send

variable {Ctx V : Type}

theorem reader_calls (val : Fetching.Kind → Node → V) (a : Bool) (fs : List (Fetching.Kind × Node)) (got : List V) : calls val a (reader fs got) = fs := by
  induction fs generalizing got with
  | nil => rfl
  | cons f fs ih => simp only [reader, calls, ih]

theorem reader_register (zero : Fetching.Kind → V) (fs : List (Fetching.Kind × Node)) (got : List V) (tr : List (List V)) :
    register zero (reader fs got) false tr = (.done, false, tr) := by
  induction fs generalizing got with
  | nil => rfl
  | cons f fs ih => simp only [reader, register, ih]

theorem reader_behave (val : Fetching.Kind → Node → V) (fs : List (Fetching.Kind × Node)) (got : List V) (tr : List (List V)) :
    behave val (reader fs got) false false none tr = ⟨.done, none, false, tr ++ [got ++ fs.map fun f => val f.1 f.2]⟩ := by
  induction fs generalizing got with
  | nil => simp [reader, behave]
  | cons f fs ih => simp only [reader, behave, ih, List.map_cons, List.append_assoc, List.singleton_append]

theorem reader_visit (fs : List (Fetching.Kind × Node)) (rows : List (Fetching.Kind → Node → V)) (tr : List (List V)) (n : Nat) :
    visit (fun _ => reader fs []) tr false n (rows.map some) =
      (n + rows.length, .exhausted, tr ++ rows.map fun val => fs.map fun f => val f.1 f.2) := by
  induction rows generalizing tr n with
  | nil => simp [visit]
  | cons r rows ih =>
    simp only [List.map_cons, visit, reader_behave, List.nil_append]
    rw [if_neg (by simp), ih]
    simp only [List.length_cons, List.append_assoc, List.singleton_append]
    rw [Nat.add_right_comm, Nat.add_assoc]

/-- What a mapper that reads all columns collects, when the query is answered with these columns of these rows. -/
theorem fetch_reads (D : Database) (s : D.State) (source : Logging.LogSource) (hs : source.Usable) (o : Outside V) (zero : Fetching.Kind → V)
    (conv : Fetching.Kind → Scalar → Option V) (get : Fetching.Kind → Scalar → V) (t : Tab) (raw : Str → Bool) (kind : Str → Fetching.Kind)
    (cols : List Str) (hc : cols ≠ []) (ctx : Ctx) (q q' : Node) (d : Dialect) (hd : Dial.getDialect o.own q = .ok d) (ho : Own q)
    (hq' : WithFields q (cols.map (t.field raw)) q') (hok : (toSQL d q').status = .ok) (rows : List Row)
    (hans : D.query (toSQL d q').query (toSQL d q').args s = rows.map fun r => cols.map r)
    (hconv : ∀ r ∈ rows, ∀ c ∈ cols, conv (kind c) (r c) = some (get (kind c) (r c))) :
    let f := fetch o (D.conn source s Ctx) q zero conv (reads t raw kind cols) ctx []
    f.fin = .ok ∧ f.count = rows.length ∧ f.trace = rows.map (fun r => cols.map fun c => get (kind c) (r c)) ∧ f.closed = true := by
  intro f
  let D' : List (Fetching.Kind × Node) := cols.map fun c => (kind c, t.field raw c)
  have hsnd : D'.map Prod.snd = cols.map (t.field raw) := by simp [D', List.map_map, Function.comp_def]
  let tab : List ((Node → Scalar) × Option (Fetching.Kind → Node → V)) :=
    rows.map fun r => (fun n => r n.name, some fun k n => get k (r n.name))
  have hname : ∀ c, (t.field raw c).name = c := fun _ => rfl
  have h := C75_fetch_values o (D.conn source s Ctx) q q' zero conv (reads t raw kind cols) ctx [] [] false d hd ho hs D'
    (reader_calls _ _ _ _).symm (by simpa [D'] using hc) (reader_register zero _ [] []) (by rw [hsnd]; exact hq') hok none none tab
    (by
      show Except.ok ({ rows := D.query (toSQL d q').query (toSQL d q').args s } : Fetching.Rows Scalar) = _
      rw [hans, hsnd]
      simp only [tab, List.map_map, Function.comp_def, hname])
    (by
      intro row hrow
      obtain ⟨r, hr, rfl⟩ := List.mem_map.1 hrow
      intro kf hkf
      obtain ⟨c, hc', rfl⟩ := List.mem_map.1 hkf
      exact hconv r hr c hc')
    (by
      intro row hrow val _ tr
      rw [show calls val true (reads t raw kind cols tr) = D' from reader_calls _ _ _ _]
      exact List.prefix_refl _)
  have hv := reader_visit D' (rows.map fun r k n => get k (r n.name)) ([] : List (List V)) 0
  have htab : tab.map Prod.snd = (rows.map fun r k n => get k (r (Node.name n))).map some := by
    simp only [tab, List.map_map, Function.comp_def]
  rw [htab, show (reads (V := V) t raw kind cols) = fun _ => reader D' [] from rfl, hv] at h
  obtain ⟨h1, h2, h3, h4⟩ := h
  refine ⟨h2, h1.trans (by simp), ?_, h4⟩
  rw [show f.trace = _ from h3]
  simp only [List.nil_append, List.map_map, Function.comp_def, D', hname]

/-- What `Exec` does with a query that renders. -/
theorem exec_does (D : Database) (s : D.State) (source : Logging.LogSource) (hs : source.Usable) (o : Outside V) (ctx : Ctx) (q : Node) (d : Dialect)
    (hd : Dial.getDialect o.own q = .ok d) (hok : (toSQL d q).status = .ok) :
    let r := Sending.exec o (D.conn source s Ctx) q ctx
    r.fin = .ok ∧ D.after s r.sent = (D.exec (toSQL d q).query (toSQL d q).args s).1 := by
  intro r
  have h := (C75_exec o (D.conn source s Ctx) q ctx d hd hs (by rw [hok]; exact nofun)).2 hok
  obtain ⟨h1, h2⟩ := h
  refine ⟨?_, by rw [show r.sent = _ from h1]; rfl⟩
  dsimp only [Database.conn] at h2
  split at h2 <;> exact h2.1

theorem mem_zip_map {α β : Type} (f : α → β) (l : List α) (x : α) (h : x ∈ l) : (x, f x) ∈ l.zip (l.map f) := by
  induction l with
  | nil => exact (List.not_mem_nil h).elim
  | cons y l ih =>
    rw [List.map_cons, List.zip_cons_cons, List.mem_cons]
    rcases List.mem_cons.1 h with rfl | h
    · exact .inl rfl
    · exact .inr (ih h)

theorem rec_of_row (cols : List Str) (get : Fetching.Kind → Scalar → V) (kind : Str → Fetching.Kind) (new : List Row) (recs : List (List Scalar))
    (h : new.map (fun r => cols.map r) = recs) :
    new.map (fun r => cols.map fun c => get (kind c) (r c)) = recs.map fun rec => (cols.zip rec).map fun x => get (kind x.1) x.2 := by
  subst h
  rw [List.map_map]
  refine List.map_congr_left fun r _ => ?_
  show _ = (cols.zip (cols.map r)).map _
  induction cols with
  | nil => rfl
  | cons c cs ih => simp only [List.map_cons, List.zip_cons_cons, ih]

/-- **C78.** Records that are stored are the records that are fetched.  Take a database that understands the four kinds of statements, a table, some
of its columns (with different names) and records with a value for each of these columns.  Inserting them with `Valuesx` and then fetching the columns
with a row mapper succeeds, and the mapper is given what was there before and then exactly these records: each once, in their order, every value
under its column. -/
theorem C78_stored (D : Database) (b : Builder) (t : Tab) (raw : Str → Bool) (c : Str) (cs : List Str) (key : Str)
    (hD : Understands D b.lang t (c :: cs) key) (s : D.State) (source : Logging.LogSource) (hs : source.Usable) (o : Outside V) (ctx ctx' : Ctx)
    (zero : Fetching.Kind → V) (conv : Fetching.Kind → Scalar → Option V) (get : Fetching.Kind → Scalar → V) (kind : Str → Fetching.Kind)
    (hn : t.name ≠ []) (ha : b.lang = .mysql → t.alias = []) (hd : c ∉ cs)
    (recs : List (List Scalar)) (hr : recs ≠ []) (hlen : ∀ r ∈ recs, r.length = (c :: cs).length)
    (hold : ∀ r ∈ D.rows s, ∀ x ∈ c :: cs, conv (kind x) (r x) = some (get (kind x) (r x)))
    (hnew : ∀ rec ∈ recs, ∀ x ∈ (c :: cs).zip rec, conv (kind x.1) x.2 = some (get (kind x.1) x.2)) :
    let e := Sending.exec o (D.conn source s Ctx) (insertQuery b t raw (c :: cs) recs) ctx
    let f := fetch o (D.conn source (D.after s e.sent) Ctx) (fromQuery b t) zero conv (reads t raw kind (c :: cs)) ctx' []
    e.fin = .ok ∧ f.fin = .ok ∧ f.count = (D.rows s).length + recs.length ∧
    f.trace = ((D.rows s).map fun r => (c :: cs).map fun x => get (kind x) (r x)) ++
      recs.map fun rec => ((c :: cs).zip rec).map fun x => get (kind x.1) x.2 := by
  intro e f
  obtain ⟨i1, i2, i3⟩ := C78_insert b t raw c cs recs hn ha hd hr hlen
  obtain ⟨e1, e2⟩ := exec_does D s source hs o ctx (insertQuery b t raw (c :: cs) recs) b.lang.dialect
    (by simp only [insertQuery, InsertQ.node, Dial.getDialect]; rfl) i1
  obtain ⟨new, n1, n2⟩ := hD.insert s recs hr hlen
  obtain ⟨q1, q2, q3⟩ := C78_select b t raw (c :: cs) hn (by simp)
  rw [show (toSQL b.lang.dialect (insertQuery b t raw (c :: cs) recs)).query = _ from i2,
    show (toSQL b.lang.dialect (insertQuery b t raw (c :: cs) recs)).args = _ from i3] at e2
  have hrows : D.rows (D.after s e.sent) = D.rows s ++ new := by rw [show D.after s e.sent = _ from e2]; exact n1
  have hfetch := fetch_reads D (D.after s e.sent) source hs o zero conv get t raw kind (c :: cs) (by simp) ctx' (fromQuery b t)
    (selectQuery b t raw (c :: cs)) b.lang.dialect (by simp only [fromQuery, SelectQ.node, Dial.getDialect]; rfl) trivial (.select ..) q1
    (D.rows s ++ new)
    (by
      rw [show (toSQL b.lang.dialect (selectQuery b t raw (c :: cs))).query = _ from q2,
        show (toSQL b.lang.dialect (selectQuery b t raw (c :: cs))).args = _ from q3, hD.select, hrows])
    (by
      intro r hr x hx
      rcases List.mem_append.1 hr with hr | hr
      · exact hold r hr x hx
      · have : (c :: cs).map r ∈ recs := by rw [← n2]; exact List.mem_map_of_mem hr
        have := hnew _ this (x, r x) (mem_zip_map r _ x hx)
        exact this)
  refine ⟨e1, hfetch.1, ?_, ?_⟩
  · rw [show f.count = _ from hfetch.2.1, List.length_append, ← n2, List.length_map]
  · rw [show f.trace = _ from hfetch.2.2.1, List.map_append, rec_of_row _ _ _ new recs n2]

/-- **C78 (finding).** Fetching the records with a key gives exactly those. -/
theorem C78_found (D : Database) (b : Builder) (t : Tab) (raw : Str → Bool) (cols : List Str) (key : Str) (hD : Understands D b.lang t cols key)
    (s : D.State) (source : Logging.LogSource) (hs : source.Usable) (o : Outside V) (ctx : Ctx) (zero : Fetching.Kind → V)
    (conv : Fetching.Kind → Scalar → Option V) (get : Fetching.Kind → Scalar → V) (kind : Str → Fetching.Kind)
    (hn : t.name ≠ []) (hc : cols ≠ []) (v : Scalar)
    (hconv : ∀ r ∈ D.rows s, ∀ c ∈ cols, conv (kind c) (r c) = some (get (kind c) (r c))) :
    let f := fetch o (D.conn source s Ctx) (fromKeyQuery b t raw key v) zero conv (reads t raw kind cols) ctx []
    f.fin = .ok ∧ f.trace = ((D.rows s).filter fun r => D.eq (r key) v).map fun r => cols.map fun c => get (kind c) (r c) := by
  intro f
  obtain ⟨q1, q2, q3⟩ := C78_select_key b t raw cols key v hn hc
  have h := fetch_reads D s source hs o zero conv get t raw kind cols hc ctx (fromKeyQuery b t raw key v)
    (selectKeyQuery b t raw cols key v) b.lang.dialect (by simp only [fromKeyQuery, SelectQ.node, Dial.getDialect]; rfl) trivial (.select ..) q1
    ((D.rows s).filter fun r => D.eq (r key) v)
    (by
      rw [show (toSQL b.lang.dialect (selectKeyQuery b t raw cols key v)).query = _ from q2,
        show (toSQL b.lang.dialect (selectKeyQuery b t raw cols key v)).args = _ from q3, hD.selectKey])
    (fun r hr => hconv r (List.mem_filter.1 hr).1)
  exact ⟨h.1, h.2.2.1⟩

/-- **C78 (changing and removing).** `Update(...).Setx(...).Where(key.Eq(v))` changes exactly the records with that key, to the given values, and
`DeleteFrom(...).Where(key.Eq(v))` removes exactly these; everything else stays as it is. -/
theorem C78_changed (D : Database) (b : Builder) (t : Tab) (raw : Str → Bool) (cols : List Str) (key : Str) (hD : Understands D b.lang t cols key)
    (s : D.State) (source : Logging.LogSource) (hs : source.Usable) (o : Outside V) (ctx : Ctx) (hn : t.name ≠ []) (hc : cols ≠ [])
    (rec : List Scalar) (hlen : rec.length = cols.length) (v : Scalar) :
    (let e := Sending.exec o (D.conn source s Ctx) (updateQuery b t raw cols rec key v) ctx
     e.fin = .ok ∧ D.rows (D.after s e.sent) = (D.rows s).map fun r => if D.eq (r key) v then Row.set r (cols.zip rec) else r) ∧
    (let e := Sending.exec o (D.conn source s Ctx) (deleteQuery b t raw key v) ctx
     e.fin = .ok ∧ D.rows (D.after s e.sent) = (D.rows s).filter fun r => !D.eq (r key) v) := by
  refine ⟨?_, ?_⟩
  · intro e
    obtain ⟨i1, i2, i3⟩ := C78_update b t raw cols rec key v hn hc hlen
    obtain ⟨e1, e2⟩ := exec_does D s source hs o ctx (updateQuery b t raw cols rec key v) b.lang.dialect
      (by simp only [updateQuery, UpdateQ.node, Dial.getDialect]; rfl) i1
    rw [show (toSQL b.lang.dialect (updateQuery b t raw cols rec key v)).query = _ from i2,
      show (toSQL b.lang.dialect (updateQuery b t raw cols rec key v)).args = _ from i3] at e2
    exact ⟨e1, by rw [show D.after s e.sent = _ from e2]; exact hD.update s rec v hlen⟩
  · intro e
    obtain ⟨i1, i2, i3⟩ := C78_delete b t raw key v hn
    obtain ⟨e1, e2⟩ := exec_does D s source hs o ctx (deleteQuery b t raw key v) b.lang.dialect
      (by simp only [deleteQuery, DeleteQ.node, Dial.getDialect]; rfl) i1
    rw [show (toSQL b.lang.dialect (deleteQuery b t raw key v)).query = _ from i2,
      show (toSQL b.lang.dialect (deleteQuery b t raw key v)).args = _ from i3] at e2
    exact ⟨e1, by rw [show D.after s e.sent = _ from e2]; exact hD.delete s v⟩

/-! ### A database that understands the statements -/

/-- The values of arguments. -/
def scalars (args : List Arg) : List Scalar := args.filterMap fun | .val v => some v | _ => none

theorem scalars_vals (vs : List Scalar) : scalars (vs.map .val) = vs := by
  induction vs with
  | nil => rfl
  | cons v vs ih => simp only [scalars, List.map_cons, List.filterMap_cons] at ih ⊢; rw [ih]

/-- Cuts a list into pieces of length `k + 1`. -/
def pieces {α : Type} (k : Nat) : Nat → List α → List (List α)
  | 0, _ => []
  | n + 1, xs => xs.take (k + 1) :: pieces k n (xs.drop (k + 1))

theorem pieces_flatten {α : Type} (k : Nat) (xss : List (List α)) (h : ∀ xs ∈ xss, xs.length = k + 1) : pieces k xss.length xss.flatten = xss := by
  induction xss with
  | nil => rfl
  | cons x xss ih =>
    have hx := h x (List.mem_cons_self ..)
    simp only [List.length_cons, pieces, List.flatten_cons]
    rw [← hx, List.take_left, List.drop_left, ih fun y hy => h y (List.mem_cons_of_mem _ hy)]

/-- One table in memory.  It looks at the first letter of a statement only, and at its arguments. -/
def memoryExec (cols : List Str) (key : Str) (text : Str) (args : List Arg) (s : List Row) : List Row :=
  match text.head? with
  | some 'I' => s ++ (pieces (cols.length - 1) ((scalars args).length / cols.length) (scalars args)).map fun rec => Row.set (fun _ => .nil) (cols.zip rec)
  | some 'U' => s.map fun r => if decide (r key = (scalars args).getLastD .nil) then Row.set r (cols.zip (scalars args).dropLast) else r
  | _ => s.filter fun r => !decide (r key = (scalars args).getLastD .nil)

def memory (cols : List Str) (key : Str) : Database :=
  { State := List Row
    exec := fun text args s => (memoryExec cols key text args s, 0, 0)
    query := fun _ args s => match args with
      | [.val v] => (s.filter fun r => decide (r key = v)).map fun r => cols.map r
      | _ => s.map fun r => cols.map r
    rows := id
    eq := fun x y => decide (x = y) }

theorem map_set (cols : List Str) (hd : cols.Nodup) (rec : List Scalar) (h : rec.length = cols.length) (r : Row) :
    cols.map (Row.set r (cols.zip rec)) = rec := by
  induction cols generalizing rec with
  | nil => cases rec with
    | nil => rfl
    | cons => simp at h
  | cons c cs ih => cases rec with
    | nil => simp at h
    | cons v vs =>
      obtain ⟨h1, h2⟩ := List.nodup_cons.1 hd
      have h3 : cs.map (Row.set r ((c, v) :: cs.zip vs)) = cs.map (Row.set r (cs.zip vs)) := by
        refine List.map_congr_left fun x hx => ?_
        have : (x == c) = false := by
          rw [beq_eq_false_iff_ne]
          rintro rfl
          exact h1 hx
        simp only [Row.set, List.lookup_cons, this]
      rw [List.zip_cons_cons, List.map_cons, h3, ih h2 vs (by simpa using h)]
      simp [Row.set, List.lookup_cons]

/-- The hypothesis of the theorems is met: there is a database that understands the statements, whatever the table and the columns. -/
theorem memory_understands (l : Lang) (t : Tab) (c : Str) (cs : List Str) (hd : (c :: cs).Nodup) (key : Str) :
    Understands (memory (c :: cs) key) l t (c :: cs) key where
  insert := by
    intro (s : List Row) recs hr hlen
    refine ⟨recs.map fun rec => Row.set (fun _ => .nil) ((c :: cs).zip rec), ?_, ?_⟩
    · have hh : (insertText l t (c :: cs) recs.length).head? = some 'I' := by
        unfold insertText
        rw [show "INSERT INTO ".toList = 'I' :: "NSERT INTO ".toList by decide +kernel]
        rfl
      have hn : recs.flatten.length / (c :: cs).length = recs.length := by
        have : recs.flatten.length = recs.length * (c :: cs).length := by
          clear hr hh
          induction recs with
          | nil => simp
          | cons r rs ih =>
            rw [List.flatten_cons, List.length_append, ih fun x hx => hlen x (List.mem_cons_of_mem _ hx), hlen r (List.mem_cons_self ..),
              List.length_cons (as := rs), Nat.add_mul, Nat.one_mul, Nat.add_comm]
        rw [this, Nat.mul_div_cancel _ (by simp)]
      show memoryExec (c :: cs) key (insertText l t (c :: cs) recs.length) (recs.flatten.map .val) s = s ++ recs.map fun rec => Row.set (fun _ => .nil) ((c :: cs).zip rec)
      unfold memoryExec
      rw [hh]
      rw [scalars_vals, hn, show (c :: cs).length - 1 = cs.length by simp, pieces_flatten _ _ (by simpa using hlen)]
      rfl
    · rw [List.map_map]
      conv => rhs; rw [← List.map_id recs]
      refine List.map_congr_left fun rec hrec => ?_
      exact map_set _ hd rec (hlen rec hrec) _
  select := fun s => rfl
  selectKey := fun s v => rfl
  update := by
    intro (s : List Row) rec v hlen
    have hh : (updateText l t (c :: cs) key).head? = some 'U' := by
      unfold updateText
      rw [show "UPDATE ".toList = 'U' :: "PDATE ".toList by decide +kernel]
      rfl
    show memoryExec (c :: cs) key (updateText l t (c :: cs) key) (rec.map .val ++ [.val v]) s =
      s.map fun r => if decide (r key = v) then Row.set r ((c :: cs).zip rec) else r
    unfold memoryExec
    rw [hh]
    rw [show rec.map Arg.val ++ [.val v] = (rec ++ [v]).map .val by simp, scalars_vals, List.dropLast_concat,
      show (rec ++ [v]).getLastD .nil = v by simp]
    rfl
  delete := by
    intro (s : List Row) v
    have hh : (deleteText l t key).head? = some 'D' := by
      unfold deleteText
      rw [show "DELETE FROM ".toList = 'D' :: "ELETE FROM ".toList by decide +kernel]
      rfl
    show memoryExec (c :: cs) key (deleteText l t key) [.val v] s = _
    unfold memoryExec
    rw [hh]
    rfl

/-- An example: two records stored in a table that has one already. -/
def people : Tab := { schema := [], name := "people".toList, alias := [] }

def anybody : Row := fun c => if c = "id".toList then .int 1 else .str "ann".toList

example :
    let o : Outside Scalar := { value := { verb := .insert, goType := some .postgres, env := 0 }, own := fun _ => .other, getFields := fun _ => .err []
                                setFields := fun _ _ => .err [], name := fun _ => ([], .ok []), show_ := fun _ => .ok [] }
    let D := memory ["id".toList, "name".toList] "id".toList
    let b : Builder := { lang := .postgres, env := none }
    let recs := [[.int 2, .str "bob".toList], [.int 3, .nil]]
    let e := Sending.exec o (D.conn .noLogger [anybody] Unit) (insertQuery b people (fun _ => false) ["id".toList, "name".toList] recs) ()
    let f := fetch o (D.conn .noLogger (D.after [anybody] e.sent) Unit) (fromQuery b people) (fun _ => Scalar.nil) (fun _ v => some v)
      (reads people (fun _ => false) (fun _ => .custom 0) ["id".toList, "name".toList]) () []
    e.sent = some ((), "INSERT INTO people (id, name) VALUES ($1, $2), ($3, $4)".toList,
      [.val (.int 2), .val (.str "bob".toList), .val (.int 3), .val .nil]) ∧
    f.trace = [[.int 1, .str "ann".toList], [.int 2, .str "bob".toList], [.int 3, .nil]] := by
  decide +kernel

end RoundTrip

end Sq.Storing
