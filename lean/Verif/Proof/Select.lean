import Verif.Spec.Select
import Verif.Proof.Where
/-
How SELECT statements with joins, conditions, ordering and paging are written, and how the text is read back (for C81).
-/
namespace Sq.Asking
open Sq Sq.Spec Sq.Chain Sq.Exprs Sq.Exprs.Writing Sq.Spec.Store Sq.Spec.Where Sq.Spec.Sel Sq.Choosing
open Sq.Storing hiding pieces
open _root_.Spec (Tok tokens BTok BExp readBool identClose isBareIdent)
open Ddl (Ends Breaks nameTok tokens_ident tokens_append_ends tokens_append_breaks ends_append_breaks tokens_of_ends tokens_word ends_append)

/-! ### Pieces of a statement -/

/-- From the `i`-th on, the arguments are these. -/
def HasArgs (args : List Arg) (i : Nat) (vs : List Arg) : Prop := ∀ k v, vs[k]? = some v → args[i + k]? = some v

theorem HasArgs.append {args : List Arg} {i : Nat} {a b : List Arg} (h : HasArgs args i (a ++ b)) : HasArgs args i a ∧ HasArgs args (i + a.length) b := by
  refine ⟨fun k v hk => h k v ?_, fun k v hk => ?_⟩
  · rw [List.getElem?_append_left (by
      rcases Nat.lt_or_ge k a.length with h | h
      · exact h
      · rw [List.getElem?_eq_none h] at hk; cases hk)]
    exact hk
  · rw [Nat.add_assoc]
    refine h _ v ?_
    rw [List.getElem?_append_right (by omega)]
    simpa using hk

theorem HasArgs.vals {args : List Arg} {i : Nat} {vs : List Scalar} (h : HasArgs args i (vs.map .val)) : Has args i vs :=
  fun k v hk => h k (.val v) (by simp [hk])

/-- Text and values that are read as `Y`. -/
structure Piece (l : Lang) (xs : List Part) (Y : List Lex) : Prop where
  flat : Flat xs
  read : ∀ args i, HasArgs args i (vals xs) →
    ∃ T, tokens (lexing l) (Storing.flat l.dialect i xs) = some T ∧ Turns l args i T Y (i + (vals xs).length)

/-- Nothing, or begins with a character that ends a word. -/
def Sep (l : Lang) (xs : List Part) : Prop := ∀ i, Breaks (Storing.flat l.dialect i xs)

theorem Sep.text (l : Lang) {c : Char} {t : Str} (h : Ddl.isBreak c = true) (xs : List Part) : Sep l (.text (c :: t) :: xs) := fun i =>
  breaks_cons (c := c) (cs := t ++ Storing.flat l.dialect i xs) h
theorem Sep.nil (l : Lang) : Sep l [] := fun _ => .inl rfl

theorem Piece.nil (l : Lang) : Piece l [] [] :=
  ⟨Flat.nil, fun args i _ => ⟨[], rfl, Turns.plain l args i [] (by simp)⟩⟩

theorem Piece.append {l : Lang} {xs ys : List Part} {Y Z : List Lex} (h : Piece l xs Y) (k : Piece l ys Z) (hs : Sep l ys) : Piece l (xs ++ ys) (Y ++ Z) := by
  refine ⟨h.flat.append k.flat, fun args i ha => ?_⟩
  rw [vals_append] at ha
  obtain ⟨T, t1, t2⟩ := h.read args i ha.append.1
  obtain ⟨U, u1, u2⟩ := k.read args _ ha.append.2
  refine ⟨T ++ U, ?_, ?_⟩
  · rw [flat_append]
    exact tokens_append_breaks t1 u1 (hs _)
  · rw [vals_append, List.length_append, ← Nat.add_assoc]
    exact t2.comp u2

theorem Piece.kw {l : Lang} {kw : Str} {K : List Tok} {ys : List Part} {Z : List Lex} (h : Ends (lexing l) kw K) (hK : ∀ x ∈ K, Plain x) (k : Piece l ys Z) :
    Piece l (.text kw :: ys) (K.map .tok ++ Z) := by
  refine ⟨Flat.cons _ k.flat, fun args i ha => ?_⟩
  obtain ⟨U, u1, u2⟩ := k.read args i ha
  exact ⟨K ++ U, tokens_append_ends h u1, (Turns.plain l args i K hK).comp u2⟩

theorem Piece.text {l : Lang} {t : Str} {K : List Tok} (h : tokens (lexing l) t = some K) (hK : ∀ x ∈ K, Plain x) : Piece l [.text t] (K.map .tok) := by
  refine ⟨Flat.text t, fun args i ha => ⟨K, ?_, Turns.plain l args i K hK⟩⟩
  show tokens (lexing l) (t ++ []) = _
  rw [List.append_nil]
  exact h

theorem Piece.value (l : Lang) (v : Scalar) : Piece l [.value (.val v)] [.val v] := by
  refine ⟨Flat.value _, fun args i ha => ⟨slotT l (i + 1), ?_, Turns.slot l args i v (ha 0 _ rfl)⟩⟩
  show tokens (lexing l) (ph l.dialect (i + 1) ++ []) = _
  rw [List.append_nil, slot_ph]
  exact tokens_slot l (i + 1)

/-- Adjacent texts are one text. -/
theorem Piece.split {l : Lang} {a b : Str} {xs : List Part} {Y : List Lex} (h : Piece l (.text (a ++ b) :: xs) Y) : Piece l (.text a :: .text b :: xs) Y := by
  refine ⟨Flat.cons _ (Flat.cons _ fun p hp => h.flat p (List.mem_cons_of_mem _ hp)), fun args i ha => ?_⟩
  obtain ⟨T, t1, t2⟩ := h.read args i ha
  refine ⟨T, ?_, t2⟩
  rw [← t1]
  show tokens (lexing l) (a ++ (b ++ _)) = tokens (lexing l) (a ++ b ++ _)
  rw [List.append_assoc]

/-- Lists, separated by commas. -/
def commaL : List (List Lex) → List Lex
  | [] => []
  | [x] => x
  | x :: y :: ys => x ++ .tok (.sym ',') :: commaL (y :: ys)

theorem Piece.listed {l : Lang} {α : Type} (g : α → List Part) (h : α → List Lex) (xs : List α) (k : ∀ x ∈ xs, Piece l (g x) (h x)) :
    Piece l (listed ", ".toList (xs.map g)) (commaL (xs.map h)) := by
  induction xs with
  | nil => exact Piece.nil l
  | cons x xs ih =>
    have ih := ih fun y hy => k y (List.mem_cons_of_mem _ hy)
    cases xs with
    | nil => exact k x (List.mem_cons_self ..)
    | cons y ys =>
      have h1 : Ends (lexing l) ", ".toList [.sym ','] := by cases l <;> decide +kernel
      exact (k x (List.mem_cons_self ..)).append (Piece.kw h1 (by simp [Choosing.Plain]) ih) (Sep.text l (c := ',') (t := [' ']) (by decide) _)

/-- The clause of conditions. -/
theorem Piece.clause (l : Lang) (ts : List (BTok (Test Node))) (h : Adj ts) : Piece l (ts.flatMap (tokParts l.dialect)) (ts.flatMap (tokL l)) := by
  refine ⟨clause_flat _ _, fun args i ha => ⟨clauseT l i ts, tokens_clause l ts i h, ?_⟩⟩
  rw [vals_clause] at ha ⊢
  rw [List.length_map]
  exact turns_clause l args ts i ha.vals

/-! ### Tables -/

def refT (l : Lang) (t : Tab) : List Tok :=
  (if t.schema = [] then [] else [nameT l t.schema, .sym '.']) ++ [nameT l t.name] ++ (if t.alias = [] then [] else [.word "AS".toList, nameT l t.alias])

theorem tokens_ref (l : Lang) (t : Tab) : tokens (lexing l) (t.source l.dialect) = some (refT l t) := by
  have h0 : tokens (lexing l) (t.text l.dialect) = some ((if t.schema = [] then [] else [nameT l t.schema, .sym '.']) ++ [nameT l t.name]) := by
    unfold Tab.text
    rw [quote_lexing, quote_lexing]
    by_cases hs : t.schema = []
    · rw [if_pos hs, if_pos hs]
      exact tokens_ident (lexing l) t.name
    · rw [if_neg hs, if_neg hs]
      have h1 : Ends (lexing l) ".".toList [.sym '.'] := by cases l <;> decide +kernel
      have h2 := ends_append_breaks (tokens_ident (lexing l) t.schema) h1 (breaks_cons (c := '.') (cs := []) (by decide)) (by decide)
      exact tokens_append_ends h2 (tokens_ident (lexing l) t.name)
  unfold Tab.source refT
  by_cases ha : t.alias = []
  · rw [if_pos ha, if_pos ha, List.append_nil, List.append_nil]
    exact h0
  · rw [if_neg ha, if_neg ha, quote_lexing]
    have h1 : Ends (lexing l) " AS ".toList [.word "AS".toList] := by cases l <;> decide +kernel
    exact tokens_append_breaks h0 (tokens_append_ends h1 (tokens_ident (lexing l) t.alias)) (breaks_cons (c := ' ') (by decide))

theorem Piece.source (l : Lang) (t : Tab) : Piece l (srcParts l.dialect t) ((refT l t).map .tok) := by
  refine ⟨srcParts_flat _ _, fun args i ha => ⟨refT l t, ?_, Turns.plain l args i _ ?_⟩⟩
  · rw [flat_src]
    exact tokens_ref l t
  · intro x hx
    simp only [refT, List.mem_append, List.mem_singleton] at hx
    rcases hx with (hx | rfl) | hx
    · split at hx
      · cases hx
      · simp only [List.mem_cons, List.not_mem_nil, or_false] at hx
        rcases hx with rfl | rfl
        · exact plain_name ..
        · exact ⟨by decide, by decide⟩
    · exact plain_name ..
    · split at hx
      · cases hx
      · simp only [List.mem_cons, List.not_mem_nil, or_false] at hx
        rcases hx with rfl | rfl
        · trivial
        · exact plain_name ..

theorem ref_read (l : Lang) (t : Tab) (h : Named l.dialect t) : ref? l.dialect ((refT l t).map .tok) = some ⟨t.schema, t.name, t.label⟩ := by
  have hn := (name_read (κ := Unit) l _ h.name).1
  have ha : ∀ s, alias? l.dialect s t.name (((if t.alias = [] then [] else [.word "AS".toList, nameT l t.alias]) : List Tok).map .tok) = some ⟨s, t.name, t.label⟩ := by
    intro s
    have hl := h.label
    unfold Tab.label at hl ⊢
    by_cases e : t.alias = []
    · simp [e, alias?]
    · rw [if_neg e] at hl ⊢
      rw [if_neg e]
      show (if upper "AS".toList = "AS".toList then (name? l.dialect (nameT l t.alias)).map fun a => (⟨s, t.name, a⟩ : Ref) else none) = _
      rw [if_pos (by decide +kernel), (name_read (κ := Unit) l _ hl).1]
      rfl
  unfold refT
  rw [List.map_append, List.map_append]
  generalize ((if t.alias = [] then [] else [.word "AS".toList, nameT l t.alias]) : List Tok).map Lex.tok = R at ha
  by_cases hs : t.schema = []
  · rw [if_pos hs]
    have h0 := ha []
    rw [hs]
    show ref? l.dialect (.tok (nameT l t.name) :: R) = _
    unfold ref?
    split
    · rename_i he
      simp only [List.cons.injEq, Lex.tok.injEq] at he
      exfalso
      rw [he.2] at h0
      simp [alias?] at h0
    · rename_i he
      simp only [List.cons.injEq, Lex.tok.injEq] at he
      obtain ⟨rfl, rfl⟩ := he
      rw [hn, Option.bind_some, h0]
    · rename_i he; exact absurd rfl (he _ _)
  · rw [if_neg hs]
    show ref? l.dialect (.tok (nameT l t.schema) :: .tok (.sym '.') :: .tok (nameT l t.name) :: R) = _
    show (name? l.dialect (nameT l t.schema)).bind (fun s => (name? l.dialect (nameT l t.name)).bind fun x => alias? l.dialect s x R) = _
    rw [hn, (name_read (κ := Unit) l _ h.schema).1, Option.bind_some, Option.bind_some, ha]

/-! ### Columns and sorting -/

/-- A field is a column. -/
theorem field_col (raw : Field → Bool) (c : Field) (h : c.tab.name ≠ []) : IsCol (c.node raw) := ⟨c.tab, fun _ => raw c, c.name, h, rfl⟩
theorem field_label (raw : Field → Bool) (c : Field) : labelOf (c.node raw) = c.tab.label ∧ (c.node raw).name = c.name := ⟨rfl, rfl⟩

/-- The column that a field is read as. -/
def colOf (n : Node) : Sel.Col := ⟨labelOf n, n.name⟩

theorem at_colOf (raw : Field → Bool) (w : World) : (fun c => w.at (colOf (c.node raw))) = Field.value w := rfl

theorem canRead {l : Lang} {labels : List Str} (hl : ∀ x ∈ labels, Readable l.dialect x) {c : Field} (h : InScope l.dialect labels c) (raw : Field → Bool) :
    CanRead l (scope labels) colOf (c.node raw) where
  label := hl _ h.2.1
  name := h.2.2
  scope := by
    show (if c.tab.label ∈ labels then some (colOf (c.node raw)) else none) = _
    rw [if_pos h.2.1]

theorem Piece.column (l : Lang) (c : Node) : Piece l [.text (colText l.dialect c)] (colL l c) :=
  Piece.text (tokens_column l c) (by
    intro x hx
    simp only [colT, List.mem_cons, List.not_mem_nil, or_false] at hx
    rcases hx with rfl | rfl | rfl
    · exact plain_name ..
    · exact ⟨by decide, by decide⟩
    · exact plain_name ..)

theorem col_read (l : Lang) (labels : List Str) (hl : ∀ x ∈ labels, Readable l.dialect x) (c : Field) (h : InScope l.dialect labels c) (raw : Field → Bool) :
    col? l.dialect labels (colL l (c.node raw)) = some (colOf (c.node raw)) := by
  unfold col?
  have := column_read l (scope labels) colOf _ (canRead hl h raw) []
  rw [List.append_nil] at this
  rw [this]

def ascText : Option Bool → Str
  | none => [] | some true => " DESC".toList | some false => " ASC".toList
def nullsText : Option Bool → Str
  | none => [] | some true => " NULLS FIRST".toList | some false => " NULLS LAST".toList
def suffix (k : Sorting) : Str := ascText k.desc ++ nullsText k.nullsFirst
def ascT : Option Bool → List Tok
  | none => [] | some true => [.word "DESC".toList] | some false => [.word "ASC".toList]
def nullsT : Option Bool → List Tok
  | none => [] | some true => [.word "NULLS".toList, .word "FIRST".toList] | some false => [.word "NULLS".toList, .word "LAST".toList]
def suffixT (k : Sorting) : List Tok := ascT k.desc ++ nullsT k.nullsFirst

theorem adds_sorting {d : Dialect} (raw : Field → Bool) (k : Sorting) (m : Mode) (hm : m.d = d) (hx : m.ex = []) (hn : k.col.tab.name ≠ []) :
    Adds d [.placed (k.node raw) m] [.text (colText d (k.col.node raw)), .text (suffix k)] := by
  subst hm
  have hl : k.col.tab.label ≠ [] := by
    unfold Tab.label
    split <;> assumption
  have hcol : ∀ m' : Mode, m'.d = m.d → m'.ex = m.ex →
      columnName m' { tableName := k.col.tab.name, tableAlias := k.col.tab.alias, name := k.col.name, desc := k.desc, nullsFirst := k.nullsFirst } =
        colText m.d (k.col.node raw) := by
    intro m' h1 h2
    unfold columnName
    simp only [h1, h2, hx]
    show (if k.col.tab.label = [] ∨ isExcluded [] k.col.tab.label = true then [] else quoteIdentifier m.d k.col.tab.label ++ ".".toList) ++ quoteIdentifier m.d k.col.name = _
    rw [if_neg (by simp [hl, excluded_nil])]
    rfl
  have hr : ren (k.node raw) m [] = { code := [.text (colText m.d (k.col.node raw)), .text (suffix k)], st := .ok } := by
    unfold Sorting.node
    rw [ren]
    simp only [fieldInfoAppend, ne_eq, not_true_eq_false, if_false, W.when, W.seq, W.ok, W.wr, objs, List.map_nil]
    rw [hcol _ (by split <;> rfl) (by split <;> rfl)]
    have hs : fieldSuffix m.d { tableName := k.col.tab.name, tableAlias := k.col.tab.alias, name := k.col.name, desc := k.desc, nullsFirst := k.nullsFirst } = suffix k := by
      obtain ⟨c, d, n⟩ := k
      rcases d with _ | _ | _ <;> rcases n with _ | _ | _ <;> rfl
    have hs' : ∀ m' : Mode, m'.d = m.d → fieldSuffix m'.d { tableName := k.col.tab.name, tableAlias := k.col.tab.alias, name := k.col.name, desc := k.desc, nullsFirst := k.nullsFirst } = suffix k := by
      intro m' h
      rw [h, hs]
    rw [hs' _ (by split <;> rfl)]
    rfl
  refine ⟨fun k' m' hk => ?_, fun s u hst => ?_⟩
  · simp only [List.mem_singleton, Part.placed.injEq] at hk
    rw [hk.1, hk.2]
    show (ren (k.node raw) m []).st = .ok
    rw [hr]
  · have h2 := ((Adds.text (d := m.d) (colText m.d (k.col.node raw))).append (Adds.text (suffix k))).eq s u hst
    refine Same.trans ?_ h2
    show Same m.d (exec m.d (ren (k.node raw) m []).code s) _
    rw [hr, same_iff]
    simp [exec, exec1, appendParts, Part.append, bufString, Piece.str]

theorem adds_col {d : Dialect} (raw : Field → Bool) (c : Field) (m : Mode) (hm : m.d = d) (hx : m.ex = []) (hn : c.tab.name ≠ []) :
    Adds d [.placed (c.node raw) m] [.text (colText d (c.node raw))] := by
  have hf := Adds.field (d := d) c.tab (fun _ => raw c) c.name m hm hn
  rw [hx, show isExcluded [] c.tab.label = false from excluded_nil _] at hf
  exact hf

theorem tokens_suffix (l : Lang) (k : Sorting) : tokens (lexing l) (suffix k) = some (suffixT k) ∧ Breaks (suffix k) ∧ ∀ x ∈ suffixT k, Choosing.Plain x := by
  have h1 : ∀ d n, tokens (lexing l) (ascText d ++ nullsText n) = some (ascT d ++ nullsT n) := by
    intro d n
    rcases d with _ | _ | _ <;> rcases n with _ | _ | _ <;> cases l <;> decide +kernel
  refine ⟨h1 _ _, ?_, ?_⟩
  · obtain ⟨c, d, n⟩ := k
    rcases d with _ | _ | _ <;> rcases n with _ | _ | _ <;> first | exact .inl rfl | exact breaks_cons (c := ' ') (by decide)
  · obtain ⟨c, d, n⟩ := k
    rcases d with _ | _ | _ <;> rcases n with _ | _ | _ <;> simp [suffixT, ascT, nullsT, Choosing.Plain]

def keyL (l : Lang) (raw : Field → Bool) (k : Sorting) : List Lex := colL l (k.col.node raw) ++ (suffixT k).map .tok

theorem Piece.key (l : Lang) (raw : Field → Bool) (k : Sorting) :
    Piece l [.text (colText l.dialect (k.col.node raw)), .text (suffix k)] (keyL l raw k) := by
  obtain ⟨h1, h2, h3⟩ := tokens_suffix l k
  exact (Piece.column l _).append (Piece.text h1 h3) fun i => by
    show Breaks (suffix k ++ [])
    rw [List.append_nil]
    exact h2

theorem key_read (l : Lang) (labels : List Str) (hl : ∀ x ∈ labels, Readable l.dialect x) (raw : Field → Bool) (k : Sorting) (h : InScope l.dialect labels k.col)
    (hm : l = .mysql → k.nullsFirst = none) : key? l labels (keyL l raw k) = some k.key := by
  unfold key? keyL
  rw [column_read l (scope labels) colOf _ (canRead hl h raw), Option.bind_some]
  have hn : ∀ (x : Str), l ≠ .mysql → nulls? l [.tok (.word "NULLS".toList), .tok (.word x)] =
      if upper x = "FIRST".toList then some (some true) else if upper x = "LAST".toList then some (some false) else none := by
    intro x hl
    unfold nulls?
    simp only
    rw [if_pos ⟨hl, by decide +kernel⟩]
  obtain ⟨c, d, n⟩ := k
  have hasc : upper "ASC".toList = "ASC".toList := by decide +kernel
  have hdesc : upper "DESC".toList ≠ "ASC".toList ∧ upper "DESC".toList = "DESC".toList := by decide +kernel
  have hnul : upper "NULLS".toList ≠ "ASC".toList ∧ upper "NULLS".toList ≠ "DESC".toList := by decide +kernel
  have hf : upper "FIRST".toList = "FIRST".toList := by decide +kernel
  have hla : upper "LAST".toList ≠ "FIRST".toList ∧ upper "LAST".toList = "LAST".toList := by decide +kernel
  simp only at hm
  rcases n with _ | n
  · rcases d with _ | _ | _
    · rfl
    · simp only [suffixT, ascT, nullsT, List.append_nil, List.map_cons, List.map_nil]
      rw [if_pos hasc]
      rfl
    · simp only [suffixT, ascT, nullsT, List.append_nil, List.map_cons, List.map_nil]
      rw [if_neg hdesc.1, if_pos hdesc.2]
      rfl
  · have hne : l ≠ .mysql := fun e => by cases hm e
    have hn := fun x => hn x hne
    have hff := hn "FIRST".toList
    rw [if_pos hf] at hff
    have hll := hn "LAST".toList
    rw [if_neg hla.1, if_pos hla.2] at hll
    rcases d with _ | _ | _ <;> rcases n with _ | _ <;> simp only [suffixT, ascT, nullsT, List.nil_append, List.map_cons, List.map_nil, List.cons_append]
    · rw [if_neg hnul.1, if_neg hnul.2, hll]; rfl
    · rw [if_neg hnul.1, if_neg hnul.2, hff]; rfl
    · rw [if_pos hasc, hll]; rfl
    · rw [if_pos hasc, hff]; rfl
    · rw [if_neg hdesc.1, if_pos hdesc.2, hll]; rfl
    · rw [if_neg hdesc.1, if_pos hdesc.2, hff]; rfl

/-! ### Lists -/

def NoComma (x : List Lex) : Prop := .tok (.sym ',') ∉ x

theorem pieces_ne (xs : List Lex) : pieces xs ≠ [] := by
  cases xs with
  | nil => simp [pieces]
  | cons x xs =>
    simp only [pieces]
    split
    · simp
    · split <;> simp

theorem pieces_one (x : List Lex) (h : NoComma x) : pieces x = [x] := by
  induction x with
  | nil => rfl
  | cons y x ih =>
    have hy : y ≠ .tok (.sym ',') := fun e => h (e ▸ List.mem_cons_self ..)
    simp only [pieces]
    rw [if_neg hy, ih fun hm => h (List.mem_cons_of_mem _ hm)]

theorem pieces_more (x r : List Lex) (h : NoComma x) : pieces (x ++ .tok (.sym ',') :: r) = x :: pieces r := by
  induction x with
  | nil => simp [pieces]
  | cons y x ih =>
    have hy : y ≠ .tok (.sym ',') := fun e => h (e ▸ List.mem_cons_self ..)
    simp only [List.cons_append, pieces]
    rw [if_neg hy, ih fun hm => h (List.mem_cons_of_mem _ hm)]

theorem pieces_comma (xs : List (List Lex)) (hne : xs ≠ []) (h : ∀ x ∈ xs, NoComma x) : pieces (commaL xs) = xs := by
  induction xs with
  | nil => exact absurd rfl hne
  | cons x xs ih =>
    cases xs with
    | nil => exact pieces_one x (h x (List.mem_cons_self ..))
    | cons y ys =>
      show pieces (x ++ .tok (.sym ',') :: commaL (y :: ys)) = _
      rw [pieces_more _ _ (h x (List.mem_cons_self ..)), ih (by simp) fun z hz => h z (List.mem_cons_of_mem _ hz)]

theorem every_map {α β γ : Type} (f : β → Option γ) (g : α → β) (h : α → γ) (xs : List α) (k : ∀ x ∈ xs, f (g x) = some (h x)) :
    every f (xs.map g) = some (xs.map h) := by
  induction xs with
  | nil => rfl
  | cons x xs ih =>
    simp only [List.map_cons, every]
    rw [k x (List.mem_cons_self ..), Option.bind_some, ih fun y hy => k y (List.mem_cons_of_mem _ hy)]
    rfl

theorem nameT_sym (l : Lang) (x : Str) (c : Char) : nameT l x ≠ .sym c := by
  rcases name_cases l x with h | ⟨y, h⟩ <;> rw [h] <;> simp

theorem noComma_col (l : Lang) (c : Node) : NoComma (colL l c) := by
  simp [NoComma, colL, colT, (nameT_sym l _ _).symm]

theorem noComma_key (l : Lang) (raw : Field → Bool) (k : Sorting) : NoComma (keyL l raw k) := by
  unfold NoComma keyL
  rw [List.mem_append]
  rintro (h | h)
  · exact noComma_col l _ h
  · obtain ⟨c, d, n⟩ := k
    rcases d with _ | _ | _ <;> rcases n with _ | _ | _ <;> simp [suffixT, ascT, nullsT] at h

/-! ### Clauses -/

/-- No word that begins a clause. -/
def NoWord (xs : List Lex) : Prop := ∀ x ∈ xs, clauseWord x = none

def wordText : Word → Str
  | .from_ => "FROM".toList | .join => "JOIN".toList | .left => "LEFT".toList | .right => "RIGHT".toList | .full => "FULL".toList
  | .cross => "CROSS".toList | .on => "ON".toList | .where_ => "WHERE".toList | .order => "ORDER".toList | .limit => "LIMIT".toList
  | .offset => "OFFSET".toList | .set_ => "SET".toList | .using_ => "USING".toList | .group => "GROUP".toList
  | .having => "HAVING".toList

theorem clauseWord_text (w : Word) : clauseWord (.tok (.word (wordText w))) = some w := by cases w <;> decide +kernel

def secL (ss : List (Word × List Lex)) : List Lex := ss.flatMap fun s => .tok (.word (wordText s.1)) :: s.2

theorem secL_append (a b : List (Word × List Lex)) : secL (a ++ b) = secL a ++ secL b := by simp [secL]

theorem sections_pre (pre xs : List Lex) (h : NoWord pre) : sections (pre ++ xs) = (pre ++ (sections xs).1, (sections xs).2) := by
  induction pre with
  | nil => rfl
  | cons x pre ih =>
    simp only [List.cons_append, sections]
    rw [h x (List.mem_cons_self ..), ih fun y hy => h y (List.mem_cons_of_mem _ hy)]

theorem sections_secL (ss : List (Word × List Lex)) (h : ∀ s ∈ ss, NoWord s.2) : sections (secL ss) = ([], ss) := by
  induction ss with
  | nil => rfl
  | cons s ss ih =>
    show sections (.tok (.word (wordText s.1)) :: (s.2 ++ secL ss)) = _
    simp only [sections]
    rw [clauseWord_text, sections_pre _ _ (h s (List.mem_cons_self ..)), ih fun t ht => h t (List.mem_cons_of_mem _ ht)]
    simp

theorem sections_read (pre : List Lex) (ss : List (Word × List Lex)) (hp : NoWord pre) (h : ∀ s ∈ ss, NoWord s.2) : sections (pre ++ secL ss) = (pre, ss) := by
  rw [sections_pre _ _ hp, sections_secL ss h]
  simp

theorem NoWord.append {a b : List Lex} (ha : NoWord a) (hb : NoWord b) : NoWord (a ++ b) := fun x hx =>
  (List.mem_append.1 hx).elim (ha x) (hb x)
theorem NoWord.cons {x : Lex} {b : List Lex} (ha : clauseWord x = none) (hb : NoWord b) : NoWord (x :: b) := fun y hy =>
  (List.mem_cons.1 hy).elim (fun e => e ▸ ha) (hb y)
theorem NoWord.nil : NoWord [] := fun _ h => (List.not_mem_nil h).elim

theorem noWord_name (l : Lang) (x : Str) (h : Readable l.dialect x) : clauseWord (.tok (nameT l x)) = none := by
  have hr := (name_read (κ := Unit) l x h).1
  generalize nameT l x = t at hr
  cases t with
  | quoted q y => rfl
  | sym c => rfl
  | word y =>
    simp only [name?] at hr
    split at hr
    · rename_i hk
      have hk := hk.2
      simp only [keywords, List.mem_cons, not_or] at hk
      obtain ⟨_, _, _, _, _, _, _, _, _, k1, k2, _, k3, k4, k5, k6, k7, _, k8, k9, k10, k11, k12, k13, k14, k15, _⟩ := hk
      simp only [clauseWord, word?]
      rw [if_neg k1, if_neg k2, if_neg k3, if_neg k4, if_neg k5, if_neg k6, if_neg k7, if_neg k8, if_neg k9, if_neg k10, if_neg k11, if_neg k12, if_neg k13, if_neg k14, if_neg k15]
    · cases hr

theorem noWord_col (l : Lang) (c : Node) (h1 : Readable l.dialect (labelOf c)) (h2 : Readable l.dialect c.name) : NoWord (colL l c) :=
  NoWord.cons (noWord_name l _ h1) (NoWord.cons rfl (NoWord.cons (noWord_name l _ h2) NoWord.nil))

theorem noWord_comma (xs : List (List Lex)) (h : ∀ x ∈ xs, NoWord x) : NoWord (commaL xs) := by
  induction xs with
  | nil => exact NoWord.nil
  | cons x xs ih =>
    have h1 := h x (List.mem_cons_self ..)
    have ih := ih fun y hy => h y (List.mem_cons_of_mem _ hy)
    cases xs with
    | nil => exact h1
    | cons y ys => exact h1.append (NoWord.cons rfl ih)

theorem noWord_suffix (k : Sorting) : NoWord ((suffixT k).map .tok) := by
  obtain ⟨c, d, n⟩ := k
  have h : ∀ d n, ∀ x ∈ ((ascT d ++ nullsT n).map Lex.tok), clauseWord x = none := by
    intro d n
    rcases d with _ | _ | _ <;> rcases n with _ | _ | _ <;> decide +kernel
  exact h d n

theorem noWord_ref (l : Lang) (t : Tab) (h : Named l.dialect t) : NoWord ((refT l t).map .tok) := by
  unfold refT
  rw [List.map_append, List.map_append]
  refine ((?_ : NoWord _).append (NoWord.cons (noWord_name l _ h.name) NoWord.nil)).append ?_
  · split
    · exact NoWord.nil
    · exact NoWord.cons (noWord_name l _ h.schema) (NoWord.cons rfl NoWord.nil)
  · have hl := h.label
    unfold Tab.label at hl
    split
    · exact NoWord.nil
    · rename_i ha
      rw [if_neg ha] at hl
      exact NoWord.cons (by decide +kernel) (NoWord.cons (noWord_name l _ hl) NoWord.nil)

theorem noWord_vals (vs : List Scalar) : NoWord (valsL vs) := by
  induction vs with
  | nil => exact NoWord.nil
  | cons v vs ih =>
    cases vs with
    | nil => exact NoWord.cons rfl NoWord.nil
    | cons v' vs => exact NoWord.cons rfl (NoWord.cons rfl ih)

theorem noWord_tok (l : Lang) (sc : Scope κ) (p : Node → κ) (b : BTok (Test Node)) (h : ∀ x, b = .atom x → ∀ c ∈ x.columns, CanRead l sc p c) : NoWord (tokL l b) := by
  have hc : ∀ x, b = .atom x → ∀ c ∈ x.columns, NoWord (colL l c) := fun x hx c hc => noWord_col l c (h x hx c hc).label (h x hx c hc).name
  cases b with
  | atom x =>
    have hc := hc x rfl
    cases x with
    | cmp op c x =>
      refine ((hc c (by simp [Test.columns])).append ?_).append ?_
      · intro y hy
        obtain ⟨z, hz, rfl⟩ := List.mem_map.1 hy
        revert z
        cases op <;> decide +kernel
      · cases x with
        | col c' => exact hc c' (by simp [Test.columns, Rhs.columns])
        | val v => exact NoWord.cons rfl NoWord.nil
    | null c => exact (hc c (by simp [Test.columns])).append (by unfold NoWord; decide +kernel)
    | notNull c => exact (hc c (by simp [Test.columns])).append (by unfold NoWord; decide +kernel)
    | among c vs =>
      exact (((hc c (by simp [Test.columns])).append (by unfold NoWord; decide +kernel)).append (noWord_vals vs)).append (by unfold NoWord; decide +kernel)
  | and => exact NoWord.cons (by decide +kernel) NoWord.nil
  | or => exact NoWord.cons (by decide +kernel) NoWord.nil
  | not => exact NoWord.cons (by decide +kernel) NoWord.nil
  | lp => exact NoWord.cons (by decide +kernel) NoWord.nil
  | rp => exact NoWord.cons (by decide +kernel) NoWord.nil

theorem noWord_clause (l : Lang) (sc : Scope κ) (p : Node → κ) (ts : List (BTok (Test Node))) (h : ∀ x, .atom x ∈ ts → ∀ c ∈ x.columns, CanRead l sc p c) :
    NoWord (ts.flatMap (tokL l)) := by
  intro y hy
  obtain ⟨b, hb, hy⟩ := List.mem_flatMap.1 hy
  exact noWord_tok l sc p b (fun x hx => h x (hx ▸ hb)) y hy

/-! ### Conditions -/

/-- What conditions add, how it is read, and what it means. -/
theorem conds_parts (l : Lang) (labels : List Str) (hl : ∀ x ∈ labels, Readable l.dialect x) (raw : Field → Bool) (cs : List (Cond Field)) (h : Conds l.dialect labels cs)
    (env : Env) (kw : Str) :
    ∃ (xs : List Part) (Y : List Lex) (e : BExp (Test Sel.Col)),
      Adds l.dialect (condition { d := l.dialect, env := env } kw (and_ (nodes (mapAll (Field.node raw) cs)))) (.text kw :: xs) ∧
      Piece l xs Y ∧ NoWord Y ∧ cond? l.dialect labels Y = some (some e) ∧
      ∀ C w, holds C (some e) w = described C cs (Field.value w) := by
  have hc : Clear l (scope labels) colOf (Field.node raw) cs :=
    ⟨h.fine, fun c hc => field_col raw c (h.scope c hc).1, fun c hc => canRead hl (h.scope c hc) raw⟩
  obtain ⟨ts, e, h1, h2, h3, h4, h5⟩ := clause_parts (Field.node raw) l (scope labels) colOf cs env hc
  refine ⟨ts.flatMap (tokParts l.dialect), ts.flatMap (tokL l), e, ?_, Piece.clause l ts h2, noWord_clause l _ _ ts h5, ?_, fun C w => ?_⟩
  · cases cs with
    | nil => exact absurd h.fine (by simp [Cond.fine])
    | cons c cs =>
      simp only [nodes, mapAll, and_, condition] at h1 ⊢
      exact Adds.cons _ h1
  · unfold cond?
    rw [h3]
  · show (truthOf C w.at e == some true) = _
    rw [h4]
    rfl

/-! ### Joins -/

def howText : How → Str
  | .inner => "JOIN".toList | .left => "LEFT JOIN".toList | .right => "RIGHT JOIN".toList | .full => "FULL JOIN".toList | .cross => "CROSS JOIN".toList
def howT : How → List Tok
  | .inner => [.word "JOIN".toList]
  | .left => [.word "LEFT".toList, .word "JOIN".toList]
  | .right => [.word "RIGHT".toList, .word "JOIN".toList]
  | .full => [.word "FULL".toList, .word "JOIN".toList]
  | .cross => [.word "CROSS".toList, .word "JOIN".toList]
/-- The clauses of a join. -/
def howSecs (x : List Lex) (y : List (Word × List Lex)) : How → List (Word × List Lex)
  | .inner => (.join, x) :: y
  | .left => (.left, []) :: (.join, x) :: y
  | .right => (.right, []) :: (.join, x) :: y
  | .full => (.full, []) :: (.join, x) :: y
  | .cross => (.cross, []) :: (.join, x) :: y

/-- The node of a join. -/
def joinNode (raw : Field → Bool) (j : Join) : Node :=
  match j.how with
  | .inner => joinTable .join j.tab.node (nodes (mapAll (Field.node raw) j.on))
  | .left => joinTable .leftJoin j.tab.node (nodes (mapAll (Field.node raw) j.on))
  | .right => joinTable .rightJoin j.tab.node (nodes (mapAll (Field.node raw) j.on))
  | .full => joinTable .fullJoin j.tab.node (nodes (mapAll (Field.node raw) j.on))
  | .cross => Chain.crossJoin j.tab.node

theorem ends_how (l : Lang) (h : How) : Ends (lexing l) (" ".toList ++ (howText h ++ " ".toList)) (howT h) := by
  cases l <;> cases h <;> decide +kernel
theorem plain_how (h : How) : ∀ x ∈ howT h, Choosing.Plain x := by
  cases h <;> simp [howT, Choosing.Plain]
theorem howSecs_text (x : List Lex) (y : List (Word × List Lex)) (h : How) : secL (howSecs x y h) = (howT h).map .tok ++ (x ++ secL y) := by
  cases h <;> rfl

/-- A join without its condition. -/
theorem adds_join (l : Lang) (raw : Field → Bool) (j : Join) (hk : j.how.known l = true) (xs : List Part)
    (hon : if j.how = .cross then j.on = [] ∧ xs = [] else
      j.on ≠ [] ∧ Adds l.dialect (condition { d := l.dialect } " ON ".toList (and_ (nodes (mapAll (Field.node raw) j.on)))) xs) :
    Adds l.dialect [.placed (joinNode raw j) { d := l.dialect }] (.text (howText j.how) :: .text " ".toList :: (srcParts l.dialect j.tab ++ xs)) := by
  have hs : Adds l.dialect (source { d := l.dialect } j.tab.node) (srcParts l.dialect j.tab) := adds_src _ _ none
  have key : ∀ (jt : Str) (on : Node), jt ≠ [] → joinNode raw j = .join jt j.tab.node on → howText j.how = jt →
      Adds l.dialect (condition { d := l.dialect } " ON ".toList on) xs →
      ((jt = [] ∨ jt = "JOIN".toList ∨ jt = "RIGHT JOIN".toList ∨ jt = "FULL JOIN".toList → Conditional on) ∧
        (jt = "RIGHT JOIN".toList ∨ jt = "FULL JOIN".toList → l.dialect ≠ .sqlite)) →
      Adds l.dialect [.placed (joinNode raw j) { d := l.dialect }] (.text (howText j.how) :: .text " ".toList :: (srcParts l.dialect j.tab ++ xs)) := by
    intro jt on hne h1 h2 h3 h4
    rw [h1, h2]
    refine Adds.construct (n := .join jt j.tab.node on) (m := { d := l.dialect }) rfl (ps := [.text jt, .text " ".toList] ++ source { d := l.dialect } j.tab.node ++ condition { d := l.dialect } " ON ".toList on) ?_ ?_ ?_
    · show some ([.text (if jt = [] then "JOIN".toList else jt), .text " ".toList] ++ source { d := l.dialect } j.tab.node ++ condition { d := l.dialect } " ON ".toList on) = _
      rw [if_neg hne]
    · exact ⟨node_ne _, h4⟩
    · rw [List.append_assoc]
      exact Adds.cons _ (Adds.cons _ (hs.append h3))
  have hcond : j.on ≠ [] → Conditional (and_ (nodes (mapAll (Field.node raw) j.on))) := by
    intro h
    obtain ⟨p, ps, hp⟩ := List.exists_cons_of_ne_nil (fun e => h ((isEmpty_nodes (Field.node raw) j.on).1 e))
    rw [hp]
    simp [and_, Conditional]
  obtain ⟨how, tab, on⟩ := j
  simp only at hk hon hcond key
  cases how with
  | cross =>
    rw [if_pos rfl] at hon
    refine key "CROSS JOIN".toList (and_ []) (by decide +kernel) rfl rfl (hon.2 ▸ Adds.nil _) ⟨?_, ?_⟩
    · rintro (h | h | h | h) <;> exact absurd h (by decide +kernel)
    · rintro (h | h) <;> exact absurd h (by decide +kernel)
  | inner =>
    rw [if_neg (by simp)] at hon
    refine key "JOIN".toList _ (by decide +kernel) rfl rfl hon.2 ⟨fun _ => hcond hon.1, ?_⟩
    rintro (h | h) <;> exact absurd h (by decide +kernel)
  | left =>
    rw [if_neg (by simp)] at hon
    refine key "LEFT JOIN".toList _ (by decide +kernel) rfl rfl hon.2 ⟨fun _ => hcond hon.1, ?_⟩
    rintro (h | h) <;> exact absurd h (by decide +kernel)
  | right =>
    rw [if_neg (by simp)] at hon
    refine key "RIGHT JOIN".toList _ (by decide +kernel) rfl rfl hon.2 ⟨fun _ => hcond hon.1, fun _ => ?_⟩
    revert hk
    cases l <;> simp [How.known, Lang.dialect]
  | full =>
    rw [if_neg (by simp)] at hon
    refine key "FULL JOIN".toList _ (by decide +kernel) rfl rfl hon.2 ⟨fun _ => hcond hon.1, fun _ => ?_⟩
    revert hk
    cases l <;> simp [How.known, Lang.dialect]

theorem readable_more {d : Dialect} {labels : List Str} (hl : ∀ x ∈ labels, Readable d x) {x : Str} (h : Readable d x) : ∀ y ∈ labels ++ [x], Readable d y := by
  intro y hy
  rcases List.mem_append.1 hy with hy | hy
  · exact hl y hy
  · rw [List.mem_singleton.1 hy]
    exact h

theorem joins_parts (l : Lang) (raw : Field → Bool) (js : List Join) : ∀ labels, (∀ x ∈ labels, Readable l.dialect x) → JoinsSound l labels js →
    (∀ x ∈ labels ++ js.map (·.tab.label), Readable l.dialect x) ∧
    ∃ (xs : List Part) (ss : List (Word × List Lex)) (jp : List JoinPart),
      Adds l.dialect (js.flatMap fun j => [.text " ".toList, .placed (joinNode raw j) { d := l.dialect }]) xs ∧
      Piece l xs (secL ss) ∧ Sep l xs ∧ (∀ s ∈ ss, NoWord s.2) ∧ js.length ≤ ss.length ∧
      (∀ k rest, js.length < k → nextJoin rest = none → joins? l k labels (ss ++ rest) = some (jp, labels ++ js.map (·.tab.label), rest)) ∧
      (∀ C T ws, joinParts C T jp ws = joinedAll C T js ws) ∧ jp.map JoinPart.how = js.map Join.how := by
  induction js with
  | nil =>
    intro labels hl _
    refine ⟨by simpa using hl, [], [], [], Adds.nil _, Piece.nil l, Sep.nil l, by simp, Nat.le_refl _, ?_, fun _ _ _ => rfl, rfl⟩
    intro k rest hk hn
    obtain ⟨k, rfl⟩ : ∃ k', k = k' + 1 := ⟨k - 1, by simp at hk; omega⟩
    simp only [List.nil_append, joins?, hn, List.map_nil, List.append_nil]
  | cons j js ih =>
    intro labels hl h
    obtain ⟨hk, hn, hnew, hon, hjs⟩ := h
    have hl' := readable_more hl hn.label
    obtain ⟨hlab, xs, ss, jp, r1, r2, r3, r4, r5, r6, r7, r8⟩ := ih _ hl' hjs
    have hone : ∃ (ys : List Part) (y : List (Word × List Lex)) (e : Option (BExp (Test Sel.Col))) ,
        (if j.how = .cross then j.on = [] ∧ ys = [] else
          j.on ≠ [] ∧ Adds l.dialect (condition { d := l.dialect } " ON ".toList (and_ (nodes (mapAll (Field.node raw) j.on)))) ys) ∧
        Piece l ys (secL y) ∧ Sep l ys ∧ (∀ s ∈ y, NoWord s.2) ∧
        (∀ x r, ∃ z, nextJoin (howSecs x y j.how ++ r) = some (j.how, x, z, r) ∧ on? l.dialect (labels ++ [j.tab.label]) z = some e) ∧
        ∀ C (rows : List Row) ws, j.how.joined j.tab.label rows (holds C e) ws = j.how.joined j.tab.label rows (fun w => described C j.on (Field.value w)) ws := by
      by_cases hc : j.how = .cross
      · rw [if_pos hc] at hon
        refine ⟨[], [], none, by rw [if_pos hc]; exact ⟨hon, rfl⟩, Piece.nil l, Sep.nil l, by simp, fun x r => ⟨none, by rw [hc]; rfl, rfl⟩, fun C rows ws => ?_⟩
        rw [hc]
        rfl
      · rw [if_neg hc] at hon
        obtain ⟨ys, Y, e, c1, c2, c3, c4, c5⟩ := conds_parts l _ hl' raw j.on hon none " ON ".toList
        refine ⟨.text " ON ".toList :: ys, [(.on, Y)], some e, ?_, ?_, ?_, ?_, fun x r => ⟨some Y, ?_, c4⟩, fun C rows ws => ?_⟩
        · rw [if_neg hc]
          refine ⟨fun e => ?_, c1⟩
          have := hon.fine
          rw [e] at this
          simp [Cond.fine] at this
        · have h1 : Ends (lexing l) " ON ".toList [.word "ON".toList] := by cases l <;> decide +kernel
          have := Piece.kw h1 (by simp [Choosing.Plain]) c2
          rw [show secL [(Word.on, Y)] = [Tok.word "ON".toList].map Lex.tok ++ Y by simp only [secL, List.flatMap_cons, List.flatMap_nil, List.append_nil]; rfl]
          exact this
        · exact Sep.text l (c := ' ') (t := "ON ".toList) (by decide) _
        · intro s hs
          rw [List.mem_singleton.1 hs]
          exact c3
        · revert hc
          cases j.how <;> intro hc <;> first | rfl | exact absurd rfl hc
        · rw [show holds C (some e) = fun w => described C j.on (Field.value w) from funext (c5 C)]
    obtain ⟨ys, y, e, o1, o2, o3, o4, o5, o6⟩ := hone
    have hj := adds_join l raw j hk ys o1
    have hsec : Piece l (.text " ".toList :: .text (howText j.how) :: .text " ".toList :: (srcParts l.dialect j.tab ++ ys)) (secL (howSecs ((refT l j.tab).map .tok) y j.how)) := by
      rw [howSecs_text]
      have h1 := Piece.kw (ends_how l j.how) (plain_how j.how) ((Piece.source l j.tab).append o2 o3)
      exact Piece.split (Piece.split (by rw [← List.append_assoc] at h1; exact h1))
    refine ⟨?_, .text " ".toList :: .text (howText j.how) :: .text " ".toList :: (srcParts l.dialect j.tab ++ ys) ++ xs, howSecs ((refT l j.tab).map .tok) y j.how ++ ss,
      ⟨j.how, ⟨j.tab.schema, j.tab.name, j.tab.label⟩, e⟩ :: jp, ?_, ?_, ?_, ?_, ?_, ?_, ?_, by rw [List.map_cons, List.map_cons, r8]⟩
    · simpa using hlab
    · rw [List.flatMap_cons]
      exact (Adds.cons _ hj).append r1
    · rw [secL_append]
      exact hsec.append r2 r3
    · exact Sep.text l (c := ' ') (t := []) (by decide) _
    · intro s hs
      rcases List.mem_append.1 hs with hs | hs
      · have href := noWord_ref l j.tab hn
        revert hs
        cases j.how <;> simp only [howSecs, List.mem_cons] <;> rintro (rfl | hs) <;> try rcases hs with rfl | hs
        all_goals first | exact NoWord.nil | exact href | exact o4 s hs
      · exact r4 s hs
    · have : 1 ≤ (howSecs ((refT l j.tab).map .tok) y j.how).length := by cases j.how <;> simp [howSecs]
      rw [List.length_append, List.length_cons]
      omega
    · intro k rest hk' hr
      obtain ⟨k, rfl⟩ : ∃ k', k = k' + 1 := ⟨k - 1, by simp at hk'; omega⟩
      obtain ⟨z, z1, z2⟩ := o5 ((refT l j.tab).map .tok) (ss ++ rest)
      rw [List.append_assoc]
      simp only [joins?]
      rw [z1]
      simp only
      rw [ref_read l j.tab hn, Option.bind_some, if_pos ⟨hk, hnew⟩, z2, Option.bind_some, r6 k rest (by simp at hk'; omega) hr]
      simp
    · intro C T ws
      show joinParts C T jp (j.how.joined j.tab.label (T j.tab.schema j.tab.name) (holds C e) ws) = _
      rw [r7, o6]
      rfl

theorem joined_parts (d : Dialect) (m : Mode) (hm : m.d = d) (ns : List Node) :
    joined m ns = ns.flatMap fun n => [.text " ".toList, .placed n { d := d }] := by
  subst hm
  unfold joined ifAny
  cases ns with
  | nil => rfl
  | cons n ns =>
    show .text " ".toList :: listed " ".toList ((n :: ns).map fun j => [.placed j { d := m.d }]) = _
    induction ns generalizing n with
    | nil => rfl
    | cons n' ns ih =>
      have := ih n'
      show .text " ".toList :: .placed n { d := m.d } :: .text " ".toList :: listed " ".toList ((n' :: ns).map fun j => [.placed j { d := m.d }]) = _
      rw [this]
      rfl

/-! ### The clauses of a statement -/

/-- Parts that are written as these clauses. -/
def Sect (l : Lang) (ps : List Part) (ss : List (Word × List Lex)) : Prop :=
  ∃ xs, Adds l.dialect ps xs ∧ Piece l xs (secL ss) ∧ Sep l xs ∧ ∀ s ∈ ss, NoWord s.2

theorem breaks_append {a b : Str} (ha : Breaks a) (hb : Breaks b) : Breaks (a ++ b) := by
  rcases ha with rfl | ⟨c, cs, rfl, hc⟩
  · exact hb
  · exact .inr ⟨c, cs ++ b, rfl, hc⟩

theorem Sect.nil (l : Lang) : Sect l [] [] := ⟨[], Adds.nil _, Piece.nil l, Sep.nil l, by simp⟩

theorem Sect.append {l : Lang} {ps qs : List Part} {ss tt : List (Word × List Lex)} (h : Sect l ps ss) (k : Sect l qs tt) : Sect l (ps ++ qs) (ss ++ tt) := by
  obtain ⟨xs, a1, a2, a3, a4⟩ := h
  obtain ⟨ys, b1, b2, b3, b4⟩ := k
  refine ⟨xs ++ ys, a1.append b1, ?_, fun i => ?_, fun s hs => (List.mem_append.1 hs).elim (a4 s) (b4 s)⟩
  · rw [secL_append]
    exact a2.append b2 b3
  · rw [flat_append]
    exact breaks_append (a3 i) (b3 _)

/-- One clause. -/
theorem Sect.one {l : Lang} {kw : Str} {w : Word} {K : List Tok} {ps xs : List Part} {Y : List Lex} (hkw : Ends (lexing l) (' ' :: kw) (.word (wordText w) :: K))
    (hK : ∀ x ∈ K, Choosing.Plain x) (hN : NoWord (K.map .tok)) (ha : Adds l.dialect ps xs) (hp : Piece l xs Y) (hn : NoWord Y) :
    Sect l (.text (' ' :: kw) :: ps) [(w, K.map .tok ++ Y)] := by
  refine ⟨.text (' ' :: kw) :: xs, Adds.cons _ ha, ?_, Sep.text l (c := ' ') (by decide) _, fun s hs => ?_⟩
  · have := Piece.kw hkw (fun x hx => (List.mem_cons.1 hx).elim (fun e => by rw [e]; trivial) (hK x)) hp
    rw [show secL [(w, K.map Lex.tok ++ Y)] = (Tok.word (wordText w) :: K).map Lex.tok ++ Y by simp [secL]]
    exact this
  · rw [List.mem_singleton.1 hs]
    exact hN.append hn

theorem sect_from (l : Lang) (t : Tab) (h : Named l.dialect t) (env : Env) :
    Sect l (.text " FROM ".toList :: source { d := l.dialect, env := env } t.node) [(.from_, (refT l t).map .tok)] := by
  have hk : Ends (lexing l) (' ' :: "FROM ".toList) [.word (wordText .from_)] := by cases l <;> decide +kernel
  exact Sect.one hk (by simp) NoWord.nil (adds_src _ t env) (Piece.source l t) (noWord_ref l t h)

/-- WHERE. -/
theorem sect_conds (l : Lang) (labels : List Str) (hl : ∀ x ∈ labels, Readable l.dialect x) (raw : Field → Bool) (cs : List (Cond Field))
    (h : cs = [] ∨ Conds l.dialect labels cs) (env : Env) :
    ∃ (ss : List (Word × List Lex)) (e : Option (BExp (Test Sel.Col))),
      Sect l (condition { d := l.dialect, env := env } " WHERE ".toList (and_ (nodes (mapAll (Field.node raw) cs)))) ss ∧
      (∀ rest, (∀ x r, rest ≠ (.where_, x) :: r) → where? l.dialect labels (ss ++ rest) = some (e, rest)) ∧
      (∀ rest, nextJoin rest = none → nextJoin (ss ++ rest) = none) ∧
      (∀ C w, holds C e w = described C cs (Field.value w)) ∧ (cs ≠ [] → ∃ x, ss = [(.where_, x)]) := by
  rcases h with rfl | h
  · refine ⟨[], none, Sect.nil l, fun rest hr => ?_, fun rest hr => hr, fun C w => rfl, fun h => (h rfl).elim⟩
    show where? l.dialect labels rest = _
    unfold where?
    split
    · exact absurd rfl (hr _ _)
    · rfl
  · obtain ⟨xs, Y, e, c1, c2, c3, c4, c5⟩ := conds_parts l labels hl raw cs h env " WHERE ".toList
    refine ⟨[(.where_, Y)], some e, ?_, fun rest _ => ?_, fun rest _ => rfl, c5, fun _ => ⟨_, rfl⟩⟩
    · refine ⟨_, c1, ?_, Sep.text l (c := ' ') (t := "WHERE ".toList) (by decide) _, fun s hs => by rw [List.mem_singleton.1 hs]; exact c3⟩
      have hk : Ends (lexing l) " WHERE ".toList [.word (wordText .where_)] := by cases l <;> decide +kernel
      have := Piece.kw hk (by simp [Choosing.Plain]) c2
      rw [show secL [(Word.where_, Y)] = [Tok.word (wordText .where_)].map Lex.tok ++ Y by simp [secL]]
      exact this
    · show (cond? l.dialect labels Y).map (fun e => (e, rest)) = _
      rw [c4]
      rfl

theorem sect_where (l : Lang) (labels : List Str) (hl : ∀ x ∈ labels, Readable l.dialect x) (raw : Field → Bool) (cs : List (Cond Field))
    (h : cs = [] ∨ Conds l.dialect labels cs) (env : Env) :
    ∃ (ss : List (Word × List Lex)) (e : Option (BExp (Test Sel.Col))),
      Sect l (condition { d := l.dialect, env := env } " WHERE ".toList (and_ (nodes (mapAll (Field.node raw) cs)))) ss ∧
      (∀ rest, (∀ x r, rest ≠ (.where_, x) :: r) → where? l.dialect labels (ss ++ rest) = some (e, rest)) ∧
      (∀ rest, nextJoin rest = none → nextJoin (ss ++ rest) = none) ∧
      ∀ C w, holds C e w = described C cs (Field.value w) := by
  obtain ⟨ss, e, h1, h2, h3, h4, _⟩ := sect_conds l labels hl raw cs h env
  exact ⟨ss, e, h1, h2, h3, h4⟩

/-- ORDER BY. -/
def orderSecs (l : Lang) (raw : Field → Bool) (ks : List Sorting) : List (Word × List Lex) :=
  if ks = [] then [] else [(.order, .tok (.word "BY".toList) :: commaL (ks.map (keyL l raw)))]

theorem sect_order (l : Lang) (labels : List Str) (hl : ∀ x ∈ labels, Readable l.dialect x) (raw : Field → Bool) (ks : List Sorting)
    (h : ∀ k ∈ ks, InScope l.dialect labels k.col ∧ (l = .mysql → k.nullsFirst = none)) (env : Env) :
    Sect l (ifAny " ORDER BY ".toList (ks.map (Sorting.node raw)) (values { d := l.dialect, env := env } (ks.map (Sorting.node raw)))) (orderSecs l raw ks) ∧
    ∀ rest, (∀ x r, rest ≠ (.order, x) :: r) → order? l labels (orderSecs l raw ks ++ rest) = some (ks.map Sorting.key, rest) := by
  unfold orderSecs
  by_cases he : ks = []
  · subst he
    refine ⟨Sect.nil l, fun rest hr => ?_⟩
    rw [if_pos rfl]
    show order? l labels rest = _
    unfold order?
    split
    · exact absurd rfl (hr _ _)
    · rfl
  · rw [if_neg he]
    refine ⟨?_, fun rest _ => ?_⟩
    · have hk : Ends (lexing l) (' ' :: "ORDER BY ".toList) [.word (wordText .order), .word "BY".toList] := by cases l <;> decide +kernel
      have e1 : ifAny " ORDER BY ".toList (ks.map (Sorting.node raw)) (values { d := l.dialect, env := env } (ks.map (Sorting.node raw))) =
          .text (' ' :: "ORDER BY ".toList) :: values { d := l.dialect, env := env } (ks.map (Sorting.node raw)) := by
        cases ks with
        | nil => exact absurd rfl he
        | cons k ks => rfl
      rw [e1]
      refine Sect.one (K := [.word "BY".toList]) hk (by simp [Choosing.Plain]) (NoWord.cons (by decide +kernel) NoWord.nil) ?_
        (Piece.listed (fun k => [.text (colText l.dialect (k.col.node raw)), .text (suffix k)]) (keyL l raw) ks fun k _ => Piece.key l raw k)
        (noWord_comma _ fun x hx => ?_)
      · unfold Spec.values
        rw [List.map_map]
        exact Adds.listed _ _ _ ks fun k hk => adds_sorting raw k _ rfl rfl (h k hk).1.1
      · obtain ⟨k, hk, rfl⟩ := List.mem_map.1 hx
        have hs := (h k hk).1
        exact (noWord_col l (k.col.node raw) (hl _ hs.2.1) hs.2.2).append (noWord_suffix k)
    · show (if upper "BY".toList = "BY".toList then (every (key? l labels) (Sel.pieces (commaL (ks.map (keyL l raw))))).map fun ks => (ks, rest) else none) = _
      rw [if_pos (by decide +kernel), pieces_comma _ (by simpa using he) fun x hx => by
        obtain ⟨k, _, rfl⟩ := List.mem_map.1 hx
        exact noComma_key l raw k]
      rw [every_map _ _ Sorting.key ks fun k hk => key_read l labels hl raw k (h k hk).1 (h k hk).2]
      rfl

/-- LIMIT and OFFSET. -/
def numberSecs (w : Word) (n : Option Nat) : List (Word × List Lex) :=
  match n with
  | none => []
  | some n => [(w, [.val (.int n)])]

theorem sect_number (l : Lang) (w : Word) (kw : Str) (hk : Ends (lexing l) (' ' :: kw) [.word (wordText w)]) (n : Option Nat) :
    Sect l (number (' ' :: kw) (n.map Int.ofNat)) (numberSecs w n) := by
  cases n with
  | none => exact Sect.nil l
  | some n =>
    exact Sect.one hk (by simp) NoWord.nil (xs := [.value (.val (.int n))]) ⟨fun _ _ h => by simp at h, fun s t h => append_same _ (.inr ⟨_, rfl⟩) h⟩ (Piece.value l _)
      (NoWord.cons rfl NoWord.nil)

/-- What may follow a SELECT statement: a clause beginning with ON. -/
def After (tail : List (Word × List Lex)) : Prop := (∀ s ∈ tail, NoWord s.2) ∧ ∀ w x r, tail = (w, x) :: r → w = .on

theorem page_read (l : Lang) (limit offset : Option Nat) (h : Allowed l limit offset) (tail : List (Word × List Lex)) (ht : After tail) :
    page? l (numberSecs .limit limit ++ (numberSecs .offset offset ++ tail)) = some ((limit, offset), tail) := by
  have hn : ∀ n : Nat, number? [.val (.int n)] = some n := by
    intro n
    show (if 0 ≤ (n : Int) then some (n : Int).toNat else none) = _
    rw [if_pos (by omega)]
    simp
  have hoff : ∀ x r, tail ≠ (.offset, x) :: r := fun x r e => nomatch ht.2 _ _ _ e
  have hlim : ∀ x r, tail ≠ (.limit, x) :: r := fun x r e => nomatch ht.2 _ _ _ e
  cases limit with
  | none =>
    cases offset with
    | none =>
      show page? l tail = _
      unfold page?
      split
      · exact absurd rfl (hlim _ _)
      · exact absurd rfl (hlim _ _)
      · exact absurd rfl (hoff _ _)
      · rfl
    | some k =>
      have : l = .postgres := (h (by simp)).resolve_left (by simp)
      show (if l = .postgres then (number? [.val (.int k)]).map fun k => (((none : Option Nat), some k), tail) else none) = _
      rw [if_pos this, hn]
      rfl
  | some n =>
    cases offset with
    | none =>
      show page? l ((.limit, [.val (.int n)]) :: tail) = _
      unfold page?
      split
      · rename_i e
        exact absurd (List.cons.inj e).2 (hoff _ _)
      · rename_i e
        obtain ⟨e1, rfl⟩ := List.cons.inj e
        obtain rfl := (Prod.mk.inj e1).2
        rw [hn]
        rfl
      · rename_i e; exact absurd (List.cons.inj e).1 (by simp)
      · rename_i h1 h2 _; exact absurd rfl (h2 _ _)
    | some k =>
      show (number? [.val (.int n)]).bind (fun n => (number? [.val (.int k)]).map fun k => ((some n, some k), tail)) = _
      rw [hn, hn]
      rfl

/-! ### The statement -/

theorem joins_run (raw : Field → Bool) (js : List Join) (q : SelectQ) :
    (js.map (Join.call raw)).foldl SelectCall.run q = { q with joins := q.joins ++ js.map (joinNode raw) } := by
  induction js generalizing q with
  | nil => simp
  | cons j js ih =>
    simp only [List.map_cons, List.foldl_cons]
    rw [ih]
    obtain ⟨how, tab, on⟩ := j
    cases how <;> simp [Join.call, SelectCall.run, joinNode]

/-- The node of a statement with these fields. -/
def askNode (b : Builder) (raw : Field → Bool) (a : Ask) (fields : List Node) (limit offset : Option Nat) : Node :=
  .select { dialect := b.lang.dialect, env := b.env, distinct := false, limit := limit.map Int.ofNat, offset := offset.map Int.ofNat }
    [] fields [] a.tab.node (a.joins.map (joinNode raw)) (and_ (nodes (mapAll (Field.node raw) a.conds))) [] (and_ []) (a.order.map (Sorting.node raw))

theorem calls_run (raw : Field → Bool) (a : Ask) (limit offset : Option Nat) (q : SelectQ) (h1 : q.limit = none) (h2 : q.offset = none) :
    (a.calls raw limit offset).foldl SelectCall.run q =
      { q with joins := q.joins ++ a.joins.map (joinNode raw), where_ := q.where_ ++ nodes (mapAll (Field.node raw) a.conds),
               orderBy := q.orderBy ++ a.order.map (Sorting.node raw), limit := limit.map Int.ofNat, offset := offset.map Int.ofNat } := by
  unfold Ask.calls
  rw [List.foldl_append, List.foldl_append, List.foldl_append, joins_run]
  cases limit <;> cases offset <;> simp [SelectCall.run, h1, h2]

theorem query_node (b : Builder) (raw : Field → Bool) (a : Ask) (limit offset : Option Nat) :
    a.query b raw limit offset = askNode b raw a (a.cols.map (Field.node raw)) limit offset := by
  unfold Ask.query Chain.select
  rw [List.foldl_cons, calls_run _ _ _ _ _ rfl rfl]
  simp [SelectStart.run, SelectCall.run, SelectQ.node, askNode]

theorem fromQuery_node (b : Builder) (raw : Field → Bool) (a : Ask) (limit offset : Option Nat) :
    a.fromQuery b raw limit offset = askNode b raw a [] limit offset := by
  unfold Ask.fromQuery Chain.select
  rw [calls_run _ _ _ _ _ rfl rfl]
  simp [SelectStart.run, SelectQ.node, askNode]

theorem asks_none (raw : Field → Bool) (js : List Join) (t : Tab) (env : Env) : (t.node :: js.map (joinNode raw)).filterMap (asks · env) = [] := by
  have hj : ∀ j : Join, asks (joinNode raw j) env = none := by
    rintro ⟨how, tab, on⟩
    cases how <;> rfl
  rw [List.filterMap_eq_nil_iff]
  intro n hn
  rcases List.mem_cons.1 hn with rfl | hn
  · rfl
  · obtain ⟨j, _, rfl⟩ := List.mem_map.1 hn
    exact hj j

theorem refuses_not (raw : Field → Bool) (js : List Join) (t : Tab) (env : Env) : ∀ n ∈ t.node :: js.map (joinNode raw), ¬ Refuses n env := by
  intro n hn
  rcases List.mem_cons.1 hn with rfl | hn
  · exact node_answers t env
  · obtain ⟨⟨how, tab, on⟩, _, rfl⟩ := List.mem_map.1 hn
    cases how <;> exact node_answers tab env

/-- The conditions of a SELECT that stands there: in an SQLite INSERT none becomes TRUE. -/
def ownConds (m0 : Mode) (ns : List Node) : List Node := if m0.meth = .whereTrue ∧ ns = [] then [.cpred [] "TRUE".toList false []] else ns

/-- The names that joins add. -/
theorem joins_labels (l : Lang) (k : Nat) (labels : List Str) (ss : List (Word × List Lex)) (z : List JoinPart × List Str × List (Word × List Lex))
    (h : joins? l k labels ss = some z) : z.2.1 = labels ++ z.1.map (·.ref.label) := by
  induction k generalizing labels ss z with
  | zero => cases h
  | succ k ih =>
    unfold joins? at h
    split at h
    · cases h
      simp
    · obtain ⟨t, _, h⟩ := Option.bind_eq_some_iff.1 h
      split at h
      · obtain ⟨e, _, h⟩ := Option.bind_eq_some_iff.1 h
        obtain ⟨y, hy, rfl⟩ := Option.map_eq_some_iff.1 h
        rw [ih _ _ _ hy]
        simp
      · cases h

/-- What stands behind the columns of a SELECT. -/
def askRest (b : Builder) (raw : Field → Bool) (a : Ask) (limit offset : Option Nat) (m0 : Mode) (env : Env) : List Part :=
  (.text " FROM ".toList :: source { d := b.lang.dialect, env := env } a.tab.node) ++
  ((a.joins.flatMap fun j => [.text " ".toList, .placed (joinNode raw j) { d := b.lang.dialect }]) ++
  (condition { d := b.lang.dialect, env := env } " WHERE ".toList (and_ (ownConds m0 (nodes (mapAll (Field.node raw) a.conds)))) ++
  (ifAny " ORDER BY ".toList (a.order.map (Sorting.node raw)) (values { d := b.lang.dialect, env := env } (a.order.map (Sorting.node raw))) ++
  (number " LIMIT ".toList (limit.map Int.ofNat) ++ number " OFFSET ".toList (offset.map Int.ofNat)))))

/-- The node of a statement with these fields, DISTINCT or DISTINCT ON. -/
def askNodeD (b : Builder) (raw : Field → Bool) (a : Ask) (dis : Bool) (on : List Node) (fields : List Node) (limit offset : Option Nat) : Node :=
  .select { dialect := b.lang.dialect, env := b.env, distinct := dis, limit := limit.map Int.ofNat, offset := offset.map Int.ofNat }
    [] fields on a.tab.node (a.joins.map (joinNode raw)) (and_ (nodes (mapAll (Field.node raw) a.conds))) [] (and_ []) (a.order.map (Sorting.node raw))

theorem ask_constructD (b : Builder) (raw : Field → Bool) (a : Ask) (dis : Bool) (on : List Node) (fields : List Node) (limit offset : Option Nat) (m0 : Mode)
    (hm : m0.d = b.lang.dialect) (env : Env) (he : env = effEnv m0.env b.env) :
    Spec.construct m0 (askNodeD b raw a dis on fields limit offset) = some ([.text "SELECT ".toList] ++
      (distinct { d := b.lang.dialect, env := env } { dialect := b.lang.dialect, env := b.env, distinct := dis, limit := limit.map Int.ofNat, offset := offset.map Int.ofNat } on ++
      (items { d := b.lang.dialect, env := env } fields ++ askRest b raw a limit offset m0 env))) := by
  have hj : joined { d := b.lang.dialect, env := env } (a.joins.map (joinNode raw)) =
      a.joins.flatMap fun j => [.text " ".toList, .placed (joinNode raw j) { d := b.lang.dialect }] := by
    rw [joined_parts b.lang.dialect _ rfl, List.flatMap_map]
  have hw : whereOf m0 (and_ (nodes (mapAll (Field.node raw) a.conds))) = some (and_ (ownConds m0 (nodes (mapAll (Field.node raw) a.conds)))) := by
    generalize nodes (mapAll (Field.node raw) a.conds) = N
    unfold ownConds
    cases N with
    | nil => by_cases h : m0.meth = .whereTrue <;> simp [whereOf, and_, h]
    | cons n N => rw [if_neg (by simp)]; rfl
  have hf : filtered { d := b.lang.dialect, env := env } (a.tab.node :: a.joins.map (joinNode raw)) (and_ (ownConds m0 (nodes (mapAll (Field.node raw) a.conds)))) =
      condition { d := b.lang.dialect, env := env } " WHERE ".toList (and_ (ownConds m0 (nodes (mapAll (Field.node raw) a.conds)))) := by
    unfold filtered
    rw [asks_none]
  have hft : ifTable { d := b.lang.dialect, env := env } " FROM ".toList a.tab.node = .text " FROM ".toList :: source { d := b.lang.dialect, env := env } a.tab.node := rfl
  unfold askNodeD askRest
  simp only [Spec.construct]
  rw [hw, hm, ← he, hj, hft, Option.map_some, hf]
  simp only [with_, ifAny, condition, and_, List.isEmpty_nil, if_true, List.append_nil, List.nil_append, List.append_assoc, Bool.false_eq_true, if_false]

theorem ask_construct (b : Builder) (raw : Field → Bool) (a : Ask) (fields : List Node) (limit offset : Option Nat) (m0 : Mode) (hm : m0.d = b.lang.dialect)
    (env : Env) (he : env = effEnv m0.env b.env) :
    Spec.construct m0 (askNode b raw a fields limit offset) =
      some ([.text "SELECT ".toList] ++ (items { d := b.lang.dialect, env := env } fields ++ askRest b raw a limit offset m0 env)) :=
  ask_constructD b raw a false [] fields limit offset m0 hm env he

theorem adds_true (d : Dialect) (env : Env) : Adds d [.placed (and_ [.cpred [] "TRUE".toList false []]) { d := d, env := env, meth := .top true }] [.text "TRUE".toList] := by
  have h : Adds d [.placed (.cpred [] "TRUE".toList false []) { d := d }] [.text "TRUE".toList] := by
    refine ⟨fun k m h => ?_, fun s t h => ?_⟩
    · simp only [List.mem_singleton, Part.placed.injEq] at h
      obtain ⟨rfl, rfl⟩ := h
      cases d <;> decide +kernel
    · refine Same.trans (t := (Part.text "TRUE".toList).append d s) ?_ (append_same (.text _) (.inl ⟨_, Eq.refl _⟩) h)
      have e : (ren (.cpred [] "TRUE".toList false []) { d := d } []).code = [.text ['T'], .text ['R'], .text ['U'], .text ['E'], .forget []] := by cases d <;> decide +kernel
      show Same d (exec d (ren (.cpred [] "TRUE".toList false []) { d := d } []).code s) _
      rw [e, same_iff]
      have he : s.params.erase [] = s.params := by funext k; simp [Params.erase]
      simp [exec, exec1, Part.append, bufString, Sq.Piece.str, he]
  exact Adds.construct (n := and_ [.cpred [] "TRUE".toList false []]) (m := { d := d, env := env, meth := .top true }) rfl rfl
    (show ∀ p ∈ [Node.cpred [] "TRUE".toList false []], p ≠ .nil by simp) h

/-- WHERE of a SELECT that stands there. -/
theorem sect_own (l : Lang) (labels : List Str) (hl : ∀ x ∈ labels, Readable l.dialect x) (raw : Field → Bool) (cs : List (Cond Field))
    (h : cs = [] ∨ Conds l.dialect labels cs) (env : Env) (m0 : Mode) :
    ∃ (ss : List (Word × List Lex)) (e : Option (BExp (Test Sel.Col))),
      Sect l (condition { d := l.dialect, env := env } " WHERE ".toList (and_ (ownConds m0 (nodes (mapAll (Field.node raw) cs))))) ss ∧
      (∀ rest, (∀ x r, rest ≠ (.where_, x) :: r) → where? l.dialect labels (ss ++ rest) = some (e, rest)) ∧
      (∀ rest, nextJoin rest = none → nextJoin (ss ++ rest) = none) ∧
      (m0.meth = .whereTrue → ∃ x, (.where_, x) ∈ ss) ∧
      ∀ C w, holds C e w = described C cs (Field.value w) := by
  by_cases ht : m0.meth = .whereTrue ∧ cs = []
  · obtain ⟨ht, rfl⟩ := ht
    have hk : Ends (lexing l) (' ' :: "WHERE ".toList) [.word (wordText .where_)] := by cases l <;> decide +kernel
    refine ⟨[(.where_, [.tok (.word "TRUE".toList)])], none, ?_, fun rest _ => ?_, fun rest _ => rfl, fun _ => ⟨_, List.mem_singleton_self _⟩, fun C w => rfl⟩
    · have e : ownConds m0 (nodes (mapAll (Field.node raw) [])) = [.cpred [] "TRUE".toList false []] := if_pos ⟨ht, rfl⟩
      rw [e]
      exact Sect.one hk (by simp) NoWord.nil (adds_true l.dialect env) (Piece.text (K := [.word "TRUE".toList]) (by cases l <;> decide +kernel) (by simp [Choosing.Plain]))
        (NoWord.cons (by decide +kernel) NoWord.nil)
    · show (cond? l.dialect labels [.tok (.word "TRUE".toList)]).map (fun e => (e, rest)) = _
      have : cond? l.dialect labels [.tok (.word "TRUE".toList)] = some none := by
        have e : expression l.dialect (scope labels) [.tok (.word "TRUE".toList)] = none := by cases l <;> rfl
        unfold cond?
        rw [e]
        exact if_pos (by decide +kernel)
      rw [this]
      rfl
  · have e : ownConds m0 (nodes (mapAll (Field.node raw) cs)) = nodes (mapAll (Field.node raw) cs) := if_neg (fun h => ht ⟨h.1, by
      cases cs with
      | nil => rfl
      | cons c cs => simp [nodes, mapAll] at h⟩)
    rw [e]
    obtain ⟨ss, e, h1, h2, h3, h4, h5⟩ := sect_conds l labels hl raw cs h env
    refine ⟨ss, e, h1, h2, h3, fun hm => ?_, h4⟩
    obtain ⟨x, rfl⟩ := h5 (fun e => ht ⟨hm, e⟩)
    exact ⟨x, List.mem_singleton_self _⟩

/-- The text of flat parts, and its values, read back. -/
theorem Piece.reads {l : Lang} {xs : List Part} {Z : List Lex} (h : Piece l xs Z) :
    ((tokens (lexing l) (Storing.flat l.dialect 0 xs)).bind fun ts => Where.resolve l (vals xs) 0 ts) = some Z := by
  obtain ⟨T, t1, t2⟩ := h.read (vals xs) 0 (fun k v hk => by rw [Nat.zero_add]; exact hk)
  rw [t1, Option.bind_some]
  obtain ⟨n', _, hn'⟩ := t2 0 (fun _ => rfl)
  have := hn' []
  rw [List.append_nil] at this
  rw [this]
  simp only [Where.resolve, Option.map_some, List.append_nil]

/-- What stands behind the columns, in parts, and how these are read, whatever is selected. -/
theorem ask_behind (b : Builder) (raw : Field → Bool) (a : Ask) (h : a.Body b.lang) (m0 : Mode) (env : Env) :
    (∀ x ∈ a.labels, Readable b.lang.dialect x) ∧ ∃ m : Core, m.order = a.order.map Sorting.key ∧ (∀ C T, m.rows C T = a.answer C T) ∧
      m.ref.label :: m.joins.map (·.ref.label) = a.labels ∧
      ∀ limit offset, Allowed b.lang limit offset →
        ∃ R Z, Adds b.lang.dialect (askRest b raw a limit offset m0 env) R ∧ Piece b.lang R Z ∧ Sep b.lang R ∧ ∀ Y, NoWord Y →
          (m0.meth = .whereTrue → ∀ tail, After tail → ∃ x, (.where_, x) ∈ (sections ([Tok.word "SELECT".toList].map Lex.tok ++ Y ++ Z ++ secL tail)).2) ∧
          ∀ list? cs, list? a.labels Y = some cs → ∀ tail, After tail →
            selected? list? b.lang ([Tok.word "SELECT".toList].map Lex.tok ++ Y ++ Z ++ secL tail) = some (⟨{ m with cols := cs }, limit, offset⟩, tail) := by
  have hl0 : ∀ x ∈ [a.tab.label], Readable b.lang.dialect x := fun x hx => by
    rw [List.mem_singleton.1 hx]
    exact h.tab.label
  obtain ⟨hl, js, jss, jp, j1, j2, j3, j4, j5, j6, j7, j8⟩ := joins_parts b.lang raw a.joins [a.tab.label] hl0 h.joins
  have hl : ∀ x ∈ a.labels, Readable b.lang.dialect x := hl
  obtain ⟨ws, e, w1, w2, w3, w5, w4⟩ := sect_own b.lang a.labels hl raw a.conds h.conds env m0
  obtain ⟨o1, o2⟩ := sect_order b.lang a.labels hl raw a.order h.order env
  refine ⟨hl, ⟨[], ⟨a.tab.schema, a.tab.name, a.tab.label⟩, jp, e, a.order.map Sorting.key⟩, rfl, fun C T => ?_, ?_,
    fun limit offset hal => ?_⟩
  · show (joinParts C T jp _).filter (holds C e) = _
    rw [j7, show holds C e = fun w => described C a.conds (Field.value w) from funext (w4 C)]
    rfl
  · have := j6 (a.joins.length + 1) [] (by omega) rfl
    exact (joins_labels b.lang _ _ _ _ this).symm
  · have n1 : Sect b.lang (number " LIMIT ".toList (limit.map Int.ofNat)) (numberSecs .limit limit) :=
      sect_number b.lang .limit "LIMIT ".toList (by cases b.lang <;> decide +kernel) limit
    have n2 : Sect b.lang (number " OFFSET ".toList (offset.map Int.ofNat)) (numberSecs .offset offset) :=
      sect_number b.lang .offset "OFFSET ".toList (by cases b.lang <;> decide +kernel) offset
    obtain ⟨xs, x1, x2, x3, x4⟩ := (sect_from b.lang a.tab h.tab env).append (Sect.append ⟨js, j1, j2, j3, j4⟩ (w1.append (o1.append (n1.append n2))))
    refine ⟨xs, _, x1, x2, x3, fun Y hY => ?_⟩
    have hpre : NoWord ([Tok.word "SELECT".toList].map Lex.tok ++ Y) :=
      NoWord.append (NoWord.cons (by decide +kernel) NoWord.nil) hY
    refine ⟨fun hm tail htail => ?_, fun list? cs hcs tail htail => ?_⟩
    · obtain ⟨x, hx⟩ := w5 hm
      rw [List.append_assoc, ← secL_append, sections_read _ _ hpre (fun s hs => (List.mem_append.1 hs).elim (x4 s) (htail.1 s))]
      exact ⟨x, by simp [hx]⟩
    unfold selected?
    rw [List.append_assoc, ← secL_append, sections_read _ _ hpre (fun s hs => (List.mem_append.1 hs).elim (x4 s) (htail.1 s))]
    simp only [List.append_assoc]
    have hon : ∀ w, w ≠ .on → ∀ x r, tail ≠ (w, x) :: r := fun w hw x r e => hw (htail.2 _ _ _ e)
    have hnum : ∀ w, w ≠ .limit → w ≠ .offset → w ≠ .on → ∀ x r, numberSecs .limit limit ++ (numberSecs .offset offset ++ tail) ≠ (w, x) :: r := by
      intro w h1 h2 h3 x r
      cases limit with
      | some n =>
        intro e
        exact h1 (Prod.mk.inj (List.cons.inj e).1).1.symm
      | none =>
        cases offset with
        | some n =>
          intro e
          exact h2 (Prod.mk.inj (List.cons.inj e).1).1.symm
        | none => exact hon w h3 x r
    have hord : ∀ w, w ≠ .order → w ≠ .limit → w ≠ .offset → w ≠ .on → ∀ x r,
        orderSecs b.lang raw a.order ++ (numberSecs .limit limit ++ (numberSecs .offset offset ++ tail)) ≠ (w, x) :: r := by
      intro w h1 h2 h3 h4 x r
      unfold orderSecs
      split
      · exact hnum w h2 h3 h4 x r
      · simp only [List.cons_append, List.nil_append, ne_eq, List.cons.injEq, Prod.mk.injEq, not_and]
        intro e
        exact absurd e.1.symm h1
    have hnj : nextJoin (orderSecs b.lang raw a.order ++ (numberSecs .limit limit ++ (numberSecs .offset offset ++ tail))) = none := by
      unfold nextJoin
      split
      · rename_i he; exact absurd he (hord _ (by simp) (by simp) (by simp) (by simp) _ _)
      · rename_i he; exact absurd he (hord _ (by simp) (by simp) (by simp) (by simp) _ _)
      · rename_i he; exact absurd he (hord _ (by simp) (by simp) (by simp) (by simp) _ _)
      · rename_i he; exact absurd he (hord _ (by simp) (by simp) (by simp) (by simp) _ _)
      · rename_i he; exact absurd he (hord _ (by simp) (by simp) (by simp) (by simp) _ _)
      · rfl
    show (if upper "SELECT".toList = "SELECT".toList then
      (ref? b.lang.dialect ((refT b.lang a.tab).map .tok)).bind fun t =>
      (joins? b.lang ((jss ++ (ws ++ (orderSecs b.lang raw a.order ++ (numberSecs .limit limit ++ (numberSecs .offset offset ++ tail))))).length + 1) [t.label]
        (jss ++ (ws ++ (orderSecs b.lang raw a.order ++ (numberSecs .limit limit ++ (numberSecs .offset offset ++ tail)))))).bind fun j =>
      (where? b.lang.dialect j.2.1 j.2.2).bind fun w =>
      (order? b.lang j.2.1 w.2).bind fun o =>
      (page? b.lang o.2).bind fun p =>
      (list? j.2.1 Y).map fun cs => ((⟨⟨cs, t, j.1, w.1, o.1⟩, p.1.1, p.1.2⟩ : Stmt), p.2)
      else none) = _
    rw [if_pos (by decide +kernel), ref_read b.lang a.tab h.tab, Option.bind_some, j6 _ _ (by rw [List.length_append]; omega) (w3 _ hnj), Option.bind_some]
    show (where? b.lang.dialect a.labels _).bind _ = _
    rw [w2 _ (hord _ (by simp) (by simp) (by simp) (by simp)), Option.bind_some]
    show (order? b.lang a.labels _).bind _ = _
    rw [o2 _ (hnum _ (by simp) (by simp) (by simp)), Option.bind_some]
    show (page? b.lang (numberSecs .limit limit ++ (numberSecs .offset offset ++ tail))).bind _ = _
    rw [page_read _ _ _ hal tail htail, Option.bind_some]
    show (list? a.labels Y).map _ = _
    rw [hcs]
    rfl

/-- What is sent for a question, in parts, and how these are read, whatever is selected. -/
theorem ask_written (b : Builder) (raw : Field → Bool) (a : Ask) (h : a.Body b.lang) (m0 : Mode) (hm : m0.d = b.lang.dialect) (env : Env) (he : env = effEnv m0.env b.env) :
    (∀ x ∈ a.labels, Readable b.lang.dialect x) ∧ ∃ m : Core, m.order = a.order.map Sorting.key ∧ (∀ C T, m.rows C T = a.answer C T) ∧
      ∀ (fields : List Node) (P : List Part) (Y : List Lex), fields ≠ [] → Adds b.lang.dialect (items { d := b.lang.dialect, env := env } fields) P →
        Piece b.lang P Y → NoWord Y → ∀ limit offset, Allowed b.lang limit offset →
        ∃ ps xs Z, Spec.construct m0 (askNode b raw a fields limit offset) = some ps ∧ Needs m0 (askNode b raw a fields limit offset) ∧
          Adds b.lang.dialect ps xs ∧ Piece b.lang xs Z ∧ (m0.meth = .whereTrue → ∀ tail, After tail → ∃ x, (.where_, x) ∈ (sections (Z ++ secL tail)).2) ∧
          ∀ list? cs, list? a.labels Y = some cs → ∀ tail, After tail →
            selected? list? b.lang (Z ++ secL tail) = some (⟨{ m with cols := cs }, limit, offset⟩, tail) := by
  obtain ⟨hl, m, m1, m2, _, m3⟩ := ask_behind b raw a h m0 env
  refine ⟨hl, m, m1, m2, fun fields P Y hne hA hP hY limit offset hal => ?_⟩
  obtain ⟨xs, Z, x1, x2, x3, x4⟩ := m3 limit offset hal
  have hsel : Ends (lexing b.lang) "SELECT ".toList [.word "SELECT".toList] := by cases b.lang <;> decide +kernel
  have p0 := Piece.kw hsel (by simp [Choosing.Plain]) hP
  have a0 : Adds b.lang.dialect ([.text "SELECT ".toList] ++ items { d := b.lang.dialect, env := env } fields) (.text "SELECT ".toList :: P) :=
    Adds.cons _ hA
  exact ⟨_, _, _, ask_construct b raw a _ limit offset m0 hm env he,
    (⟨hne, fun h => (h rfl).elim, fun _ => node_ne _, refuses_not raw a.joins a.tab _⟩ : SelectNeeds _ _ _ fields [] a.tab.node (a.joins.map (joinNode raw))),
    (by
      rw [← List.append_assoc]
      exact a0.append x1), p0.append x2 x3, (x4 Y hY).1, (x4 Y hY).2⟩

theorem After.nil : After [] := ⟨by simp, by simp⟩

/-- The same for a statement of its own. -/
theorem ask_parts (b : Builder) (raw : Field → Bool) (a : Ask) (h : a.Body b.lang) :
    (∀ x ∈ a.labels, Readable b.lang.dialect x) ∧ ∃ m : Core, m.order = a.order.map Sorting.key ∧ (∀ C T, m.rows C T = a.answer C T) ∧
      ∀ (fields : List Node) (P : List Part) (Y : List Lex), fields ≠ [] → Adds b.lang.dialect (items { d := b.lang.dialect, env := b.env } fields) P →
        Piece b.lang P Y → NoWord Y → ∀ limit offset, Allowed b.lang limit offset →
        ∃ xs Z, ((ownSQL (askNode b raw a fields limit offset)).status = .ok ∧
            (ownSQL (askNode b raw a fields limit offset)).query = Storing.flat b.lang.dialect 0 xs ∧
            (ownSQL (askNode b raw a fields limit offset)).args = vals xs) ∧ Piece b.lang xs Z ∧
          ∀ list? cs, list? a.labels Y = some cs → stmtOf? list? b.lang Z = some ⟨{ m with cols := cs }, limit, offset⟩ := by
  obtain ⟨hl, m, m1, m2, m3⟩ := ask_written b raw a h { d := b.lang.dialect } rfl b.env rfl
  refine ⟨hl, m, m1, m2, fun fields P Y hne hA hP hY limit offset hal => ?_⟩
  obtain ⟨ps, xs, Z, c1, c2, c3, c4, _, c5⟩ := m3 fields P Y hne hA hP hY limit offset hal
  refine ⟨xs, Z, own (n := askNode b raw a fields limit offset) (l := b.lang) rfl c1 c2 c3 c4.flat, c4, fun list? cs hcs => ?_⟩
  have := c5 list? cs hcs [] After.nil
  rw [show Z ++ secL [] = Z from List.append_nil Z] at this
  unfold stmtOf?
  rw [this]

/-- The columns asked for, in parts. -/
theorem cols_parts (l : Lang) (raw : Field → Bool) (labels : List Str) (hl : ∀ x ∈ labels, Readable l.dialect x) (cols : List Field) (hne : cols ≠ [])
    (h : ∀ c ∈ cols, InScope l.dialect labels c) (env : Env) :
    ∃ P Y, Adds l.dialect (items { d := l.dialect, env := env } (cols.map (Field.node raw))) P ∧ Piece l P Y ∧ NoWord Y ∧
      columns? l labels Y = some (cols.map Field.col) := by
  refine ⟨listed ", ".toList (cols.map fun c => [.text (colText l.dialect (c.node raw))]), commaL (cols.map fun c => colL l (c.node raw)), ?_,
    Piece.listed _ _ cols fun c _ => Piece.column l _, ?_, ?_⟩
  · unfold Spec.items
    rw [List.map_map]
    exact Adds.listed _ _ _ cols fun c hc => adds_col raw c _ rfl rfl (h c hc).1
  · refine noWord_comma _ fun x hx => ?_
    obtain ⟨c, hc, rfl⟩ := List.mem_map.1 hx
    exact noWord_col l (c.node raw) (hl _ (h c hc).2.1) (h c hc).2.2
  · unfold columns?
    rw [pieces_comma _ (by simpa using hne) (fun x hx => by
      obtain ⟨c, _, rfl⟩ := List.mem_map.1 hx
      exact noComma_col l _), every_map _ _ Field.col cols fun c hc => col_read l labels hl c (h c hc) raw]

/-- What is sent for a question, and how it is read. -/
theorem ask_reads (b : Builder) (raw : Field → Bool) (a : Ask) (h : a.Sound b.lang) :
    ∃ m : Core, m.cols = a.cols.map Field.col ∧ m.order = a.order.map Sorting.key ∧ (∀ C T, m.rows C T = a.answer C T) ∧
      ∀ limit offset, Allowed b.lang limit offset →
        (ownSQL (a.query b raw limit offset)).status = .ok ∧
        readSelect b.lang (ownSQL (a.query b raw limit offset)).args (ownSQL (a.query b raw limit offset)).query = some ⟨m, limit, offset⟩ := by
  obtain ⟨hl, m, m1, m2, m3⟩ := ask_parts b raw a h.toBody
  obtain ⟨P, Y, c1, c2, c3, c4⟩ := cols_parts b.lang raw a.labels hl a.cols h.some h.cols b.env
  refine ⟨{ m with cols := a.cols.map Field.col }, rfl, m1, m2, fun limit offset hal => ?_⟩
  obtain ⟨xs, Z, ⟨o1, o2, o3⟩, z1, z2⟩ := m3 _ P Y (by simpa using h.some) c1 c2 c3 limit offset hal
  rw [query_node]
  refine ⟨o1, ?_⟩
  have hr := z1.reads
  unfold readSelect
  rw [o2, o3, ← Option.bind_assoc, hr, Option.bind_some]
  exact z2 _ _ c4

theorem inside_append (xs : List Lex) : inside (xs ++ [.tok (.sym ')')]) = some xs := by
  induction xs with
  | nil => rfl
  | cons x xs ih =>
    obtain ⟨y, ys, e⟩ : ∃ y ys, xs ++ [Lex.tok (.sym ')')] = y :: ys := by cases xs <;> simp
    show inside (x :: (xs ++ _)) = _
    rw [e] at ih ⊢
    unfold inside
    rw [ih]
    rfl

/-- The same in `SELECT EXISTS (...)`. -/
theorem exists_reads {l : Lang} {xs : List Part} {Z : List Lex} (h : Piece l xs Z) (m : Stmt)
    (hm : stmtOf? (fun labels xs => if xs = [.tok (.word "1".toList)] then some [] else columns? l labels xs) l Z = some m) :
    readExists l (vals xs) ("SELECT EXISTS (".toList ++ Storing.flat l.dialect 0 xs ++ ")".toList) = some m := by
  have k1 : Piece l [.text ")".toList] ([Tok.sym ')'].map .tok) := Piece.text (by cases l <;> decide +kernel) (by simp [Choosing.Plain])
  have k2 := Piece.kw (l := l) (kw := "SELECT EXISTS (".toList) (K := [.word "SELECT".toList, .word "EXISTS".toList, .sym '('])
    (by cases l <;> decide +kernel) (by simp [Choosing.Plain]) (h.append k1 (Sep.text l (by decide +kernel) []))
  have hr := k2.reads
  have hf : Storing.flat l.dialect 0 (.text "SELECT EXISTS (".toList :: (xs ++ [.text ")".toList])) = "SELECT EXISTS (".toList ++ Storing.flat l.dialect 0 xs ++ ")".toList := by
    rw [List.append_assoc]
    show "SELECT EXISTS (".toList ++ Storing.flat l.dialect 0 (xs ++ [.text ")".toList]) = _
    rw [flat_append]
    rfl
  have hv : vals (.text "SELECT EXISTS (".toList :: (xs ++ [.text ")".toList])) = vals xs := by
    show vals (xs ++ [.text ")".toList]) = _
    rw [vals_append]
    exact List.append_nil _
  rw [hf, hv] at hr
  unfold readExists
  rw [← Option.bind_assoc, hr, Option.bind_some]
  show (if upper "SELECT".toList = "SELECT".toList ∧ upper "EXISTS".toList = "EXISTS".toList then (inside (Z ++ [.tok (.sym ')')])).bind _ else none) = _
  rw [if_pos (by decide +kernel), inside_append, Option.bind_some]
  exact hm

end Sq.Asking
