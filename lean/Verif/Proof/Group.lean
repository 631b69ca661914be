import Verif.Spec.Group
import Verif.Proof.Select
/-
For C89: how a SELECT with GROUP BY and aggregates is written and read.
-/
namespace Sq.Grouped
open Sq Sq.Spec Sq.Chain Sq.Exprs Sq.Spec.Store Sq.Spec.Where Sq.Spec.Sel Sq.Spec.Group Sq.Choosing Sq.Asking Sq.Exprs.Writing
open Sq.Storing hiding pieces
open Sq.Spec.Group (query fromQuery Sound Understands stmt? grouped)
open Sq.Spec.Sel (pieces)
open _root_.Spec (Tok tokens BTok BExp readBool identClose isBareIdent)
open Ddl (Ends Breaks nameTok tokens_ident tokens_append_ends tokens_append_breaks ends_append_breaks tokens_of_ends tokens_word ends_append)

/-! ### Items -/

def fnText : Fn → Str
  | .count => "COUNT".toList | .sum => "SUM".toList | .avg => "AVG".toList | .min => "MIN".toList | .max => "MAX".toList

def itemParts (d : Dialect) (raw : Field → Bool) : Item Field → List Part
  | .key c => [.text (colText d (c.node raw))]
  | .agg f c => [.text (fnText f ++ "(".toList), .text (colText d (c.node raw)), .text ")".toList]
  | .all => [.text "COUNT(*)".toList]

def itemL (l : Lang) (raw : Field → Bool) : Item Field → List Lex
  | .key c => colL l (c.node raw)
  | .agg f c => .tok (.word (fnText f)) :: .tok (.sym '(') :: (colL l (c.node raw) ++ [.tok (.sym ')')])
  | .all => [.tok (.word "COUNT".toList), .tok (.sym '('), .tok (.sym '*'), .tok (.sym ')')]

def itemCol : Item Field → Item Sel.Col
  | .key c => .key c.col
  | .agg f c => .agg f c.col
  | .all => .all

theorem adds_placed (d : Dialect) (raw : Field → Bool) (i : Item Field) (h : ∀ c ∈ i.column, c.tab.name ≠ []) :
    Adds d [.placed (i.node raw) { d := d }] (itemParts d raw i) := by
  cases i with
  | key c => exact adds_col raw c _ rfl rfl (h c rfl)
  | agg f c =>
    have hc := adds_col (d := d) raw c { d := d } rfl rfl (h c rfl)
    cases f
    · exact Adds.call (.count (c.node raw)) (Adds.cons "COUNT(".toList (hc.append (Adds.cons ")".toList (Adds.nil _))))
    · exact Adds.call (.sum (c.node raw)) (Adds.cons "SUM(".toList (hc.append (Adds.cons ")".toList (Adds.nil _))))
    · exact Adds.call (.avg (c.node raw)) (Adds.cons "AVG(".toList (hc.append (Adds.cons ")".toList (Adds.nil _))))
    · exact Adds.call (.min (c.node raw)) (Adds.cons "MIN(".toList (hc.append (Adds.cons ")".toList (Adds.nil _))))
    · exact Adds.call (.max (c.node raw)) (Adds.cons "MAX(".toList (hc.append (Adds.cons ")".toList (Adds.nil _))))
  | all => exact Adds.call .countAll (Adds.cons "COUNT(*)".toList (Adds.nil _))

theorem adds_item (d : Dialect) (raw : Field → Bool) (i : Item Field) (h : ∀ c ∈ i.column, c.tab.name ≠ []) (env : Env) :
    Adds d (item { d := d, env := env } (i.node raw)) (itemParts d raw i) := by
  have := adds_placed d raw i h
  cases i with
  | key c => exact adds_col raw c _ rfl rfl (h c rfl)
  | agg f c => cases f <;> exact this
  | all => exact this

theorem item_piece (l : Lang) (raw : Field → Bool) (i : Item Field) : Asking.Piece l (itemParts l.dialect raw i) (itemL l raw i) := by
  cases i with
  | key c => exact Piece.column l _
  | agg f c =>
    have hk : Ends (lexing l) (fnText f ++ "(".toList) [.word (fnText f), .sym '('] := by cases l <;> cases f <;> decide +kernel
    have he : Asking.Piece l [.text ")".toList] [.tok (.sym ')')] := Asking.Piece.text (K := [.sym ')']) (by cases l <;> decide +kernel) (by simp [Choosing.Plain])
    exact Piece.kw hk (by simp [Choosing.Plain]) ((Piece.column l (c.node raw)).append he (Sep.text l (by decide) _))
  | all => exact Asking.Piece.text (K := [.word "COUNT".toList, .sym '(', .sym '*', .sym ')']) (by cases l <;> decide +kernel) (by simp [Choosing.Plain])

theorem fn_text (f : Fn) : fn? (upper (fnText f)) = some f := by cases f <;> decide +kernel

theorem itemAt_read (l : Lang) (labels : List Str) (hl : ∀ x ∈ labels, Readable l.dialect x) (raw : Field → Bool) (i : Item Field)
    (h : ∀ c ∈ i.column, InScope l.dialect labels c) (r : List Lex) : itemAt? l.dialect labels (itemL l raw i ++ r) = some (itemCol i, r) := by
  cases i with
  | key c =>
    have hc := column_read l (scope labels) colOf _ (canRead hl (h c rfl) raw) r
    have hn : ∀ f r', colL l (c.node raw) ++ r ≠ .tok (.word f) :: .tok (.sym '(') :: r' := by
      intro f r' e
      have : (Lex.tok (.sym '.')) = .tok (.sym '(') := (List.cons.inj (List.cons.inj e).2).1
      simp at this
    show itemAt? l.dialect labels (colL l (c.node raw) ++ r) = _
    unfold itemAt?
    split
    · rename_i he; exact absurd he (hn _ _)
    · rename_i he; exact absurd he (hn _ _)
    · rw [hc]; rfl
  | agg f c =>
    have hr := column_read l (scope labels) colOf _ (canRead hl (h c rfl) raw) (.tok (.sym ')') :: r)
    show itemAt? l.dialect labels (.tok (.word (fnText f)) :: .tok (.sym '(') :: (colL l (c.node raw) ++ [.tok (.sym ')')] ++ r)) = _
    rw [List.append_assoc]
    show itemAt? l.dialect labels (.tok (.word (fnText f)) :: .tok (.sym '(') :: (colL l (c.node raw) ++ .tok (.sym ')') :: r)) = _
    unfold itemAt?
    split
    · rename_i he
      have : (Lex.tok (.sym '.')) = .tok (.sym ')') := (List.cons.inj (List.cons.inj (List.cons.inj (List.cons.inj he).2).2).2).1
      simp at this
    · rename_i he
      simp only [List.cons.injEq, Lex.tok.injEq, Tok.word.injEq, true_and] at he
      obtain ⟨rfl, rfl⟩ := he
      rw [fn_text, Option.bind_some, hr]
      rfl
    · rename_i _ he
      exact (he _ _ rfl).elim
  | all =>
    have key : ∀ w : Str, fn? (upper w) = some .count →
        itemAt? l.dialect labels (.tok (.word w) :: .tok (.sym '(') :: .tok (.sym '*') :: .tok (.sym ')') :: r) = some (.all, r) := by
      intro w hw
      show (if fn? (upper w) = some .count then some (Item.all, r) else none) = _
      rw [if_pos hw]
    exact key _ (by decide +kernel)

theorem item_read (l : Lang) (labels : List Str) (hl : ∀ x ∈ labels, Readable l.dialect x) (raw : Field → Bool) (i : Item Field)
    (h : ∀ c ∈ i.column, InScope l.dialect labels c) : item? l.dialect labels (itemL l raw i) = some (itemCol i) := by
  have := itemAt_read l labels hl raw i h []
  rw [List.append_nil] at this
  unfold item?
  rw [this]
  rfl

theorem noComma_item (l : Lang) (raw : Field → Bool) (i : Item Field) : NoComma (itemL l raw i) := by
  have hc : ∀ c : Field, NoComma (colL l (c.node raw)) := fun c => noComma_col l _
  cases i with
  | key c => exact hc c
  | agg f c =>
    intro hx
    have h1 := hc c
    unfold NoComma at h1
    simp [itemL, h1] at hx
  | all =>
    intro hx
    simp [itemL] at hx

theorem noWord_item (l : Lang) (labels : List Str) (hl : ∀ x ∈ labels, Readable l.dialect x) (raw : Field → Bool) (i : Item Field)
    (h : ∀ c ∈ i.column, InScope l.dialect labels c) : NoWord (itemL l raw i) := by
  have hc : ∀ c : Field, InScope l.dialect labels c → NoWord (colL l (c.node raw)) := fun c hs => noWord_col l (c.node raw) (hl _ hs.2.1) hs.2.2
  cases i with
  | key c => exact hc c (h c rfl)
  | agg f c =>
    exact NoWord.cons (by cases f <;> decide +kernel) (NoWord.cons rfl ((hc c (h c rfl)).append (NoWord.cons rfl NoWord.nil)))
  | all => exact NoWord.cons (by decide +kernel) (NoWord.cons rfl (NoWord.cons rfl (NoWord.cons rfl NoWord.nil)))

theorem items_parts (l : Lang) (raw : Field → Bool) (labels : List Str) (hl : ∀ x ∈ labels, Readable l.dialect x) (is : List (Item Field)) (hne : is ≠ [])
    (h : ∀ i ∈ is, ∀ c ∈ i.column, InScope l.dialect labels c) (env : Env) :
    ∃ P Y, Adds l.dialect (items { d := l.dialect, env := env } (is.map (Item.node raw))) P ∧ Asking.Piece l P Y ∧ NoWord Y ∧
      every (item? l.dialect labels) (pieces Y) = some (is.map itemCol) := by
  refine ⟨listed ", ".toList (is.map (itemParts l.dialect raw)), commaL (is.map (itemL l raw)), ?_, Piece.listed _ _ is fun i _ => item_piece l raw i, ?_, ?_⟩
  · unfold Spec.items
    rw [List.map_map]
    exact Adds.listed _ _ _ is fun i hi => adds_item _ raw i (fun c hc => (h i hi c hc).1) env
  · refine noWord_comma _ fun x hx => ?_
    obtain ⟨i, hi, rfl⟩ := List.mem_map.1 hx
    exact noWord_item l labels hl raw i (h i hi)
  · rw [pieces_comma _ (by simpa using hne) (fun x hx => by
      obtain ⟨i, _, rfl⟩ := List.mem_map.1 hx
      exact noComma_item l raw i), every_map _ _ itemCol is fun i hi => item_read l labels hl raw i (h i hi)]

/-! ### GROUP BY -/

def groupSecs (l : Lang) (raw : Field → Bool) (ks : List Field) : List (Word × List Lex) :=
  if ks = [] then [] else [(.group, .tok (.word "BY".toList) :: commaL (ks.map fun c => colL l (c.node raw)))]

theorem sect_group (l : Lang) (labels : List Str) (hl : ∀ x ∈ labels, Readable l.dialect x) (raw : Field → Bool) (ks : List Field)
    (h : ∀ c ∈ ks, InScope l.dialect labels c) (env : Env) :
    Sect l (ifAny " GROUP BY ".toList (ks.map (Field.node raw)) (values { d := l.dialect, env := env } (ks.map (Field.node raw)))) (groupSecs l raw ks) ∧
    ∀ rest, (∀ x r, rest ≠ (.group, x) :: r) → group? l labels (groupSecs l raw ks ++ rest) = some (ks.map Field.col, rest) := by
  unfold groupSecs
  by_cases he : ks = []
  · subst he
    refine ⟨Sect.nil l, fun rest hr => ?_⟩
    rw [if_pos rfl]
    show group? l labels rest = _
    unfold group?
    split
    · exact absurd rfl (hr _ _)
    · rfl
  · rw [if_neg he]
    refine ⟨?_, fun rest _ => ?_⟩
    · have hk : Ends (lexing l) (' ' :: "GROUP BY ".toList) [.word (wordText .group), .word "BY".toList] := by cases l <;> decide +kernel
      have e1 : ifAny " GROUP BY ".toList (ks.map (Field.node raw)) (values { d := l.dialect, env := env } (ks.map (Field.node raw))) =
          .text (' ' :: "GROUP BY ".toList) :: values { d := l.dialect, env := env } (ks.map (Field.node raw)) := by
        cases ks with
        | nil => exact absurd rfl he
        | cons k ks => rfl
      rw [e1]
      refine Sect.one (K := [.word "BY".toList]) hk (by simp [Choosing.Plain]) (NoWord.cons (by decide +kernel) NoWord.nil) ?_
        (Piece.listed (fun c => [.text (colText l.dialect (c.node raw))]) (fun c => colL l (c.node raw)) ks fun k _ => Piece.column l _)
        (noWord_comma _ fun x hx => ?_)
      · unfold Spec.values
        rw [List.map_map]
        exact Adds.listed _ _ _ ks fun c hc => adds_col raw c _ rfl rfl (h c hc).1
      · obtain ⟨c, hc, rfl⟩ := List.mem_map.1 hx
        exact noWord_col l (c.node raw) (hl _ (h c hc).2.1) (h c hc).2.2
    · show (if upper "BY".toList = "BY".toList then (every (col? l.dialect labels) (pieces (commaL (ks.map fun c => colL l (c.node raw))))).map fun ks => (ks, rest) else none) = _
      rw [if_pos (by decide +kernel), pieces_comma _ (by simpa using he) fun x hx => by
        obtain ⟨c, _, rfl⟩ := List.mem_map.1 hx
        exact noComma_col l _]
      rw [every_map _ _ Field.col ks fun c hc => col_read l labels hl c (h c hc) raw]
      rfl

/-! ### HAVING -/

def boundParts (d : Dialect) (raw : Field → Bool) (b : Bound Field) : List Part :=
  itemParts d raw b.item ++ [.text (Op.word b.op), .value (.val b.value)]
def boundL (l : Lang) (raw : Field → Bool) (b : Bound Field) : List Lex := itemL l raw b.item ++ ((opT b.op).map .tok ++ [.val b.value])
def boundCol (b : Bound Field) : Bound Sel.Col := ⟨itemCol b.item, b.op, b.value⟩

theorem adds_bound (d : Dialect) (raw : Field → Bool) (b : Bound Field) (h : ∀ c ∈ b.item.column, c.tab.name ≠ []) :
    Adds d [.placed (b.node raw) { d := d }] (boundParts d raw b) := by
  have hi := adds_placed d raw b.item h
  have hs := Adds.scalar (d := d) b.value { d := d } rfl
  obtain ⟨i, op, v⟩ := b
  refine Adds.call (op.call (i.node raw) (.scalar v)) ?_
  cases i with
  | key c => cases op <;> exact hi.append (Adds.cons _ hs)
  | agg f c => cases f <;> cases op <;> exact hi.append (Adds.cons _ hs)
  | all => cases op <;> exact hi.append (Adds.cons _ hs)

theorem bound_shape (raw : Field → Bool) (b : Bound Field) : ∃ f vs, b.node raw = .cpred [] f false vs := by
  obtain ⟨i, op, v⟩ := b
  cases op
  all_goals first | exact cmp_shape _ _ _ | exact ⟨_, _, rfl⟩

theorem adds_having (d : Dialect) (raw : Field → Bool) (bs : List (Bound Field)) (hne : bs ≠ []) (h : ∀ b ∈ bs, ∀ c ∈ b.item.column, c.tab.name ≠ []) (env : Env)
    (kw : Str) :
    Adds d (condition { d := d, env := env } kw (and_ (bs.map (Bound.node raw)))) (.text kw :: listed " AND ".toList (bs.map (boundParts d raw))) := by
  have hl : Adds d (listed " AND ".toList (bs.map fun b => conjunct { d := d, env := env, meth := .top true } (b.node raw)))
      (listed " AND ".toList (bs.map (boundParts d raw))) := Adds.listed _ _ _ bs fun b hb => adds_bound d raw b (h b hb)
  have hn : Needs { d := d, env := env, meth := .top true } (and_ (bs.map (Bound.node raw))) := by
    intro p hp
    obtain ⟨b, _, rfl⟩ := List.mem_map.1 hp
    obtain ⟨f, vs, e⟩ := bound_shape raw b
    rw [e]
    simp
  cases bs with
  | nil => exact absurd rfl hne
  | cons b bs =>
    refine Adds.cons kw (Adds.construct rfl ?_ hn hl)
    cases bs with
    | nil =>
      obtain ⟨f, vs, e⟩ := bound_shape raw b
      simp only [List.map_cons, List.map_nil, e]
      rfl
    | cons b' bs =>
      show some (listed _ ((List.map (Bound.node raw) (b :: b' :: bs)).map (conjunct _))) = _
      rw [List.map_map]
      rfl

def andL : List (List Lex) → List Lex
  | [] => []
  | [x] => x
  | x :: xs => x ++ .tok (.word "AND".toList) :: andL xs

def NoAnd (x : List Lex) : Prop := ∀ y ∈ x, isAnd y = false

theorem NoAnd.append {x y : List Lex} (h : NoAnd x) (k : NoAnd y) : NoAnd (x ++ y) := fun z hz => (List.mem_append.1 hz).elim (h z) (k z)

theorem ands_one (x : List Lex) (h : NoAnd x) : ands x = [x] := by
  induction x with
  | nil => rfl
  | cons y x ih =>
    simp only [ands]
    rw [if_neg (by rw [h y (List.mem_cons_self ..)]; simp), ih fun z hz => h z (List.mem_cons_of_mem _ hz)]

theorem ands_more (x r : List Lex) (a : Lex) (ha : isAnd a = true) (h : NoAnd x) : ands (x ++ a :: r) = x :: ands r := by
  induction x with
  | nil => simp [ands, ha]
  | cons y x ih =>
    simp only [List.cons_append, ands]
    rw [if_neg (by rw [h y (List.mem_cons_self ..)]; simp), ih fun z hz => h z (List.mem_cons_of_mem _ hz)]

theorem ands_and (xs : List (List Lex)) (hne : xs ≠ []) (h : ∀ x ∈ xs, NoAnd x) : ands (andL xs) = xs := by
  induction xs with
  | nil => exact absurd rfl hne
  | cons x xs ih =>
    cases xs with
    | nil => exact ands_one x (h x (List.mem_cons_self ..))
    | cons y ys =>
      show ands (x ++ .tok (.word "AND".toList) :: andL (y :: ys)) = _
      rw [ands_more _ _ _ (by decide +kernel) (h x (List.mem_cons_self ..)), ih (by simp) fun z hz => h z (List.mem_cons_of_mem _ hz)]

theorem noAnd_name (l : Lang) (x : Str) (h : Readable l.dialect x) : isAnd (.tok (nameT l x)) = false := by
  have hr := (name_read (κ := Unit) l x h).2
  rcases name_cases l x with e | ⟨y, e⟩
  · rw [e] at hr ⊢
    simp only [connective?] at hr
    split at hr
    · cases hr
    · rename_i hk
      exact decide_eq_false hk
  · rw [e]
    rfl

theorem noAnd_bound (l : Lang) (labels : List Str) (hl : ∀ x ∈ labels, Readable l.dialect x) (raw : Field → Bool) (b : Bound Field)
    (h : ∀ c ∈ b.item.column, InScope l.dialect labels c) : NoAnd (boundL l raw b) := by
  have hc : ∀ c : Field, InScope l.dialect labels c → NoAnd (colL l (c.node raw)) := by
    intro c hs y hy
    simp only [colL, colT, List.map_cons, List.map_nil, List.mem_cons, List.not_mem_nil, or_false] at hy
    rcases hy with rfl | rfl | rfl
    · exact noAnd_name l _ (hl _ hs.2.1)
    · rfl
    · exact noAnd_name l _ hs.2.2
  have hcons : ∀ {y : Lex} {ys : List Lex}, isAnd y = false → NoAnd ys → NoAnd (y :: ys) := fun h1 h2 z hz =>
    (List.mem_cons.1 hz).elim (fun e => e ▸ h1) (h2 z)
  have hnil : NoAnd [] := fun z hz => (List.not_mem_nil hz).elim
  refine NoAnd.append ?_ (NoAnd.append ?_ (hcons rfl hnil))
  · obtain ⟨i, op, v⟩ := b
    cases i with
    | key c => exact hc c (h c rfl)
    | agg f c => exact hcons (by cases f <;> decide +kernel) (hcons rfl ((hc c (h c rfl)).append (hcons rfl hnil)))
    | all => exact hcons (by decide +kernel) (hcons rfl (hcons rfl (hcons rfl hnil)))
  · intro y hy
    obtain ⟨z, hz, rfl⟩ := List.mem_map.1 hy
    revert z
    cases b.op <;> decide +kernel

theorem bound_piece (l : Lang) (raw : Field → Bool) (b : Bound Field) : Asking.Piece l (boundParts l.dialect raw b) (boundL l raw b) := by
  obtain ⟨h1, h2, _⟩ := ends_op l b.op
  refine (item_piece l raw b.item).append (Asking.Piece.kw h1 (plain_op b.op) (Asking.Piece.value l b.value)) fun i => ?_
  show Breaks (Op.word b.op ++ _)
  rcases h2 with e | ⟨c, cs, e, hc⟩
  · exact absurd e (ends_op l b.op).2.2
  · rw [e]
    exact breaks_cons hc

theorem and_piece (l : Lang) (raw : Field → Bool) (bs : List (Bound Field)) :
    Asking.Piece l (listed " AND ".toList (bs.map (boundParts l.dialect raw))) (andL (bs.map (boundL l raw))) := by
  induction bs with
  | nil => exact Asking.Piece.nil l
  | cons b bs ih =>
    cases bs with
    | nil => exact bound_piece l raw b
    | cons b' bs =>
      have hk : Ends (lexing l) " AND ".toList [.word "AND".toList] := by cases l <;> decide +kernel
      exact (bound_piece l raw b).append (Asking.Piece.kw hk (by simp [Choosing.Plain]) ih) (Sep.text l (c := ' ') (t := "AND ".toList) (by decide) _)

theorem noWord_and (xs : List (List Lex)) (h : ∀ x ∈ xs, NoWord x) : NoWord (andL xs) := by
  induction xs with
  | nil => exact NoWord.nil
  | cons x xs ih =>
    cases xs with
    | nil => exact h x (List.mem_cons_self ..)
    | cons y ys => exact (h x (List.mem_cons_self ..)).append (NoWord.cons (by decide +kernel) (ih fun z hz => h z (List.mem_cons_of_mem _ hz)))

theorem bound_read (l : Lang) (labels : List Str) (hl : ∀ x ∈ labels, Readable l.dialect x) (raw : Field → Bool) (b : Bound Field)
    (h : ∀ c ∈ b.item.column, InScope l.dialect labels c) : bound? l.dialect labels (boundL l raw b) = some (boundCol b) := by
  unfold bound? boundL
  rw [itemAt_read l labels hl raw b.item h, Option.bind_some, op_read b.op [.val b.value] (by simp), Option.bind_some]
  rfl

def havingSecs (l : Lang) (raw : Field → Bool) (bs : List (Bound Field)) : List (Word × List Lex) :=
  if bs = [] then [] else [(.having, andL (bs.map (boundL l raw)))]

theorem sect_having (l : Lang) (labels : List Str) (hl : ∀ x ∈ labels, Readable l.dialect x) (raw : Field → Bool) (bs : List (Bound Field))
    (h : ∀ b ∈ bs, ∀ c ∈ b.item.column, InScope l.dialect labels c) (env : Env) :
    Sect l (condition { d := l.dialect, env := env } " HAVING ".toList (and_ (bs.map (Bound.node raw)))) (havingSecs l raw bs) ∧
    ∀ rest, (∀ x r, rest ≠ (.having, x) :: r) → having? l labels (havingSecs l raw bs ++ rest) = some (bs.map boundCol, rest) := by
  unfold havingSecs
  by_cases he : bs = []
  · subst he
    refine ⟨Sect.nil l, fun rest hr => ?_⟩
    rw [if_pos rfl]
    show having? l labels rest = _
    unfold having?
    split
    · exact absurd rfl (hr _ _)
    · rfl
  · rw [if_neg he]
    have hw : NoWord (andL (bs.map (boundL l raw))) := noWord_and _ fun x hx => by
      obtain ⟨b, hb, rfl⟩ := List.mem_map.1 hx
      refine (noWord_item l labels hl raw b.item (h b hb)).append (NoWord.append (fun y hy => ?_) (NoWord.cons rfl NoWord.nil))
      obtain ⟨z, hz, rfl⟩ := List.mem_map.1 hy
      revert z
      cases b.op <;> decide +kernel
    refine ⟨⟨_, adds_having _ raw bs he (fun b hb c hc => (h b hb c hc).1) env _, ?_, Sep.text l (c := ' ') (t := "HAVING ".toList) (by decide) _, fun s hs => ?_⟩, fun rest _ => ?_⟩
    · have hk : Ends (lexing l) " HAVING ".toList [.word (wordText .having)] := by cases l <;> decide +kernel
      have := Asking.Piece.kw hk (by simp [Choosing.Plain]) (and_piece l raw bs)
      rw [show secL [(Word.having, andL (bs.map (boundL l raw)))] = [Tok.word (wordText .having)].map Lex.tok ++ andL (bs.map (boundL l raw)) by simp [secL]]
      exact this
    · rw [List.mem_singleton.1 hs]
      exact hw
    · show ((every (bound? l.dialect labels) (ands (andL (bs.map (boundL l raw))))).map fun bs => (bs, rest)) = _
      rw [ands_and _ (by simpa using he) fun x hx => by
        obtain ⟨b, hb, rfl⟩ := List.mem_map.1 hx
        exact noAnd_bound l labels hl raw b (h b hb)]
      rw [every_map _ _ boundCol bs fun b hb => bound_read l labels hl raw b (h b hb)]
      rfl

/-! ### ORDER BY -/

def rankSuffix (k : Ranking) : Str := ascText k.desc ++ nullsText k.nullsFirst
def rankT (k : Ranking) : List Tok := ascT k.desc ++ nullsT k.nullsFirst
def rankParts (d : Dialect) (raw : Field → Bool) (k : Ranking) : List Part := itemParts d raw k.item ++ [.text (rankSuffix k)]
def rankL (l : Lang) (raw : Field → Bool) (k : Ranking) : List Lex := itemL l raw k.item ++ (rankT k).map .tok
def rankCol (k : Ranked Field) : Ranked Sel.Col := ⟨itemCol k.item, k.desc, k.nullsFirst⟩

/-- Sorted or not, a field is written the same, and the order after it. -/
theorem adds_suffixed {d : Dialect} (fi : FInfo) (r : Bool) (vs : List Node) (m : Mode) (hm : m.d = d) (hc : fi.collation = [] ∧ fi.desc = none ∧ fi.nullsFirst = none)
    (D N : Option Bool) {xs : List Part} (h : Adds d [.placed (.field fi r false vs) m] xs) :
    Adds d [.placed (.field { fi with desc := D, nullsFirst := N } r false vs) m] (xs ++ [.text (ascText D ++ nullsText N)]) := by
  subst hm
  let base : W := match fi.err with
    | some e => .fail e
    | none => if fi.formats ≠ [] then
        match chooseFormat (if r then m.std else m.call none m.ex).d fi.formats with
        | none => .fail "CustomField formats has no default format".toList
        | some f => bprintf (if r then m.std else m.call none m.ex) f ((objs vs).map PV.toObj)
      else .wr (columnName (if r then m.std else m.call none m.ex) fi)
  obtain ⟨h1, h2, h3⟩ := hc
  have e : ∀ D N, ren (.field { fi with desc := D, nullsFirst := N } r false vs) m [] = base ⨟ .wr (ascText D ++ nullsText N) := by
    intro D N
    rw [ren]
    have hs : fieldSuffix (if r = true then m.std else m.call none m.ex).d { fi with desc := D, nullsFirst := N } = ascText D ++ nullsText N := by
      unfold fieldSuffix
      simp only [h1, if_true, List.nil_append]
      rcases D with _ | _ | _ <;> rcases N with _ | _ | _ <;> rfl
    simp only [fieldInfoAppend, W.when, Bool.false_eq_true, if_false]
    rw [hs]
    cases he : fi.err with
    | none => simp only [base, he]; rfl
    | some x => simp only [base, he]; rfl
  have e0 : ren (.field fi r false vs) m [] = base ⨟ .wr [] := by
    have := e none none
    rwa [show ({ fi with desc := none, nullsFirst := none } : FInfo) = fi by cases fi; simp only at h2 h3; subst h2 h3; rfl] at this
  have hok : base.st = .ok := by
    have : (ren (.field fi r false vs) m []).st = .ok := h.ok _ m (List.mem_singleton.2 rfl)
    rw [e0] at this
    cases hb : base.st <;> simp [W.seq, hb] at this ⊢
  have hw : ∀ t, base ⨟ .wr t = { code := base.code ++ [.text t], st := .ok } := by
    intro t
    simp only [W.seq, hok, W.wr]
  refine ⟨fun k m' hk => ?_, fun s u hst => ?_⟩
  · simp only [List.mem_singleton, Part.placed.injEq] at hk
    rw [hk.1, hk.2]
    show (ren _ m []).st = .ok
    rw [e, hw]
  · have h2 : Same m.d (exec m.d (ren (.field fi r false vs) m []).code s) (appendParts m.d xs u) := h.eq s u hst
    show Same m.d (exec m.d (ren _ m []).code s) _
    rw [e, hw]
    rw [e0, hw] at h2
    rw [exec_append] at h2 ⊢
    rw [same_iff] at h2 ⊢
    rw [appendParts_append]
    simpa [exec, exec1, appendParts, Part.append, bufString, Piece.str] using h2

/-- A formatted field does not depend on the environment. -/
theorem adds_env {d : Dialect} (fi : FInfo) (vs : List Node) (env : Env) {xs : List Part} (h : Adds d [.placed (.field fi false false vs) { d := d }] xs) :
    Adds d [.placed (.field fi false false vs) { d := d, env := env }] xs := by
  have e : ren (.field fi false false vs) { d := d, env := env } [] = ren (.field fi false false vs) { d := d } [] := by
    rw [ren, ren]
    rfl
  refine ⟨fun k m' hk => ?_, fun s u hst => ?_⟩
  · simp only [List.mem_singleton, Part.placed.injEq] at hk
    rw [hk.1, hk.2]
    show (ren _ _ []).st = .ok
    rw [e]
    exact h.ok _ _ (List.mem_singleton.2 rfl)
  · have h2 := h.eq s u hst
    show Same d (exec d (ren _ _ []).code s) _
    rw [e]
    exact h2

theorem adds_rank (d : Dialect) (raw : Field → Bool) (k : Ranking) (h : ∀ c ∈ k.item.column, c.tab.name ≠ []) (env : Env) :
    Adds d [.placed (k.node raw) { d := d, env := env }] (rankParts d raw k) := by
  have hp := adds_placed d raw k.item h
  obtain ⟨i, D, N⟩ := k
  cases i with
  | key c => exact adds_suffixed (d := d) _ _ _ { d := d, env := env } rfl ⟨rfl, rfl, rfl⟩ D N (adds_col raw c _ rfl rfl (h c rfl))
  | agg f c => cases f <;> exact adds_suffixed (d := d) _ _ _ { d := d, env := env } rfl ⟨rfl, rfl, rfl⟩ D N (adds_env _ _ env hp)
  | all => exact adds_suffixed (d := d) _ _ _ { d := d, env := env } rfl ⟨rfl, rfl, rfl⟩ D N (adds_env _ _ env hp)

theorem rank_piece (l : Lang) (raw : Field → Bool) (k : Ranking) : Asking.Piece l (rankParts l.dialect raw k) (rankL l raw k) := by
  obtain ⟨h1, h2, h3⟩ := tokens_suffix l ⟨⟨⟨[], [], []⟩, []⟩, k.desc, k.nullsFirst⟩
  exact (item_piece l raw k.item).append (Asking.Piece.text h1 h3) fun i => by
    show Breaks (rankSuffix k ++ [])
    rw [List.append_nil]
    exact h2

theorem rank_read (l : Lang) (labels : List Str) (hl : ∀ x ∈ labels, Readable l.dialect x) (raw : Field → Bool) (k : Ranking)
    (h : ∀ c ∈ k.item.column, InScope l.dialect labels c) (hm : l = .mysql → k.nullsFirst = none) : rank? l labels (rankL l raw k) = some (rankCol k.key) := by
  unfold rank? rankL
  rw [itemAt_read l labels hl raw k.item h, Option.bind_some]
  have hn : ∀ (x : Str), l ≠ .mysql → nulls? l [.tok (.word "NULLS".toList), .tok (.word x)] =
      if upper x = "FIRST".toList then some (some true) else if upper x = "LAST".toList then some (some false) else none := by
    intro x hl
    unfold nulls?
    simp only
    rw [if_pos ⟨hl, by decide +kernel⟩]
  obtain ⟨c, d, n⟩ := k
  have hasc : upper "ASC".toList = "ASC".toList := by decide +kernel
  have hdesc : upper "DESC".toList ≠ "ASC".toList ∧ upper "DESC".toList = "DESC".toList := by decide +kernel
  have hnul : upper "NULLS".toList ≠ "ASC".toList ∧ upper "NULLS".toList ≠ "DESC".toList := by decide +kernel
  have hf : upper "FIRST".toList = "FIRST".toList := by decide +kernel
  have hla : upper "LAST".toList ≠ "FIRST".toList ∧ upper "LAST".toList = "LAST".toList := by decide +kernel
  simp only at hm
  rcases n with _ | n
  · rcases d with _ | _ | _
    · rfl
    · simp only [rankT, ascT, nullsT, List.append_nil, List.map_cons, List.map_nil]
      rw [if_pos hasc]
      rfl
    · simp only [rankT, ascT, nullsT, List.append_nil, List.map_cons, List.map_nil]
      rw [if_neg hdesc.1, if_pos hdesc.2]
      rfl
  · have hne : l ≠ .mysql := fun e => by cases hm e
    have hn := fun x => hn x hne
    have hff := hn "FIRST".toList
    rw [if_pos hf] at hff
    have hll := hn "LAST".toList
    rw [if_neg hla.1, if_pos hla.2] at hll
    rcases d with _ | _ | _ <;> rcases n with _ | _ <;> simp only [rankT, ascT, nullsT, List.nil_append, List.map_cons, List.map_nil, List.cons_append]
    · rw [if_neg hnul.1, if_neg hnul.2, hll]; rfl
    · rw [if_neg hnul.1, if_neg hnul.2, hff]; rfl
    · rw [if_pos hasc, hll]; rfl
    · rw [if_pos hasc, hff]; rfl
    · rw [if_neg hdesc.1, if_pos hdesc.2, hll]; rfl
    · rw [if_neg hdesc.1, if_pos hdesc.2, hff]; rfl

theorem noComma_rank (l : Lang) (raw : Field → Bool) (k : Ranking) : NoComma (rankL l raw k) := by
  unfold NoComma rankL
  rw [List.mem_append]
  rintro (h | h)
  · exact noComma_item l raw k.item h
  · obtain ⟨c, d, n⟩ := k
    rcases d with _ | _ | _ <;> rcases n with _ | _ | _ <;> simp [rankT, ascT, nullsT] at h

def rankSecs (l : Lang) (raw : Field → Bool) (ks : List Ranking) : List (Word × List Lex) :=
  if ks = [] then [] else [(.order, .tok (.word "BY".toList) :: commaL (ks.map (rankL l raw)))]

theorem sect_rank (l : Lang) (labels : List Str) (hl : ∀ x ∈ labels, Readable l.dialect x) (raw : Field → Bool) (ks : List Ranking)
    (h : ∀ k ∈ ks, (∀ c ∈ k.item.column, InScope l.dialect labels c) ∧ (l = .mysql → k.nullsFirst = none)) (env : Env) :
    Sect l (ifAny " ORDER BY ".toList (ks.map (Ranking.node raw)) (values { d := l.dialect, env := env } (ks.map (Ranking.node raw)))) (rankSecs l raw ks) ∧
    ∀ rest, (∀ x r, rest ≠ (.order, x) :: r) → Group.order? l labels (rankSecs l raw ks ++ rest) = some (ks.map fun k => rankCol k.key, rest) := by
  unfold rankSecs
  by_cases he : ks = []
  · subst he
    refine ⟨Sect.nil l, fun rest hr => ?_⟩
    rw [if_pos rfl]
    show Group.order? l labels rest = _
    unfold Group.order?
    split
    · exact absurd rfl (hr _ _)
    · rfl
  · rw [if_neg he]
    refine ⟨?_, fun rest _ => ?_⟩
    · have hk : Ends (lexing l) (' ' :: "ORDER BY ".toList) [.word (wordText .order), .word "BY".toList] := by cases l <;> decide +kernel
      have e1 : ifAny " ORDER BY ".toList (ks.map (Ranking.node raw)) (values { d := l.dialect, env := env } (ks.map (Ranking.node raw))) =
          .text (' ' :: "ORDER BY ".toList) :: values { d := l.dialect, env := env } (ks.map (Ranking.node raw)) := by
        cases ks with
        | nil => exact absurd rfl he
        | cons k ks => rfl
      rw [e1]
      refine Sect.one (K := [.word "BY".toList]) hk (by simp [Choosing.Plain]) (NoWord.cons (by decide +kernel) NoWord.nil) ?_
        (Piece.listed (rankParts l.dialect raw) (rankL l raw) ks fun k _ => rank_piece l raw k)
        (noWord_comma _ fun x hx => ?_)
      · unfold Spec.values
        rw [List.map_map]
        exact Adds.listed _ _ _ ks fun k hk => adds_rank _ raw k (fun c hc => ((h k hk).1 c hc).1) env
      · obtain ⟨k, hk, rfl⟩ := List.mem_map.1 hx
        exact (noWord_item l labels hl raw k.item (h k hk).1).append (noWord_suffix ⟨⟨⟨[], [], []⟩, []⟩, k.desc, k.nullsFirst⟩)
    · show (if upper "BY".toList = "BY".toList then (every (rank? l labels) (pieces (commaL (ks.map (rankL l raw))))).map fun ks => (ks, rest) else none) = _
      rw [if_pos (by decide +kernel), pieces_comma _ (by simpa using he) fun x hx => by
        obtain ⟨k, _, rfl⟩ := List.mem_map.1 hx
        exact noComma_rank l raw k]
      rw [every_map _ _ (fun k => rankCol k.key) ks fun k hk => rank_read l labels hl raw k (h k hk).1 (h k hk).2]
      rfl

/-! ### The statement -/

/-- The node of a statement with these fields and GROUP BY. -/
def groupNode (b : Builder) (raw : Field → Bool) (a : Ask) (G : Grouping) (fields : List Node) (limit offset : Option Nat) : Node :=
  .select { dialect := b.lang.dialect, env := b.env, distinct := false, limit := limit.map Int.ofNat, offset := offset.map Int.ofNat }
    [] fields [] a.tab.node (a.joins.map (joinNode raw)) (and_ (nodes (mapAll (Field.node raw) a.conds))) (G.keys.map (Field.node raw)) (and_ (G.having.map (Bound.node raw))) (G.order.map (Ranking.node raw))

theorem query_node (b : Builder) (raw : Field → Bool) (a : Ask) (ho : a.order = []) (G : Grouping) (limit offset : Option Nat) :
    query b raw a G limit offset = groupNode b raw a G (G.items.map (Item.node raw)) limit offset := by
  unfold Group.query Chain.select Group.grouped Group.ranked
  rw [List.foldl_cons, List.foldl_append, List.foldl_append, calls_run _ _ _ _ _ (by split <;> split <;> rfl) (by split <;> split <;> rfl)]
  by_cases h : G.keys = [] <;> by_cases h' : G.having = [] <;> by_cases h2 : G.order = [] <;> simp [SelectStart.run, SelectCall.run, SelectQ.node, groupNode, h, h', h2, ho]

theorem fromQuery_node (b : Builder) (raw : Field → Bool) (a : Ask) (ho : a.order = []) (G : Grouping) (limit offset : Option Nat) :
    fromQuery b raw a G limit offset = groupNode b raw a G [] limit offset := by
  unfold Group.fromQuery Chain.select Group.grouped Group.ranked
  rw [List.foldl_append, List.foldl_append, calls_run _ _ _ _ _ (by split <;> split <;> rfl) (by split <;> split <;> rfl)]
  by_cases h : G.keys = [] <;> by_cases h' : G.having = [] <;> by_cases h2 : G.order = [] <;> simp [SelectStart.run, SelectCall.run, SelectQ.node, groupNode, h, h', h2, ho]

/-- What stands behind the items. -/
def groupRest (b : Builder) (raw : Field → Bool) (a : Ask) (G : Grouping) (limit offset : Option Nat) : List Part :=
  (.text " FROM ".toList :: source { d := b.lang.dialect, env := b.env } a.tab.node) ++
  ((a.joins.flatMap fun j => [.text " ".toList, .placed (joinNode raw j) { d := b.lang.dialect }]) ++
  (condition { d := b.lang.dialect, env := b.env } " WHERE ".toList (and_ (nodes (mapAll (Field.node raw) a.conds))) ++
  (ifAny " GROUP BY ".toList (G.keys.map (Field.node raw)) (values { d := b.lang.dialect, env := b.env } (G.keys.map (Field.node raw))) ++
  (condition { d := b.lang.dialect, env := b.env } " HAVING ".toList (and_ (G.having.map (Bound.node raw))) ++
  (ifAny " ORDER BY ".toList (G.order.map (Ranking.node raw)) (values { d := b.lang.dialect, env := b.env } (G.order.map (Ranking.node raw))) ++
  (number " LIMIT ".toList (limit.map Int.ofNat) ++ number " OFFSET ".toList (offset.map Int.ofNat)))))))

theorem group_construct (b : Builder) (raw : Field → Bool) (a : Ask) (G : Grouping) (fields : List Node) (limit offset : Option Nat) :
    Spec.construct { d := b.lang.dialect } (groupNode b raw a G fields limit offset) =
      some ([.text "SELECT ".toList] ++ (items { d := b.lang.dialect, env := b.env } fields ++ groupRest b raw a G limit offset)) := by
  have hj : joined { d := b.lang.dialect, env := b.env } (a.joins.map (joinNode raw)) =
      a.joins.flatMap fun j => [.text " ".toList, .placed (joinNode raw j) { d := b.lang.dialect }] := by
    rw [joined_parts b.lang.dialect _ rfl, List.flatMap_map]
  have hw : whereOf { d := b.lang.dialect } (and_ (nodes (mapAll (Field.node raw) a.conds))) = some (and_ (nodes (mapAll (Field.node raw) a.conds))) := by
    generalize nodes (mapAll (Field.node raw) a.conds) = N
    cases N <;> simp [whereOf, and_]
  have hf : filtered { d := b.lang.dialect, env := b.env } (a.tab.node :: a.joins.map (joinNode raw)) (and_ (nodes (mapAll (Field.node raw) a.conds))) =
      condition { d := b.lang.dialect, env := b.env } " WHERE ".toList (and_ (nodes (mapAll (Field.node raw) a.conds))) := by
    unfold filtered
    rw [asks_none]
  have hft : ifTable { d := b.lang.dialect, env := b.env } " FROM ".toList a.tab.node = .text " FROM ".toList :: source { d := b.lang.dialect, env := b.env } a.tab.node := rfl
  have he : effEnv none b.env = b.env := rfl
  unfold groupNode groupRest
  simp only [Spec.construct]
  rw [hw, he, hj, hft, Option.map_some, hf]
  simp only [with_, ifAny, condition, and_, Spec.distinct, List.isEmpty_nil, if_true, List.append_nil, List.nil_append, List.append_assoc, Bool.false_eq_true, if_false]

/-- What is sent for a question about groups, whatever is selected, and how it is read. -/
theorem group_parts (b : Builder) (raw : Field → Bool) (a : Ask) (G : Grouping) (h : Group.Body b.lang a G) :
    (∀ x ∈ a.labels, Readable b.lang.dialect x) ∧ ∃ m : Core, (∀ C T, m.rows C T = a.answer C T) ∧
      ∀ (fields : List Node) (P : List Part) (Y : List Lex), fields ≠ [] → Adds b.lang.dialect (items { d := b.lang.dialect, env := b.env } fields) P →
        Asking.Piece b.lang P Y → NoWord Y → ∀ limit offset, Allowed b.lang limit offset →
        ∃ xs Z, ((ownSQL (groupNode b raw a G fields limit offset)).status = .ok ∧
            (ownSQL (groupNode b raw a G fields limit offset)).query = Storing.flat b.lang.dialect 0 xs ∧
            (ownSQL (groupNode b raw a G fields limit offset)).args = vals xs) ∧ Asking.Piece b.lang xs Z ∧
          ∀ list? is, list? a.labels Y = some is → is.all (Item.within (G.keys.map Field.col)) = true →
            Group.stmtOf? list? b.lang Z = some ⟨is, G.keys.map Field.col, G.having.map boundCol, G.order.map (fun k => rankCol k.key), m, limit, offset⟩ := by
  have hl0 : ∀ x ∈ [a.tab.label], Readable b.lang.dialect x := fun x hx => by
    rw [List.mem_singleton.1 hx]
    exact h.ask.tab.label
  obtain ⟨hl, js, jss, jp, j1, j2, j3, j4, j5, j6, j7, j8⟩ := joins_parts b.lang raw a.joins [a.tab.label] hl0 h.ask.joins
  have hl : ∀ x ∈ a.labels, Readable b.lang.dialect x := hl
  obtain ⟨ws, e, w1, w2, w3, w4, _⟩ := sect_conds b.lang a.labels hl raw a.conds h.ask.conds b.env
  obtain ⟨g1, g2⟩ := sect_group b.lang a.labels hl raw G.keys h.keys b.env
  obtain ⟨v1, v2⟩ := sect_having b.lang a.labels hl raw G.having h.having b.env
  obtain ⟨o1, o2⟩ := sect_rank b.lang a.labels hl raw G.order h.order b.env
  refine ⟨hl, ⟨[], ⟨a.tab.schema, a.tab.name, a.tab.label⟩, jp, e, []⟩, fun C T => ?_, fun fields P Y hne i1 i2 i3 limit offset hal => ?_⟩
  · show (joinParts C T jp _).filter (holds C e) = _
    rw [j7, show holds C e = fun w => described C a.conds (Field.value w) from funext (w4 C)]
    rfl
  have n1 : Sect b.lang (number " LIMIT ".toList (limit.map Int.ofNat)) (numberSecs .limit limit) :=
    sect_number b.lang .limit "LIMIT ".toList (by cases b.lang <;> decide +kernel) limit
  have n2 : Sect b.lang (number " OFFSET ".toList (offset.map Int.ofNat)) (numberSecs .offset offset) :=
    sect_number b.lang .offset "OFFSET ".toList (by cases b.lang <;> decide +kernel) offset
  obtain ⟨xs, x1, x2, x3, x4⟩ := (sect_from b.lang a.tab h.ask.tab b.env).append (Sect.append ⟨js, j1, j2, j3, j4⟩ (w1.append (g1.append (v1.append (o1.append (n1.append n2))))))
  have hsel : Ends (lexing b.lang) "SELECT ".toList [.word "SELECT".toList] := by cases b.lang <;> decide +kernel
  have p0 := (Piece.kw hsel (by simp [Choosing.Plain]) i2).append x2 x3
  have a0 : Adds b.lang.dialect ([.text "SELECT ".toList] ++ (items { d := b.lang.dialect, env := b.env } fields ++ groupRest b raw a G limit offset))
      (.text "SELECT ".toList :: (P ++ xs)) := Adds.cons _ (i1.append x1)
  have hneeds : Needs { d := b.lang.dialect } (groupNode b raw a G fields limit offset) :=
    (⟨hne, fun h => (h rfl).elim, fun _ => node_ne _, refuses_not raw a.joins a.tab _⟩ :
      SelectNeeds b.lang.dialect (effEnv none b.env) _ fields [] a.tab.node (a.joins.map (joinNode raw)))
  have ho := own (n := groupNode b raw a G fields limit offset) (l := b.lang) rfl (group_construct b raw a G _ limit offset) hneeds a0 p0.flat
  refine ⟨_, _, ho, p0, fun list? is i4 hin => ?_⟩
  have hpre : NoWord ([Tok.word "SELECT".toList].map Lex.tok ++ Y) := NoWord.append (NoWord.cons (by decide +kernel) NoWord.nil) i3
  unfold Group.stmtOf?
  rw [sections_read _ _ hpre x4]
  have hnum : ∀ w, w ≠ .limit → w ≠ .offset → ∀ x r, numberSecs .limit limit ++ numberSecs .offset offset ≠ (w, x) :: r := by
    intro w h1 h2 x r
    cases limit with
    | some n =>
      intro e
      exact h1 (Prod.mk.inj (List.cons.inj e).1).1.symm
    | none =>
      cases offset with
      | some n =>
        intro e
        exact h2 (Prod.mk.inj (List.cons.inj e).1).1.symm
      | none => exact fun e => nomatch e
  have hord : ∀ w, w ≠ .order → w ≠ .limit → w ≠ .offset → ∀ x r,
      rankSecs b.lang raw G.order ++ (numberSecs .limit limit ++ numberSecs .offset offset) ≠ (w, x) :: r := by
    intro w h1 h2 h3 x r
    unfold rankSecs
    split
    · exact hnum w h2 h3 x r
    · simp only [List.cons_append, List.nil_append, ne_eq, List.cons.injEq, Prod.mk.injEq, not_and]
      intro e
      exact absurd e.1.symm h1
  have hhav : ∀ w, w ≠ .having → w ≠ .order → w ≠ .limit → w ≠ .offset → ∀ x r,
      havingSecs b.lang raw G.having ++ (rankSecs b.lang raw G.order ++ (numberSecs .limit limit ++ numberSecs .offset offset)) ≠ (w, x) :: r := by
    intro w h0 h1 h2 h3 x r
    unfold havingSecs
    split
    · exact hord w h1 h2 h3 x r
    · simp only [List.cons_append, List.nil_append, ne_eq, List.cons.injEq, Prod.mk.injEq, not_and]
      intro e
      exact absurd e.1.symm h0
  have hgrp : ∀ w, w ≠ .group → w ≠ .having → w ≠ .order → w ≠ .limit → w ≠ .offset → ∀ x r,
      groupSecs b.lang raw G.keys ++ (havingSecs b.lang raw G.having ++ (rankSecs b.lang raw G.order ++ (numberSecs .limit limit ++ numberSecs .offset offset))) ≠ (w, x) :: r := by
    intro w h0 hv h1 h2 h3 x r
    unfold groupSecs
    split
    · exact hhav w hv h1 h2 h3 x r
    · simp only [List.cons_append, List.nil_append, ne_eq, List.cons.injEq, Prod.mk.injEq, not_and]
      intro e
      exact absurd e.1.symm h0
  have hnj : nextJoin (groupSecs b.lang raw G.keys ++ (havingSecs b.lang raw G.having ++ (rankSecs b.lang raw G.order ++ (numberSecs .limit limit ++ numberSecs .offset offset)))) = none := by
    unfold nextJoin
    split
    · rename_i he; exact absurd he (hgrp _ (by simp) (by simp) (by simp) (by simp) (by simp) _ _)
    · rename_i he; exact absurd he (hgrp _ (by simp) (by simp) (by simp) (by simp) (by simp) _ _)
    · rename_i he; exact absurd he (hgrp _ (by simp) (by simp) (by simp) (by simp) (by simp) _ _)
    · rename_i he; exact absurd he (hgrp _ (by simp) (by simp) (by simp) (by simp) (by simp) _ _)
    · rename_i he; exact absurd he (hgrp _ (by simp) (by simp) (by simp) (by simp) (by simp) _ _)
    · rfl
  show (if upper "SELECT".toList = "SELECT".toList then
    (ref? b.lang.dialect ((refT b.lang a.tab).map .tok)).bind fun t =>
    (joins? b.lang ((jss ++ (ws ++ (groupSecs b.lang raw G.keys ++ (havingSecs b.lang raw G.having ++ (rankSecs b.lang raw G.order ++ (numberSecs .limit limit ++ numberSecs .offset offset)))))).length + 1) [t.label]
      (jss ++ (ws ++ (groupSecs b.lang raw G.keys ++ (havingSecs b.lang raw G.having ++ (rankSecs b.lang raw G.order ++ (numberSecs .limit limit ++ numberSecs .offset offset))))))).bind fun j =>
    (where? b.lang.dialect j.2.1 j.2.2).bind fun w =>
    (group? b.lang j.2.1 w.2).bind fun g =>
    (having? b.lang j.2.1 g.2).bind fun v =>
    (Group.order? b.lang j.2.1 v.2).bind fun o =>
    (page? b.lang o.2).bind fun p =>
    (list? j.2.1 Y).bind fun is =>
    if p.2 = [] ∧ is.all (Item.within g.1) = true ∧ (∀ b ∈ v.1, b.item.within g.1 = true) ∧ (∀ k ∈ o.1, k.item.within g.1) then some (⟨is, g.1, v.1, o.1, ⟨[], t, j.1, w.1, []⟩, p.1.1, p.1.2⟩ : Group.Stmt) else none
    else none) = _
  rw [if_pos (by decide +kernel), ref_read b.lang a.tab h.ask.tab, Option.bind_some, j6 _ _ (by rw [List.length_append]; omega) (w3 _ hnj), Option.bind_some]
  show (where? b.lang.dialect a.labels _).bind _ = _
  rw [w2 _ (hgrp _ (by simp) (by simp) (by simp) (by simp) (by simp)), Option.bind_some]
  show (group? b.lang a.labels _).bind _ = _
  rw [g2 _ (hhav _ (by simp) (by simp) (by simp) (by simp)), Option.bind_some]
  show (having? b.lang a.labels _).bind _ = _
  rw [v2 _ (hord _ (by simp) (by simp) (by simp)), Option.bind_some]
  show (Group.order? b.lang a.labels _).bind _ = _
  rw [o2 _ (hnum _ (by simp) (by simp)), Option.bind_some]
  have hpg := page_read b.lang limit offset hal [] After.nil
  rw [List.append_nil] at hpg
  show (page? b.lang (numberSecs .limit limit ++ numberSecs .offset offset)).bind _ = _
  rw [hpg, Option.bind_some]
  show (list? a.labels Y).bind _ = _
  rw [i4, Option.bind_some, if_pos]
  refine ⟨rfl, hin, ?_, ?_⟩
  · intro b' hb'
    obtain ⟨b'', hb, rfl⟩ := List.mem_map.1 hb'
    have hcm := h.compared b'' hb
    obtain ⟨i, op, v⟩ := b''
    cases i with
    | key c => exact decide_eq_true (hcm c rfl)
    | agg f c => rfl
    | all => rfl
  · intro k hk
    obtain ⟨k', hk', rfl⟩ := List.mem_map.1 hk
    have hr := h.ranked k' hk'
    obtain ⟨i, D, N⟩ := k'
    cases i with
    | key c => exact decide_eq_true (hr c rfl)
    | agg f c => rfl
    | all => rfl

/-- What is sent for a question about groups, and how it is read. -/
theorem group_reads (b : Builder) (raw : Field → Bool) (a : Ask) (G : Grouping) (h : Sound b.lang a G) :
    ∃ m : Core, (∀ C T, m.rows C T = a.answer C T) ∧
      ∀ limit offset, Allowed b.lang limit offset →
        (ownSQL (query b raw a G limit offset)).status = .ok ∧
        readGroups b.lang (ownSQL (query b raw a G limit offset)).args (ownSQL (query b raw a G limit offset)).query =
          some ⟨G.items.map itemCol, G.keys.map Field.col, G.having.map boundCol, G.order.map (fun k => rankCol k.key), m, limit, offset⟩ := by
  obtain ⟨hl, m, m2, m3⟩ := group_parts b raw a G h.toBody
  obtain ⟨P, Y, i1, i2, i3, i4⟩ := items_parts b.lang raw a.labels hl G.items h.some h.items b.env
  refine ⟨m, m2, fun limit offset hal => ?_⟩
  obtain ⟨xs, Z, ho, p0, hz⟩ := m3 _ P Y (by simpa using h.some) i1 i2 i3 limit offset hal
  rw [query_node _ _ _ h.unsorted]
  have hr := p0.reads
  refine ⟨ho.1, ?_⟩
  unfold readGroups
  rw [ho.2.1, ho.2.2, ← Option.bind_assoc, hr, Option.bind_some]
  refine hz _ _ i4 ?_
  rw [List.all_map, List.all_eq_true]
  intro i hi
  cases i with
  | key c => exact decide_eq_true (h.selected _ hi c rfl)
  | agg f c => rfl
  | all => rfl

/-- The same in `SELECT EXISTS (...)`. -/
theorem exists_reads {l : Lang} {xs : List Part} {Z : List Lex} (h : Asking.Piece l xs Z) (m : Group.Stmt)
    (hm : Group.stmtOf? (fun labels xs => if xs = [.tok (.word "1".toList)] then some [] else items? l labels xs) l Z = some m) :
    Group.readExists l (vals xs) ("SELECT EXISTS (".toList ++ Storing.flat l.dialect 0 xs ++ ")".toList) = some m := by
  have k1 : Asking.Piece l [.text ")".toList] ([Tok.sym ')'].map .tok) := Asking.Piece.text (by cases l <;> decide +kernel) (by simp [Choosing.Plain])
  have k2 := Asking.Piece.kw (l := l) (kw := "SELECT EXISTS (".toList) (K := [.word "SELECT".toList, .word "EXISTS".toList, .sym '('])
    (by cases l <;> decide +kernel) (by simp [Choosing.Plain]) (h.append k1 (Sep.text l (by decide +kernel) []))
  have hr := k2.reads
  have hf : Storing.flat l.dialect 0 (.text "SELECT EXISTS (".toList :: (xs ++ [.text ")".toList])) = "SELECT EXISTS (".toList ++ Storing.flat l.dialect 0 xs ++ ")".toList := by
    rw [List.append_assoc]
    show "SELECT EXISTS (".toList ++ Storing.flat l.dialect 0 (xs ++ [.text ")".toList]) = _
    rw [flat_append]
    rfl
  have hv : vals (.text "SELECT EXISTS (".toList :: (xs ++ [.text ")".toList])) = vals xs := by
    show vals (xs ++ [.text ")".toList]) = _
    rw [vals_append]
    exact List.append_nil _
  rw [hf, hv] at hr
  unfold Group.readExists
  rw [← Option.bind_assoc, hr, Option.bind_some]
  show (if upper "SELECT".toList = "SELECT".toList ∧ upper "EXISTS".toList = "EXISTS".toList then (inside (Z ++ [.tok (.sym ')')])).bind _ else none) = _
  rw [if_pos (by decide +kernel), inside_append, Option.bind_some]
  exact hm

end Sq.Grouped
