import Verif.Spec.Change
import Verif.Proof.Select
import Verif.Props.Where
/-
How UPDATE and DELETE statements with other tables are written, and how the text is read back (for C82).
-/
namespace Sq.Asking
open Sq Sq.Spec Sq.Chain Sq.Exprs Sq.Exprs.Writing Sq.Spec.Store Sq.Spec.Where Sq.Spec.Sel Sq.Spec.Chg Sq.Choosing
open Sq.Storing hiding pieces
open _root_.Spec (Tok tokens BTok BExp readBool identClose isBareIdent)
open Ddl (Ends Breaks nameTok tokens_ident tokens_append_ends tokens_append_breaks ends_append_breaks tokens_of_ends tokens_word ends_append)

/-! ### Assignments -/

def leftText (l : Lang) (t : Tab) (c : Str) : Str := if l = .mysql then t.column l.dialect c else quoteIdentifier l.dialect c
def leftL (l : Lang) (raw : Field → Bool) (t : Tab) (c : Str) : List Lex :=
  if l = .mysql then colL l (Field.node raw ⟨t, c⟩) else [.tok (nameT l c)]
def rightPart (l : Lang) (raw : Field → Bool) : Rhs Field → Part
  | .col c => .text (colText l.dialect (c.node raw))
  | .val v => .value (.val v)
def rightL (l : Lang) (raw : Field → Bool) : Rhs Field → List Lex
  | .col c => colL l (c.node raw)
  | .val v => [.val v]
def setParts (l : Lang) (raw : Field → Bool) (t : Tab) (x : Assign) : List Part :=
  [.text (leftText l t x.col), .text " = ".toList, rightPart l raw x.rhs]
def setL (l : Lang) (raw : Field → Bool) (t : Tab) (x : Assign) : List Lex := leftL l raw t x.col ++ .tok (.sym '=') :: rightL l raw x.rhs

/-- The tables whose columns are written without their name. -/
def bare (l : Lang) (t : Tab) : List Str := if l = .mysql then [] else [t.label]

theorem excluded_ne {x y : Str} (h : y ≠ x) : isExcluded [x] y = false := by
  have := isExcluded_iff [x] (by
    intro i j hij a b _ hb
    cases j with
    | zero => omega
    | succ j => simp at hb) (q := y)
  cases e : isExcluded [x] y with
  | false => rfl
  | true => exact absurd (by simpa using this.1 e) h

theorem adds_assign (l : Lang) (raw : Field → Bool) (t : Tab) (hn : t.name ≠ []) (x : Assign)
    (hs : ∀ c, x.rhs = .col c → c.tab.name ≠ [] ∧ (l ≠ .mysql → c.tab.label ≠ t.label)) :
    Adds l.dialect (assignment { d := l.dialect, ex := bare l t } (Assign.node raw t x)) (setParts l raw t x) := by
  have h1 := Adds.field (d := l.dialect) t (fun _ => raw ⟨t, x.col⟩) x.col { d := l.dialect, ex := bare l t } rfl hn
  have e1 : (if isExcluded (bare l t) t.label = true then quoteIdentifier l.dialect x.col else t.column l.dialect x.col) = leftText l t x.col := by
    unfold bare leftText
    by_cases hm : l = .mysql
    · rw [if_pos hm, if_pos hm, if_neg (by simp [excluded_nil])]
    · rw [if_neg hm, if_neg hm, if_pos (excluded_self _)]
  rw [e1] at h1
  have h2 : Adds l.dialect [.placed (Assign.node raw t x).2 { d := l.dialect, ex := bare l t }] [rightPart l raw x.rhs] := by
    obtain ⟨col, rhs⟩ := x
    cases rhs with
    | val v => exact Adds.scalar v _ rfl
    | col c =>
      obtain ⟨hc, hd⟩ := hs c rfl
      have h := Adds.field (d := l.dialect) c.tab (fun _ => raw c) c.name { d := l.dialect, ex := bare l t } rfl hc
      have e2 : (if isExcluded (bare l t) c.tab.label = true then quoteIdentifier l.dialect c.name else c.tab.column l.dialect c.name) = colText l.dialect (c.node raw) := by
        unfold bare
        by_cases hm : l = .mysql
        · rw [if_pos hm, if_neg (by simp [excluded_nil])]
          rfl
        · rw [if_neg hm, if_neg (by simp [excluded_ne (hd hm)])]
          rfl
      rw [e2] at h
      exact h
  have hk : ¬ ((Assign.node raw t x).2.kind = .query ∨ (Assign.node raw t x).2.kind = .vquery) := by
    obtain ⟨col, rhs⟩ := x
    cases rhs <;> simp [Assign.node, Field.node, Node.kind]
  unfold Spec.assignment
  rw [if_neg hk]
  exact h1.append (Adds.cons _ h2)

theorem Piece.left (l : Lang) (raw : Field → Bool) (t : Tab) (c : Str) : Piece l [.text (leftText l t c)] (leftL l raw t c) := by
  unfold leftText leftL
  by_cases hm : l = .mysql
  · rw [if_pos hm, if_pos hm]
    exact Piece.column l (Field.node raw ⟨t, c⟩)
  · rw [if_neg hm, if_neg hm]
    refine Piece.text (K := [nameT l c]) ?_ (fun x hx => by rw [List.mem_singleton.1 hx]; exact plain_name ..)
    rw [quote_lexing]
    exact tokens_ident (lexing l) c

theorem Piece.right (l : Lang) (raw : Field → Bool) (x : Rhs Field) : Piece l [rightPart l raw x] (rightL l raw x) := by
  cases x with
  | col c => exact Piece.column l _
  | val v => exact Piece.value l v

theorem Piece.assign (l : Lang) (raw : Field → Bool) (t : Tab) (x : Assign) : Piece l (setParts l raw t x) (setL l raw t x) := by
  have hk : Ends (lexing l) " = ".toList [.sym '='] := by cases l <;> decide +kernel
  exact (Piece.left l raw t x.col).append (Piece.kw hk (by simp [Choosing.Plain]) (Piece.right l raw x.rhs)) (Sep.text l (c := ' ') (t := "= ".toList) (by decide) _)

theorem noComma_assign (l : Lang) (raw : Field → Bool) (t : Tab) (x : Assign) : NoComma (setL l raw t x) := by
  unfold NoComma setL
  simp only [List.mem_append, List.mem_cons, not_or]
  refine ⟨?_, by simp, ?_⟩
  · unfold leftL
    split
    · exact noComma_col l _
    · simp [(nameT_sym l _ _).symm]
  · cases x.rhs with
    | col c => exact noComma_col l _
    | val v => simp [rightL]

theorem noWord_assign (l : Lang) (raw : Field → Bool) (t : Tab) (ht : Readable l.dialect t.label) (x : Assign) (hx : Readable l.dialect x.col)
    (hs : ∀ c, x.rhs = .col c → Readable l.dialect c.tab.label ∧ Readable l.dialect c.name) : NoWord (setL l raw t x) := by
  refine NoWord.append ?_ (NoWord.cons rfl ?_)
  · unfold leftL
    split
    · exact noWord_col l _ ht hx
    · exact NoWord.cons (noWord_name l _ hx) NoWord.nil
  · cases e : x.rhs with
    | col c => exact noWord_col l _ (hs c e).1 (hs c e).2
    | val v => exact NoWord.cons rfl NoWord.nil

/-- What an assignment is read as. -/
def rhsRead : Rhs Field → Rhs Sel.Col
  | .col c => .col c.col
  | .val v => .val v
def assignRead (x : Assign) : Str × Rhs Sel.Col := (x.col, rhsRead x.rhs)

theorem right_read (l : Lang) (raw : Field → Bool) (labels : List Str) (hl : ∀ x ∈ labels, Readable l.dialect x) (x : Rhs Field)
    (hs : ∀ c, x = .col c → InScope l.dialect labels c) : rhs? l.dialect (scope labels) (rightL l raw x) = some (rhsRead x, []) := by
  cases x with
  | val v => rfl
  | col c =>
    have h := column_read l (scope labels) colOf _ (canRead hl (hs c rfl) raw) []
    rw [List.append_nil] at h
    show rhs? l.dialect (scope labels) (.tok (nameT l (labelOf (c.node raw))) :: _) = _
    show (column? l.dialect (scope labels) (colL l (c.node raw))).map _ = _
    rw [h]
    rfl

theorem assign_read (l : Lang) (raw : Field → Bool) (t : Tab) (hn : t.name ≠ []) (ht : Readable l.dialect t.label) (labels : List Str)
    (hl : ∀ x ∈ labels, Readable l.dialect x) (x : Assign) (hx : Readable l.dialect x.col) (hs : ∀ c, x.rhs = .col c → InScope l.dialect labels c) :
    assign? l t.label labels (setL l raw t x) = some (assignRead x) := by
  have hr := right_read l raw labels hl x.rhs hs
  unfold assign? setL leftL
  by_cases hm : l = .mysql
  · rw [if_pos hm, if_pos hm]
    have h := column_read l (scope [t.label]) colOf _ (canRead (labels := [t.label]) (fun y hy => by rw [List.mem_singleton.1 hy]; exact ht)
      (c := ⟨t, x.col⟩) ⟨hn, List.mem_singleton.2 rfl, hx⟩ raw) (.tok (.sym '=') :: rightL l raw x.rhs)
    rw [h]
    simp only [hr]
    rfl
  · rw [if_neg hm, if_neg hm]
    show (name? l.dialect (nameT l x.col)).bind _ = _
    rw [(name_read (κ := Unit) l _ hx).1, Option.bind_some]
    simp only [hr]
    rfl

/-- SET. -/
theorem sect_set (l : Lang) (raw : Field → Bool) (t : Tab) (hn : t.name ≠ []) (ht : Readable l.dialect t.label) (labels : List Str)
    (hl : ∀ x ∈ labels, Readable l.dialect x) (xs : List Assign) (some_ : xs ≠ []) (once : (xs.map Assign.col).Nodup)
    (names : ∀ x ∈ xs, Readable l.dialect x.col) (hs : ∀ x ∈ xs, ∀ c, x.rhs = .col c → InScope l.dialect labels c)
    (foreign : l ≠ .mysql → ∀ x ∈ xs, ∀ c, x.rhs = .col c → c.tab.label ≠ t.label)
    (free : l = .mysql → ∀ x ∈ xs, ∀ c, x.rhs = .col c → c.tab.label ≠ t.label ∨ c.name ∉ xs.map Assign.col) (env : Env) :
    ∃ Y, Sect l (.text " SET ".toList :: assignments { d := l.dialect, env := env, ex := bare l t } (xs.map (Assign.node raw t))) [(.set_, Y)] ∧
      sets? l t.label labels Y = some (xs.map assignRead) := by
  refine ⟨commaL (xs.map (setL l raw t)), ?_, ?_⟩
  · have hk : Ends (lexing l) (' ' :: "SET ".toList) [.word (wordText .set_)] := by cases l <;> decide +kernel
    refine Sect.one hk (by simp) NoWord.nil (xs := listed ", ".toList (xs.map (setParts l raw t))) ?_ (Piece.listed _ _ xs fun x _ => Piece.assign l raw t x)
      (noWord_comma _ fun y hy => ?_)
    · unfold Spec.assignments
      rw [List.map_map]
      exact Adds.listed _ _ _ xs fun x hx => adds_assign l raw t hn x fun c hc => ⟨(hs x hx c hc).1, fun hm => foreign hm x hx c hc⟩
    · obtain ⟨x, hx, rfl⟩ := List.mem_map.1 hy
      exact noWord_assign l raw t ht x (names x hx) fun c hc => ⟨hl _ (hs x hx c hc).2.1, (hs x hx c hc).2.2⟩
  · unfold sets?
    rw [pieces_comma _ (by simpa using some_) (fun y hy => by
      obtain ⟨x, _, rfl⟩ := List.mem_map.1 hy
      exact noComma_assign l raw t x), every_map _ _ assignRead xs fun x hx => assign_read l raw t hn ht labels hl x (names x hx) (hs x hx), Option.bind_some, if_pos]
    have e : (xs.map assignRead).map Prod.fst = xs.map Assign.col := by simp [assignRead, Function.comp_def]
    unfold orderly
    rw [e, Bool.and_eq_true]
    refine ⟨by simpa using once, ?_⟩
    by_cases hm : l = .mysql
    · rw [Bool.or_eq_true]
      refine .inr ?_
      rw [List.all_eq_true]
      intro y hy
      obtain ⟨x, hx, rfl⟩ := List.mem_map.1 hy
      obtain ⟨col, rhs⟩ := x
      cases rhs with
      | val v => rfl
      | col c => exact decide_eq_true (free hm _ hx c rfl)
    · simp [hm]

/-- USING. -/
theorem sect_using (l : Lang) (t : Tab) (h : Named l.dialect t) (env : Env) :
    Sect l (.text " USING ".toList :: source { d := l.dialect, env := env } t.node) [(.using_, (refT l t).map .tok)] := by
  have hk : Ends (lexing l) (' ' :: "USING ".toList) [.word (wordText .using_)] := by cases l <;> decide +kernel
  exact Sect.one hk (by simp) NoWord.nil (adds_src _ t env) (Piece.source l t) (noWord_ref l t h)


/-! ### The statements -/

theorem update_joins_run (raw : Field → Bool) (js : List Join) (q : UpdateQ) :
    (js.map (Join.inUpdate raw)).foldl UpdateCall.run q = { q with joins := q.joins ++ js.map (joinNode raw) } := by
  induction js generalizing q with
  | nil => simp
  | cons j js ih =>
    simp only [List.map_cons, List.foldl_cons]
    rw [ih]
    obtain ⟨how, tab, on⟩ := j
    cases how <;> simp [Join.inUpdate, Join.kind, UpdateCall.run, joinNode]

theorem delete_joins_run (raw : Field → Bool) (js : List Join) (q : DeleteQ) :
    (js.map (Join.inDelete raw)).foldl DeleteCall.run q = { q with joins := q.joins ++ js.map (joinNode raw) } := by
  induction js generalizing q with
  | nil => simp
  | cons j js ih =>
    simp only [List.map_cons, List.foldl_cons]
    rw [ih]
    obtain ⟨how, tab, on⟩ := j
    cases how <;> simp [Join.inDelete, Join.kind, DeleteCall.run, joinNode]

def otherNode (a : Reach) : Node := (a.other.map Tab.node).getD .nil

theorem update_node (b : Builder) (raw : Field → Bool) (a : Reach) (sets : List Assign) :
    a.update b raw sets = .update { dialect := b.lang.dialect, env := b.env, hasMapper := false, mapErr := none, limit := none, offset := none }
      [] a.tab.node (otherNode a) (a.joins.map (joinNode raw)) (sets.map (Assign.node raw a.tab)) [] (and_ (nodes (mapAll (Field.node raw) a.conds))) [] [] := by
  unfold Reach.update Chain.update otherNode
  rw [List.foldl_append, List.foldl_append, List.foldl_cons, update_joins_run]
  cases a.other <;> simp [UpdateStart.run, UpdateCall.run, UpdateQ.node]

theorem delete_node (b : Builder) (raw : Field → Bool) (a : Reach) :
    a.delete b raw = .delete { dialect := b.lang.dialect, env := b.env, limit := none, offset := none }
      [] [a.tab.node] (a.other.getD a.tab).node (a.joins.map (joinNode raw)) (and_ (nodes (mapAll (Field.node raw) a.conds))) [] [] := by
  unfold Reach.delete Chain.delete
  rw [List.foldl_append, List.foldl_cons (l := a.joins.map _), delete_joins_run]
  simp [DeleteStart.run, DeleteCall.run, DeleteQ.node]

/-- The joins, as parts. -/
def joinPs (d : Dialect) (raw : Field → Bool) (js : List Join) : List Part := js.flatMap fun j => [.text " ".toList, .placed (joinNode raw j) { d := d }]

theorem joined_joins (d : Dialect) (env : Env) (raw : Field → Bool) (js : List Join) :
    joined { d := d, env := env } (js.map (joinNode raw)) = joinPs d raw js := by
  rw [joined_parts d _ rfl, List.flatMap_map]
  rfl

theorem update_construct (b : Builder) (raw : Field → Bool) (a : Reach) (sets : List Assign) (hs : a.other = none ↔ b.lang = .mysql) :
    Spec.construct { d := b.lang.dialect } (a.update b raw sets) =
      some ([.text "UPDATE ".toList] ++ source { d := b.lang.dialect, env := b.env } a.tab.node ++
        (match a.other with
         | some t => (.text " SET ".toList :: assignments { d := b.lang.dialect, env := b.env, ex := bare b.lang a.tab } (sets.map (Assign.node raw a.tab))) ++
            ((.text " FROM ".toList :: source { d := b.lang.dialect, env := b.env } t.node) ++ (joinPs b.lang.dialect raw a.joins ++
              condition { d := b.lang.dialect, env := b.env } " WHERE ".toList (and_ (nodes (mapAll (Field.node raw) a.conds)))))
         | none => joinPs b.lang.dialect raw a.joins ++
            ((.text " SET ".toList :: assignments { d := b.lang.dialect, env := b.env, ex := bare b.lang a.tab } (sets.map (Assign.node raw a.tab))) ++
              condition { d := b.lang.dialect, env := b.env } " WHERE ".toList (and_ (nodes (mapAll (Field.node raw) a.conds)))))) := by
  rw [update_node]
  have hq : Spec.qualifier a.tab.node = a.tab.label := rfl
  simp only [Spec.construct, effEnv, joined_joins]
  cases ho : a.other with
  | none =>
    have hm := hs.1 ho
    have hm' : b.lang.dialect = .mysql := by rw [hm]; rfl
    have ht : ifTable { d := b.lang.dialect, env := b.env } " FROM ".toList (otherNode a) = [] := by unfold otherNode; rw [ho]; rfl
    rw [if_pos hm', if_pos hm', ht]
    simp [with_, ifAny, number, bare, hm]
  | some t =>
    have hm : b.lang ≠ .mysql := fun e => by rw [hs.2 e] at ho; cases ho
    have hm' : b.lang.dialect ≠ .mysql := by
      revert hm
      cases b.lang <;> simp [Lang.dialect]
    have ht : ifTable { d := b.lang.dialect, env := b.env } " FROM ".toList (otherNode a) = .text " FROM ".toList :: source { d := b.lang.dialect, env := b.env } t.node := by
      unfold otherNode; rw [ho]; rfl
    rw [if_neg hm', if_neg hm', ht, hq]
    simp [with_, ifAny, number, bare, hm]

theorem delete_construct (b : Builder) (raw : Field → Bool) (a : Reach) :
    Spec.construct { d := b.lang.dialect } (a.delete b raw) =
      some ([.text "DELETE FROM ".toList] ++ (if b.lang = .mysql then [.text a.tab.label] else source { d := b.lang.dialect, env := b.env } a.tab.node) ++
        ((.text " USING ".toList :: source { d := b.lang.dialect, env := b.env } (a.other.getD a.tab).node) ++ (joinPs b.lang.dialect raw a.joins ++
              condition { d := b.lang.dialect, env := b.env } " WHERE ".toList (and_ (nodes (mapAll (Field.node raw) a.conds)))))) := by
  rw [delete_node]
  have hq : Spec.qualifier a.tab.node = a.tab.label := rfl
  have hf : filtered { d := b.lang.dialect, env := b.env } [a.tab.node] (and_ (nodes (mapAll (Field.node raw) a.conds))) =
      condition { d := b.lang.dialect, env := b.env } " WHERE ".toList (and_ (nodes (mapAll (Field.node raw) a.conds))) := by
    have h := asks_none raw [] a.tab b.env
    unfold filtered
    rw [List.map_nil] at h
    rw [h]
  have ht : ∀ t : Tab, ifTable { d := b.lang.dialect, env := b.env } " USING ".toList t.node = .text " USING ".toList :: source { d := b.lang.dialect, env := b.env } t.node :=
    fun _ => rfl
  have hd : deleted { d := b.lang.dialect, env := b.env } (a.other.getD a.tab).node [a.tab.node] =
      if b.lang = .mysql then [.text a.tab.label] else source { d := b.lang.dialect, env := b.env } a.tab.node := by
    have hk : (a.other.getD a.tab).node.kind ≠ .nilv := by simp [Tab.node, Node.kind]
    have hx : Spec.names ([a.tab.node].map Spec.qualifier) = a.tab.label := by simp [Spec.names, hq]
    show (if _ ∨ _ then _ else [Part.text (Spec.names ([a.tab.node].map Spec.qualifier))]) = _
    rw [hx]
    by_cases hm : b.lang = .mysql
    · rw [if_pos hm, if_neg]
      rw [not_or]
      exact ⟨hk, by rw [hm]; simp [Lang.dialect]⟩
    · rw [if_neg hm, if_pos]
      refine .inr ?_
      revert hm
      cases b.lang <;> simp [Lang.dialect]
  simp only [Spec.construct, effEnv]
  rw [if_neg (by simp)]
  unfold deleteParts
  rw [hf, hd, joined_joins, ht]
  simp [with_, ifAny, number]


def refOf (t : Tab) : Ref := ⟨t.schema, t.name, t.label⟩

theorem last_read (d : Dialect) (labels : List Str) (ws : List (Word × List Lex)) (e : Option (BExp (Test Sel.Col)))
    (h : ∀ rest, (∀ x r, rest ≠ (.where_, x) :: r) → where? d labels (ws ++ rest) = some (e, rest)) : last? d labels ws = some e := by
  have := h [] (by simp)
  rw [List.append_nil] at this
  unfold last?
  rw [this]

theorem nextJoin_set (Y : List Lex) (r : List (Word × List Lex)) : nextJoin ((.set_, Y) :: r) = none := rfl

theorem limits_none (d : Dialect) : LimitsAllowed d [] none none := ⟨fun h => by simp at h, fun h => by simp at h⟩

/-- The UPDATE statement that is sent, and how it is read. -/
theorem update_reads (b : Builder) (raw : Field → Bool) (a : Reach) (sets : List Assign) (h : a.Sound b.lang) (hs : SetsSound b.lang a sets) :
    ∃ m : Target, m.ref = refOf a.tab ∧ (∀ C T r, m.matches C T r = a.matches C T r) ∧
      (ownSQL (a.update b raw sets)).status = .ok ∧
      readUpdate b.lang (ownSQL (a.update b raw sets)).args (ownSQL (a.update b raw sets)).query = some (m, sets.map assignRead) := by
  have hup : Ends (lexing b.lang) "UPDATE ".toList [.word "UPDATE".toList] := by cases b.lang <;> decide +kernel
  have p0 := Piece.kw hup (by simp [Choosing.Plain]) (Piece.source b.lang a.tab)
  have a0 : Adds b.lang.dialect ([.text "UPDATE ".toList] ++ source { d := b.lang.dialect, env := b.env } a.tab.node) (.text "UPDATE ".toList :: srcParts b.lang.dialect a.tab) :=
    Adds.cons _ (adds_src _ a.tab b.env)
  have hpre : NoWord ([Tok.word "UPDATE".toList].map Lex.tok ++ (refT b.lang a.tab).map .tok) :=
    NoWord.append (NoWord.cons (by decide +kernel) NoWord.nil) (noWord_ref b.lang a.tab h.tab)
  have hc := update_construct b raw a sets h.shape
  have hd : queryDialect (a.update b raw sets) = b.lang.dialect := by rw [update_node]; rfl
  have hsne : sets.map (Assign.node raw a.tab) ≠ [] := by simpa using hs.some
  cases ho : a.other with
  | none =>
    have hm := h.shape.1 ho
    rw [ho] at hc
    obtain ⟨hj, hin⟩ := h.within ho
    have hl0 : ∀ x ∈ [a.tab.label], Readable b.lang.dialect x := fun x hx => by
      rw [List.mem_singleton.1 hx]
      exact h.tab.label
    have hlab : a.labels = [a.tab.label] ++ a.joins.map (·.tab.label) := by unfold Reach.labels; rw [ho]; rfl
    obtain ⟨hl, js, jss, jp, j1, j2, j3, j4, j5, j6, j7, j8⟩ := joins_parts b.lang raw a.joins [a.tab.label] hl0 hj
    rw [← hlab] at hl j6
    obtain ⟨ws, e, w1, w2, w3, w4⟩ := sect_where b.lang a.labels hl raw a.conds h.conds b.env
    obtain ⟨Y, y1, y2⟩ := sect_set b.lang raw a.tab h.tab.some h.tab.label a.labels hl sets hs.some hs.once hs.names hs.scope hs.foreign hs.free b.env
    obtain ⟨xs, x1, x2, x3, x4⟩ := Sect.append ⟨js, j1, j2, j3, j4⟩ (y1.append w1)
    have hpiece := p0.append x2 x3
    have own := own (l := b.lang) hd hc
      (by
        rw [update_node]
        exact ({ mapperWorks := fun h => by simp at h
                 someTable := node_ne _
                 something := hsne
                 fromAllowed := fun h => by simp [otherNode, ho] at h
                 joinable := fun _ => .inr (by rw [hm]; rfl)
                 hooksAnswer := fun n hn => by
                  rcases List.mem_cons.1 hn with rfl | hn
                  · exact node_answers _ _
                  · rcases List.mem_cons.1 hn with rfl | hn
                    · simp [otherNode, ho, Refuses]
                    · exact refuses_not raw a.joins a.tab _ n (List.mem_cons_of_mem _ hn)
                 limitsAllowed := limits_none _
                 returningAllowed := fun h => (h rfl).elim } : UpdateNeeds b.lang.dialect b.env { dialect := b.lang.dialect, env := b.env, hasMapper := false, mapErr := none, limit := none, offset := none } a.tab.node (otherNode a) (a.joins.map (joinNode raw)) (sets.map (Assign.node raw a.tab)) [] [] []))
      (a0.append x1) hpiece.flat
    refine ⟨⟨refOf a.tab, none, jp, e⟩, rfl, fun C T r => ?_, own.1, ?_⟩
    · unfold Target.matches Target.around Reach.matches Reach.around
      rw [ho, show holds C e = fun w => described C a.conds (Field.value w) from funext (w4 C)]
      simp only [j7]
      rfl
    · have hr := hpiece.reads
      unfold readUpdate
      rw [own.2.1, own.2.2, ← Option.bind_assoc, hr, Option.bind_some]
      unfold update?
      rw [sections_read _ _ hpre x4]
      show (if upper "UPDATE".toList = "UPDATE".toList then
        (ref? b.lang.dialect ((refT b.lang a.tab).map .tok)).bind _ else none) = _
      rw [if_pos (by decide +kernel), ref_read b.lang a.tab h.tab, Option.bind_some, if_pos hm]
      show (joins? b.lang ((jss ++ ([(Word.set_, Y)] ++ ws)).length + 1) [a.tab.label] (jss ++ ([(Word.set_, Y)] ++ ws))).bind _ = _
      rw [j6 ((jss ++ ([(Word.set_, Y)] ++ ws)).length + 1) ([(Word.set_, Y)] ++ ws) (by rw [List.length_append]; omega) (nextJoin_set _ _), Option.bind_some]
      show (if jp.all (fun j => How.inward j.how) = true then (last? b.lang.dialect a.labels ws).bind _ else none) = _
      rw [if_pos, last_read _ _ _ _ w2, Option.bind_some, y2]
      · rfl
      · rw [List.all_eq_true]
        intro j hj
        have : j.how ∈ a.joins.map Join.how := by rw [← j8]; exact List.mem_map_of_mem hj
        obtain ⟨j', hj', e⟩ := List.mem_map.1 this
        rw [← e]
        exact hin j' hj'
  | some o =>
    have hm : b.lang ≠ .mysql := fun e => by rw [h.shape.2 e] at ho; cases ho
    have hm' : b.lang.dialect ≠ .mysql := by
      revert hm
      cases b.lang <;> simp [Lang.dialect]
    rw [ho] at hc
    obtain ⟨hn, hj, hap⟩ := h.apart o ho
    have hl0 : ∀ x ∈ [o.label], Readable b.lang.dialect x := fun x hx => by
      rw [List.mem_singleton.1 hx]
      exact hn.label
    have hlab : a.labels = a.tab.label :: ([o.label] ++ a.joins.map (·.tab.label)) := by unfold Reach.labels; rw [ho]; rfl
    obtain ⟨hl, js, jss, jp, j1, j2, j3, j4, j5, j6, j7, j8⟩ := joins_parts b.lang raw a.joins [o.label] hl0 hj
    have hl : ∀ x ∈ a.labels, Readable b.lang.dialect x := by
      rw [hlab]
      intro x hx
      rcases List.mem_cons.1 hx with rfl | hx
      · exact h.tab.label
      · exact hl x hx
    obtain ⟨ws, e, w1, w2, w3, w4⟩ := sect_where b.lang a.labels hl raw a.conds h.conds b.env
    obtain ⟨Y, y1, y2⟩ := sect_set b.lang raw a.tab h.tab.some h.tab.label a.labels hl sets hs.some hs.once hs.names hs.scope hs.foreign hs.free b.env
    obtain ⟨xs, x1, x2, x3, x4⟩ := y1.append ((sect_from b.lang o hn b.env).append (Sect.append ⟨js, j1, j2, j3, j4⟩ w1))
    have hpiece := p0.append x2 x3
    have own := own (l := b.lang) hd hc
      (by
        rw [update_node]
        exact ({ mapperWorks := fun h => by simp at h
                 someTable := node_ne _
                 something := hsne
                 fromAllowed := fun _ => hm'
                 joinable := fun _ => .inl (by simp [otherNode, ho, node_ne])
                 hooksAnswer := fun n hn => by
                  rcases List.mem_cons.1 hn with rfl | hn
                  · exact node_answers _ _
                  · rw [show otherNode a = o.node by simp [otherNode, ho]] at hn
                    exact refuses_not raw a.joins o _ n hn
                 limitsAllowed := limits_none _
                 returningAllowed := fun h => (h rfl).elim } : UpdateNeeds b.lang.dialect b.env { dialect := b.lang.dialect, env := b.env, hasMapper := false, mapErr := none, limit := none, offset := none } a.tab.node (otherNode a) (a.joins.map (joinNode raw)) (sets.map (Assign.node raw a.tab)) [] [] []))
      (a0.append x1) hpiece.flat
    refine ⟨⟨refOf a.tab, some (refOf o), jp, e⟩, rfl, fun C T r => ?_, own.1, ?_⟩
    · unfold Target.matches Target.around Reach.matches Reach.around
      rw [ho, show holds C e = fun w => described C a.conds (Field.value w) from funext (w4 C)]
      simp only [j7]
      rfl
    · have hr := hpiece.reads
      unfold readUpdate
      rw [own.2.1, own.2.2, ← Option.bind_assoc, hr, Option.bind_some]
      unfold update?
      rw [sections_read _ _ hpre x4]
      show (if upper "UPDATE".toList = "UPDATE".toList then
        (ref? b.lang.dialect ((refT b.lang a.tab).map .tok)).bind _ else none) = _
      rw [if_pos (by decide +kernel), ref_read b.lang a.tab h.tab, Option.bind_some, if_neg hm]
      show (ref? b.lang.dialect ((refT b.lang o).map .tok)).bind _ = _
      rw [ref_read b.lang o hn, Option.bind_some]
      have hnj : nextJoin ws = none := by
        have := w3 [] rfl
        rwa [List.append_nil] at this
      show (joins? b.lang ((jss ++ ws).length + 1) [o.label] (jss ++ ws)).bind _ = _
      rw [j6 _ _ (by rw [List.length_append]; omega) hnj, Option.bind_some]
      show (if a.tab.label ∉ [o.label] ++ a.joins.map (·.tab.label) then
        (last? b.lang.dialect (a.tab.label :: ([o.label] ++ a.joins.map (·.tab.label))) ws).bind _ else none) = _
      rw [if_pos (show _ ∉ [o.label] ++ _ from hap), ← hlab, last_read _ _ _ _ w2, Option.bind_some]
      show (sets? b.lang a.tab.label a.labels Y).map _ = _
      rw [y2]
      rfl


theorem plain_of_bare (x : Str) (h : isBareIdent x = true) : ¬ Sq.needsQuoting x = true := by
  have key : ∀ c, _root_.Spec.bareChar c = true → Sq.plainChar c = true := by
    intro c h
    unfold _root_.Spec.bareChar Char.isLower Char.isDigit at h
    unfold Sq.plainChar
    simp only [Bool.or_eq_true, Bool.and_eq_true, decide_eq_true_eq, beq_iff_eq] at h ⊢
    rcases h with (h | h) | h
    · exact .inr ⟨h.1, h.2⟩
    · exact .inl (.inr ⟨h.1, h.2⟩)
    · exact .inl (.inl h)
  cases x with
  | nil => simp [isBareIdent] at h
  | cons c cs =>
    simp only [isBareIdent, Bool.and_eq_true] at h
    have h1 : ¬ ('0' ≤ c ∧ c ≤ '9') := by
      rintro ⟨_, h9⟩
      have h9 : c.val ≤ 57 := h9
      rcases Bool.or_eq_true .. ▸ h.1 with h | h
      · unfold Char.isLower at h
        simp only [Bool.and_eq_true, decide_eq_true_eq] at h
        have := h.1
        have h97 : (97 : UInt32) ≤ c.val := h.1
        exact absurd (UInt32.le_trans h97 h9) (by decide)
      · rw [beq_iff_eq.1 h] at h9
        exact absurd h9 (by decide)
    have h2 : Sq.plainChar c = true := key c (by
      unfold _root_.Spec.bareChar
      rcases Bool.or_eq_true .. ▸ h.1 with h | h <;> simp [h])
    have h3 : cs.all Sq.plainChar = true := List.all_eq_true.2 fun c hc => key c (List.all_eq_true.1 h.2 c hc)
    simp only [Sq.needsQuoting, h2, h3]
    simpa using h1

/-- The DELETE statement that is sent, and how it is read. -/
theorem delete_reads (b : Builder) (raw : Field → Bool) (a : Reach) (h : a.Sound b.lang) (hq : b.lang ≠ .sqlite)
    (hb : b.lang = .mysql → isBareIdent a.tab.label = true) :
    ∃ m : Target, m.ref = refOf a.tab ∧ (∀ C T r, m.matches C T r = a.matches C T r) ∧
      (ownSQL (a.delete b raw)).status = .ok ∧
      readDelete b.lang (ownSQL (a.delete b raw)).args (ownSQL (a.delete b raw)).query = some m := by
  have hdel : Ends (lexing b.lang) "DELETE FROM ".toList [.word "DELETE".toList, .word "FROM".toList] := by cases b.lang <;> decide +kernel
  have hc := delete_construct b raw a
  have hd : queryDialect (a.delete b raw) = b.lang.dialect := by rw [delete_node]; rfl
  have hq' : b.lang.dialect ≠ .sqlite := by
    revert hq
    cases b.lang <;> simp [Lang.dialect]
  have hneeds : Needs { d := b.lang.dialect } (a.delete b raw) := by
    rw [delete_node]
    exact ({ table := ⟨a.tab.node, [], rfl, node_ne _, fun _ _ t ht => (List.not_mem_nil ht).elim⟩
             usingAllowed := fun _ => hq'
             joinable := fun _ => ⟨hq', node_ne _⟩
             hooksAnswer := fun n hn => by rw [List.mem_singleton.1 hn]; exact node_answers _ _
             limitsAllowed := limits_none _
             single := fun h => by simp at h
             returningAllowed := fun h => (h rfl).elim } : DeleteNeeds b.lang.dialect b.env { dialect := b.lang.dialect, env := b.env, limit := none, offset := none }
              [a.tab.node] (a.other.getD a.tab).node (a.joins.map (joinNode raw)) [] [])
  have hpre : NoWord [Lex.tok (.word "DELETE".toList)] := NoWord.cons (by decide +kernel) NoWord.nil
  have hnj : ∀ (ws : List (Word × List Lex)), (∀ rest, nextJoin rest = none → nextJoin (ws ++ rest) = none) → nextJoin ws = none := by
    intro ws h
    have := h [] rfl
    rwa [List.append_nil] at this
  cases ho : a.other with
  | none =>
    have hm := h.shape.1 ho
    rw [ho, if_pos hm] at hc
    obtain ⟨hj, hin⟩ := h.within ho
    have hl0 : ∀ x ∈ [a.tab.label], Readable b.lang.dialect x := fun x hx => by
      rw [List.mem_singleton.1 hx]
      exact h.tab.label
    have hlab : a.labels = [a.tab.label] ++ a.joins.map (·.tab.label) := by unfold Reach.labels; rw [ho]; rfl
    obtain ⟨hl, js, jss, jp, j1, j2, j3, j4, j5, j6, j7, j8⟩ := joins_parts b.lang raw a.joins [a.tab.label] hl0 hj
    rw [← hlab] at hl j6
    obtain ⟨ws, e, w1, w2, w3, w4⟩ := sect_where b.lang a.labels hl raw a.conds h.conds b.env
    obtain ⟨xs, x1, x2, x3, x4⟩ := (sect_using b.lang a.tab h.tab b.env).append (Sect.append ⟨js, j1, j2, j3, j4⟩ w1)
    have hw : nameT b.lang a.tab.label = .word a.tab.label := by
      unfold nameT nameTok
      rw [if_neg (plain_of_bare _ (hb hm))]
    have ht : tokens (lexing b.lang) a.tab.label = some [nameT b.lang a.tab.label] := by
      have := tokens_ident (lexing b.lang) a.tab.label
      have hquote : quoteIdentifier (lexing b.lang) a.tab.label = a.tab.label := by
        unfold quoteIdentifier
        rw [if_neg (plain_of_bare _ (hb hm))]
      rw [hquote] at this
      exact this
    have p0 := Piece.kw hdel (by simp [Choosing.Plain]) (Piece.text ht (fun x hx => by rw [List.mem_singleton.1 hx]; exact plain_name ..))
    have a0 : Adds b.lang.dialect ([.text "DELETE FROM ".toList] ++ [.text a.tab.label]) [.text "DELETE FROM ".toList, .text a.tab.label] :=
      Adds.cons _ (Adds.text _)
    have hpiece := p0.append x2 x3
    have own := own (l := b.lang) hd hc hneeds (a0.append x1) hpiece.flat
    refine ⟨⟨refOf a.tab, none, jp, e⟩, rfl, fun C T r => ?_, own.1, ?_⟩
    · unfold Target.matches Target.around Reach.matches Reach.around
      rw [ho, show holds C e = fun w => described C a.conds (Field.value w) from funext (w4 C)]
      simp only [j7]
      rfl
    · have hr := hpiece.reads
      unfold readDelete
      rw [own.2.1, own.2.2, ← Option.bind_assoc, hr, Option.bind_some]
      have hsec := sections_read [Lex.tok (.word "DELETE".toList)] ([(.from_, [.tok (nameT b.lang a.tab.label)])] ++ ([(Word.using_, (refT b.lang a.tab).map .tok)] ++ (jss ++ ws))) hpre
        (fun s hs => by
          rcases List.mem_append.1 hs with hs | hs
          · rw [List.mem_singleton.1 hs]
            exact NoWord.cons (noWord_name b.lang _ h.tab.label) NoWord.nil
          · exact x4 s hs)
      unfold delete?
      rw [secL_append] at hsec
      rw [show [Tok.word "DELETE".toList, .word "FROM".toList].map Lex.tok ++ [nameT b.lang a.tab.label].map Lex.tok ++
          secL ([(Word.using_, (refT b.lang a.tab).map .tok)] ++ (jss ++ ws)) =
        [Lex.tok (.word "DELETE".toList)] ++ (secL [(.from_, [.tok (nameT b.lang a.tab.label)])] ++ secL ([(Word.using_, (refT b.lang a.tab).map .tok)] ++ (jss ++ ws))) from rfl, hsec]
      show (if upper "DELETE".toList = "DELETE".toList then (ref? b.lang.dialect ((refT b.lang a.tab).map .tok)).bind _ else none) = _
      rw [if_pos (by decide +kernel), ref_read b.lang a.tab h.tab, Option.bind_some]
      show (joins? b.lang ((jss ++ ws).length + 1) [a.tab.label] (jss ++ ws)).bind _ = _
      rw [j6 _ ws (by rw [List.length_append]; omega) (hnj ws w3), Option.bind_some]
      have hnm := (name_read (κ := Unit) b.lang _ h.tab.label).1
      rw [hm] at *
      show (if name? (Lang.dialect .mysql) (nameT .mysql a.tab.label) = some a.tab.label ∧ jp.all (fun j => How.inward j.how) = true then
        (last? (Lang.dialect .mysql) a.labels ws).map _ else none) = _
      rw [if_pos, last_read _ _ _ _ w2]
      · rfl
      · refine ⟨hnm, ?_⟩
        rw [List.all_eq_true]
        intro j hj
        have : j.how ∈ a.joins.map Join.how := by rw [← j8]; exact List.mem_map_of_mem hj
        obtain ⟨j', hj', e⟩ := List.mem_map.1 this
        rw [← e]
        exact hin j' hj'
  | some o =>
    have hm : b.lang ≠ .mysql := fun e => by rw [h.shape.2 e] at ho; cases ho
    rw [ho, if_neg hm] at hc
    obtain ⟨hn, hj, hap⟩ := h.apart o ho
    have hl0 : ∀ x ∈ [o.label], Readable b.lang.dialect x := fun x hx => by
      rw [List.mem_singleton.1 hx]
      exact hn.label
    have hlab : a.labels = a.tab.label :: ([o.label] ++ a.joins.map (·.tab.label)) := by unfold Reach.labels; rw [ho]; rfl
    obtain ⟨hl, js, jss, jp, j1, j2, j3, j4, j5, j6, j7, j8⟩ := joins_parts b.lang raw a.joins [o.label] hl0 hj
    have hl : ∀ x ∈ a.labels, Readable b.lang.dialect x := by
      rw [hlab]
      intro x hx
      rcases List.mem_cons.1 hx with rfl | hx
      · exact h.tab.label
      · exact hl x hx
    obtain ⟨ws, e, w1, w2, w3, w4⟩ := sect_where b.lang a.labels hl raw a.conds h.conds b.env
    obtain ⟨xs, x1, x2, x3, x4⟩ := (sect_using b.lang o hn b.env).append (Sect.append ⟨js, j1, j2, j3, j4⟩ w1)
    have p0 := Piece.kw hdel (by simp [Choosing.Plain]) (Piece.source b.lang a.tab)
    have a0 : Adds b.lang.dialect ([.text "DELETE FROM ".toList] ++ source { d := b.lang.dialect, env := b.env } a.tab.node) (.text "DELETE FROM ".toList :: srcParts b.lang.dialect a.tab) :=
      Adds.cons _ (adds_src _ a.tab b.env)
    have hpiece := p0.append x2 x3
    have own := own (l := b.lang) hd hc hneeds (a0.append x1) hpiece.flat
    refine ⟨⟨refOf a.tab, some (refOf o), jp, e⟩, rfl, fun C T r => ?_, own.1, ?_⟩
    · unfold Target.matches Target.around Reach.matches Reach.around
      rw [ho, show holds C e = fun w => described C a.conds (Field.value w) from funext (w4 C)]
      simp only [j7]
      rfl
    · have hr := hpiece.reads
      unfold readDelete
      rw [own.2.1, own.2.2, ← Option.bind_assoc, hr, Option.bind_some]
      have hsec := sections_read [Lex.tok (.word "DELETE".toList)] ([(.from_, (refT b.lang a.tab).map .tok)] ++ ([(Word.using_, (refT b.lang o).map .tok)] ++ (jss ++ ws))) hpre
        (fun s hs => by
          rcases List.mem_append.1 hs with hs | hs
          · rw [List.mem_singleton.1 hs]
            exact noWord_ref b.lang a.tab h.tab
          · exact x4 s hs)
      unfold delete?
      rw [secL_append] at hsec
      rw [show [Tok.word "DELETE".toList, .word "FROM".toList].map Lex.tok ++ (refT b.lang a.tab).map Lex.tok ++
          secL ([(Word.using_, (refT b.lang o).map .tok)] ++ (jss ++ ws)) =
        [Lex.tok (.word "DELETE".toList)] ++ (secL [(.from_, (refT b.lang a.tab).map .tok)] ++ secL ([(Word.using_, (refT b.lang o).map .tok)] ++ (jss ++ ws))) by
          rw [show secL [(Word.from_, (refT b.lang a.tab).map Lex.tok)] = Lex.tok (.word "FROM".toList) :: ((refT b.lang a.tab).map Lex.tok ++ []) from rfl, List.append_nil]
          rfl, hsec]
      show (if upper "DELETE".toList = "DELETE".toList then (ref? b.lang.dialect ((refT b.lang o).map .tok)).bind _ else none) = _
      rw [if_pos (by decide +kernel), ref_read b.lang o hn, Option.bind_some]
      show (joins? b.lang ((jss ++ ws).length + 1) [o.label] (jss ++ ws)).bind _ = _
      rw [j6 _ ws (by rw [List.length_append]; omega) (hnj ws w3), Option.bind_some]
      have hp : b.lang = .postgres := by
        revert hm hq
        cases b.lang <;> simp
      have hrt := ref_read b.lang a.tab h.tab
      have hlast := last_read _ _ _ _ w2
      rw [hp] at *
      show (ref? (Lang.dialect .postgres) ((refT .postgres a.tab).map .tok)).bind _ = _
      rw [hrt, Option.bind_some]
      show (if a.tab.label ∉ [o.label] ++ a.joins.map (·.tab.label) then
        (last? (Lang.dialect .postgres) (a.tab.label :: ([o.label] ++ a.joins.map (·.tab.label))) ws).map _ else none) = _
      rw [if_pos (show _ ∉ [o.label] ++ _ from hap), ← hlab, hlast]
      rfl

end Sq.Asking
