import Verif.Spec.Distinct
import Verif.Proof.Select
/-
For C87: how `SELECT DISTINCT` and `SELECT DISTINCT ON` are written and read.
-/
namespace Sq.Different
open Sq Sq.Spec Sq.Chain Sq.Exprs Sq.Spec.Store Sq.Spec.Where Sq.Spec.Sel Sq.Spec.Dist Sq.Choosing Sq.Asking Sq.Exprs.Writing
open Sq.Storing hiding pieces
open Sq.Spec.Dist (query fromQuery Sound Understands)
open _root_.Spec (Tok tokens BTok BExp readBool identClose isBareIdent)
open Ddl (Ends Breaks nameTok tokens_ident tokens_append_ends tokens_append_breaks ends_append_breaks tokens_of_ends tokens_word ends_append)

/-- DISTINCT, and the fields of DISTINCT ON. -/
def flag (on : Option (List Field)) : Bool := on.isNone
def onNodes (raw : Field → Bool) (on : Option (List Field)) : List Node := (on.getD []).map (Field.node raw)

theorem query_node (b : Builder) (raw : Field → Bool) (a : Ask) (on : Option (List Field)) (limit offset : Option Nat) :
    Dist.query b raw a on limit offset = askNodeD b raw a (flag on) (onNodes raw on) (a.cols.map (Field.node raw)) limit offset := by
  cases on with
  | none =>
    unfold Dist.query Chain.select
    simp only [List.foldl_cons]
    rw [calls_run _ _ _ _ _ rfl rfl]
    simp [SelectStart.run, SelectCall.run, SelectQ.node, askNodeD, flag, onNodes]
  | some on =>
    unfold Dist.query Chain.select
    simp only [List.foldl_cons]
    rw [calls_run _ _ _ _ _ rfl rfl]
    simp [SelectStart.run, SelectCall.run, SelectQ.node, askNodeD, flag, onNodes]

theorem fromQuery_node (b : Builder) (raw : Field → Bool) (a : Ask) (on : Option (List Field)) (limit offset : Option Nat) :
    Dist.fromQuery b raw a on limit offset = askNodeD b raw a (flag on) (onNodes raw on) [] limit offset := by
  cases on with
  | none =>
    unfold Dist.fromQuery Chain.select
    simp only [List.foldl_cons]
    rw [calls_run _ _ _ _ _ rfl rfl]
    simp [SelectStart.run, SelectCall.run, SelectQ.node, askNodeD, flag, onNodes]
  | some on =>
    unfold Dist.fromQuery Chain.select
    simp only [List.foldl_cons]
    rw [calls_run _ _ _ _ _ rfl rfl]
    simp [SelectStart.run, SelectCall.run, SelectQ.node, askNodeD, flag, onNodes]

/-! ### The parenthesis -/

theorem upTo_read (xs ys : List Lex) (h : Lex.tok (.sym ')') ∉ xs) : upTo (xs ++ .tok (.sym ')') :: ys) = some (xs, ys) := by
  induction xs with
  | nil => rfl
  | cons x xs ih =>
    have hx : x ≠ .tok (.sym ')') := fun e => h (e ▸ List.mem_cons_self ..)
    show (if x = .tok (.sym ')') then _ else (upTo (xs ++ .tok (.sym ')') :: ys)).map _) = _
    rw [if_neg hx, ih fun e => h (List.mem_cons_of_mem _ e)]
    rfl

theorem commaL_mem {x : Lex} {xs : List (List Lex)} (h : x ∈ commaL xs) : x = .tok (.sym ',') ∨ ∃ y ∈ xs, x ∈ y := by
  induction xs with
  | nil => simp [commaL] at h
  | cons y ys ih =>
    cases ys with
    | nil => exact .inr ⟨y, List.mem_cons_self .., h⟩
    | cons z zs =>
      rcases List.mem_append.1 (show x ∈ y ++ .tok (.sym ',') :: commaL (z :: zs) from h) with h | h
      · exact .inr ⟨y, List.mem_cons_self .., h⟩
      · rcases List.mem_cons.1 h with h | h
        · exact .inl h
        · rcases ih h with h | ⟨w, hw, h⟩
          · exact .inl h
          · exact .inr ⟨w, List.mem_cons_of_mem _ hw, h⟩

theorem noClose_col (l : Lang) (c : Node) : Lex.tok (.sym ')') ∉ colL l c := by
  simp [colL, colT, (nameT_sym l _ _).symm]

theorem on_none (l : Lang) (raw : Field → Bool) (cols : List Field) (hne : cols ≠ []) (Z : List Lex) :
    onList? (commaL (cols.map fun c => colL l (c.node raw)) ++ Z) = none := by
  obtain ⟨c, cs, rfl⟩ := List.exists_cons_of_ne_nil hne
  obtain ⟨x, r, e⟩ : ∃ x r, commaL ((c :: cs).map fun c => colL l (c.node raw)) ++ Z = .tok x :: .tok (.sym '.') :: r := by
    cases cs with
    | nil => exact ⟨_, _, rfl⟩
    | cons d ds => exact ⟨_, _, rfl⟩
  rw [e]
  unfold onList?
  split
  · rename_i h
    simp at h
  · rfl

/-- The fields listed, in parts. -/
theorem listed_parts (l : Lang) (raw : Field → Bool) (labels : List Str) (hl : ∀ x ∈ labels, Readable l.dialect x) (cols : List Field) (hne : cols ≠ [])
    (h : ∀ c ∈ cols, InScope l.dialect labels c) (env : Env) :
    Adds l.dialect (items { d := l.dialect, env := env } (cols.map (Field.node raw))) (listed ", ".toList (cols.map fun c => [.text (colText l.dialect (c.node raw))])) ∧
    Adds l.dialect (values { d := l.dialect, env := env } (cols.map (Field.node raw))) (listed ", ".toList (cols.map fun c => [.text (colText l.dialect (c.node raw))])) ∧
    Asking.Piece l (listed ", ".toList (cols.map fun c => [.text (colText l.dialect (c.node raw))])) (commaL (cols.map fun c => colL l (c.node raw))) ∧
    NoWord (commaL (cols.map fun c => colL l (c.node raw))) ∧
    columns? l labels (commaL (cols.map fun c => colL l (c.node raw))) = some (cols.map Field.col) ∧
    Lex.tok (.sym ')') ∉ commaL (cols.map fun c => colL l (c.node raw)) := by
  refine ⟨?_, ?_, Piece.listed _ _ cols fun c _ => Piece.column l _, ?_, ?_, ?_⟩
  · unfold Spec.items
    rw [List.map_map]
    exact Adds.listed _ _ _ cols fun c hc => adds_col raw c _ rfl rfl (h c hc).1
  · unfold Spec.values
    rw [List.map_map]
    exact Adds.listed _ _ _ cols fun c hc => adds_col raw c _ rfl rfl (h c hc).1
  · refine noWord_comma _ fun x hx => ?_
    obtain ⟨c, hc, rfl⟩ := List.mem_map.1 hx
    exact noWord_col l (c.node raw) (hl _ (h c hc).2.1) (h c hc).2.2
  · unfold columns?
    rw [pieces_comma _ (by simpa using hne) (fun x hx => by
      obtain ⟨c, _, rfl⟩ := List.mem_map.1 hx
      exact noComma_col l _), every_map _ _ Field.col cols fun c hc => col_read l labels hl c (h c hc) raw]
  · intro hx
    rcases commaL_mem hx with e | ⟨y, hy, hx⟩
    · simp at e
    · obtain ⟨c, _, rfl⟩ := List.mem_map.1 hy
      exact noClose_col l _ hx

theorem distinct_plain {l : Lang} {r : List Lex} {m : Stmt} (h1 : onList? r = none) (h2 : stmt? l (.tok (.word "SELECT".toList) :: r) = some m)
    (h3 : ∀ k ∈ m.core.order, k.col ∈ m.core.cols) : distinct? l (.tok (.word "SELECT".toList) :: .tok (.word "DISTINCT".toList) :: r) = some (none, m) := by
  have e : m.core.order.all (fun k => decide (k.col ∈ m.core.cols)) = true := List.all_eq_true.2 fun k hk => decide_eq_true (h3 k hk)
  simp only [distinct?]
  rw [if_pos (by decide +kernel), h1]
  simp only [h2, Option.bind_some, e, if_true]

theorem distinct_on {l : Lang} {r K r' : List Lex} {m : Stmt} {on : List Sel.Col} (h1 : onList? r = some (K, r'))
    (h2 : stmt? l (.tok (.word "SELECT".toList) :: r') = some m) (h3 : every (col? l.dialect (labels m.core)) (Sel.pieces K) = some on)
    (h4 : l = .postgres ∧ leads on (m.core.order.map Key.col) = true) :
    distinct? l (.tok (.word "SELECT".toList) :: .tok (.word "DISTINCT".toList) :: r) = some (some on, m) := by
  obtain ⟨rfl, h4⟩ := h4
  simp only [distinct?]
  rw [if_pos (by decide +kernel), h1]
  simp only [h2, h3, Option.bind_some, h4, and_self, if_true]

/-- What is sent for a question, and how it is read. -/
theorem distinct_reads (b : Builder) (raw : Field → Bool) (a : Ask) (on : Option (List Field)) (h : Dist.Sound b.lang a on) :
    ∃ m : Core, m.cols = a.cols.map Field.col ∧ m.order = a.order.map Sorting.key ∧ (∀ C T, m.rows C T = a.answer C T) ∧
      ∀ limit offset, Allowed b.lang limit offset →
        (ownSQL (Dist.query b raw a on limit offset)).status = .ok ∧
        readDistinct b.lang (ownSQL (Dist.query b raw a on limit offset)).args (ownSQL (Dist.query b raw a on limit offset)).query =
          some (on.map (·.map Field.col), ⟨m, limit, offset⟩) := by
  obtain ⟨hl, m, m1, m2, mlab, m3⟩ := ask_behind b raw a h.ask.toBody { d := b.lang.dialect } b.env
  refine ⟨{ m with cols := a.cols.map Field.col }, rfl, m1, m2, fun limit offset hal => ?_⟩
  obtain ⟨R, Z, r1, r2, r3, r4⟩ := m3 limit offset hal
  obtain ⟨c1, _, c2, c3, c4, _⟩ := listed_parts b.lang raw a.labels hl a.cols h.ask.some h.ask.cols b.env
  rw [query_node]
  have hc := ask_constructD b raw a (flag on) (onNodes raw on) (a.cols.map (Field.node raw)) limit offset { d := b.lang.dialect } rfl b.env rfl
  have hsel : Ends (lexing b.lang) "SELECT ".toList [.word "SELECT".toList] := by cases b.lang <;> decide +kernel
  have hstmt := ((r4 _ c3).2 (columns? b.lang) _ c4 [] After.nil)
  rw [show secL [] = [] from rfl, List.append_nil] at hstmt
  have hS : stmt? b.lang ([Tok.word "SELECT".toList].map Lex.tok ++ commaL (a.cols.map fun c => colL b.lang (c.node raw)) ++ Z) =
      some ⟨{ m with cols := a.cols.map Field.col }, limit, offset⟩ := by
    unfold stmt? stmtOf?
    rw [hstmt]
  have hneeds : Needs { d := b.lang.dialect } (askNodeD b raw a (flag on) (onNodes raw on) (a.cols.map (Field.node raw)) limit offset) :=
    (⟨by simpa using h.ask.some, fun ho => by
      cases on with
      | none => exact absurd rfl ho
      | some on => exact ⟨by rw [(h.on on rfl).1]; rfl, rfl⟩, fun _ => node_ne _, refuses_not raw a.joins a.tab _⟩ :
      SelectNeeds b.lang.dialect (effEnv none b.env) _ (a.cols.map (Field.node raw)) (onNodes raw on) a.tab.node (a.joins.map (joinNode raw)))
  suffices hend : ∃ xs Y, Adds b.lang.dialect ([.text "SELECT ".toList] ++
      (distinct { d := b.lang.dialect, env := b.env } { dialect := b.lang.dialect, env := b.env, distinct := flag on, limit := limit.map Int.ofNat, offset := offset.map Int.ofNat } (onNodes raw on) ++
      (items { d := b.lang.dialect, env := b.env } (a.cols.map (Field.node raw)) ++ askRest b raw a limit offset { d := b.lang.dialect } b.env))) xs ∧
      Asking.Piece b.lang xs Y ∧ distinct? b.lang Y = some (on.map (·.map Field.col), ⟨{ m with cols := a.cols.map Field.col }, limit, offset⟩) by
    obtain ⟨xs, Y, h1, h2, h3⟩ := hend
    have ho := own (n := askNodeD b raw a (flag on) (onNodes raw on) (a.cols.map (Field.node raw)) limit offset) (l := b.lang) rfl hc hneeds h1 h2.flat
    have hr := h2.reads
    refine ⟨ho.1, ?_⟩
    unfold readDistinct
    rw [ho.2.1, ho.2.2, ← Option.bind_assoc, hr, Option.bind_some]
    exact h3
  cases on with
  | none =>
    have hd : Ends (lexing b.lang) "DISTINCT ".toList [.word "DISTINCT".toList] := by cases b.lang <;> decide +kernel
    refine ⟨_, _, Adds.cons "SELECT ".toList (Adds.cons "DISTINCT ".toList (c1.append r1)),
      Piece.kw hsel (by simp [Choosing.Plain]) (Piece.kw hd (by simp [Choosing.Plain]) (c2.append r2 r3)), ?_⟩
    refine distinct_plain (on_none b.lang raw a.cols h.ask.some Z) ((congrArg (stmt? b.lang) (List.append_assoc ..).symm).trans hS) ?_
    intro k hk
    rw [show ({ m with cols := a.cols.map Field.col } : Core).order = m.order from rfl, m1] at hk
    obtain ⟨k', hk', rfl⟩ := List.mem_map.1 hk
    exact h.order rfl k' hk'
  | some on =>
    obtain ⟨hpg, hne, hin, hlead⟩ := h.on on rfl
    have hd : Ends (lexing b.lang) "DISTINCT ON (".toList [.word "DISTINCT".toList, .word "ON".toList, .sym '('] := by cases b.lang <;> decide +kernel
    have hcl : Ends (lexing b.lang) ") ".toList [.sym ')'] := by cases b.lang <;> decide +kernel
    obtain ⟨_, o1, o2, _, o4, o5⟩ := listed_parts b.lang raw a.labels hl on hne hin b.env
    refine ⟨.text "SELECT ".toList :: .text "DISTINCT ON (".toList :: (listed ", ".toList (on.map fun c => [.text (colText b.lang.dialect (c.node raw))]) ++
        .text ") ".toList :: (listed ", ".toList (a.cols.map fun c => [.text (colText b.lang.dialect (c.node raw))]) ++ R)), _, ?_,
      Piece.kw hsel (by simp [Choosing.Plain]) (Piece.kw hd (by simp [Choosing.Plain]) (o2.append (Piece.kw hcl (by simp [Choosing.Plain]) (c2.append r2 r3))
        (Sep.text b.lang (by decide +kernel) _))), ?_⟩
    · have hdist : distinct { d := b.lang.dialect, env := b.env } { dialect := b.lang.dialect, env := b.env, distinct := flag (some on), limit := limit.map Int.ofNat, offset := offset.map Int.ofNat }
          (onNodes raw (some on)) = .text "DISTINCT ON (".toList :: (values { d := b.lang.dialect, env := b.env } (on.map (Field.node raw)) ++ [.text ") ".toList]) := by
        obtain ⟨c, cs, rfl⟩ := List.exists_cons_of_ne_nil hne
        rfl
      rw [hdist]
      have := Adds.cons "SELECT ".toList (Adds.cons "DISTINCT ON (".toList (o1.append (Adds.cons ") ".toList (c1.append r1))))
      simpa using this
    · have hon : onList? (.tok (.word "ON".toList) :: .tok (.sym '(') :: (commaL (on.map fun c => colL b.lang (c.node raw)) ++ (.tok (.sym ')') ::
          (commaL (a.cols.map fun c => colL b.lang (c.node raw)) ++ Z)))) =
          some (commaL (on.map fun c => colL b.lang (c.node raw)), commaL (a.cols.map fun c => colL b.lang (c.node raw)) ++ Z) := by
        simp only [onList?]
        rw [if_pos (by decide +kernel)]
        exact upTo_read _ _ o5
      refine distinct_on hon ((congrArg (stmt? b.lang) (List.append_assoc ..).symm).trans hS) ?_ ⟨hpg, ?_⟩
      · show every (col? b.lang.dialect (m.ref.label :: m.joins.map (·.ref.label))) _ = _
        rw [mlab]
        exact o4
      · show leads _ (m.order.map Key.col) = true
        rw [m1, List.map_map]
        exact hlead

end Sq.Different
