import Verif.Spec.Fill
import Verif.Proof.Select
/-
How INSERT ... SELECT is written, and how the text is read back (for C83).
-/
namespace Sq.Asking
open Sq Sq.Spec Sq.Chain Sq.Exprs Sq.Exprs.Writing Sq.Spec.Store Sq.Spec.Where Sq.Spec.Sel Sq.Spec.Fill Sq.Choosing
open Sq.Storing hiding pieces
open _root_.Spec (Tok tokens BTok BExp readBool identClose isBareIdent)
open Ddl (Ends Breaks nameTok tokens_ident tokens_append_ends tokens_append_breaks ends_append_breaks tokens_of_ends tokens_word ends_append)

theorem upTo_found (c : Char) (a r : List Lex) (h : Lex.tok (.sym c) ∉ a) : upTo c (a ++ .tok (.sym c) :: r) = some (a, r) := by
  induction a with
  | nil => simp [upTo]
  | cons x a ih =>
    simp only [List.mem_cons, not_or] at h
    show (if x = .tok (.sym c) then some ([], a ++ .tok (.sym c) :: r) else (upTo c (a ++ .tok (.sym c) :: r)).map fun y => (x :: y.1, y.2)) = _
    rw [if_neg (fun e => h.1 e.symm), ih h.2]
    rfl

theorem noParen_ref (l : Lang) (t : Tab) : Lex.tok (.sym '(') ∉ (refT l t).map Lex.tok := by
  intro hm
  obtain ⟨x, hx, e⟩ := List.mem_map.1 hm
  obtain rfl : x = .sym '(' := by simpa using e
  unfold refT at hx
  have hn := nameT_sym l
  split at hx <;> split at hx <;> simp [(hn _ _).symm] at hx

theorem noParen_comma (xs : List (List Lex)) (h : ∀ x ∈ xs, Lex.tok (.sym ')') ∉ x) : Lex.tok (.sym ')') ∉ commaL xs := by
  induction xs with
  | nil => simp [commaL]
  | cons x xs ih =>
    cases xs with
    | nil => exact h x (List.mem_singleton_self x)
    | cons y ys =>
      have := ih fun z hz => h z (List.mem_cons_of_mem _ hz)
      have h0 := h x (List.mem_cons_self ..)
      simp only [commaL, List.mem_append, List.mem_cons, not_or]
      exact ⟨h0, by simp, this⟩

/-- The node of the statement. -/
def fillNode (b : Builder) (env : Env) (raw : Field → Bool) (x : Filling) : Node :=
  .insert { dialect := b.lang.dialect, env := b.env, hasMapper := false, mapErr := none, ignore := false, rowAlias := [], columnAliases := []
            conflictConstraint := [], doNothing := x.skip }
    [] x.tab.node (x.cols.map (x.tab.field fun c => raw ⟨x.tab, c⟩)) [] []
    (askNode { b with env := env } raw x.ask (x.ask.cols.map (Field.node raw)) x.limit x.offset) [] .nil [] (and_ []) []

theorem fill_node (b : Builder) (env : Env) (raw : Field → Bool) (x : Filling) : x.query b env raw = fillNode b env raw x := by
  have h := query_node { b with env := env } raw x.ask x.limit x.offset
  unfold Ask.query at h
  unfold Filling.query Chain.insert fillNode
  rw [← h]
  cases hs : x.skip <;>
    simp [InsertStart.run, InsertCall.run, InsertQ.node, Action.run, conflictWhere, Tab.field, Field.node]

/-- How the question stands in the statement. -/
def askMode (b : Builder) : Mode := { d := b.lang.dialect, env := b.env, meth := if b.lang.dialect = .sqlite then .whereTrue else .std }

theorem fill_construct (b : Builder) (env : Env) (raw : Field → Bool) (x : Filling) (hc : x.cols ≠ []) (hs : x.skip = true → b.lang ≠ .mysql) :
    Spec.construct { d := b.lang.dialect } (fillNode b env raw x) = some ([.text "INSERT INTO ".toList] ++ (source { d := b.lang.dialect, env := b.env } x.tab.node ++
      (.text " (".toList :: (values { d := b.lang.dialect, env := b.env, ex := [x.tab.label] } (x.cols.map (x.tab.field fun c => raw ⟨x.tab, c⟩)) ++
      (.text ")".toList :: .text " ".toList :: ([.placed (askNode { b with env := env } raw x.ask (x.ask.cols.map (Field.node raw)) x.limit x.offset) (askMode b)] ++
      (if x.skip then [.text " ON CONFLICT".toList, .text " DO NOTHING".toList] else []))))))) := by
  have hq : Spec.qualifier x.tab.node = x.tab.label := rfl
  obtain ⟨l, benv⟩ := b
  cases hk : x.skip with
  | false =>
    cases l <;> simp [fillNode, askMode, Spec.construct, with_, ifAny, effEnv, Lang.dialect, insertData, supply, conflict, hq, hc, hk]
  | true =>
    have := hs hk
    cases l <;> simp [fillNode, askMode, Spec.construct, with_, ifAny, effEnv, Lang.dialect, insertData, supply, conflict, conflictTarget, conflictAction, hq, hc, hk] at this ⊢

def tailSecs (skip : Bool) : List (Word × List Lex) :=
  if skip then [(.on, [.tok (.word "CONFLICT".toList), .tok (.word "DO".toList), .tok (.word "NOTHING".toList)])] else []

theorem after_tail (skip : Bool) : After (tailSecs skip) := by
  cases skip
  · exact After.nil
  · refine ⟨fun s hs => ?_, fun w x r e => ?_⟩
    · rw [List.mem_singleton.1 hs]
      exact NoWord.cons (by decide +kernel) (NoWord.cons (by decide +kernel) (NoWord.cons (by decide +kernel) NoWord.nil))
    · exact (Prod.mk.inj (List.cons.inj e).1).1.symm

def tailParts (skip : Bool) : List Part := if skip then [.text " ON CONFLICT".toList, .text " DO NOTHING".toList] else []

theorem piece_tail (l : Lang) (skip : Bool) : Piece l (tailParts skip) (secL (tailSecs skip)) ∧ Sep l (tailParts skip) := by
  cases skip
  · exact ⟨Piece.nil l, Sep.nil l⟩
  · refine ⟨?_, Sep.text l (c := ' ') (t := "ON CONFLICT".toList) (by decide) _⟩
    have h : Piece l [.text " ON CONFLICT DO NOTHING".toList] ([Tok.word "ON".toList, .word "CONFLICT".toList, .word "DO".toList, .word "NOTHING".toList].map .tok) :=
      Piece.text (by cases l <;> decide +kernel) (by simp [Choosing.Plain])
    exact Piece.split (a := " ON CONFLICT".toList) (b := " DO NOTHING".toList) h

theorem fill_reads (b : Builder) (env : Env) (raw : Field → Bool) (x : Filling) (h : x.Sound b.lang) :
    ∃ m : Core, m.cols = x.ask.cols.map Field.col ∧ m.order = x.ask.order.map Sorting.key ∧ (∀ C T, m.rows C T = x.ask.answer C T) ∧
      (ownSQL (x.query b env raw)).status = .ok ∧
      readFill b.lang (ownSQL (x.query b env raw)).args (ownSQL (x.query b env raw)).query =
        some ⟨⟨x.tab.schema, x.tab.name, x.tab.label⟩, x.cols, ⟨m, x.limit, x.offset⟩, x.skip⟩ := by
  have hcne : x.cols ≠ [] := by
    intro e
    have := h.fits
    rw [e] at this
    exact h.ask.some (List.eq_nil_of_length_eq_zero this.symm)
  obtain ⟨hl, m, m1, m2, m3⟩ := ask_written { b with env := env } raw x.ask h.ask.toBody (askMode b) rfl (effEnv b.env env) rfl
  obtain ⟨P, Y, c1, c2, c3, c4⟩ := cols_parts b.lang raw x.ask.labels hl x.ask.cols h.ask.some h.ask.cols (effEnv b.env env)
  obtain ⟨ps, xs, Z, w1, w2, w3, w4, w5, w6⟩ := m3 _ P Y (by simpa using h.ask.some) c1 c2 c3 x.limit x.offset h.page
  have w6 := w6 (columns? b.lang) _ c4 _ (after_tail x.skip)
  refine ⟨{ m with cols := x.ask.cols.map Field.col }, rfl, m1, m2, ?_⟩
  rw [fill_node]
  obtain ⟨t1, t2⟩ := piece_tail b.lang x.skip
  -- the pieces
  have q1 : Piece b.lang (.text " ".toList :: (xs ++ tailParts x.skip)) (Z ++ secL (tailSecs x.skip)) :=
    Piece.kw (K := []) (by cases b.lang <;> decide +kernel) (by simp) (w4.append t1 t2)
  have q2 : Piece b.lang (.text ")".toList :: .text " ".toList :: (xs ++ tailParts x.skip)) (.tok (.sym ')') :: (Z ++ secL (tailSecs x.skip))) :=
    (Piece.text (K := [.sym ')']) (by cases b.lang <;> decide +kernel) (by simp [Choosing.Plain])).append q1 (Sep.text b.lang (c := ' ') (t := []) (by decide) _)
  have q3 : Piece b.lang (listed ", ".toList (x.cols.map fun c => [.text (quoteIdentifier b.lang.dialect c)])) (commaL (x.cols.map fun c => [.tok (nameT b.lang c)])) :=
    Piece.listed _ _ x.cols fun c _ => Piece.text (K := [nameT b.lang c]) (by rw [quote_lexing]; exact tokens_ident (lexing b.lang) c)
      (fun y hy => by rw [List.mem_singleton.1 hy]; exact plain_name ..)
  have q4 := Piece.kw (kw := " (".toList) (K := [.sym '(']) (by cases b.lang <;> decide +kernel) (by simp [Choosing.Plain])
    (q3.append q2 (Sep.text b.lang (c := ')') (t := []) (by decide) _))
  have q5 := Piece.kw (kw := "INSERT INTO ".toList) (K := [.word "INSERT".toList, .word "INTO".toList]) (by cases b.lang <;> decide +kernel) (by simp [Choosing.Plain])
    ((Piece.source b.lang x.tab).append q4 (Sep.text b.lang (c := ' ') (t := "(".toList) (by decide) _))
  have hadds := (Adds.text (d := b.lang.dialect) "INSERT INTO ".toList).append ((adds_src b.lang.dialect x.tab b.env).append (Adds.cons " (".toList
    ((adds_columns x.tab (fun c => raw ⟨x.tab, c⟩) x.cols b.env h.tab.some).append (Adds.cons ")".toList (Adds.cons " ".toList
      ((Adds.construct (m := askMode b) rfl w1 w2 w3).append (show Adds b.lang.dialect (tailParts x.skip) (tailParts x.skip) by
        cases x.skip
        · exact Adds.nil _
        · exact (Adds.text _).append (Adds.text _))))))))
  have ho := own (n := fillNode b env raw x) (l := b.lang) rfl (fill_construct b env raw x hcne h.skip)
    (show InsertNeeds _ _ x.tab.node (x.cols.map (x.tab.field fun c => raw ⟨x.tab, c⟩)) [] [] (askNode { b with env := env } raw x.ask (x.ask.cols.map (Field.node raw)) x.limit x.offset) [] from
      { mapperWorks := fun h => by simp at h
        ignoreAllowed := fun h => by simp at h
        someTable := node_ne x.tab
        aliasAllowed := fun hne hm => hne (h.alias (by
          obtain ⟨l, env⟩ := b
          cases l <;> simp [Lang.dialect] at hm ⊢))
        rowAliasAllowed := fun _ h => (h rfl).elim
        something := .inr (by simp [askNode])
        constraintAllowed := fun h => (h rfl).elim
        returningAllowed := fun h => (h rfl).elim }) hadds q5.flat
  refine ⟨ho.1, ?_⟩
  have hr := q5.reads
  unfold readFill
  rw [ho.2.1, ho.2.2, ← Option.bind_assoc]
  refine (congrArg (Option.bind · (fill? b.lang)) hr).trans ?_
  rw [Option.bind_some]
  show (if upper "INSERT".toList = "INSERT".toList ∧ upper "INTO".toList = "INTO".toList then
      (upTo '(' ((refT b.lang x.tab).map .tok ++ .tok (.sym '(') :: (commaL (x.cols.map fun c => [.tok (nameT b.lang c)]) ++ .tok (.sym ')') :: (Z ++ secL (tailSecs x.skip))))).bind _
    else none) = _
  rw [if_pos (by decide +kernel), upTo_found _ _ _ (noParen_ref b.lang x.tab), Option.bind_some]
  dsimp only
  rw [upTo_found _ _ _ (noParen_comma _ fun y hy => by
    obtain ⟨c, _, rfl⟩ := List.mem_map.1 hy
    simp [(nameT_sym b.lang c ')').symm]), Option.bind_some, ref_read b.lang x.tab h.tab, Option.bind_some]
  dsimp only
  rw [if_neg (fun hm => hm.2 (by unfold Tab.label; rw [if_pos (h.alias hm.1)]))]
  rw [pieces_comma _ (by simpa using hcne) (fun y hy => by
    obtain ⟨c, _, rfl⟩ := List.mem_map.1 hy
    simp [NoComma, (nameT_sym b.lang c ',').symm]), every_map (one? b.lang.dialect) (fun c => [.tok (nameT b.lang c)]) id x.cols
      (fun c hc => (name_read (κ := Sel.Col) b.lang c (h.cols c hc)).1), Option.bind_some]
  refine (congrArg (Option.bind · _) w6).trans ?_
  rw [Option.bind_some]
  have hskip : skip? b.lang ((sections (Z ++ secL (tailSecs x.skip))).2.any fun s => s.1 = .where_) (tailSecs x.skip) = some x.skip := by
    cases hk : x.skip with
    | false => rfl
    | true =>
      have hw := fun hm => w5 hm _ (after_tail x.skip)
      rw [hk] at hw
      refine if_pos ⟨by decide +kernel, ?_⟩
      have hmy := h.skip hk
      cases hb : b.lang with
      | postgres => exact .inl rfl
      | mysql => exact absurd hb hmy
      | sqlite =>
        obtain ⟨y, hy⟩ := hw (by simp [askMode, hb, Lang.dialect])
        exact .inr ⟨rfl, List.any_eq_true.2 ⟨_, hy, by simp⟩⟩
  dsimp only
  rw [hskip, Option.bind_some, if_pos ⟨by simpa using h.once, by simpa using h.fits⟩]
  simp

end Sq.Asking
