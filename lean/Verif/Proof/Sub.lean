import Verif.Proof.Cte
import Verif.Spec.Sub
/-
Questions about subqueries: what is sent, and how it is read.
-/
namespace Sq.Nested
open Sq Sq.Spec Sq.Chain Sq.Exprs Sq.Exprs.Writing Sq.Spec.Store Sq.Spec.Where Sq.Spec.Sel Sq.Choosing Sq.Asking Sq.Deriving Sq.Shared
open Sq.Spec.Cte (Given record add Answers close? HasColumn fieldsOf)
open Sq.Spec.Sub (made givenFor tabs used opens flat? refs subs? readSub)
open Sq.Storing hiding pieces
open _root_.Spec (Tok tokens BTok BExp readBool identClose isBareIdent)
open Ddl (Ends Breaks nameTok tokens_ident tokens_append_ends tokens_append_breaks ends_append_breaks tokens_of_ends tokens_word ends_append)

/-! ### Statements with the subqueries, and with their names -/

/-- `(...) AS name` -/
def subL (l : Lang) (n : Str) (Z : List Lex) : List Lex := .tok (.sym '(') :: (Z ++ [.tok (.sym ')'), .tok (.word "AS".toList), .tok (nameT l n)])

/-- The clauses with subqueries; the same with their names; the subqueries. -/
inductive Wider (l : Lang) : List (Word × List Lex) → List (Word × List Lex) → List (Str × List Lex) → Prop
  | nil : Wider l [] [] []
  | same {w x s t u} : NoWord x → (w = .from_ ∨ w = .join → ∀ r, x ≠ .tok (.sym '(') :: r) → Wider l s t u → Wider l ((w, x) :: s) ((w, x) :: t) u
  | sub {w n Z s t u} : (w = .from_ ∨ w = .join) → Readable l.dialect n → Bal Z → Wider l s t u →
      Wider l ((w, subL l n Z) :: s) ((w, [.tok (nameT l n)]) :: t) ((n, Z) :: u)

theorem Wider.append {l : Lang} {s t s' t' : List (Word × List Lex)} {u u' : List (Str × List Lex)} (h : Wider l s t u) (k : Wider l s' t' u') :
    Wider l (s ++ s') (t ++ t') (u ++ u') := by
  induction h with
  | nil => exact k
  | same h1 h2 _ ih => exact .same h1 h2 ih
  | sub h1 h2 h3 _ ih => exact .sub h1 h2 h3 ih

theorem Wider.keep {l : Lang} (s : List (Word × List Lex)) (h : ∀ x ∈ s, NoWord x.2 ∧ x.1 ≠ .from_ ∧ x.1 ≠ .join) : Wider l s s [] := by
  induction s with
  | nil => exact .nil
  | cons x s ih =>
    obtain ⟨w, x⟩ := x
    obtain ⟨h1, h2, h3⟩ := h _ (List.mem_cons_self ..)
    exact .same h1 (fun h => h.elim (fun e => absurd e h2) (fun e => absurd e h3)) (ih fun y hy => h y (List.mem_cons_of_mem _ hy))

theorem flat_nil (l : Lang) (k : Nat) (f : Bool) : flat? l k f [] = some ([], []) := by cases k <;> rfl

theorem flat_step (l : Lang) (k : Nat) (f : Bool) (x : Lex) (xs : List Lex) (h : ¬ (f = true ∧ x = .tok (.sym '('))) :
    flat? l (k + 1) f (x :: xs) = (flat? l k (opens x) xs).map fun z => (z.1, x :: z.2) := by
  rw [flat?, if_neg h]

theorem flat_pre (l : Lang) (pre r : List Lex) (h : NoWord pre) (z : List (Str × List Lex) × List Lex) (hr : ∀ k, r.length ≤ k → flat? l k false r = some z) :
    ∀ k, pre.length + r.length ≤ k → flat? l k false (pre ++ r) = some (z.1, pre ++ z.2) := by
  induction pre with
  | nil => intro k hk; exact hr k (by simpa using hk)
  | cons x pre ih =>
    intro k hk
    obtain ⟨k', rfl⟩ : ∃ k', k = k' + 1 := ⟨k - 1, by simp at hk; omega⟩
    have ho : opens x = false := by unfold opens; rw [h x (List.mem_cons_self ..)]; rfl
    rw [List.cons_append, flat_step _ _ _ _ _ (by simp), ho, ih (fun y hy => h y (List.mem_cons_of_mem _ hy)) k' (by simp at hk; omega)]
    rfl

theorem opens_word (w : Word) : opens (.tok (.word (wordText w))) = true ↔ w = .from_ ∨ w = .join := by
  unfold opens
  rw [clauseWord_text]
  cases w <;> simp

theorem flat_secs {l : Lang} {s t : List (Word × List Lex)} {u : List (Str × List Lex)} (h : Wider l s t u) :
    ∀ k f, (secL s).length ≤ k → flat? l k f (secL s) = some (u, secL t) := by
  induction h with
  | nil => intro k f _; exact flat_nil l k f
  | @same w x s t u h1 h2 _ ih =>
    intro k f hk
    have e : ∀ s, secL ((w, x) :: s) = .tok (.word (wordText w)) :: (x ++ secL s) := fun s => rfl
    rw [e] at hk ⊢
    rw [e]
    obtain ⟨k', rfl⟩ : ∃ k', k = k' + 1 := ⟨k - 1, by simp at hk; omega⟩
    rw [flat_step _ _ _ _ _ (by simp)]
    have hl : x.length + (secL s).length ≤ k' := by simp at hk; omega
    have key : ∀ f, (f = true → ∀ r, x ≠ .tok (.sym '(') :: r) → flat? l k' f (x ++ secL s) = some (u, x ++ secL t) := by
      intro f hf
      cases x with
      | nil => exact ih k' f (by simpa using hl)
      | cons y x =>
        obtain ⟨k'', rfl⟩ : ∃ k'', k' = k'' + 1 := ⟨k' - 1, by simp at hl; omega⟩
        have ho : opens y = false := by unfold opens; rw [h1 y (List.mem_cons_self ..)]; rfl
        rw [List.cons_append, flat_step _ _ _ _ _ (fun h => hf h.1 x (by rw [h.2])), ho,
          flat_pre l x (secL s) (fun y hy => h1 y (List.mem_cons_of_mem _ hy)) (u, secL t) (fun k hk => ih k false hk) k'' (by simp at hl; omega)]
        rfl
    rw [key _ (fun ho => h2 ((opens_word w).1 ho))]
    rfl
  | @sub w n Z s t u h1 h2 h3 _ ih =>
    intro k f hk
    have e : secL ((w, subL l n Z) :: s) = .tok (.word (wordText w)) :: .tok (.sym '(') :: (Z ++ .tok (.sym ')') :: .tok (.word "AS".toList) :: .tok (nameT l n) :: secL s) := by
      unfold secL subL
      simp
    rw [e] at hk ⊢
    simp only [List.length_cons, List.length_append] at hk
    obtain ⟨k', rfl⟩ : ∃ k', k = k' + 1 + 1 := ⟨k - 2, by omega⟩
    rw [flat_step _ _ _ _ _ (by simp), (opens_word w).2 h1, flat?, if_pos ⟨rfl, rfl⟩, h3.close]
    simp only [Option.bind_some]
    rw [if_pos (by decide +kernel), (name_read (κ := Sel.Col) l n h2).1, Option.bind_some, ih k' false (by omega)]
    rfl


/-! ### Tables and subqueries in FROM and JOIN -/

/-- What stands in the place of the table `t`: its parts, the text read, and the subquery it is, if it is one. -/
structure Src (l : Lang) (n : Node) (t : Tab) (P : List Part) (L : List Lex) (U : List (Str × List Lex)) : Prop where
  adds : ∀ env, Adds l.dialect (source { d := l.dialect, env := env } n) P
  piece : Asking.Piece l P L
  wide : ∀ w, (w = .from_ ∨ w = .join) → Wider l [(w, L)] [(w, (refT l t).map .tok)] U
  some : n ≠ .nil
  free : ∀ env, asks n env = none ∧ ¬ Refuses n env

theorem src_plain (l : Lang) (t : Tab) (h : Named l.dialect t) : Src l t.node t (srcParts l.dialect t) ((refT l t).map .tok) [] where
  adds := fun env => adds_src _ t env
  piece := Piece.source l t
  wide := fun w _ => .same (noWord_ref l t h) (fun _ r e => by
    unfold refT at e
    by_cases hs : t.schema = []
    · rw [if_pos hs] at e
      exact nameT_sym l _ _ (Lex.tok.inj (List.cons.inj e).1)
    · rw [if_neg hs] at e
      exact nameT_sym l _ _ (Lex.tok.inj (List.cons.inj e).1)) .nil
  some := node_ne t
  free := fun env => ⟨rfl, node_answers t env⟩

/-- The node of a join. -/
def joinNode (N : Tab → Node) (raw : Field → Bool) (j : Join) : Node :=
  match j.how with
  | .inner => joinTable .join (N j.tab) (nodes (mapAll (Field.node raw) j.on))
  | .left => joinTable .leftJoin (N j.tab) (nodes (mapAll (Field.node raw) j.on))
  | .right => joinTable .rightJoin (N j.tab) (nodes (mapAll (Field.node raw) j.on))
  | .full => joinTable .fullJoin (N j.tab) (nodes (mapAll (Field.node raw) j.on))
  | .cross => Chain.crossJoin (N j.tab)

/-- A join without its condition. -/
theorem adds_join (l : Lang) (N : Tab → Node) (raw : Field → Bool) (j : Join) (hk : j.how.known l = true) (P : List Part) (hn : N j.tab ≠ .nil)
    (hs : Adds l.dialect (source { d := l.dialect } (N j.tab)) P) (xs : List Part)
    (hon : if j.how = .cross then j.on = [] ∧ xs = [] else
      j.on ≠ [] ∧ Adds l.dialect (condition { d := l.dialect } " ON ".toList (and_ (nodes (mapAll (Field.node raw) j.on)))) xs) :
    Adds l.dialect [.placed (joinNode N raw j) { d := l.dialect }] (.text (howText j.how) :: .text " ".toList :: (P ++ xs)) := by
  have key : ∀ (jt : Str) (on : Node), jt ≠ [] → joinNode N raw j = .join jt (N j.tab) on → howText j.how = jt →
      Adds l.dialect (condition { d := l.dialect } " ON ".toList on) xs →
      ((jt = [] ∨ jt = "JOIN".toList ∨ jt = "RIGHT JOIN".toList ∨ jt = "FULL JOIN".toList → Conditional on) ∧
        (jt = "RIGHT JOIN".toList ∨ jt = "FULL JOIN".toList → l.dialect ≠ .sqlite)) →
      Adds l.dialect [.placed (joinNode N raw j) { d := l.dialect }] (.text (howText j.how) :: .text " ".toList :: (P ++ xs)) := by
    intro jt on hne h1 h2 h3 h4
    rw [h1, h2]
    refine Adds.construct (n := .join jt (N j.tab) on) (m := { d := l.dialect }) rfl (ps := [.text jt, .text " ".toList] ++ source { d := l.dialect } (N j.tab) ++ condition { d := l.dialect } " ON ".toList on) ?_ ?_ ?_
    · show some ([.text (if jt = [] then "JOIN".toList else jt), .text " ".toList] ++ source { d := l.dialect } (N j.tab) ++ condition { d := l.dialect } " ON ".toList on) = _
      rw [if_neg hne]
    · exact ⟨hn, h4⟩
    · rw [List.append_assoc]
      exact Adds.cons _ (Adds.cons _ (hs.append h3))
  have hcond : j.on ≠ [] → Conditional (and_ (nodes (mapAll (Field.node raw) j.on))) := by
    intro h
    obtain ⟨p, ps, hp⟩ := List.exists_cons_of_ne_nil (fun e => h ((isEmpty_nodes (Field.node raw) j.on).1 e))
    rw [hp]
    simp [and_, Conditional]
  clear hs hn
  obtain ⟨how, tab, on⟩ := j
  simp only at hk hon hcond key
  cases how with
  | cross =>
    rw [if_pos rfl] at hon
    refine key "CROSS JOIN".toList (and_ []) (by decide +kernel) rfl rfl (hon.2 ▸ Adds.nil _) ⟨?_, ?_⟩
    · rintro (h | h | h | h) <;> exact absurd h (by decide +kernel)
    · rintro (h | h) <;> exact absurd h (by decide +kernel)
  | inner =>
    rw [if_neg (by simp)] at hon
    refine key "JOIN".toList _ (by decide +kernel) rfl rfl hon.2 ⟨fun _ => hcond hon.1, ?_⟩
    rintro (h | h) <;> exact absurd h (by decide +kernel)
  | left =>
    rw [if_neg (by simp)] at hon
    refine key "LEFT JOIN".toList _ (by decide +kernel) rfl rfl hon.2 ⟨fun _ => hcond hon.1, ?_⟩
    rintro (h | h) <;> exact absurd h (by decide +kernel)
  | right =>
    rw [if_neg (by simp)] at hon
    refine key "RIGHT JOIN".toList _ (by decide +kernel) rfl rfl hon.2 ⟨fun _ => hcond hon.1, fun _ => ?_⟩
    revert hk
    cases l <;> simp [How.known, Lang.dialect]
  | full =>
    rw [if_neg (by simp)] at hon
    refine key "FULL JOIN".toList _ (by decide +kernel) rfl rfl hon.2 ⟨fun _ => hcond hon.1, fun _ => ?_⟩
    revert hk
    cases l <;> simp [How.known, Lang.dialect]

theorem wider_how {l : Lang} {x x' : List Lex} {U : List (Str × List Lex)} (hx : ∀ w, (w = .from_ ∨ w = .join) → Wider l [(w, x)] [(w, x')] U)
    {y : List (Word × List Lex)} (hy : ∀ s ∈ y, NoWord s.2 ∧ s.1 = .on) (how : How) : Wider l (howSecs x y how) (howSecs x' y how) U := by
  have hj := (hx .join (.inr rfl)).append (Wider.keep (l := l) y fun s hs => ⟨(hy s hs).1, by rw [(hy s hs).2]; simp, by rw [(hy s hs).2]; simp⟩)
  rw [List.append_nil] at hj
  cases how <;> first | exact hj | exact .same NoWord.nil (by simp) hj

theorem joins_parts (l : Lang) (N : Tab → Node) (P : Tab → List Part) (L : Tab → List Lex) (U : Tab → List (Str × List Lex)) (raw : Field → Bool) (js : List Join) :
    ∀ labels, (∀ x ∈ labels, Readable l.dialect x) → JoinsSound l labels js → (∀ j ∈ js, Src l (N j.tab) j.tab (P j.tab) (L j.tab) (U j.tab)) →
    (∀ x ∈ labels ++ js.map (·.tab.label), Readable l.dialect x) ∧
    ∃ (xs : List Part) (ss tt : List (Word × List Lex)) (jp : List JoinPart),
      Adds l.dialect (js.flatMap fun j => [.text " ".toList, .placed (joinNode N raw j) { d := l.dialect }]) xs ∧
      Asking.Piece l xs (secL ss) ∧ Sep l xs ∧ Wider l ss tt (js.flatMap fun j => U j.tab) ∧ (∀ s ∈ tt, NoWord s.2) ∧ js.length ≤ tt.length ∧
      (∀ k rest, js.length < k → nextJoin rest = none → joins? l k labels (tt ++ rest) = some (jp, labels ++ js.map (·.tab.label), rest)) ∧
      (∀ C T ws, joinParts C T jp ws = joinedAll C T js ws) ∧ jp.map JoinPart.ref = js.map fun j => ⟨j.tab.schema, j.tab.name, j.tab.label⟩ := by
  induction js with
  | nil =>
    intro labels hl _ _
    refine ⟨by simpa using hl, [], [], [], [], Adds.nil _, Piece.nil l, Sep.nil l, .nil, by simp, Nat.le_refl _, ?_, fun _ _ _ => rfl, rfl⟩
    intro k rest hk hn
    obtain ⟨k, rfl⟩ : ∃ k', k = k' + 1 := ⟨k - 1, by simp at hk; omega⟩
    simp only [List.nil_append, joins?, hn, List.map_nil, List.append_nil]
  | cons j js ih =>
    intro labels hl h hS
    obtain ⟨hk, hn, hnew, hon, hjs⟩ := h
    have hl' := readable_more hl hn.label
    obtain ⟨hlab, xs, ss, tt, jp, r1, r2, r3, r0, r4, r5, r6, r7, r8⟩ := ih _ hl' hjs fun j hj => hS j (List.mem_cons_of_mem _ hj)
    have hsrc := hS j (List.mem_cons_self ..)
    have hone : ∃ (ys : List Part) (y : List (Word × List Lex)) (e : Option (BExp (Test Sel.Col))) ,
        (if j.how = .cross then j.on = [] ∧ ys = [] else
          j.on ≠ [] ∧ Adds l.dialect (condition { d := l.dialect } " ON ".toList (and_ (nodes (mapAll (Field.node raw) j.on)))) ys) ∧
        Asking.Piece l ys (secL y) ∧ Sep l ys ∧ (∀ s ∈ y, NoWord s.2 ∧ s.1 = .on) ∧
        (∀ x r, ∃ z, nextJoin (howSecs x y j.how ++ r) = some (j.how, x, z, r) ∧ on? l.dialect (labels ++ [j.tab.label]) z = some e) ∧
        ∀ C (rows : List Row) ws, j.how.joined j.tab.label rows (holds C e) ws = j.how.joined j.tab.label rows (fun w => described C j.on (Field.value w)) ws := by
      by_cases hc : j.how = .cross
      · rw [if_pos hc] at hon
        refine ⟨[], [], none, by rw [if_pos hc]; exact ⟨hon, rfl⟩, Piece.nil l, Sep.nil l, by simp, fun x r => ⟨none, by rw [hc]; rfl, rfl⟩, fun C rows ws => ?_⟩
        rw [hc]
        rfl
      · rw [if_neg hc] at hon
        obtain ⟨ys, Y, e, c1, c2, c3, c4, c5⟩ := conds_parts l _ hl' raw j.on hon none " ON ".toList
        refine ⟨.text " ON ".toList :: ys, [(.on, Y)], some e, ?_, ?_, ?_, ?_, fun x r => ⟨some Y, ?_, c4⟩, fun C rows ws => ?_⟩
        · rw [if_neg hc]
          refine ⟨fun e => ?_, c1⟩
          have := hon.fine
          rw [e] at this
          simp [Cond.fine] at this
        · have h1 : Ends (lexing l) " ON ".toList [.word "ON".toList] := by cases l <;> decide +kernel
          have := Piece.kw h1 (by simp [Choosing.Plain]) c2
          rw [show secL [(Word.on, Y)] = [Tok.word "ON".toList].map Lex.tok ++ Y by simp only [secL, List.flatMap_cons, List.flatMap_nil, List.append_nil]; rfl]
          exact this
        · exact Sep.text l (c := ' ') (t := "ON ".toList) (by decide) _
        · intro s hs
          rw [List.mem_singleton.1 hs]
          exact ⟨c3, rfl⟩
        · revert hc
          cases j.how <;> intro hc <;> first | rfl | exact absurd rfl hc
        · rw [show holds C (some e) = fun w => described C j.on (Field.value w) from funext (c5 C)]
    obtain ⟨ys, y, e, o1, o2, o3, o4, o5, o6⟩ := hone
    have hj := adds_join l N raw j hk (P j.tab) hsrc.some (hsrc.adds none) ys o1
    have hsec : Asking.Piece l (.text " ".toList :: .text (howText j.how) :: .text " ".toList :: (P j.tab ++ ys)) (secL (howSecs (L j.tab) y j.how)) := by
      rw [howSecs_text]
      have h1 := Piece.kw (ends_how l j.how) (plain_how j.how) (hsrc.piece.append o2 o3)
      exact Piece.split (Piece.split (by rw [← List.append_assoc] at h1; exact h1))
    refine ⟨?_, .text " ".toList :: .text (howText j.how) :: .text " ".toList :: (P j.tab ++ ys) ++ xs, howSecs (L j.tab) y j.how ++ ss,
      howSecs ((refT l j.tab).map .tok) y j.how ++ tt, ⟨j.how, ⟨j.tab.schema, j.tab.name, j.tab.label⟩, e⟩ :: jp, ?_, ?_, ?_, ?_, ?_, ?_, ?_, ?_, by rw [List.map_cons, List.map_cons, r8]⟩
    · simpa using hlab
    · rw [List.flatMap_cons]
      exact (Adds.cons _ hj).append r1
    · rw [secL_append]
      exact hsec.append r2 r3
    · exact Sep.text l (c := ' ') (t := []) (by decide) _
    · rw [List.flatMap_cons]
      exact (wider_how hsrc.wide o4 j.how).append r0
    · intro s hs
      rcases List.mem_append.1 hs with hs | hs
      · have href := noWord_ref l j.tab hn
        revert hs
        cases j.how <;> simp only [howSecs, List.mem_cons] <;> rintro (rfl | hs) <;> try rcases hs with rfl | hs
        all_goals first | exact NoWord.nil | exact href | exact (o4 s hs).1
      · exact r4 s hs
    · have : 1 ≤ (howSecs ((refT l j.tab).map .tok) y j.how).length := by cases j.how <;> simp [howSecs]
      rw [List.length_append, List.length_cons]
      omega
    · intro k rest hk' hr
      obtain ⟨k, rfl⟩ : ∃ k', k = k' + 1 := ⟨k - 1, by simp at hk'; omega⟩
      obtain ⟨z, z1, z2⟩ := o5 ((refT l j.tab).map .tok) (tt ++ rest)
      rw [List.append_assoc]
      simp only [joins?]
      rw [z1]
      simp only
      rw [ref_read l j.tab hn, Option.bind_some, if_pos ⟨hk, hnew⟩, z2, Option.bind_some, r6 k rest (by simp at hk'; omega) hr]
      simp
    · intro C T ws
      show joinParts C T jp (j.how.joined j.tab.label (T j.tab.schema j.tab.name) (holds C e) ws) = _
      rw [r7, o6]
      rfl

/-! ### Statements -/

/-- The node of a statement with these tables and fields. -/
def askNode (b : Builder) (N : Tab → Node) (raw : Field → Bool) (a : Ask) (fields : List Node) (limit offset : Option Nat) : Node :=
  .select { dialect := b.lang.dialect, env := b.env, distinct := false, limit := limit.map Int.ofNat, offset := offset.map Int.ofNat }
    [] fields [] (N a.tab) (a.joins.map (joinNode N raw)) (and_ (nodes (mapAll (Field.node raw) a.conds))) [] (and_ []) (a.order.map (Sorting.node raw))

/-- What stands behind the columns. -/
def askRest (b : Builder) (N : Tab → Node) (raw : Field → Bool) (a : Ask) (limit offset : Option Nat) : List Part :=
  (.text " FROM ".toList :: source { d := b.lang.dialect, env := b.env } (N a.tab)) ++
  ((a.joins.flatMap fun j => [.text " ".toList, .placed (joinNode N raw j) { d := b.lang.dialect }]) ++
  (condition { d := b.lang.dialect, env := b.env } " WHERE ".toList (and_ (nodes (mapAll (Field.node raw) a.conds))) ++
  (ifAny " ORDER BY ".toList (a.order.map (Sorting.node raw)) (values { d := b.lang.dialect, env := b.env } (a.order.map (Sorting.node raw))) ++
  (number " LIMIT ".toList (limit.map Int.ofNat) ++ number " OFFSET ".toList (offset.map Int.ofNat)))))

/-- Nothing but a table: no conditions of its own. -/
structure Bare (n : Node) : Prop where
  some : n ≠ .nil
  free : ∀ env, asks n env = none ∧ ¬ Refuses n env

theorem asks_none (N : Tab → Node) (raw : Field → Bool) (a : Ask) (h : ∀ t ∈ tabs a, Bare (N t)) (env : Env) :
    (N a.tab :: a.joins.map (joinNode N raw)).filterMap (asks · env) = [] := by
  rw [List.filterMap_eq_nil_iff]
  intro n hn
  rcases List.mem_cons.1 hn with rfl | hn
  · exact ((h _ (List.mem_cons_self ..)).free env).1
  · obtain ⟨j, hj, rfl⟩ := List.mem_map.1 hn
    have := ((h j.tab (List.mem_cons_of_mem _ (List.mem_map_of_mem hj))).free env).1
    revert this
    obtain ⟨how, tab, on⟩ := j
    cases how <;> exact fun h => h

theorem refuses_not (N : Tab → Node) (raw : Field → Bool) (a : Ask) (h : ∀ t ∈ tabs a, Bare (N t)) (env : Env) :
    ∀ n ∈ N a.tab :: a.joins.map (joinNode N raw), ¬ Refuses n env := by
  intro n hn
  rcases List.mem_cons.1 hn with rfl | hn
  · exact ((h _ (List.mem_cons_self ..)).free env).2
  · obtain ⟨j, hj, rfl⟩ := List.mem_map.1 hn
    have := ((h j.tab (List.mem_cons_of_mem _ (List.mem_map_of_mem hj))).free env).2
    revert this
    obtain ⟨how, tab, on⟩ := j
    cases how <;> exact fun h => h

theorem ask_construct (b : Builder) (N : Tab → Node) (raw : Field → Bool) (a : Ask) (h : ∀ t ∈ tabs a, Bare (N t)) (fields : List Node) (limit offset : Option Nat) :
    Spec.construct { d := b.lang.dialect } (askNode b N raw a fields limit offset) =
      some ([.text "SELECT ".toList] ++ (items { d := b.lang.dialect, env := b.env } fields ++ askRest b N raw a limit offset)) := by
  have hj : joined { d := b.lang.dialect, env := b.env } (a.joins.map (joinNode N raw)) =
      a.joins.flatMap fun j => [.text " ".toList, .placed (joinNode N raw j) { d := b.lang.dialect }] := by
    rw [joined_parts b.lang.dialect _ rfl, List.flatMap_map]
  have hw : whereOf { d := b.lang.dialect } (and_ (nodes (mapAll (Field.node raw) a.conds))) = some (and_ (nodes (mapAll (Field.node raw) a.conds))) := by
    generalize nodes (mapAll (Field.node raw) a.conds) = M
    cases M with
    | nil => simp [whereOf, and_]
    | cons n M => rfl
  have hf : filtered { d := b.lang.dialect, env := b.env } (N a.tab :: a.joins.map (joinNode N raw)) (and_ (nodes (mapAll (Field.node raw) a.conds))) =
      condition { d := b.lang.dialect, env := b.env } " WHERE ".toList (and_ (nodes (mapAll (Field.node raw) a.conds))) := by
    unfold filtered
    rw [asks_none N raw a h]
  have hft : ifTable { d := b.lang.dialect, env := b.env } " FROM ".toList (N a.tab) = .text " FROM ".toList :: source { d := b.lang.dialect, env := b.env } (N a.tab) := by
    have := (h _ (List.mem_cons_self ..)).some
    revert this
    generalize N a.tab = n
    intro hn
    cases n <;> first | rfl | exact absurd rfl hn
  unfold askNode askRest
  simp only [Spec.construct]
  rw [hw, show effEnv none b.env = b.env from rfl, hj, hft, Option.map_some, hf]
  simp only [with_, distinct, ifAny, condition, and_, List.isEmpty_nil, if_true, List.append_nil, List.nil_append, List.append_assoc, Bool.false_eq_true, if_false]

theorem sect_where (l : Lang) (labels : List Str) (hl : ∀ x ∈ labels, Readable l.dialect x) (raw : Field → Bool) (cs : List (Cond Field))
    (h : cs = [] ∨ Conds l.dialect labels cs) (env : Env) :
    ∃ (ss : List (Word × List Lex)) (e : Option (BExp (Test Sel.Col))),
      Sect l (condition { d := l.dialect, env := env } " WHERE ".toList (and_ (nodes (mapAll (Field.node raw) cs)))) ss ∧
      (∀ rest, (∀ x r, rest ≠ (.where_, x) :: r) → where? l.dialect labels (ss ++ rest) = some (e, rest)) ∧
      (∀ rest, nextJoin rest = none → nextJoin (ss ++ rest) = none) ∧
      (∀ C w, holds C e w = described C cs (Field.value w)) ∧ ∀ s ∈ ss, s.1 = .where_ := by
  by_cases hc : cs = []
  · subst hc
    refine ⟨[], none, Sect.nil l, fun rest hr => ?_, fun rest hr => hr, fun C w => rfl, by simp⟩
    show where? l.dialect labels rest = _
    unfold where?
    split
    · exact absurd rfl (hr _ _)
    · rfl
  · obtain ⟨ss, e, h1, h2, h3, h4, h5⟩ := sect_conds l labels hl raw cs h env
    refine ⟨ss, e, h1, h2, h3, h4, fun s hs => ?_⟩
    obtain ⟨x, rfl⟩ := h5 hc
    rw [List.mem_singleton.1 hs]

theorem order_words (l : Lang) (raw : Field → Bool) (ks : List Sorting) : ∀ s ∈ orderSecs l raw ks, s.1 = .order := by
  unfold orderSecs
  split
  · simp
  · intro s hs
    rw [List.mem_singleton.1 hs]
theorem number_words (w : Word) (n : Option Nat) : ∀ s ∈ numberSecs w n, s.1 = w := by
  cases n with
  | none => simp [numberSecs]
  | some n =>
    intro s hs
    rw [List.mem_singleton.1 hs]

/-- What stands behind the columns, in parts, and how these are read, whatever is selected. -/
theorem ask_behind (b : Builder) (N : Tab → Node) (P : Tab → List Part) (L : Tab → List Lex) (U : Tab → List (Str × List Lex)) (raw : Field → Bool) (a : Ask)
    (h : a.Body b.lang) (hS : ∀ t ∈ tabs a, Src b.lang (N t) t (P t) (L t) (U t)) :
    (∀ x ∈ a.labels, Readable b.lang.dialect x) ∧ ∃ m : Core, m.order = a.order.map Sorting.key ∧ (∀ C T, m.rows C T = a.answer C T) ∧
      refs m = (tabs a).map (fun t => (⟨t.schema, t.name, t.label⟩ : Ref)) ∧
      ∀ limit offset, Allowed b.lang limit offset →
        ∃ R Z Z', Adds b.lang.dialect (askRest b N raw a limit offset) R ∧ Asking.Piece b.lang R Z ∧ Sep b.lang R ∧ ∀ Y, NoWord Y →
          (∀ k, ([Tok.word "SELECT".toList].map Lex.tok ++ Y ++ Z).length ≤ k →
            flat? b.lang k false ([Tok.word "SELECT".toList].map Lex.tok ++ Y ++ Z) = some ((tabs a).flatMap U, [Tok.word "SELECT".toList].map Lex.tok ++ Y ++ Z')) ∧
          ∀ list? cs, list? a.labels Y = some cs →
            stmtOf? list? b.lang ([Tok.word "SELECT".toList].map Lex.tok ++ Y ++ Z') = some ⟨{ m with cols := cs }, limit, offset⟩ := by
  have hl0 : ∀ x ∈ [a.tab.label], Readable b.lang.dialect x := fun x hx => by
    rw [List.mem_singleton.1 hx]
    exact h.tab.label
  obtain ⟨hl, js, jss, jtt, jp, j1, j2, j3, j0, j4, j5, j6, j7, j8⟩ := joins_parts b.lang N P L U raw a.joins [a.tab.label] hl0 h.joins
    fun j hj => hS j.tab (List.mem_cons_of_mem _ (List.mem_map_of_mem hj))
  have hl : ∀ x ∈ a.labels, Readable b.lang.dialect x := hl
  have hsrc := hS a.tab (List.mem_cons_self ..)
  obtain ⟨ws, e, w1, w2, w3, w4, w5⟩ := sect_where b.lang a.labels hl raw a.conds h.conds b.env
  obtain ⟨o1, o2⟩ := sect_order b.lang a.labels hl raw a.order h.order b.env
  refine ⟨hl, ⟨[], ⟨a.tab.schema, a.tab.name, a.tab.label⟩, jp, e, a.order.map Sorting.key⟩, rfl, fun C T => ?_, ?_,
    fun limit offset hal => ?_⟩
  · show (joinParts C T jp _).filter (holds C e) = _
    rw [j7, show holds C e = fun w => described C a.conds (Field.value w) from funext (w4 C)]
    rfl
  · unfold refs tabs
    rw [j8, List.map_cons, List.map_map]
    rfl
  · have n1 : Sect b.lang (number " LIMIT ".toList (limit.map Int.ofNat)) (numberSecs .limit limit) :=
      sect_number b.lang .limit "LIMIT ".toList (by cases b.lang <;> decide +kernel) limit
    have n2 : Sect b.lang (number " OFFSET ".toList (offset.map Int.ofNat)) (numberSecs .offset offset) :=
      sect_number b.lang .offset "OFFSET ".toList (by cases b.lang <;> decide +kernel) offset
    obtain ⟨xs, x1, x2, x3, x4⟩ := w1.append (o1.append (n1.append n2))
    have hwords : ∀ s ∈ ws ++ (orderSecs b.lang raw a.order ++ (numberSecs .limit limit ++ numberSecs .offset offset)), s.1 ≠ .from_ ∧ s.1 ≠ .join := by
      intro s hs
      simp only [List.mem_append] at hs
      rcases hs with hs | hs | hs | hs
      · rw [w5 s hs]; simp
      · rw [order_words _ _ _ s hs]; simp
      · rw [number_words _ _ s hs]; simp
      · rw [number_words _ _ s hs]; simp
    have hwide : Wider b.lang ((.from_, L a.tab) :: (jss ++ (ws ++ (orderSecs b.lang raw a.order ++ (numberSecs .limit limit ++ numberSecs .offset offset)))))
        ((.from_, (refT b.lang a.tab).map .tok) :: (jtt ++ (ws ++ (orderSecs b.lang raw a.order ++ (numberSecs .limit limit ++ numberSecs .offset offset))))) ((tabs a).flatMap U) := by
      have := (hsrc.wide .from_ (.inl rfl)).append (j0.append (Wider.keep _ fun s hs => ⟨x4 s hs, hwords s hs⟩))
      rw [List.append_nil] at this
      unfold tabs
      rw [List.flatMap_cons, List.flatMap_map]
      exact this
    have hfrom : Ends (lexing b.lang) " FROM ".toList [.word (wordText .from_)] := by cases b.lang <;> decide +kernel
    refine ⟨.text " FROM ".toList :: (P a.tab ++ (js ++ xs)), secL ((.from_, L a.tab) :: (jss ++ (ws ++ (orderSecs b.lang raw a.order ++ (numberSecs .limit limit ++ numberSecs .offset offset))))), secL ((.from_, (refT b.lang a.tab).map .tok) :: (jtt ++ (ws ++ (orderSecs b.lang raw a.order ++ (numberSecs .limit limit ++ numberSecs .offset offset))))),
      ?_, ?_, Sep.text _ (c := ' ') (t := "FROM ".toList) (by decide) _, fun Y hY => ?_⟩
    · exact Adds.cons _ ((hsrc.adds b.env).append (j1.append x1))
    · have hs' : Sep b.lang (js ++ xs) := fun i => by
        rw [flat_append]
        exact breaks_append (j3 i) (x3 _)
      have := Piece.kw hfrom (by simp [Choosing.Plain]) (hsrc.piece.append (j2.append x2 x3) hs')
      rw [← secL_append] at this
      exact this
    have hpre : NoWord ([Tok.word "SELECT".toList].map Lex.tok ++ Y) :=
      NoWord.append (NoWord.cons (by decide +kernel) NoWord.nil) hY
    refine ⟨fun k hk => ?_, fun list? cs hcs => ?_⟩
    · exact flat_pre b.lang _ _ hpre _ (fun k hk => flat_secs hwide k false hk) k (by rw [← List.length_append]; exact hk)
    have hnw : ∀ s ∈ ((.from_, (refT b.lang a.tab).map .tok) :: (jtt ++ (ws ++ (orderSecs b.lang raw a.order ++ (numberSecs .limit limit ++ numberSecs .offset offset)))) : List (Word × List Lex)), NoWord s.2 := by
      intro s hs
      rcases List.mem_cons.1 hs with rfl | hs
      · exact noWord_ref _ _ h.tab
      · exact (List.mem_append.1 hs).elim (j4 s) (x4 s)
    suffices hsel : selected? list? b.lang ([Tok.word "SELECT".toList].map Lex.tok ++ Y ++ secL ((.from_, (refT b.lang a.tab).map .tok) :: (jtt ++ (ws ++ (orderSecs b.lang raw a.order ++ (numberSecs .limit limit ++ numberSecs .offset offset)))))) =
        some (⟨⟨cs, ⟨a.tab.schema, a.tab.name, a.tab.label⟩, jp, e, a.order.map Sorting.key⟩, limit, offset⟩, []) by
      unfold stmtOf?
      rw [hsel]
    unfold selected?
    rw [sections_read _ _ hpre hnw]
    have hnum : ∀ w, w ≠ .limit → w ≠ .offset → ∀ x r, numberSecs .limit limit ++ (numberSecs .offset offset ++ []) ≠ (w, x) :: r := by
      intro w h1 h2 x r e
      have hm : (w, x) ∈ numberSecs .limit limit ++ (numberSecs .offset offset ++ []) := by rw [e]; exact List.mem_cons_self ..
      simp only [List.append_nil, List.mem_append] at hm
      rcases hm with hm | hm
      · exact h1 (number_words _ _ _ hm)
      · exact h2 (number_words _ _ _ hm)
    have hord : ∀ w, w ≠ .order → w ≠ .limit → w ≠ .offset → ∀ x r,
        orderSecs b.lang raw a.order ++ (numberSecs .limit limit ++ (numberSecs .offset offset ++ [])) ≠ (w, x) :: r := by
      intro w h0 h1 h2 x r e
      have hm : (w, x) ∈ orderSecs b.lang raw a.order ++ (numberSecs .limit limit ++ (numberSecs .offset offset ++ [])) := by rw [e]; exact List.mem_cons_self ..
      simp only [List.append_nil, List.mem_append] at hm
      rcases hm with hm | hm | hm
      · exact h0 (order_words _ _ _ _ hm)
      · exact h1 (number_words _ _ _ hm)
      · exact h2 (number_words _ _ _ hm)
    have hnj : nextJoin (orderSecs b.lang raw a.order ++ (numberSecs .limit limit ++ (numberSecs .offset offset ++ []))) = none := by
      unfold nextJoin
      split
      · rename_i he; exact absurd he (hord _ (by simp) (by simp) (by simp) _ _)
      · rename_i he; exact absurd he (hord _ (by simp) (by simp) (by simp) _ _)
      · rename_i he; exact absurd he (hord _ (by simp) (by simp) (by simp) _ _)
      · rename_i he; exact absurd he (hord _ (by simp) (by simp) (by simp) _ _)
      · rename_i he; exact absurd he (hord _ (by simp) (by simp) (by simp) _ _)
      · rfl
    have happ : numberSecs .limit limit ++ numberSecs .offset offset = numberSecs .limit limit ++ (numberSecs .offset offset ++ []) := by rw [List.append_nil]
    rw [happ]
    show (if upper "SELECT".toList = "SELECT".toList then
      (ref? b.lang.dialect ((refT b.lang a.tab).map .tok)).bind fun t =>
      (joins? b.lang ((jtt ++ (ws ++ (orderSecs b.lang raw a.order ++ (numberSecs .limit limit ++ (numberSecs .offset offset ++ []))))).length + 1) [t.label]
        (jtt ++ (ws ++ (orderSecs b.lang raw a.order ++ (numberSecs .limit limit ++ (numberSecs .offset offset ++ [])))))).bind fun j =>
      (where? b.lang.dialect j.2.1 j.2.2).bind fun w =>
      (order? b.lang j.2.1 w.2).bind fun o =>
      (page? b.lang o.2).bind fun p =>
      (list? j.2.1 Y).map fun cs => ((⟨⟨cs, t, j.1, w.1, o.1⟩, p.1.1, p.1.2⟩ : Stmt), p.2)
      else none) = _
    rw [if_pos (by decide +kernel), ref_read b.lang a.tab h.tab, Option.bind_some, j6 _ _ (by rw [List.length_append]; omega) (w3 _ hnj), Option.bind_some]
    show (where? b.lang.dialect a.labels _).bind _ = _
    rw [w2 _ (hord _ (by simp) (by simp) (by simp)), Option.bind_some]
    show (order? b.lang a.labels _).bind _ = _
    rw [o2 _ (hnum _ (by simp) (by simp)), Option.bind_some]
    show (page? b.lang (numberSecs .limit limit ++ (numberSecs .offset offset ++ []))).bind _ = _
    rw [page_read _ _ _ hal [] After.nil, Option.bind_some]
    show (list? a.labels Y).map _ = _
    rw [hcs]
    rfl

/-! ### The subqueries -/

theorem gather_plain (raw : Field → Bool) (cols : List Field) (h : ∀ c ∈ cols, c.name ≠ []) : gather (cols.map (Field.node raw)) = .ok (cols.map Field.name, true) := by
  induction cols with
  | nil => rfl
  | cons c cols ih =>
    have hn : fieldNameOf (c.node raw) = c.name := rfl
    simp only [List.map_cons, gather]
    rw [show (c.node raw).kind.isNil = false from rfl, if_neg (by simp), hn, if_neg (h c (List.mem_cons_self ..)), ih fun x hx => h x (List.mem_cons_of_mem _ hx)]
    rfl

theorem sub_made (b : Builder) (raw : Field → Bool) (g : Given) (h : Sub.Fine b.lang g) :
    made b raw g = ⟨none, g.name, g.columns, g.columns, g.ask.query b raw g.limit g.offset⟩ := by
  unfold Sub.made newSubquery
  rw [Asking.query_node]
  have hk : (Asking.askNode b raw g.ask (g.ask.cols.map (Field.node raw)) g.limit g.offset).kind.isNil = false := rfl
  have hfe : fetchable (fun _ => .panic) (Asking.askNode b raw g.ask (g.ask.cols.map (Field.node raw)) g.limit g.offset) = .ok (g.ask.cols.map (Field.node raw)) := by
    unfold Asking.askNode
    simp only [fetchable]
  have hg := gather_plain raw g.ask.cols h.cols
  obtain ⟨c, r, e⟩ := List.exists_cons_of_ne_nil h.ask.some
  simp only []
  rw [hk, if_neg (by simp), hfe]
  rw [e, List.map_cons] at hg ⊢
  simp only [hg]
  unfold Given.columns
  rw [e]

/-- A subquery in the place of a table, and how it is read. -/
theorem src_sub (b : Builder) (raw : Field → Bool) (g : Given) (h : Sub.Fine b.lang g) :
    ∃ (P : List Part) (Z : List Lex) (m : Core), m.cols = g.ask.cols.map Field.col ∧ m.order = g.ask.order.map Sorting.key ∧ (∀ C T, m.rows C T = g.ask.answer C T) ∧
      stmt? b.lang Z = some ⟨m, g.limit, g.offset⟩ ∧
      ∀ t : Tab, t.schema = [] → t.name = g.name → t.alias = [] → Src b.lang (made b raw g).node t P (subL b.lang g.name Z) [(g.name, Z)] := by
  obtain ⟨hl, m, m1, m2, m3⟩ := ask_written b raw g.ask h.ask.toBody { d := b.lang.dialect } rfl b.env rfl
  obtain ⟨Q, Y, c1, c2, c3, c4⟩ := cols_parts b.lang raw g.ask.labels hl g.ask.cols h.ask.some h.ask.cols b.env
  obtain ⟨ps, xs, Z, e1, e2, e3, e4, _, e5⟩ := m3 _ Q Y (by simpa using h.ask.some) c1 c2 c3 g.limit g.offset h.page
  have hZ : stmt? b.lang Z = some ⟨{ m with cols := g.ask.cols.map Field.col }, g.limit, g.offset⟩ := by
    have := e5 _ _ c4 [] After.nil
    rw [show Z ++ secL [] = Z from List.append_nil Z] at this
    unfold stmt? stmtOf?
    rw [this]
  refine ⟨.text "(".toList :: (xs ++ [.text ")".toList]) ++ [.text " AS ".toList, .text (quoteIdentifier b.lang.dialect g.name)], Z, { m with cols := g.ask.cols.map Field.col }, rfl, m1, m2, hZ, fun t h1 h2 h3 => ?_⟩
  rw [sub_made b raw g h, Asking.query_node]
  refine ⟨fun env => ?_, ?_, fun w hw => ?_, by simp [Subquery.node], fun env => ⟨rfl, fun h => h⟩⟩
  · have hs : source { d := b.lang.dialect, env := env }
        (Subquery.node ⟨none, g.name, g.columns, g.columns, Asking.askNode b raw g.ask (g.ask.cols.map (Field.node raw)) g.limit g.offset⟩) =
      [.placed (.subquery none g.name (Asking.askNode b raw g.ask (g.ask.cols.map (Field.node raw)) g.limit g.offset)) { d := b.lang.dialect, env := env }] ++
        [.text " AS ".toList, .text (quoteIdentifier b.lang.dialect g.name)] := by
      show Part.placed _ _ :: named b.lang.dialect g.name = _
      unfold named
      rw [if_neg h.name]
      rfl
    rw [hs]
    refine Adds.append (Adds.construct (n := .subquery none g.name _) (m := { d := b.lang.dialect, env := env }) rfl rfl ⟨rfl, fun e => absurd e h.name⟩ ?_) (Adds.cons _ (Adds.text _))
    exact Adds.cons _ (Adds.append (xs := xs) (Adds.construct (m := { d := b.lang.dialect }) rfl e1 e2 e3) (Adds.text _))
  · have k1 : Ends (lexing b.lang) " AS ".toList [.word "AS".toList] := by cases b.lang <;> decide +kernel
    have k2 : Ends (lexing b.lang) "(".toList [.sym '('] := by cases b.lang <;> decide +kernel
    have k3 : Ends (lexing b.lang) ")".toList [.sym ')'] := by cases b.lang <;> decide +kernel
    have hp : ∀ x ∈ [nameT b.lang g.name], Choosing.Plain x := fun x hx => by rw [List.mem_singleton.1 hx]; exact plain_name _ _
    have hn : Asking.Piece b.lang [.text (quoteIdentifier b.lang.dialect g.name)] [.tok (nameT b.lang g.name)] := by
      refine Asking.Piece.text (K := [nameT b.lang g.name]) ?_ hp
      rw [quote_lexing]
      exact tokens_ident (lexing b.lang) g.name
    have := Asking.Piece.kw k2 (by simp [Choosing.Plain]) (e4.append (Asking.Piece.kw k3 (by simp [Choosing.Plain]) (Asking.Piece.kw k1 (by simp [Choosing.Plain]) hn)) (Sep.text _ (c := ')') (t := []) (by decide) _))
    rw [List.cons_append, List.append_assoc]
    exact this
  · have hr : (refT b.lang t).map Lex.tok = [.tok (nameT b.lang g.name)] := by
      unfold refT
      rw [if_pos h1, if_pos h3, h2]
      rfl
    rw [hr]
    exact .sub hw h.readable (bal_stmt hZ) .nil

/-! ### Fields of subqueries -/

def raws (raw : Field → Bool) (gs : List Given) (c : Field) : Bool := if (givenFor gs c.tab).isSome then false else raw c

theorem givenFor_mem {gs : List Given} {t : Tab} {g : Given} (h : givenFor gs t = some g) : g ∈ gs ∧ t.schema = [] ∧ g.name = t.name := by
  unfold givenFor at h
  split at h
  · exact ⟨List.mem_of_find?_eq_some h, by assumption, by simpa using List.find?_some h⟩
  · cases h

theorem alike_checked (avail : List Str) (x name : Str) (desc nf : Option Bool) (hx : x ≠ []) (h : name ∈ avail) :
    obj (.checkedField true avail { tableAlias := x, name := name, desc := desc, nullsFirst := nf }) = obj (.field { tableName := x, name := name, desc := desc, nullsFirst := nf } false false []) := by
  refine obj_ext rfl rfl rfl rfl (fun m pn => ?_) (fun e => rfl)
  simp only [ren]
  unfold checkedFieldAppend
  rw [if_neg (fun e => hx e.2.1), if_neg (by simpa using h)]
  unfold fieldInfoAppend columnName
  simp only [if_neg hx, if_true]
  rfl

/-- The fields that a question may use. -/
structure Usable (l : Lang) (gs : List Given) (c : Field) : Prop where
  has : HasColumn gs c
  plain : c.tab.schema = [] → ∀ g ∈ gs, g.name = c.tab.name → c.tab.alias = []

theorem alike_field (b : Builder) (raw : Field → Bool) (gs : List Given) (hf : ∀ g ∈ gs, Sub.Fine b.lang g) (c : Field) (h : Usable b.lang gs c) :
    obj (Sub.fieldNode b raw gs c) = obj (c.node (raws raw gs)) := by
  unfold Sub.fieldNode
  cases e : givenFor gs c.tab with
  | none =>
    show obj (c.node raw) = _
    unfold Field.node raws
    rw [e]
    rfl
  | some g =>
    obtain ⟨h1, h2, h3⟩ := givenFor_mem e
    show obj ((made b raw g).field c.name) = _
    rw [sub_made b raw g (hf g h1)]
    unfold Subquery.field Field.node raws
    rw [e, h.plain h2 g h1 h3, ← h3]
    exact alike_checked _ _ _ none none (hf g h1).name (h.has h2 g h1 h3)

theorem alike_sort (b : Builder) (raw : Field → Bool) (gs : List Given) (hf : ∀ g ∈ gs, Sub.Fine b.lang g) (k : Sorting) (h : Usable b.lang gs k.col) :
    obj (Sub.sortNode b raw gs k) = obj (k.node (raws raw gs)) := by
  unfold Sub.sortNode Sub.fieldNode
  cases e : givenFor gs k.col.tab with
  | none =>
    show obj (k.node raw) = _
    unfold Sorting.node raws
    rw [e]
    rfl
  | some g =>
    obtain ⟨h1, h2, h3⟩ := givenFor_mem e
    simp only []
    rw [sub_made b raw g (hf g h1)]
    unfold Subquery.field Sorting.node raws
    rw [e, h.plain h2 g h1 h3, ← h3]
    exact alike_checked _ _ _ _ _ (hf g h1).name (h.has h2 g h1 h3)

/-! ### The Go program -/

theorem stands_refl (n : Node) : Stands n n := ⟨rfl, rfl, fun _ => rfl, fun _ _ _ => rfl⟩

def joinNodeOf (b : Builder) (raw : Field → Bool) (gs : List Given) (j : Join) : Node :=
  match j.how with
  | .inner => joinTable .join (Sub.tabNode b raw gs j.tab) (nodes (mapAll (Sub.fieldNode b raw gs) j.on))
  | .left => joinTable .leftJoin (Sub.tabNode b raw gs j.tab) (nodes (mapAll (Sub.fieldNode b raw gs) j.on))
  | .right => joinTable .rightJoin (Sub.tabNode b raw gs j.tab) (nodes (mapAll (Sub.fieldNode b raw gs) j.on))
  | .full => joinTable .fullJoin (Sub.tabNode b raw gs j.tab) (nodes (mapAll (Sub.fieldNode b raw gs) j.on))
  | .cross => Chain.crossJoin (Sub.tabNode b raw gs j.tab)

theorem alike_join (b : Builder) (raw : Field → Bool) (gs : List Given) (hf : ∀ g ∈ gs, Sub.Fine b.lang g) (j : Join) (h : ∀ c ∈ columns j.on, Usable b.lang gs c) :
    obj (joinNodeOf b raw gs j) = obj (joinNode (Sub.tabNode b raw gs) (raws raw gs) j) := by
  have hc := alike_conds (Sub.fieldNode b raw gs) (Field.node (raws raw gs)) j.on fun x hx => alike_field b raw gs hf x (h x hx)
  obtain ⟨how, tab, on⟩ := j
  cases how <;> first | exact alike_joinTable (stands_refl _) (alike_vpred hc) _ | rfl

def subNode (b : Builder) (raw : Field → Bool) (gs : List Given) (a : Ask) (fields : List Node) (limit offset : Option Nat) : Node :=
  .select { dialect := b.lang.dialect, env := b.env, distinct := false, limit := limit.map Int.ofNat, offset := offset.map Int.ofNat }
    [] fields [] (Sub.tabNode b raw gs a.tab) (a.joins.map (joinNodeOf b raw gs)) (and_ (nodes (mapAll (Sub.fieldNode b raw gs) a.conds))) [] (and_ []) (a.order.map (Sub.sortNode b raw gs))

theorem joins_run (b : Builder) (raw : Field → Bool) (gs : List Given) (js : List Join) (q : SelectQ) :
    (js.map (Sub.joinCall b raw gs)).foldl SelectCall.run q = { q with joins := q.joins ++ js.map (joinNodeOf b raw gs) } := by
  induction js generalizing q with
  | nil => simp
  | cons j js ih =>
    simp only [List.map_cons, List.foldl_cons]
    rw [ih]
    obtain ⟨how, tab, on⟩ := j
    cases how <;> simp [Sub.joinCall, SelectCall.run, joinNodeOf]

theorem calls_run (b : Builder) (raw : Field → Bool) (gs : List Given) (a : Ask) (limit offset : Option Nat) (q : SelectQ) (h1 : q.limit = none) (h2 : q.offset = none) :
    (Sub.calls b raw gs a limit offset).foldl SelectCall.run q =
      { q with joins := q.joins ++ a.joins.map (joinNodeOf b raw gs), where_ := q.where_ ++ nodes (mapAll (Sub.fieldNode b raw gs) a.conds),
               orderBy := q.orderBy ++ a.order.map (Sub.sortNode b raw gs), limit := limit.map Int.ofNat, offset := offset.map Int.ofNat } := by
  unfold Sub.calls
  rw [List.foldl_append, List.foldl_append, List.foldl_append, joins_run]
  cases limit <;> cases offset <;> simp [SelectCall.run, h1, h2]

theorem sub_query_node (b : Builder) (raw : Field → Bool) (gs : List Given) (a : Ask) (limit offset : Option Nat) :
    Sub.query b raw gs a limit offset = subNode b raw gs a (a.cols.map (Sub.fieldNode b raw gs)) limit offset := by
  unfold Sub.query Chain.select
  rw [List.foldl_cons, calls_run _ _ _ _ _ _ _ rfl rfl]
  simp [SelectStart.run, SelectCall.run, SelectQ.node, subNode]

theorem sub_fromQuery_node (b : Builder) (raw : Field → Bool) (gs : List Given) (a : Ask) (limit offset : Option Nat) :
    Sub.fromQuery b raw gs a limit offset = subNode b raw gs a [] limit offset := by
  unfold Sub.fromQuery Chain.select
  rw [calls_run _ _ _ _ _ _ _ rfl rfl]
  simp [SelectStart.run, SelectQ.node, subNode]

theorem ask_alike (b : Builder) (raw : Field → Bool) (gs : List Given) (hf : ∀ g ∈ gs, Sub.Fine b.lang g) (a : Ask) (hh : ∀ c ∈ fieldsOf a, Usable b.lang gs c)
    {fields fields' : List Node} (hfi : fields.map obj = fields'.map obj) (limit offset : Option Nat) (m : Mode) :
    ren (subNode b raw gs a fields limit offset) m [] = ren (askNode b (Sub.tabNode b raw gs) (raws raw gs) a fields' limit offset) m [] := by
  have hjoins : ∀ j ∈ a.joins, ∀ c ∈ columns j.on, Usable b.lang gs c := fun j hj c hc => hh c (by
    unfold fieldsOf
    refine List.mem_append_left _ (List.mem_append_left _ (List.mem_append_right _ (List.mem_flatMap.2 ⟨j, hj, hc⟩))))
  have hconds : ∀ c ∈ columns a.conds, Usable b.lang gs c := fun c hc => hh c (List.mem_append_left _ (List.mem_append_right _ hc))
  have horder : ∀ k ∈ a.order, Usable b.lang gs k.col := fun k hk => hh _ (List.mem_append_right _ (List.mem_map_of_mem hk))
  exact alike_select _ [] hfi (stands_refl _)
    (map_alike fun j hj => alike_join b raw gs hf j (hjoins j hj))
    (alike_vpred (alike_conds _ _ _ fun x hx => alike_field b raw gs hf x (hconds x hx))) _ (map_alike fun k hk => alike_sort b raw gs hf k (horder k hk)) m

/-! ### What is sent -/

theorem every_flatMap {α β γ : Type} (f : β → Option γ) (g : α → List β) (h : α → List γ) (xs : List α) (k : ∀ x ∈ xs, every f (g x) = some (h x)) :
    every f (xs.flatMap g) = some (xs.flatMap h) := by
  have app : ∀ (u v : List β) (u' v' : List γ), every f u = some u' → every f v = some v' → every f (u ++ v) = some (u' ++ v') := by
    intro u
    induction u with
    | nil => intro v u' v' hu hv; cases hu; exact hv
    | cons x u ih =>
      intro v u' v' hu hv
      simp only [every] at hu
      obtain ⟨y, hy, hu⟩ := Option.bind_eq_some_iff.1 hu
      obtain ⟨w, hw, rfl⟩ := Option.map_eq_some_iff.1 hu
      simp only [List.cons_append, every]
      rw [hy, Option.bind_some, ih v w v' hw hv]
      rfl
  induction xs with
  | nil => rfl
  | cons x xs ih =>
    rw [List.flatMap_cons, List.flatMap_cons]
    exact app _ _ _ _ (k x (List.mem_cons_self ..)) (ih fun y hy => k y (List.mem_cons_of_mem _ hy))

/-- Statements for the questions that a question is about. -/
structure Stated (l : Lang) (g : Given) (m : Stmt) : Prop where
  cols : m.core.cols = g.ask.cols.map Field.col
  order : m.core.order = g.ask.order.map Sorting.key
  rows : ∀ C T, m.core.rows C T = g.ask.answer C T
  limit : m.limit = g.limit
  offset : m.offset = g.offset

theorem stated_answers {l : Lang} (M : Given → Stmt) (C : Compare) (O : Order) (arrange : Tables → Core → List World) (h1 : ∀ T m, (arrange T m).Perm (m.rows C T))
    (h2 : ∀ T m, Sorted O m.order (arrange T m)) (T : Tables) (gs : List Given) (h : ∀ g ∈ gs, Stated l g (M g)) :
    Sub.Answered C O T gs (Sub.withResults arrange T (gs.map fun g => (g.name, M g))) := by
  induction gs with
  | nil => rfl
  | cons g gs ih =>
    have hg := h g (List.mem_cons_self ..)
    refine ⟨page g.limit g.offset (arrange T (M g).core), _, ⟨arrange T (M g).core, hg.rows C T ▸ h1 T _, hg.order ▸ h2 T _, rfl⟩, ih fun x hx => h x (List.mem_cons_of_mem _ hx), ?_⟩
    rw [List.map_cons]
    simp only [Sub.withResults]
    unfold Given.records Given.columns
    rw [hg.limit, hg.offset, hg.cols]
    simp only [List.map_map]
    rfl

/-- As `ask_parts` (Proof/Select), of a question about subqueries. -/
theorem query_parts (b : Builder) (raw : Field → Bool) (gs : List Given) (a : Ask) (h : Sub.Sound b.lang gs a) :
    (∀ x ∈ a.labels, Readable b.lang.dialect x) ∧ (∀ c ∈ fieldsOf a, Usable b.lang gs c) ∧
    ∃ (ms : List (Str × Stmt)) (m : Core), m.order = a.order.map Sorting.key ∧ (∀ C T, m.rows C T = a.answer C T) ∧
      ms.map Prod.fst = (used gs a).map Given.name ∧
      (∀ C O arrange, (∀ T m, (arrange T m).Perm (m.rows C T)) → (∀ T m, Sorted O m.order (arrange T m)) → ∀ T, Sub.Answered C O T (used gs a) (Sub.withResults arrange T ms)) ∧
      ∀ (fields fields' : List Node) (Q : List Part) (Y : List Lex), fields' ≠ [] → fields.map obj = fields'.map obj →
        Adds b.lang.dialect (items { d := b.lang.dialect, env := b.env } fields') Q → Asking.Piece b.lang Q Y → NoWord Y → ∀ limit offset, Allowed b.lang limit offset →
        ∃ xs Z, ((ownSQL (subNode b raw gs a fields limit offset)).status = .ok ∧
            (ownSQL (subNode b raw gs a fields limit offset)).query = Storing.flat b.lang.dialect 0 xs ∧
            (ownSQL (subNode b raw gs a fields limit offset)).args = vals xs) ∧ Asking.Piece b.lang xs Z ∧
          ∀ list? cs, list? a.labels Y = some cs → Sub.subsOf? list? b.lang Z = some (ms, ⟨{ m with cols := cs }, limit, offset⟩) := by
  have hnamed : ∀ t ∈ tabs a, Named b.lang.dialect t := by
    intro t ht
    rcases List.mem_cons.1 ht with rfl | ht
    · exact h.ask.tab
    · obtain ⟨j, hj, rfl⟩ := List.mem_map.1 ht
      have : ∀ (js : List Join) labels, JoinsSound b.lang labels js → ∀ j ∈ js, Named b.lang.dialect j.tab := by
        intro js
        induction js with
        | nil => intro _ _ j hj; cases hj
        | cons j' js ih =>
          intro labels hs j hj
          rcases List.mem_cons.1 hj with rfl | hj
          · exact hs.2.1
          · exact ih _ hs.2.2.2.2 j hj
      exact this _ _ h.ask.joins j hj
  have hsub : ∀ g, ∃ x : List Part × List Lex × Stmt, g ∈ gs → Stated b.lang g x.2.2 ∧ stmt? b.lang x.2.1 = some x.2.2 ∧
      ∀ t : Tab, t.schema = [] → t.name = g.name → t.alias = [] → Src b.lang (made b raw g).node t x.1 (subL b.lang g.name x.2.1) [(g.name, x.2.1)] := by
    intro g
    by_cases hg : g ∈ gs
    · obtain ⟨P, Z, m, m1, m2, m3, m4, m5⟩ := src_sub b raw g (h.fine g hg)
      exact ⟨⟨P, Z, ⟨m, g.limit, g.offset⟩⟩, fun _ => ⟨⟨m1, m2, m3, rfl, rfl⟩, m4, m5⟩⟩
    · exact ⟨⟨[], [], ⟨⟨[], ⟨[], [], []⟩, [], none, []⟩, none, none⟩⟩, fun h => absurd h hg⟩
  obtain ⟨X, hX⟩ := Classical.axiomOfChoice hsub
  let P : Tab → List Part := fun t => match givenFor gs t with | some g => (X g).1 | none => srcParts b.lang.dialect t
  let L : Tab → List Lex := fun t => match givenFor gs t with | some g => subL b.lang g.name (X g).2.1 | none => (refT b.lang t).map .tok
  let U : Tab → List (Str × List Lex) := fun t => match givenFor gs t with | some g => [(g.name, (X g).2.1)] | none => []
  let V : Tab → List (Str × Stmt) := fun t => match givenFor gs t with | some g => [(g.name, (X g).2.2)] | none => []
  have hS : ∀ t ∈ tabs a, Src b.lang (Sub.tabNode b raw gs t) t (P t) (L t) (U t) := by
    intro t ht
    unfold Sub.tabNode
    cases e : givenFor gs t with
    | none => simp only [P, L, U, e]; exact src_plain b.lang t (hnamed t ht)
    | some g =>
      obtain ⟨h1, h2, h3⟩ := givenFor_mem e
      simp only [P, L, U, e]
      exact (hX g h1).2.2 t h2 h3.symm (h.plain t (List.mem_append_left _ ht) h2 g h1 h3)
  have hV : every (fun p : Str × List Lex => (stmt? b.lang p.2).map fun m => (p.1, m)) ((tabs a).flatMap U) = some ((tabs a).flatMap V) := by
    refine every_flatMap _ U V (tabs a) fun t _ => ?_
    cases e : givenFor gs t with
    | none => simp only [U, V, e]; rfl
    | some g =>
      simp only [U, V, e, every]
      rw [(hX g (givenFor_mem e).1).2.1]
      rfl
  have hused : (tabs a).flatMap V = (used gs a).map fun g => (g.name, (X g).2.2) := by
    unfold Sub.used
    generalize tabs a = ts
    induction ts with
    | nil => rfl
    | cons t ts ih =>
      rw [List.flatMap_cons, ih, List.filterMap_cons]
      cases e : givenFor gs t with
      | none => simp only [V, e]; rfl
      | some g => simp only [V, e]; rfl
  have hmem : ∀ g ∈ used gs a, g ∈ gs := by
    intro g hg
    obtain ⟨t, _, ht⟩ := List.mem_filterMap.1 hg
    exact (givenFor_mem ht).1
  obtain ⟨hl, m, m1, m2, m3, m4⟩ := ask_behind b (Sub.tabNode b raw gs) P L U (raws raw gs) a h.ask.toBody hS
  have husable : ∀ c ∈ fieldsOf a, Usable b.lang gs c := fun c hc =>
    ⟨h.columns c hc, h.plain c.tab (List.mem_append_right _ (List.mem_map_of_mem hc))⟩
  refine ⟨hl, husable, (used gs a).map fun g => (g.name, (X g).2.2), m, m1, m2, by rw [List.map_map]; rfl, fun C O arrange h1 h2 T => ?_, fun fields fields' Q Y hne hfi c1 c2 c3 limit offset hal => ?_⟩
  · exact stated_answers (l := b.lang) (fun g => (X g).2.2) C O arrange h1 h2 T (used gs a) fun g hg => (hX g (hmem g hg)).1
  obtain ⟨R, Z, Z', r1, r2, r3, r4⟩ := m4 limit offset hal
  obtain ⟨r5, r6⟩ := r4 Y c3
  have hbare : ∀ t ∈ tabs a, Bare (Sub.tabNode b raw gs t) := fun t ht => ⟨(hS t ht).some, (hS t ht).free⟩
  have hsel : Ends (lexing b.lang) "SELECT ".toList [.word "SELECT".toList] := by cases b.lang <;> decide +kernel
  have hA : Adds b.lang.dialect [.placed (subNode b raw gs a fields limit offset) { d := b.lang.dialect }] ((.text "SELECT ".toList :: Q) ++ R) := by
    refine Adds.alike (ask_alike b raw gs h.fine a husable hfi limit offset _) ?_
    refine Adds.construct (m := { d := b.lang.dialect }) rfl (ask_construct b _ (raws raw gs) a hbare _ limit offset)
      (⟨hne, fun h => (h rfl).elim, fun _ => (hbare _ (List.mem_cons_self ..)).some, refuses_not _ _ a hbare _⟩ : SelectNeeds _ _ _ _ [] _ _) ?_
    rw [← List.append_assoc]
    exact (Adds.cons _ c1).append r1
  have hp := (Asking.Piece.kw hsel (by simp [Choosing.Plain]) c2).append r2 r3
  refine ⟨_, _, ?_, hp, fun list? cs hcs => ?_⟩
  · have hd : queryDialect (subNode b raw gs a fields limit offset) = b.lang.dialect := rfl
    unfold ownSQL
    rw [hd]
    exact toSQL_adds hA hp.flat
  unfold Sub.subsOf?
  rw [r5 _ (Nat.le_refl _), Option.bind_some, hV, Option.bind_some, r6 list? _ hcs, Option.bind_some, hused, if_pos]
  intro x hx r hr h1 h2
  obtain ⟨g, hg, rfl⟩ := List.mem_map.1 hx
  have hr : r ∈ refs m := hr
  rw [m3] at hr
  obtain ⟨t, ht, rfl⟩ := List.mem_map.1 hr
  have ha := h.plain t (List.mem_append_left _ ht) h1 g (hmem g hg) h2.symm
  show t.label = g.name
  unfold Tab.label
  rw [if_pos ha]
  exact h2

theorem cols_alike (b : Builder) (raw : Field → Bool) (gs : List Given) (hf : ∀ g ∈ gs, Sub.Fine b.lang g) (a : Ask) (hh : ∀ c ∈ fieldsOf a, Usable b.lang gs c) :
    (a.cols.map (Sub.fieldNode b raw gs)).map obj = (a.cols.map (Field.node (raws raw gs))).map obj :=
  map_alike fun c hc => alike_field b raw gs hf c (hh c (by simp [fieldsOf, hc]))

theorem query_reads (b : Builder) (raw : Field → Bool) (gs : List Given) (a : Ask) (h : Sub.Sound b.lang gs a) :
    ∃ (ms : List (Str × Stmt)) (m : Core), m.cols = a.cols.map Field.col ∧ m.order = a.order.map Sorting.key ∧ (∀ C T, m.rows C T = a.answer C T) ∧
      ms.map Prod.fst = (used gs a).map Given.name ∧
      (∀ C O arrange, (∀ T m, (arrange T m).Perm (m.rows C T)) → (∀ T m, Sorted O m.order (arrange T m)) → ∀ T, Sub.Answered C O T (used gs a) (Sub.withResults arrange T ms)) ∧
      ∀ limit offset, Allowed b.lang limit offset →
        (ownSQL (Sub.query b raw gs a limit offset)).status = .ok ∧
        readSub b.lang (ownSQL (Sub.query b raw gs a limit offset)).args (ownSQL (Sub.query b raw gs a limit offset)).query = some (ms, ⟨m, limit, offset⟩) := by
  obtain ⟨hl, husable, ms, m, m1, m2, m3, m4, m5⟩ := query_parts b raw gs a h
  obtain ⟨Q, Y, c1, c2, c3, c4⟩ := cols_parts b.lang (raws raw gs) a.labels hl a.cols h.ask.some h.ask.cols b.env
  refine ⟨ms, { m with cols := a.cols.map Field.col }, rfl, m1, m2, m3, m4, fun limit offset hal => ?_⟩
  obtain ⟨xs, Z, ⟨o1, o2, o3⟩, hp, hz⟩ := m5 _ _ Q Y (by simpa using h.ask.some) (cols_alike b raw gs h.fine a husable) c1 c2 c3 limit offset hal
  rw [sub_query_node]
  refine ⟨o1, ?_⟩
  unfold readSub
  rw [o2, o3, ← Option.bind_assoc, hp.reads, Option.bind_some]
  exact hz (columns? b.lang) _ c4

theorem exists_reads {l : Lang} {xs : List Part} {Z : List Lex} (h : Asking.Piece l xs Z) (m : List (Str × Stmt) × Stmt)
    (hm : Sub.subsOf? (fun labels xs => if xs = [.tok (.word "1".toList)] then some [] else columns? l labels xs) l Z = some m) :
    Sub.readExists l (vals xs) ("SELECT EXISTS (".toList ++ Storing.flat l.dialect 0 xs ++ ")".toList) = some m := by
  have k1 : Asking.Piece l [.text ")".toList] ([Tok.sym ')'].map .tok) := Asking.Piece.text (by cases l <;> decide +kernel) (by simp [Choosing.Plain])
  have k2 := Asking.Piece.kw (l := l) (kw := "SELECT EXISTS (".toList) (K := [.word "SELECT".toList, .word "EXISTS".toList, .sym '('])
    (by cases l <;> decide +kernel) (by simp [Choosing.Plain]) (h.append k1 (Sep.text l (by decide +kernel) []))
  have hr := k2.reads
  have hf : Storing.flat l.dialect 0 (.text "SELECT EXISTS (".toList :: (xs ++ [.text ")".toList])) = "SELECT EXISTS (".toList ++ Storing.flat l.dialect 0 xs ++ ")".toList := by
    rw [List.append_assoc]
    show "SELECT EXISTS (".toList ++ Storing.flat l.dialect 0 (xs ++ [.text ")".toList]) = _
    rw [flat_append]
    rfl
  have hv : vals (.text "SELECT EXISTS (".toList :: (xs ++ [.text ")".toList])) = vals xs := by
    show vals (xs ++ [.text ")".toList]) = _
    rw [vals_append]
    exact List.append_nil _
  rw [hf, hv] at hr
  unfold Sub.readExists
  rw [← Option.bind_assoc, hr, Option.bind_some]
  show (if upper "SELECT".toList = "SELECT".toList ∧ upper "EXISTS".toList = "EXISTS".toList then (inside (Z ++ [.tok (.sym ')')])).bind _ else none) = _
  rw [if_pos (by decide +kernel), inside_append, Option.bind_some]
  exact hm

end Sq.Nested
