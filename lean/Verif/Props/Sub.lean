import Verif.Proof.Sub
import Verif.Props.Cte
/-
C88: a question asked of subqueries is the question asked of the records that answer the subqueries' questions.
-/
namespace Sq.Nested
open Sq Sq.Spec Sq.Chain Sq.Exprs Sq.Spec.Store Sq.Spec.Where Sq.Spec.Sel Sq.Choosing Sq.Asking Sq.Deriving
open Sq.Spec.Cte (Given record add Answers HasColumn fieldsOf)
open Sq.Spec.Sub (givenFor tabs used made refs readSub withAnswers)
open Sq.Storing hiding pieces
open _root_.Spec (Tok tokens)

/-- **C88 (partial), the statement.** `Select(columns...).From(...).Join(...)....Where(...).OrderBy(...).Limit(n).Offset(k)`, where tables and fields may be those of
subqueries, is sent as a statement that is read as: statements in parentheses, one for each subquery it is about, with these names, whose results — whatever order rows
come in — answer the subqueries' questions; and a statement that reads these columns, has these sort keys, this LIMIT and this OFFSET, and whose rows are, in every
database, the records asked for.  Missing: as in `C81_reads_partial`. -/
theorem C88_reads_partial (b : Builder) (raw : Field → Bool) (gs : List Given) (a : Ask) (h : Sub.Sound b.lang gs a) :
    ∃ (ms : List (Str × Stmt)) (m : Core), m.cols = a.cols.map Field.col ∧ m.order = a.order.map Sorting.key ∧ (∀ C T, m.rows C T = a.answer C T) ∧
      ms.map Prod.fst = (used gs a).map Given.name ∧
      (∀ C O arrange, (∀ T m, (arrange T m).Perm (m.rows C T)) → (∀ T m, Sorted O m.order (arrange T m)) → ∀ T, Sub.Answered C O T (used gs a) (Sub.withResults arrange T ms)) ∧
      ∀ limit offset, Allowed b.lang limit offset →
        (ownSQL (Sub.query b raw gs a limit offset)).status = .ok ∧
        readSub b.lang (ownSQL (Sub.query b raw gs a limit offset)).args (ownSQL (Sub.query b raw gs a limit offset)).query = some (ms, ⟨m, limit, offset⟩) :=
  query_reads b raw gs a h

section RoundTrip
open Sq.Sending Sq.Fetching.Spec Sq.Spec.Send

variable {Ctx V : Type}

/-- The value of a field, in a record. -/
def valueOf (w : World) : Node → Scalar
  | .field fi _ _ _ => w (if fi.tableAlias = [] then fi.tableName else fi.tableAlias) fi.name
  | .checkedField _ _ fi => w (if fi.tableAlias = [] then fi.tableName else fi.tableAlias) fi.name
  | _ => .nil

theorem value_field (b : Builder) (raw : Field → Bool) (gs : List Given) (hf : ∀ g ∈ gs, Sub.Fine b.lang g) (w : World) (c : Field)
    (hp : c.tab.schema = [] → ∀ g ∈ gs, g.name = c.tab.name → c.tab.alias = []) : valueOf w (Sub.fieldNode b raw gs c) = c.value w := by
  unfold Sub.fieldNode
  cases e : givenFor gs c.tab with
  | none => rfl
  | some g =>
    obtain ⟨h1, h2, h3⟩ := givenFor_mem e
    simp only []
    rw [sub_made b raw g (hf g h1)]
    show w (if g.name = [] then [] else g.name) c.name = _
    rw [if_neg (hf g h1).name]
    unfold Field.value Tab.label
    rw [if_pos (hp h2 g h1 h3), h3]

/-- As `fetch_worlds` (Props/Select). -/
theorem fetch_given (D : Database) (s : D.State) (source : Logging.LogSource) (hs : source.Usable) (o : Outside V) (zero : Fetching.Kind → V)
    (conv : Fetching.Kind → Scalar → Option V) (get : Fetching.Kind → Scalar → V) (b : Builder) (raw : Field → Bool) (gs : List Given) (kind : Field → Fetching.Kind)
    (cols : List Field) (hc : cols ≠ []) (hname : ∀ w, ∀ c ∈ cols, valueOf w (Sub.fieldNode b raw gs c) = c.value w) (ctx : Ctx) (q q' : Node) (d : Dialect)
    (hd : Dial.getDialect o.own q = .ok d) (ho : Own q)
    (hq' : WithFields q (cols.map (Sub.fieldNode b raw gs)) q') (hok : (toSQL d q').status = .ok) (ws : List World)
    (hans : D.query (toSQL d q').query (toSQL d q').args s = ws.map fun w => cols.map (Field.value w))
    (hconv : ∀ w ∈ ws, ∀ c ∈ cols, conv (kind c) (c.value w) = some (get (kind c) (c.value w))) :
    let f := fetch o (D.conn source s Ctx) q zero conv (Sub.readsFields b raw gs kind cols) ctx []
    f.fin = .ok ∧ f.count = ws.length ∧ f.trace = ws.map (fun w => cols.map fun c => get (kind c) (c.value w)) ∧ f.closed = true := by
  intro f
  let D' : List (Fetching.Kind × Node) := cols.map fun c => (kind c, Sub.fieldNode b raw gs c)
  have hsnd : D'.map Prod.snd = cols.map (Sub.fieldNode b raw gs) := by simp [D', List.map_map, Function.comp_def]
  let tab : List ((Node → Scalar) × Option (Fetching.Kind → Node → V)) := ws.map fun w => (valueOf w, some fun k n => get k (valueOf w n))
  have h := C75_fetch_values o (D.conn source s Ctx) q q' zero conv (Sub.readsFields b raw gs kind cols) ctx [] [] false d hd ho hs D'
    (reader_calls _ _ _ _).symm (by simpa [D'] using hc) (reader_register zero _ [] []) (by rw [hsnd]; exact hq') hok none none tab
    (by
      show Except.ok ({ rows := D.query (toSQL d q').query (toSQL d q').args s } : Fetching.Rows Scalar) = _
      rw [hans, hsnd]
      simp only [tab, List.map_map, Function.comp_def]
      congr 2
      exact List.map_congr_left fun w _ => List.map_congr_left fun c hc => (hname w c hc).symm)
    (by
      intro row hrow
      obtain ⟨w, hw, rfl⟩ := List.mem_map.1 hrow
      intro kf hkf
      obtain ⟨c, hc', rfl⟩ := List.mem_map.1 hkf
      simp only [hname w c hc']
      exact hconv w hw c hc')
    (by
      intro row hrow val _ tr
      rw [show calls val true (Sub.readsFields b raw gs kind cols tr) = D' from reader_calls _ _ _ _]
      exact List.prefix_refl _)
  have hv := reader_visit D' (ws.map fun w k n => get k (valueOf w n)) ([] : List (List V)) 0
  have htab : tab.map Prod.snd = (ws.map fun w k n => get k (valueOf w n)).map some := by
    simp only [tab, List.map_map, Function.comp_def]
  rw [htab, show (Sub.readsFields (V := V) b raw gs kind cols) = fun _ => reader D' [] from rfl, hv] at h
  obtain ⟨h1, h2, h3, h4⟩ := h
  refine ⟨h2, h1.trans (by simp), ?_, h4⟩
  rw [show f.trace = _ from h3]
  simp only [List.nil_append, List.map_map, Function.comp_def, D']
  exact List.map_congr_left fun w _ => List.map_congr_left fun c hc => by rw [hname w c hc]

/-- **C88 (partial).** On a database that reads subqueries as SQL does, there are tables `T'` — those of the database and, under its name, an answer to the question of
each subquery — and one arrangement of the records of `T'` asked for, in the order asked for, such that fetching with a row mapper gives, for every LIMIT and OFFSET,
that page of it.  For every contents of the tables, number of subqueries, number and kinds of joins, nesting of And, Or and Not, and values.
Missing: as in `C88_reads_partial`. -/
theorem C88_fetched_partial (D : Database) (T : D.State → Tables) (C : Compare) (O : Order) (b : Builder) (arrange : Tables → Core → List World)
    (hD : Sub.Understands D T C O b.lang arrange) (raw : Field → Bool) (gs : List Given) (a : Ask) (h : Sub.Sound b.lang gs a)
    (s : D.State) (source : Logging.LogSource) (hs : source.Usable) (o : Outside V) (ctx : Ctx) (zero : Fetching.Kind → V)
    (conv : Fetching.Kind → Scalar → Option V) (get : Fetching.Kind → Scalar → V) (kind : Field → Fetching.Kind)
    (hconv : ∀ T', Sub.Answered C O (T s) (used gs a) T' → ∀ w ∈ a.answer C T', ∀ c ∈ a.cols, conv (kind c) (c.value w) = some (get (kind c) (c.value w))) :
    ∃ T', Sub.Answered C O (T s) (used gs a) T' ∧ ∃ all : List World, all.Perm (a.answer C T') ∧ Sorted O (a.order.map Sorting.key) all ∧
      ∀ limit offset, Allowed b.lang limit offset →
        let f := fetch o (D.conn source s Ctx) (Sub.fromQuery b raw gs a limit offset) zero conv (Sub.readsFields b raw gs kind a.cols) ctx []
        f.fin = .ok ∧ f.count = (page limit offset all).length ∧
          f.trace = (page limit offset all).map fun w => a.cols.map fun c => get (kind c) (c.value w) := by
  obtain ⟨ms, m, m1, m2, m3, m4, m5, m6⟩ := query_reads b raw gs a h
  have hA := m5 C O arrange hD.all hD.sorted (T s)
  have hperm := hD.all (Sub.withResults arrange (T s) ms) m
  rw [m3] at hperm
  refine ⟨_, hA, arrange (Sub.withResults arrange (T s) ms) m, hperm, m2 ▸ hD.sorted _ m, fun limit offset hal => ?_⟩
  intro f
  obtain ⟨r1, r2⟩ := m6 limit offset hal
  have hd : queryDialect (Sub.query b raw gs a limit offset) = b.lang.dialect := by rw [sub_query_node]; rfl
  have hw := fetch_given D s source hs o zero conv get b raw gs kind a.cols h.ask.some
    (fun w c hc => value_field b raw gs h.fine w c (h.plain c.tab (List.mem_append_right _ (List.mem_map_of_mem (by simp [fieldsOf, hc])))))
    ctx (Sub.fromQuery b raw gs a limit offset) (Sub.query b raw gs a limit offset) b.lang.dialect
    (by rw [sub_fromQuery_node]; rfl) (by rw [sub_fromQuery_node]; trivial) (by rw [sub_fromQuery_node, sub_query_node]; exact .select ..)
    (by unfold ownSQL at r1; rw [hd] at r1; exact r1) (page limit offset (arrange (Sub.withResults arrange (T s) ms) m))
    (by
      unfold ownSQL at r2
      rw [hd] at r2
      rw [hD.select s _ _ _ _ r2, m1]
      simp only [List.map_map]
      rfl)
    (fun w hw c hc => hconv _ hA w (hperm.mem_iff.1 (mem_page hw)) c hc)
  exact ⟨hw.1, hw.2.1, hw.2.2.1⟩

open Sq.Shared (SameRecords perm_answer page_none)

theorem answered_canonical (C : Compare) (O : Order) (gs : List Given) (hp : ∀ g ∈ gs, g.limit = none ∧ g.offset = none) (T : Tables) :
    ∀ T', Sub.Answered C O T gs T' → SameRecords T' (withAnswers C T gs) := by
  induction gs with
  | nil => rintro T' rfl s n; exact .refl _
  | cons g gs ih =>
    rintro T' ⟨ws, T'', ⟨all, h1, _, h2⟩, h3, rfl⟩ s n
    obtain ⟨p1, p2⟩ := hp g (List.mem_cons_self ..)
    rw [p1, p2, page_none] at h2
    subst h2
    unfold withAnswers add
    split
    · exact h1.map _
    · exact ih (fun g hg => hp g (List.mem_cons_of_mem _ hg)) T'' h3 s n

/-- **C88 (partial), what is fetched.** Where no subquery is paged, what is fetched is, but for its order, the columns asked for of the records that answer the question
about the tables and all the answers to the subqueries' questions.  Missing: as in `C88_reads_partial`. -/
theorem C88_rows_partial (D : Database) (T : D.State → Tables) (C : Compare) (O : Order) (b : Builder) (arrange : Tables → Core → List World)
    (hD : Sub.Understands D T C O b.lang arrange) (raw : Field → Bool) (gs : List Given) (hp : ∀ g ∈ gs, g.limit = none ∧ g.offset = none)
    (a : Ask) (h : Sub.Sound b.lang gs a) (s : D.State) (source : Logging.LogSource) (hs : source.Usable) (o : Outside V) (ctx : Ctx) (zero : Fetching.Kind → V)
    (conv : Fetching.Kind → Scalar → Option V) (get : Fetching.Kind → Scalar → V) (kind : Field → Fetching.Kind)
    (hconv : ∀ w ∈ a.answer C (withAnswers C (T s) (used gs a)), ∀ c ∈ a.cols, conv (kind c) (c.value w) = some (get (kind c) (c.value w))) :
    let f := fetch o (D.conn source s Ctx) (Sub.fromQuery b raw gs a none none) zero conv (Sub.readsFields b raw gs kind a.cols) ctx []
    f.fin = .ok ∧ f.count = (a.answer C (withAnswers C (T s) (used gs a))).length ∧
      f.trace.Perm ((a.answer C (withAnswers C (T s) (used gs a))).map fun w => a.cols.map fun c => get (kind c) (c.value w)) := by
  have hmem : ∀ g ∈ used gs a, g.limit = none ∧ g.offset = none := by
    intro g hg
    obtain ⟨t, _, ht⟩ := List.mem_filterMap.1 hg
    exact hp g (givenFor_mem ht).1
  have hperm : ∀ T', Sub.Answered C O (T s) (used gs a) T' → (a.answer C T').Perm (a.answer C (withAnswers C (T s) (used gs a))) := fun T' hA =>
    perm_answer C (answered_canonical C O (used gs a) hmem (T s) T' hA) a
  obtain ⟨T', hA, all, h1, _, h2⟩ := C88_fetched_partial D T C O b arrange hD raw gs a h s source hs o ctx zero conv get kind
    (fun T' hA w hw c hc => hconv w ((hperm T' hA).mem_iff.1 hw) c hc)
  obtain ⟨f1, f2, f3⟩ := h2 none none (fun e => absurd rfl e)
  have hall := h1.trans (hperm T' hA)
  refine ⟨f1, f2.trans hall.length_eq, ?_⟩
  rw [f3]
  exact hall.map _

/-- **C88 (partial), FetchExists.** It tells whether there is any record on the page asked for, whether the query has fields or not, of tables that are those of the
database and, under its name, an answer to the question of each subquery.  Missing: as in `C88_reads_partial`. -/
theorem C88_exists_partial (D : Database) (T : D.State → Tables) (C : Compare) (O : Order) (b : Builder) (arrange : Tables → Core → List World)
    (hD : Sub.Understands D T C O b.lang arrange) (truth : Bool → Scalar) (hE : Sub.AnswersExists D T C b.lang arrange truth)
    (raw : Field → Bool) (gs : List Given) (a : Ask) (h : Sub.Sound b.lang gs a)
    (s : D.State) (source : Logging.LogSource) (hs : source.Usable) (o : Outside V) (ctx : Ctx)
    (conv : List Scalar → Option Bool) (hconv : ∀ x, conv [truth x] = some x) :
    ∃ T', Sub.Answered C O (T s) (used gs a) T' ∧ ∀ limit offset, Allowed b.lang limit offset →
      (let f := fetchExists o (D.conn source s Ctx) (Sub.fromQuery b raw gs a limit offset) conv ctx
       f.fin = .ok ∧ (f.exist = true ↔ ∃ w, w ∈ page limit offset (a.answer C T'))) ∧
      (let f := fetchExists o (D.conn source s Ctx) (Sub.query b raw gs a limit offset) conv ctx
       f.fin = .ok ∧ (f.exist = true ↔ ∃ w, w ∈ page limit offset (a.answer C T'))) := by
  obtain ⟨hl, husable, ms, m, m1, m2, m3, m4, m5⟩ := query_parts b raw gs a h
  refine ⟨_, m4 C O arrange hD.all hD.sorted (T s), fun limit offset hal => ?_⟩
  have key : ∀ (q : Node) (fields fields' : List Node) (P : List Part) (Y : List Lex) (cs : List Sel.Col), fields' ≠ [] → fields.map obj = fields'.map obj →
      Adds b.lang.dialect (items { d := b.lang.dialect, env := b.env } fields') P → Asking.Piece b.lang P Y → NoWord Y →
      (if Y = [.tok (.word "1".toList)] then some [] else columns? b.lang a.labels Y) = some cs →
      Dial.getDialect o.own q = .ok b.lang.dialect → OwnFirst q → Asked q (subNode b raw gs a fields limit offset) →
      let f := fetchExists o (D.conn source s Ctx) q conv ctx
      f.fin = .ok ∧ (f.exist = true ↔ ∃ w, w ∈ page limit offset (a.answer C (Sub.withResults arrange (T s) ms))) := by
    intro q fields fields' P Y cs hne hfi hA hP hY hcs hd ho hq f
    obtain ⟨xs, Z, ⟨o1, o2, o3⟩, z1, z2⟩ := m5 fields fields' P Y hne hfi hA hP hY limit offset hal
    have hqd : queryDialect (subNode b raw gs a fields limit offset) = b.lang.dialect := rfl
    unfold ownSQL at o1 o2 o3
    rw [hqd] at o1 o2 o3
    have hr := exists_reads z1 _ (z2 _ cs hcs)
    rw [← o2, ← o3] at hr
    have hans := hE s _ _ _ _ hr
    have h := (C75_exists_answer o (D.conn source s Ctx) q _ conv ctx b.lang.dialect hd ho hs hq o1).2 _ _
      (by
        show Except.ok ({ rows := D.query _ _ s } : Fetching.Rows Scalar) = _
        rw [hans]) (hconv _)
    refine ⟨h.1, ?_⟩
    rw [show f.exist = _ from h.2]
    have hrows : ({ m with cols := cs } : Core).rows C (Sub.withResults arrange (T s) ms) = a.answer C (Sub.withResults arrange (T s) ms) := m2 C _
    rw [hrows]
    cases page limit offset (a.answer C (Sub.withResults arrange (T s) ms)) <;> simp
  refine ⟨?_, ?_⟩
  · obtain ⟨p1, p2, p3⟩ := one_parts b.lang b.env
    refine key _ _ _ _ _ [] (by simp) rfl p1 p2 p3 (if_pos rfl) (by rw [sub_fromQuery_node]; rfl) (by rw [sub_fromQuery_node]; trivial) ?_
    rw [sub_fromQuery_node]
    exact .inr ⟨.select .., .select ..⟩
  · obtain ⟨P, Y, c1, c2, c3, c4⟩ := cols_parts b.lang (raws raw gs) a.labels hl a.cols h.ask.some h.ask.cols b.env
    have hY : Y ≠ [.tok (.word "1".toList)] := by
      rintro rfl
      revert c4
      obtain ⟨c, cs, e⟩ := List.exists_cons_of_ne_nil h.ask.some
      rw [e]
      cases b.lang <;> (intro h; revert h; simp [columns?, Sel.pieces, every, col?, column?])
    refine key _ _ _ P Y (a.cols.map Field.col) (by simpa using h.ask.some) (cols_alike b raw gs h.fine a husable) c1 c2 c3 (by rw [if_neg hY]; exact c4)
      (by rw [sub_query_node]; rfl) (by rw [sub_query_node]; trivial) ?_
    rw [sub_query_node]
    obtain ⟨c, cs, e⟩ := List.exists_cons_of_ne_nil h.ask.some
    refine .inl ⟨Sub.fieldNode b raw gs c, cs.map (Sub.fieldNode b raw gs), ?_, rfl⟩
    unfold subNode
    rw [e]
    exact .select ..

/-! ### A database that reads subqueries -/

open Sq.Shared (inOrder)

/-- Tables in memory. -/
def memory (C : Compare) (O : Order) (l : Lang) (truth : Bool → Scalar) : Database :=
  { State := Tables
    exec := fun _ _ s => (s, 0, 0)
    query := fun text args s =>
      match readSub l args text, Sub.readExists l args text with
      | some (gs, m), _ => (page m.limit m.offset (inOrder C O (Sub.withResults (inOrder C O) s gs) m.core)).map fun w : World => m.core.cols.map (World.at w)
      | none, some (gs, m) => [[truth (!(page m.limit m.offset (m.core.rows C (Sub.withResults (inOrder C O) s gs))).isEmpty)]]
      | none, none => []
    rows := fun _ => []
    eq := fun x y => decide (x = y) }

theorem exists_no_stmt (l : Lang) (sel ex : Str) (r : List Lex) (he : upper ex = "EXISTS".toList) :
    stmtOf? (columns? l) l (.tok (.word sel) :: .tok (.word ex) :: .tok (.sym '(') :: r) = none := by
  have c2 : clauseWord (.tok (.word ex)) = none := by show word? (upper ex) = none; rw [he]; decide +kernel
  have c3 : clauseWord (.tok (.sym '(')) = none := rfl
  have key : selected? (columns? l) l (.tok (.word sel) :: .tok (.word ex) :: .tok (.sym '(') :: r) = none := by
    unfold selected?
    cases c1 : clauseWord (.tok (.word sel)) with
    | some w => simp only [sections, c1]
    | none =>
      simp only [sections, c1, c2, c3]
      split
      · rename_i sel' cols x r' e
        simp only [Prod.mk.injEq, List.cons.injEq] at e
        obtain ⟨⟨_, rfl⟩, _⟩ := e
        split
        · have hcol : ∀ labels, columns? l labels (.tok (.word ex) :: .tok (.sym '(') :: (sections r).1) = none := by
            intro labels
            unfold columns?
            have hp : ∃ p ps, Sel.pieces (.tok (.word ex) :: .tok (.sym '(') :: (sections r).1) = (.tok (.word ex) :: .tok (.sym '(') :: p) :: ps := by
              obtain ⟨p, ps, e⟩ := List.exists_cons_of_ne_nil (pieces_ne (sections r).1)
              exact ⟨p, ps, by simp [Sel.pieces, e]⟩
            obtain ⟨p, ps, e⟩ := hp
            rw [e]
            simp [every, col?, column?]
          simp only [hcol, Option.map_none]
          simp
        · rfl
      · rfl
  unfold stmtOf?
  rw [key]

/-- A text is not read both ways. -/
theorem not_both (l : Lang) (args : List Arg) (text : Str) (m : List (Str × Stmt) × Stmt) (h : Sub.readExists l args text = some m) : readSub l args text = none := by
  unfold Sub.readExists at h
  unfold readSub
  rw [← Option.bind_assoc] at h ⊢
  cases hx : (tokens (lexing l) text).bind fun ts => Where.resolve l args 0 ts with
  | none => rfl
  | some xs =>
    rw [hx, Option.bind_some] at h
    rw [Option.bind_some]
    split at h
    · rename_i sel ex r
      split at h
      · rename_i hse
        obtain ⟨hsel, he⟩ := hse
        have c1 : Sub.opens (.tok (.word sel)) = false := by
          show (word? (upper sel) = some .from_ || word? (upper sel) = some .join : Bool) = false
          rw [hsel]; decide +kernel
        have c2 : clauseWord (.tok (.word ex)) = none := by show word? (upper ex) = none; rw [he]; decide +kernel
        have c3 : clauseWord (.tok (.sym '(')) = none := rfl
        have c4 : Sub.opens (.tok (.word ex)) = false := by simp [Sub.opens, c2]
        show Sub.subsOf? _ l _ = none
        unfold Sub.subsOf?
        have hflat : ∀ z, Sub.flat? l (Lex.tok (.word sel) :: .tok (.word ex) :: .tok (.sym '(') :: r).length false (.tok (.word sel) :: .tok (.word ex) :: .tok (.sym '(') :: r) = some z →
            ∃ r', z.2 = .tok (.word sel) :: .tok (.word ex) :: .tok (.sym '(') :: r' := by
          intro z hz
          simp only [List.length_cons] at hz
          rw [flat_step _ _ _ _ _ (by simp), c1, flat_step _ _ _ _ _ (by simp), c4, flat_step _ _ _ _ _ (by simp)] at hz
          simp only [Option.map_map, Option.map_eq_some_iff] at hz
          obtain ⟨y, _, rfl⟩ := hz
          exact ⟨_, rfl⟩
        cases hf : Sub.flat? l (Lex.tok (.word sel) :: .tok (.word ex) :: .tok (.sym '(') :: r).length false (.tok (.word sel) :: .tok (.word ex) :: .tok (.sym '(') :: r) with
        | none => rfl
        | some z =>
          obtain ⟨r', e⟩ := hflat z hf
          rw [Option.bind_some, e]
          have : stmtOf? (columns? l) l (.tok (.word sel) :: .tok (.word ex) :: .tok (.sym '(') :: r') = none := exists_no_stmt l sel ex r' he
          rw [this]
          cases every (fun p : Str × List Lex => (stmt? l p.2).map fun m => (p.1, m)) z.1 <;> rfl
      · cases h
    · cases h

/-- The hypotheses of the theorems are met. -/
theorem memory_understands (C : Compare) (O : Order) (h : Weak O) (l : Lang) (truth : Bool → Scalar) :
    Sub.Understands (memory C O l truth) id C O l (inOrder C O) where
  all := fun s m => arranged_perm _ _
  sorted := fun s m => arranged_sorted h _ _
  select := fun s text args gs m hm => by
    show (match readSub l args text, Sub.readExists l args text with
      | some (gs, m), _ => (page m.limit m.offset (inOrder C O (Sub.withResults (inOrder C O) s gs) m.core)).map fun w : World => m.core.cols.map (World.at w)
      | none, some (gs, m) => [[truth (!(page m.limit m.offset (m.core.rows C (Sub.withResults (inOrder C O) s gs))).isEmpty)]]
      | none, none => []) = _
    rw [hm]
    rfl

theorem memory_answers (C : Compare) (O : Order) (l : Lang) (truth : Bool → Scalar) : Sub.AnswersExists (memory C O l truth) id C l (inOrder C O) truth := by
  intro s text args gs m hm
  show (match readSub l args text, Sub.readExists l args text with
    | some (gs, m), _ => (page m.limit m.offset (inOrder C O (Sub.withResults (inOrder C O) s gs) m.core)).map fun w : World => m.core.cols.map (World.at w)
    | none, some (gs, m) => [[truth (!(page m.limit m.offset (m.core.rows C (Sub.withResults (inOrder C O) s gs))).isEmpty)]]
    | none, none => []) = _
  rw [not_both l args text _ hm, hm]
  rfl

/-! ### An example -/

open Sq.Shared (best best_sound postgres)

def bestTab : Tab := { schema := [], name := "best".toList, alias := [] }
def ordersAsk : Ask := { cols := [orderOf, orderTotal], tab := orders, joins := [], conds := [], order := [] }
/-- All orders, under a name that needs quotes. -/
def allOrders : Given := { name := "All Orders".toList, ask := ordersAsk, limit := none, offset := none }
def everyTab : Tab := { schema := [], name := "All Orders".toList, alias := [] }
/-- The users with one of the two largest orders, and all of their orders. -/
def theirs : Ask :=
  { cols := [userId, ⟨bestTab, "total".toList⟩, ⟨everyTab, "total".toList⟩], tab := bestTab,
    joins := [⟨.inner, users, [.test false (.cmp .eq userId (.col ⟨bestTab, "user_id".toList⟩))]⟩,
      ⟨.left, everyTab, [.test false (.cmp .eq ⟨everyTab, "user_id".toList⟩ (.col userId))]⟩],
    conds := [.test false (.cmp .ge ⟨everyTab, "total".toList⟩ (.val (.int 10)))], order := [⟨⟨everyTab, "total".toList⟩, some true, none⟩] }

example : (ownSQL (Sub.query postgres (fun _ => false) [best, allOrders] theirs (some 5) none)).query =
    ("SELECT u.id, best.total, \"All Orders\".total " ++
     "FROM (SELECT o.user_id, o.total FROM shop.orders AS o WHERE o.total >= $1 ORDER BY o.total DESC LIMIT $2) AS best " ++
     "JOIN users AS u ON u.id = best.user_id " ++
     "LEFT JOIN (SELECT o.user_id, o.total FROM shop.orders AS o) AS \"All Orders\" ON \"All Orders\".user_id = u.id " ++
     "WHERE \"All Orders\".total >= $3 ORDER BY \"All Orders\".total DESC LIMIT $4").toList := by decide +kernel

def truthOf (x : Bool) : Scalar := .int (if x then 1 else 0)
def given (gs : List Given) (a : Ask) (limit offset : Option Nat) : List (List Scalar) :=
  (fetch outside ((memory plainCompare numbers .postgres truthOf).conn .noLogger shop Unit)
    (Sub.fromQuery postgres (fun _ => false) gs a limit offset) (fun _ => Scalar.nil) (fun _ v => some v)
    (Sub.readsFields postgres (fun _ => false) gs (fun _ => .custom 0) a.cols) () []).trace

example : given [best, allOrders] theirs none none = [[.int 1, .int 99, .int 99], [.int 2, .int 80, .int 80]] ∧
    given [best, allOrders] theirs (some 2) (some 1) = [[.int 2, .int 80, .int 80]] := by decide +kernel

theorem readable_all : Readable .postgres "All Orders".toList :=
  ⟨no_pair (by decide +kernel), fun _ => by decide +kernel⟩

theorem ordersAsk_sound : ordersAsk.Sound .postgres where
  some := by simp [ordersAsk]
  cols := by
    intro c hc
    simp only [ordersAsk, List.mem_cons, List.not_mem_nil, or_false] at hc
    rcases hc with rfl | rfl
    · exact ⟨by decide +kernel, by decide +kernel, readable_these.2.2.2.2.1⟩
    · exact ⟨by decide +kernel, by decide +kernel, readable_these.2.2.2.2.2.1⟩
  tab := named_orders
  joins := trivial
  conds := .inl rfl
  order := by simp [ordersAsk]

theorem theirs_sound : theirs.Sound .postgres where
  some := by simp [theirs]
  cols := by
    intro c hc
    simp only [theirs, List.mem_cons, List.not_mem_nil, or_false] at hc
    rcases hc with rfl | rfl | rfl
    · exact ⟨by decide +kernel, by decide +kernel, readable_id.1⟩
    · exact ⟨by decide +kernel, by decide +kernel, readable_these.2.2.2.2.2.1⟩
    · exact ⟨by decide +kernel, by decide +kernel, readable_these.2.2.2.2.2.1⟩
  tab := ⟨readable_these.2.2.2.2.2.2, Sq.Shared.readable_more.1, Sq.Shared.readable_more.1, by decide +kernel⟩
  joins := by
    refine ⟨rfl, named_users, by decide +kernel, ?_, rfl, ⟨readable_these.2.2.2.2.2.2, readable_all, readable_all, by decide +kernel⟩, by decide +kernel, ?_, trivial⟩
    · rw [if_neg (by decide +kernel)]
      refine ⟨by simp [Cond.fine, allFine], ?_⟩
      intro c hc
      simp only [columns, Cond.columns, Test.columns, Rhs.columns, List.append_nil, List.cons_append, List.nil_append, List.mem_cons, List.not_mem_nil, or_false] at hc
      rcases hc with rfl | rfl
      · exact ⟨by decide +kernel, by decide +kernel, readable_id.1⟩
      · exact ⟨by decide +kernel, by decide +kernel, readable_these.2.2.2.2.1⟩
    · rw [if_neg (by decide +kernel)]
      refine ⟨by simp [Cond.fine, allFine], ?_⟩
      intro c hc
      simp only [columns, Cond.columns, Test.columns, Rhs.columns, List.append_nil, List.cons_append, List.nil_append, List.mem_cons, List.not_mem_nil, or_false] at hc
      rcases hc with rfl | rfl
      · exact ⟨by decide +kernel, by decide +kernel, readable_these.2.2.2.2.1⟩
      · exact ⟨by decide +kernel, by decide +kernel, readable_id.1⟩
  conds := by
    refine .inr ⟨by simp [theirs, Cond.fine, allFine], ?_⟩
    intro c hc
    simp only [theirs, columns, Cond.columns, Test.columns, Rhs.columns, List.append_nil, List.mem_cons, List.not_mem_nil, or_false] at hc
    subst hc
    exact ⟨by decide +kernel, by decide +kernel, readable_these.2.2.2.2.2.1⟩
  order := by
    intro k hk
    refine ⟨?_, fun h => nomatch h⟩
    simp only [theirs, List.mem_cons, List.not_mem_nil, or_false] at hk
    subst hk
    exact ⟨by decide +kernel, by decide +kernel, readable_these.2.2.2.2.2.1⟩

/-- The hypotheses of the theorems are met: two subqueries, one with a name that needs quotes. -/
theorem example_sound : Sub.Sound .postgres [best, allOrders] theirs where
  fine := by
    intro g hg
    simp only [List.mem_cons, List.not_mem_nil, or_false] at hg
    rcases hg with rfl | rfl
    · exact ⟨by decide +kernel, Sq.Shared.readable_more.1, best_sound, by decide +kernel, by decide +kernel, fun h => absurd rfl h⟩
    · exact ⟨by decide +kernel, readable_all, ordersAsk_sound, by decide +kernel, by decide +kernel, fun h => absurd rfl h⟩
  names := by decide +kernel
  ask := theirs_sound
  columns := by decide +kernel
  plain := by decide +kernel

/-- Is there a record? -/
def existing (gs : List Given) (a : Ask) : Bool :=
  (fetchExists outside ((memory plainCompare numbers .postgres truthOf).conn .noLogger shop Unit)
    (Sub.fromQuery postgres (fun _ => false) gs a none none) (fun vs => some (decide (vs = [truthOf true]))) ()).exist
example : existing [best, allOrders] theirs = true ∧
    existing [best, allOrders] { theirs with conds := [.test false (.cmp .ge ⟨everyTab, "total".toList⟩ (.val (.int 100)))] } = false := by decide +kernel

/-- **C88 (violated).** A negated group alone in WHERE: `Where(Not(Or(a, b)))` is sent as `WHERE NOT a OR b`, so a record of the subquery is fetched that is not asked for. -/
theorem C88_negated_violated :
    let all : Tab := everyTab
    let a : Ask :=
      { cols := [⟨all, "total".toList⟩], tab := all, joins := [],
        conds := [.group true true [.test false (.cmp .lt ⟨all, "total".toList⟩ (.val (.int 10))), .test false (.cmp .ge ⟨all, "total".toList⟩ (.val (.int 90)))]], order := [] }
    Sub.Understands (memory plainCompare numbers .postgres truthOf) id plainCompare numbers .postgres (inOrder plainCompare numbers) ∧
    [Scalar.int 99] ∉ (a.answer plainCompare (withAnswers plainCompare shop [allOrders])).map (fun w => a.cols.map (Field.value w)) ∧
    [Scalar.int 99] ∈ given [allOrders] a none none :=
  ⟨memory_understands _ _ numbers_weak _ _, by decide +kernel, by decide +kernel⟩

end RoundTrip
end Sq.Nested
