import Verif.Proof.Cte
import Verif.Props.Select
/-
C86: a question asked of CTEs is the question asked of the records that answer the CTEs' questions.
-/
namespace Sq.Shared
open Sq Sq.Spec Sq.Chain Sq.Exprs Sq.Spec.Store Sq.Spec.Where Sq.Spec.Sel Sq.Choosing Sq.Asking Sq.Deriving
open Sq.Spec.Cte hiding query fromQuery Sound Understands readsFields
open Sq.Storing hiding pieces
open _root_.Spec (Tok tokens isBareIdent)

/-- **C86 (partial), the statement.** `Select(columns...).With(ctes...).From(...).Join(...)....Where(...).OrderBy(...).Limit(n).Offset(k)`, where tables and
fields may be those of the CTEs, and each CTE may be about those before it, is sent as a statement that is read as: these names, in this order, for statements
whose results — whatever order rows come in — answer the CTEs' questions; and then a statement that reads these columns, has these sort keys, this LIMIT and
this OFFSET, and whose rows are, in every database, the records asked for.  Missing: as in `C81_reads_partial`, and names of CTEs that need quotes. -/
theorem C86_reads_partial (b : Builder) (raw : Field → Bool) (gs : List Given) (hne : gs ≠ []) (hg : Cte.Sound b.lang [] gs) (a : Ask) (h : a.Sound b.lang)
    (hh : ∀ c ∈ fieldsOf a, HasColumn gs c) :
    ∃ (ms : List (Str × Stmt)) (m : Core), m.cols = a.cols.map Field.col ∧ m.order = a.order.map Sorting.key ∧ (∀ C T, m.rows C T = a.answer C T) ∧
      ms.map Prod.fst = gs.map Given.name ∧
      (∀ C O arrange, (∀ T m, (arrange T m).Perm (m.rows C T)) → (∀ T m, Sorted O m.order (arrange T m)) → ∀ T, Answered C O T gs (withResults arrange T ms)) ∧
      ∀ limit offset, Allowed b.lang limit offset →
        (ownSQL (Cte.query b raw gs a limit offset)).status = .ok ∧
        readWith b.lang (ownSQL (Cte.query b raw gs a limit offset)).args (ownSQL (Cte.query b raw gs a limit offset)).query = some (ms, ⟨m, limit, offset⟩) :=
  query_reads b raw gs hne hg a h hh

section RoundTrip
open Sq.Sending Sq.Fetching.Spec Sq.Spec.Send

variable {Ctx V : Type}

/-- The value of a field, in a record. -/
def valueOf (w : World) : Node → Scalar
  | .field fi _ _ _ => w (if fi.tableAlias = [] then fi.tableName else fi.tableAlias) fi.name
  | .checkedField _ _ fi => w (if fi.tableAlias = [] then fi.tableName else fi.tableAlias) fi.name
  | _ => .nil

theorem value_field (raw : Field → Bool) (cs : List CTE) (hf : ∀ k ∈ cs, Fit k) (w : World) (c : Field) : valueOf w (fieldNode raw cs c) = c.value w := by
  unfold fieldNode
  cases e : cteFor cs c.tab with
  | none => rfl
  | some k =>
    obtain ⟨h1, h2, h3⟩ := cteFor_mem e
    simp only [(hf k h1).as]
    show w (if c.tab.alias = [] then k.info.name else c.tab.alias) c.name = _
    rw [h3]
    rfl

/-- As `fetch_worlds` (Props/Select). -/
theorem fetch_given (D : Database) (s : D.State) (source : Logging.LogSource) (hs : source.Usable) (o : Outside V) (zero : Fetching.Kind → V)
    (conv : Fetching.Kind → Scalar → Option V) (get : Fetching.Kind → Scalar → V) (raw : Field → Bool) (cs : List CTE) (hf : ∀ k ∈ cs, Fit k) (kind : Field → Fetching.Kind)
    (cols : List Field) (hc : cols ≠ []) (ctx : Ctx) (q q' : Node) (d : Dialect) (hd : Dial.getDialect o.own q = .ok d) (ho : Own q)
    (hq' : WithFields q (cols.map (fieldNode raw cs)) q') (hok : (toSQL d q').status = .ok) (ws : List World)
    (hans : D.query (toSQL d q').query (toSQL d q').args s = ws.map fun w => cols.map (Field.value w))
    (hconv : ∀ w ∈ ws, ∀ c ∈ cols, conv (kind c) (c.value w) = some (get (kind c) (c.value w))) :
    let f := fetch o (D.conn source s Ctx) q zero conv (Cte.readsFields raw cs kind cols) ctx []
    f.fin = .ok ∧ f.count = ws.length ∧ f.trace = ws.map (fun w => cols.map fun c => get (kind c) (c.value w)) ∧ f.closed = true := by
  intro f
  let D' : List (Fetching.Kind × Node) := cols.map fun c => (kind c, fieldNode raw cs c)
  have hsnd : D'.map Prod.snd = cols.map (fieldNode raw cs) := by simp [D', List.map_map, Function.comp_def]
  let tab : List ((Node → Scalar) × Option (Fetching.Kind → Node → V)) := ws.map fun w => (valueOf w, some fun k n => get k (valueOf w n))
  have hname : ∀ (w : World) (c : Field), valueOf w (fieldNode raw cs c) = c.value w := value_field raw cs hf
  have h := C75_fetch_values o (D.conn source s Ctx) q q' zero conv (Cte.readsFields raw cs kind cols) ctx [] [] false d hd ho hs D'
    (reader_calls _ _ _ _).symm (by simpa [D'] using hc) (reader_register zero _ [] []) (by rw [hsnd]; exact hq') hok none none tab
    (by
      show Except.ok ({ rows := D.query (toSQL d q').query (toSQL d q').args s } : Fetching.Rows Scalar) = _
      rw [hans, hsnd]
      simp only [tab, List.map_map, Function.comp_def, hname])
    (by
      intro row hrow
      obtain ⟨w, hw, rfl⟩ := List.mem_map.1 hrow
      intro kf hkf
      obtain ⟨c, hc', rfl⟩ := List.mem_map.1 hkf
      simp only [hname]
      exact hconv w hw c hc')
    (by
      intro row hrow val _ tr
      rw [show calls val true (Cte.readsFields raw cs kind cols tr) = D' from reader_calls _ _ _ _]
      exact List.prefix_refl _)
  have hv := reader_visit D' (ws.map fun w k n => get k (valueOf w n)) ([] : List (List V)) 0
  have htab : tab.map Prod.snd = (ws.map fun w k n => get k (valueOf w n)).map some := by
    simp only [tab, List.map_map, Function.comp_def]
  rw [htab, show (Cte.readsFields (V := V) raw cs kind cols) = fun _ => reader D' [] from rfl, hv] at h
  obtain ⟨h1, h2, h3, h4⟩ := h
  refine ⟨h2, h1.trans (by simp), ?_, h4⟩
  rw [show f.trace = _ from h3]
  simp only [List.nil_append, List.map_map, Function.comp_def, D', hname]

/-- **C86 (partial).** On a database that reads WITH as SQL does, there are tables `T'` — those of the database and, under its name, an answer to the question of
each CTE, about the tables and the answers before it — and one arrangement of the records of `T'` asked for, in the order asked for, such that fetching with a
row mapper gives, for every LIMIT and OFFSET, that page of it.  For every contents of the tables, number of CTEs, number and kinds of joins, nesting of And, Or
and Not, and values.  Missing: as in `C86_reads_partial`. -/
theorem C86_fetched_partial (D : Database) (T : D.State → Tables) (C : Compare) (O : Order) (b : Builder) (arrange : Tables → Core → List World)
    (hD : Cte.Understands D T C O b.lang arrange) (raw : Field → Bool) (gs : List Given) (hne : gs ≠ []) (hg : Cte.Sound b.lang [] gs) (a : Ask) (h : a.Sound b.lang)
    (hh : ∀ c ∈ fieldsOf a, HasColumn gs c)
    (s : D.State) (source : Logging.LogSource) (hs : source.Usable) (o : Outside V) (ctx : Ctx) (zero : Fetching.Kind → V)
    (conv : Fetching.Kind → Scalar → Option V) (get : Fetching.Kind → Scalar → V) (kind : Field → Fetching.Kind)
    (hconv : ∀ T', Answered C O (T s) gs T' → ∀ w ∈ a.answer C T', ∀ c ∈ a.cols, conv (kind c) (c.value w) = some (get (kind c) (c.value w))) :
    ∃ T', Answered C O (T s) gs T' ∧ ∃ all : List World, all.Perm (a.answer C T') ∧ Sorted O (a.order.map Sorting.key) all ∧
      ∀ limit offset, Allowed b.lang limit offset →
        let f := fetch o (D.conn source s Ctx) (Cte.fromQuery b raw gs a limit offset) zero conv (Cte.readsFields raw (made b raw [] gs) kind a.cols) ctx []
        f.fin = .ok ∧ f.count = (page limit offset all).length ∧
          f.trace = (page limit offset all).map fun w => a.cols.map fun c => get (kind c) (c.value w) := by
  obtain ⟨ms, m, m1, m2, m3, m4, m5, m6⟩ := query_reads b raw gs hne hg a h hh
  have hA := m5 C O arrange hD.all hD.sorted (T s)
  have hperm := hD.all (withResults arrange (T s) ms) m
  rw [m3] at hperm
  refine ⟨_, hA, arrange (withResults arrange (T s) ms) m, hperm, m2 ▸ hD.sorted _ m, fun limit offset hal => ?_⟩
  intro f
  obtain ⟨r1, r2⟩ := m6 limit offset hal
  have hd : queryDialect (Cte.query b raw gs a limit offset) = b.lang.dialect := by rw [query_node]; rfl
  obtain ⟨_, _, _, n2, _⟩ := made_defined b raw gs [] [] (fun _ hk => (List.not_mem_nil hk).elim) hg
  have hw := fetch_given D s source hs o zero conv get raw (made b raw [] gs) (fun k hk => (n2 k hk).1) kind a.cols h.some ctx (Cte.fromQuery b raw gs a limit offset)
    (Cte.query b raw gs a limit offset) b.lang.dialect
    (by rw [fromQuery_node]; rfl) (by rw [fromQuery_node]; trivial) (by rw [fromQuery_node, query_node]; exact .select ..)
    (by unfold ownSQL at r1; rw [hd] at r1; exact r1) (page limit offset (arrange (withResults arrange (T s) ms) m))
    (by
      unfold ownSQL at r2
      rw [hd] at r2
      rw [hD.select s _ _ _ _ r2, m1]
      simp only [List.map_map]
      rfl)
    (fun w hw c hc => hconv _ hA w (hperm.mem_iff.1 (mem_page hw)) c hc)
  exact ⟨hw.1, hw.2.1, hw.2.2.1⟩

/-- **C86 (partial), what is fetched.** Where no CTE is paged, what is fetched is, but for its order, the columns asked for of the records that answer the question
about the tables and all the answers to the CTEs' questions.  Missing: as in `C86_reads_partial`. -/
theorem C86_rows_partial (D : Database) (T : D.State → Tables) (C : Compare) (O : Order) (b : Builder) (arrange : Tables → Core → List World)
    (hD : Cte.Understands D T C O b.lang arrange) (raw : Field → Bool) (gs : List Given) (hne : gs ≠ []) (hg : Cte.Sound b.lang [] gs)
    (hp : ∀ g ∈ gs, g.limit = none ∧ g.offset = none) (a : Ask) (h : a.Sound b.lang) (hh : ∀ c ∈ fieldsOf a, HasColumn gs c)
    (s : D.State) (source : Logging.LogSource) (hs : source.Usable) (o : Outside V) (ctx : Ctx) (zero : Fetching.Kind → V)
    (conv : Fetching.Kind → Scalar → Option V) (get : Fetching.Kind → Scalar → V) (kind : Field → Fetching.Kind)
    (hconv : ∀ w ∈ a.answer C (withAnswers C (T s) gs), ∀ c ∈ a.cols, conv (kind c) (c.value w) = some (get (kind c) (c.value w))) :
    let f := fetch o (D.conn source s Ctx) (Cte.fromQuery b raw gs a none none) zero conv (Cte.readsFields raw (made b raw [] gs) kind a.cols) ctx []
    f.fin = .ok ∧ f.count = (a.answer C (withAnswers C (T s) gs)).length ∧
      f.trace.Perm ((a.answer C (withAnswers C (T s) gs)).map fun w => a.cols.map fun c => get (kind c) (c.value w)) := by
  have hperm : ∀ T', Answered C O (T s) gs T' → (a.answer C T').Perm (a.answer C (withAnswers C (T s) gs)) := fun T' hA =>
    perm_answer C (answered_canonical C O gs hp (T s) (T s) T' (fun _ _ => .refl _) hA) a
  obtain ⟨T', hA, all, h1, _, h2⟩ := C86_fetched_partial D T C O b arrange hD raw gs hne hg a h hh s source hs o ctx zero conv get kind
    (fun T' hA w hw c hc => hconv w ((hperm T' hA).mem_iff.1 hw) c hc)
  obtain ⟨f1, f2, f3⟩ := h2 none none (fun e => absurd rfl e)
  have hall := h1.trans (hperm T' hA)
  refine ⟨f1, f2.trans hall.length_eq, ?_⟩
  rw [f3]
  exact hall.map _

/-- **C86 (partial), FetchExists.** It tells whether there is any record on the page asked for, whether the query has fields or not, of tables that are those of the
database and, under its name, an answer to the question of each CTE.  Missing: as in `C86_reads_partial`. -/
theorem C86_exists_partial (D : Database) (T : D.State → Tables) (C : Compare) (O : Order) (b : Builder) (arrange : Tables → Core → List World)
    (hD : Cte.Understands D T C O b.lang arrange) (truth : Bool → Scalar) (hE : Cte.AnswersExists D T C b.lang arrange truth)
    (raw : Field → Bool) (gs : List Given) (hne : gs ≠ []) (hg : Cte.Sound b.lang [] gs) (a : Ask) (h : a.Body b.lang) (hh : ∀ c ∈ fieldsOf a, HasColumn gs c)
    (s : D.State) (source : Logging.LogSource) (hs : source.Usable) (o : Outside V) (ctx : Ctx)
    (conv : List Scalar → Option Bool) (hconv : ∀ x, conv [truth x] = some x) :
    ∃ T', Answered C O (T s) gs T' ∧ ∀ limit offset, Allowed b.lang limit offset →
      (let f := fetchExists o (D.conn source s Ctx) (Cte.fromQuery b raw gs a limit offset) conv ctx
       f.fin = .ok ∧ (f.exist = true ↔ ∃ w, w ∈ page limit offset (a.answer C T'))) ∧
      (a.Sound b.lang →
        let f := fetchExists o (D.conn source s Ctx) (Cte.query b raw gs a limit offset) conv ctx
        f.fin = .ok ∧ (f.exist = true ↔ ∃ w, w ∈ page limit offset (a.answer C T'))) := by
  obtain ⟨hl, halike, ms, m, m1, m2, m3, m4, m5⟩ := query_parts b raw gs hne hg a h hh
  refine ⟨_, m4 C O arrange hD.all hD.sorted (T s), fun limit offset hal => ?_⟩
  have key : ∀ (q : Node) (fields fields' : List Node) (P : List Part) (Y : List Lex) (cs : List Sel.Col), fields' ≠ [] → fields.map obj = fields'.map obj →
      Adds b.lang.dialect (items { d := b.lang.dialect, env := b.env } fields') P → Asking.Piece b.lang P Y → NoWord Y →
      (if Y = [.tok (.word "1".toList)] then some [] else columns? b.lang a.labels Y) = some cs →
      Dial.getDialect o.own q = .ok b.lang.dialect → OwnFirst q →
      Asked q (cteNode b raw (made b raw [] gs) ((made b raw [] gs).map CTE.node) a fields limit offset) →
      let f := fetchExists o (D.conn source s Ctx) q conv ctx
      f.fin = .ok ∧ (f.exist = true ↔ ∃ w, w ∈ page limit offset (a.answer C (withResults arrange (T s) ms))) := by
    intro q fields fields' P Y cs hne hfi hA hP hY hcs hd ho hq f
    obtain ⟨xs, Z, ⟨o1, o2, o3⟩, z1, z2⟩ := m5 fields fields' P Y hne hfi hA hP hY limit offset hal
    have hqd : queryDialect (cteNode b raw (made b raw [] gs) ((made b raw [] gs).map CTE.node) a fields limit offset) = b.lang.dialect := rfl
    unfold ownSQL at o1 o2 o3
    rw [hqd] at o1 o2 o3
    have hr := exists_reads z1 _ (z2 _ cs hcs)
    rw [← o2, ← o3] at hr
    have hans := hE s _ _ _ _ hr
    have h := (C75_exists_answer o (D.conn source s Ctx) q _ conv ctx b.lang.dialect hd ho hs hq o1).2 _ _
      (by
        show Except.ok ({ rows := D.query _ _ s } : Fetching.Rows Scalar) = _
        rw [hans]) (hconv _)
    refine ⟨h.1, ?_⟩
    rw [show f.exist = _ from h.2]
    have hrows : ({ m with cols := cs } : Core).rows C (withResults arrange (T s) ms) = a.answer C (withResults arrange (T s) ms) := m2 C _
    rw [hrows]
    cases page limit offset (a.answer C (withResults arrange (T s) ms)) <;> simp
  refine ⟨?_, fun hS => ?_⟩
  · obtain ⟨p1, p2, p3⟩ := one_parts b.lang b.env
    refine key _ _ _ _ _ [] (by simp) rfl p1 p2 p3 (if_pos rfl) (by rw [fromQuery_node]; rfl) (by rw [fromQuery_node]; trivial) ?_
    rw [fromQuery_node]
    exact .inr ⟨.select .., .select ..⟩
  · obtain ⟨P, Y, c1, c2, c3, c4⟩ := cols_parts b.lang (raws raw (made b raw [] gs)) a.labels hl a.cols hS.some hS.cols b.env
    have hY : Y ≠ [.tok (.word "1".toList)] := by
      rintro rfl
      revert c4
      obtain ⟨c, cs, e⟩ := List.exists_cons_of_ne_nil hS.some
      rw [e]
      cases b.lang <;> (intro h; revert h; simp [columns?, Sel.pieces, every, col?, column?])
    refine key _ _ _ P Y (a.cols.map Field.col) (by simpa using hS.some) halike c1 c2 c3 (by rw [if_neg hY]; exact c4)
      (by rw [query_node]; rfl) (by rw [query_node]; trivial) ?_
    rw [query_node]
    obtain ⟨c, cs, e⟩ := List.exists_cons_of_ne_nil hS.some
    refine .inl ⟨fieldNode raw (made b raw [] gs) c, cs.map (fieldNode raw (made b raw [] gs)), ?_, rfl⟩
    unfold cteNode
    rw [e]
    exact .select ..

/-! ### A database that reads WITH -/

/-- The records in the order asked for. -/
def inOrder (C : Compare) (O : Order) (T : Tables) (m : Core) : List World := arranged (earlier O m.order) (m.rows C T)

/-- Tables in memory. -/
def memory (C : Compare) (O : Order) (l : Lang) (truth : Bool → Scalar) : Database :=
  { State := Tables
    exec := fun _ _ s => (s, 0, 0)
    query := fun text args s =>
      match readWith l args text, Cte.readExists l args text with
      | some (gs, m), _ => (page m.limit m.offset (inOrder C O (withResults (inOrder C O) s gs) m.core)).map fun w : World => m.core.cols.map (World.at w)
      | none, some (gs, m) => [[truth (!(page m.limit m.offset (m.core.rows C (withResults (inOrder C O) s gs))).isEmpty)]]
      | none, none => []
    rows := fun _ => []
    eq := fun x y => decide (x = y) }

/-- A text is not read both ways. -/
theorem not_both (l : Lang) (args : List Arg) (text : Str) (m : List (Str × Stmt) × Stmt) (h : Cte.readExists l args text = some m) : readWith l args text = none := by
  unfold Cte.readExists at h
  unfold readWith
  rw [← Option.bind_assoc] at h ⊢
  cases hx : (tokens (lexing l) text).bind fun ts => Where.resolve l args 0 ts with
  | none => rfl
  | some xs =>
    rw [hx, Option.bind_some] at h
    rw [Option.bind_some]
    split at h
    · rename_i sel ex r
      split at h
      · rename_i hse
        simp only [with?, withOf?]
        rw [if_neg (by rw [hse.1]; decide +kernel)]
      · cases h
    · cases h

/-- The hypotheses of the theorems are met. -/
theorem memory_understands (C : Compare) (O : Order) (h : Weak O) (l : Lang) (truth : Bool → Scalar) :
    Cte.Understands (memory C O l truth) id C O l (inOrder C O) where
  all := fun s m => arranged_perm _ _
  sorted := fun s m => arranged_sorted h _ _
  select := fun s text args gs m hm => by
    show (match readWith l args text, Cte.readExists l args text with
      | some (gs, m), _ => (page m.limit m.offset (inOrder C O (withResults (inOrder C O) s gs) m.core)).map fun w : World => m.core.cols.map (World.at w)
      | none, some (gs, m) => [[truth (!(page m.limit m.offset (m.core.rows C (withResults (inOrder C O) s gs))).isEmpty)]]
      | none, none => []) = _
    rw [hm]
    rfl

theorem memory_answers (C : Compare) (O : Order) (l : Lang) (truth : Bool → Scalar) : Cte.AnswersExists (memory C O l truth) id C l (inOrder C O) truth := by
  intro s text args gs m hm
  show (match readWith l args text, Cte.readExists l args text with
      | some (gs, m), _ => (page m.limit m.offset (inOrder C O (withResults (inOrder C O) s gs) m.core)).map fun w : World => m.core.cols.map (World.at w)
      | none, some (gs, m) => [[truth (!(page m.limit m.offset (m.core.rows C (withResults (inOrder C O) s gs))).isEmpty)]]
      | none, none => []) = _
  rw [not_both l args text _ hm, hm]
  rfl

/-! ### An example -/

/-- The two largest orders. -/
def best : Given :=
  { name := "best".toList,
    ask := { cols := [orderOf, orderTotal], tab := orders, joins := [], conds := [.test false (.cmp .ge orderTotal (.val (.int 60)))],
             order := [⟨orderTotal, some true, none⟩] },
    limit := some 2, offset := none }
def bestTab : Tab := { schema := [], name := "best".toList, alias := "b".toList }
/-- Who ordered them. -/
def who : Given :=
  { name := "who".toList,
    ask := { cols := [userId, ⟨bestTab, "total".toList⟩], tab := users, joins := [⟨.left, bestTab, [.test false (.cmp .eq ⟨bestTab, "user_id".toList⟩ (.col userId))]⟩],
             conds := [], order := [] },
    limit := none, offset := none }
def whoTab : Tab := { schema := [], name := "who".toList, alias := [] }
/-- Those that ordered none of them. -/
def rest : Ask :=
  { cols := [⟨whoTab, "id".toList⟩], tab := whoTab, joins := [], conds := [.test false (.null ⟨whoTab, "total".toList⟩)],
    order := [⟨⟨whoTab, "id".toList⟩, some true, none⟩] }

def postgres : Builder := { lang := .postgres, env := none }

example : (ownSQL (Cte.query postgres (fun _ => false) [best, who] rest (some 1) none)).query =
    ("WITH best AS (SELECT o.user_id, o.total FROM shop.orders AS o WHERE o.total >= $1 ORDER BY o.total DESC LIMIT $2), " ++
     "who AS (SELECT u.id, b.total FROM users AS u LEFT JOIN best AS b ON b.user_id = u.id) " ++
     "SELECT who.id FROM who WHERE who.total IS NULL ORDER BY who.id DESC LIMIT $3").toList := by decide +kernel

def truthOf (x : Bool) : Scalar := .int (if x then 1 else 0)
def given (gs : List Given) (a : Ask) (limit offset : Option Nat) : List (List Scalar) :=
  (fetch outside ((memory plainCompare numbers .postgres truthOf).conn .noLogger shop Unit)
    (Cte.fromQuery postgres (fun _ => false) gs a limit offset) (fun _ => Scalar.nil) (fun _ v => some v)
    (Cte.readsFields (fun _ => false) (made postgres (fun _ => false) [] gs) (fun _ => .custom 0) a.cols) () []).trace

example : given [best, who] rest none none = [[.int 4], [.int 3]] ∧ given [best, who] rest (some 1) (some 1) = [[.int 3]] := by decide +kernel

theorem readable_more : Readable .postgres "best".toList ∧ Readable .postgres "who".toList ∧ Readable .postgres "b".toList := by
  refine ⟨⟨?_, fun _ => by decide +kernel⟩, ⟨?_, fun _ => by decide +kernel⟩, ⟨?_, fun _ => by decide +kernel⟩⟩ <;> exact no_pair (by decide +kernel)

theorem best_sound : best.ask.Sound .postgres where
  some := by simp [best]
  cols := by
    intro c hc
    simp only [best, List.mem_cons, List.not_mem_nil, or_false] at hc
    rcases hc with rfl | rfl
    · exact ⟨by decide +kernel, by decide +kernel, readable_these.2.2.2.2.1⟩
    · exact ⟨by decide +kernel, by decide +kernel, readable_these.2.2.2.2.2.1⟩
  tab := named_orders
  joins := trivial
  conds := by
    refine .inr ⟨by simp [best, Cond.fine, allFine], ?_⟩
    intro c hc
    simp only [best, columns, Cond.columns, Test.columns, Rhs.columns, List.append_nil, List.mem_cons, List.not_mem_nil, or_false] at hc
    subst hc
    exact ⟨by decide +kernel, by decide +kernel, readable_these.2.2.2.2.2.1⟩
  order := by
    intro k hk
    refine ⟨?_, fun h => nomatch h⟩
    simp only [best, List.mem_cons, List.not_mem_nil, or_false] at hk
    subst hk
    exact ⟨by decide +kernel, by decide +kernel, readable_these.2.2.2.2.2.1⟩

theorem who_sound : who.ask.Sound .postgres where
  some := by simp [who]
  cols := by
    intro c hc
    simp only [who, List.mem_cons, List.not_mem_nil, or_false] at hc
    rcases hc with rfl | rfl
    · exact ⟨by decide +kernel, by decide +kernel, readable_id.1⟩
    · exact ⟨by decide +kernel, by decide +kernel, readable_these.2.2.2.2.2.1⟩
  tab := named_users
  joins := by
    refine ⟨rfl, ⟨readable_these.2.2.2.2.2.2, readable_more.1, readable_more.2.2, by decide +kernel⟩, by decide +kernel, ?_, trivial⟩
    rw [if_neg (by decide +kernel)]
    refine ⟨by simp [Cond.fine, allFine], ?_⟩
    intro c hc
    simp only [columns, Cond.columns, Test.columns, Rhs.columns, List.append_nil, List.cons_append, List.nil_append, List.mem_cons, List.not_mem_nil, or_false] at hc
    rcases hc with rfl | rfl
    · exact ⟨by decide +kernel, by decide +kernel, readable_these.2.2.2.2.1⟩
    · exact ⟨by decide +kernel, by decide +kernel, readable_id.1⟩
  conds := .inl rfl
  order := by simp [who]

theorem rest_sound : rest.Sound .postgres where
  some := by simp [rest]
  cols := by
    intro c hc
    simp only [rest, List.mem_cons, List.not_mem_nil, or_false] at hc
    subst hc
    exact ⟨by decide +kernel, by decide +kernel, readable_id.1⟩
  tab := ⟨readable_these.2.2.2.2.2.2, readable_more.2.1, readable_more.2.1, by decide +kernel⟩
  joins := trivial
  conds := by
    refine .inr ⟨by simp [rest, Cond.fine, allFine], ?_⟩
    intro c hc
    simp only [rest, columns, Cond.columns, Test.columns, List.append_nil, List.mem_cons, List.not_mem_nil, or_false] at hc
    subst hc
    exact ⟨by decide +kernel, by decide +kernel, readable_these.2.2.2.2.2.1⟩
  order := by
    intro k hk
    refine ⟨?_, fun h => nomatch h⟩
    simp only [rest, List.mem_cons, List.not_mem_nil, or_false] at hk
    subst hk
    exact ⟨by decide +kernel, by decide +kernel, readable_id.1⟩

instance (gs : List Given) (c : Field) : Decidable (HasColumn gs c) := by unfold HasColumn; infer_instance

/-- The hypotheses of the theorems are met by the example. -/
theorem example_sound : Cte.Sound .postgres [] [best, who] ∧ rest.Sound .postgres ∧ ∀ c ∈ fieldsOf rest, HasColumn [best, who] c := by
  refine ⟨⟨by decide +kernel, readable_more.1, by simp, best_sound, by decide +kernel, by decide +kernel, by decide +kernel, fun h => absurd rfl h,
    by decide +kernel, readable_more.2.1, by decide +kernel, who_sound, by decide +kernel, by decide +kernel, by decide +kernel, fun h => absurd rfl h, trivial⟩, rest_sound, by decide +kernel⟩

/-- Is there a record? -/
def existing (gs : List Given) (a : Ask) : Bool :=
  (fetchExists outside ((memory plainCompare numbers .postgres truthOf).conn .noLogger shop Unit)
    (Cte.fromQuery postgres (fun _ => false) gs a none none) (fun vs => some (decide (vs = [truthOf true]))) ()).exist
example : existing [best, who] rest = true ∧ existing [best, who] { rest with conds := [.test false (.cmp .gt ⟨whoTab, "total".toList⟩ (.val (.int 99)))] } = false := by decide +kernel

/-- **C86 (violated).** A CTE named `Old`: `With` and `From` write the name as it is, fields quote it.  What is sent is no statement about that CTE: outside of
quotes the name is read as `old`. -/
theorem C86_quoted_violated :
    let old : Given := { best with name := "Old".toList }
    let tab : Tab := { schema := [], name := "Old".toList, alias := [] }
    let a : Ask := { cols := [⟨tab, "total".toList⟩], tab := tab, joins := [], conds := [], order := [] }
    let r := ownSQL (Cte.query postgres (fun _ => false) [old] a none none)
    r.status = .ok ∧ r.query = "WITH Old AS (SELECT o.user_id, o.total FROM shop.orders AS o WHERE o.total >= $1 ORDER BY o.total DESC LIMIT $2) SELECT \"Old\".total FROM Old".toList ∧
    readWith .postgres r.args r.query = none := by decide +kernel

end RoundTrip
end Sq.Shared
