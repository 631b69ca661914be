import Verif.Proof.Group
import Verif.Props.Select
/-
C89: GROUP BY and the aggregate functions fetch one row of each group.
-/
namespace Sq.Grouped
open Sq Sq.Spec Sq.Chain Sq.Exprs Sq.Spec.Store Sq.Spec.Where Sq.Spec.Sel Sq.Spec.Group Sq.Choosing Sq.Asking
open Sq.Storing hiding pieces
open Sq.Spec.Group (query fromQuery Sound Understands)
open _root_.Spec (Tok tokens BTok BExp readBool)

/-- **C89 (partial), the statement.** `Select(items...).From(...).GroupBy(fields...)`, whose items are fields or `Count`, `Sum`, `Avg`, `Min`, `Max` of fields or
`CountAll`, with joins, conditions, `Having(conditions...)` on and `OrderBy` of fields and aggregates, and paging, is sent as a statement that selects these items, groups by these
columns, keeps the groups of these conditions, has these sort keys, this LIMIT and this OFFSET, and whose rows (before they are put into groups) are in every database the
records asked for.  Missing: as in `C81_reads_partial`; conditions in HAVING other than comparisons with values. -/
theorem C89_reads_partial (b : Builder) (raw : Field → Bool) (a : Ask) (G : Grouping) (h : Sound b.lang a G) :
    ∃ m : Core, (∀ C T, m.rows C T = a.answer C T) ∧
      ∀ limit offset, Allowed b.lang limit offset →
        (ownSQL (query b raw a G limit offset)).status = .ok ∧
        readGroups b.lang (ownSQL (query b raw a G limit offset)).args (ownSQL (query b raw a G limit offset)).query =
          some ⟨G.items.map itemCol, G.keys.map Field.col, G.having.map boundCol, G.order.map (fun k => rankCol k.key), m, limit, offset⟩ :=
  group_reads b raw a G h

section RoundTrip
open Sq.Sending Sq.Fetching.Spec Sq.Spec.Send

variable {Ctx V : Type}

theorem agree_cols (same : Scalar → Scalar → Bool) (fs : List Field) : agreeCols same (fs.map Field.col) = agree same fs := by
  funext w v
  unfold agreeCols agree
  rw [List.all_map]
  rfl

theorem item_value (A : Aggregates) (i : Item Field) (g : List World) :
    (itemCol i).value A World.at g = i.value A Field.value g := by
  cases i <;> rfl

theorem kept_value (C : Compare) (A : Aggregates) (bs : List (Bound Field)) (g : List World) :
    kept C A World.at (bs.map boundCol) g = kept C A Field.value bs g := by
  unfold kept
  rw [List.all_map]
  congr 1
  funext b
  show (C.op b.op ((itemCol b.item).value A World.at g) b.value == some true) = _
  rw [item_value]
  rfl

theorem before_value (O : Order) (A : Aggregates) (ks : List Ranking) (g h : List World) :
    before O A World.at (ks.map fun k => rankCol k.key) g h = before O A Field.value (ks.map Ranking.key) g h := by
  induction ks with
  | nil => rfl
  | cons k ks ih =>
    simp only [List.map_cons, before, ih]
    simp only [rankCol, item_value]

theorem order_value {O : Order} {A : Aggregates} {ks : List Ranking} {gs : List (List World)} (h : InOrder O A World.at (ks.map fun k => rankCol k.key) gs) :
    InOrder O A Field.value (ks.map Ranking.key) gs := by
  unfold InOrder at h ⊢
  exact h.imp fun {g h} e => by rw [← before_value]; exact e

/-- The value of a field, in a group. -/
def valueOf (A : Aggregates) (g : List World) : Node → Scalar
  | .field f _ _ [] => if f.formats = [] then (Item.key (κ := Field) ⟨⟨[], f.tableName, f.tableAlias⟩, f.name⟩).value A Field.value g else A.all g.length
  | .field f _ _ [.field c _ _ _] =>
    match f.formats with
    | [(_, fmt)] =>
      let of : Fn → Scalar := fun fn => (Item.agg (κ := Field) fn ⟨⟨[], c.tableName, c.tableAlias⟩, c.name⟩).value A Field.value g
      if fmt = "COUNT({})".toList then of .count else if fmt = "SUM({})".toList then of .sum else if fmt = "AVG({})".toList then of .avg
      else if fmt = "MIN({})".toList then of .min else of .max
    | _ => .nil
  | _ => .nil

theorem value_node (A : Aggregates) (raw : Field → Bool) (i : Item Field) (g : List World) : valueOf A g (i.node raw) = i.value A Field.value g := by
  cases i with
  | key c => rfl
  | agg f c => cases f <;> rfl
  | all => rfl

/-- As `fetch_worlds` (Props/Select). -/
theorem fetch_groups (D : Database) (s : D.State) (source : Logging.LogSource) (hs : source.Usable) (o : Outside V) (zero : Fetching.Kind → V)
    (conv : Fetching.Kind → Scalar → Option V) (get : Fetching.Kind → Scalar → V) (raw : Field → Bool) (kind : Item Field → Fetching.Kind) (A : Aggregates)
    (is : List (Item Field)) (hc : is ≠ []) (ctx : Ctx) (q q' : Node) (d : Dialect)
    (hd : Dial.getDialect o.own q = .ok d) (ho : Own q)
    (hq' : WithFields q (is.map (Item.node raw)) q') (hok : (toSQL d q').status = .ok) (gs : List (List World))
    (hans : D.query (toSQL d q').query (toSQL d q').args s = gs.map fun g => is.map fun i => i.value A Field.value g)
    (hconv : ∀ g ∈ gs, ∀ i ∈ is, conv (kind i) (i.value A Field.value g) = some (get (kind i) (i.value A Field.value g))) :
    let f := fetch o (D.conn source s Ctx) q zero conv (readsItems raw kind is) ctx []
    f.fin = .ok ∧ f.count = gs.length ∧ f.trace = gs.map (fun g => is.map fun i => get (kind i) (i.value A Field.value g)) ∧ f.closed = true := by
  intro f
  let D' : List (Fetching.Kind × Node) := is.map fun i => (kind i, i.node raw)
  have hsnd : D'.map Prod.snd = is.map (Item.node raw) := by simp [D', List.map_map, Function.comp_def]
  let tab : List ((Node → Scalar) × Option (Fetching.Kind → Node → V)) := gs.map fun g => (valueOf A g, some fun k n => get k (valueOf A g n))
  have h := C75_fetch_values o (D.conn source s Ctx) q q' zero conv (readsItems raw kind is) ctx [] [] false d hd ho hs D'
    (reader_calls _ _ _ _).symm (by simpa [D'] using hc) (reader_register zero _ [] []) (by rw [hsnd]; exact hq') hok none none tab
    (by
      show Except.ok ({ rows := D.query (toSQL d q').query (toSQL d q').args s } : Fetching.Rows Scalar) = _
      rw [hans, hsnd]
      simp only [tab, List.map_map, Function.comp_def, value_node])
    (by
      intro row hrow
      obtain ⟨g, hg, rfl⟩ := List.mem_map.1 hrow
      intro kf hkf
      obtain ⟨i, hi, rfl⟩ := List.mem_map.1 hkf
      simp only [value_node]
      exact hconv g hg i hi)
    (by
      intro row hrow val _ tr
      rw [show calls val true (readsItems raw kind is tr) = D' from reader_calls _ _ _ _]
      exact List.prefix_refl _)
  have hv := reader_visit D' (gs.map fun g k n => get k (valueOf A g n)) ([] : List (List V)) 0
  have htab : tab.map Prod.snd = (gs.map fun g k n => get k (valueOf A g n)).map some := by
    simp only [tab, List.map_map, Function.comp_def]
  rw [htab, show (readsItems (V := V) raw kind is) = fun _ => reader D' [] from rfl, hv] at h
  obtain ⟨h1, h2, h3, h4⟩ := h
  refine ⟨h2, h1.trans (by simp), ?_, h4⟩
  rw [show f.trace = _ from h3]
  simp only [List.nil_append, List.map_map, Function.comp_def, D', value_node]

/-- **C89 (partial).** On a database that reads GROUP BY and aggregates as SQL does there is one arrangement of the records asked for into groups — a group for each
combination of the values of the GROUP BY fields that occurs, or a single group of all records if there are none — of which those that meet the conditions of HAVING, in the order asked for, are such that fetching with a row
mapper gives, for every LIMIT and OFFSET, the page of it: for each group the value of each GROUP BY field, and the aggregate of the values of its records.  For every
contents of the tables, number and kinds of joins, nesting of And, Or and Not, values, notion of sameness and meaning of the aggregates.
Missing: as in `C89_reads_partial`. -/
theorem C89_fetched_partial (D : Database) (T : D.State → Tables) (C : Compare) (O : Order) (same : Scalar → Scalar → Bool) (A : Aggregates) (b : Builder)
    (arrange : D.State → List Sel.Col → List (Ranked Sel.Col) → Core → List (List World)) (hD : Understands D T C O same A b.lang arrange)
    (raw : Field → Bool) (a : Ask) (G : Grouping) (h : Sound b.lang a G)
    (s : D.State) (source : Logging.LogSource) (hs : source.Usable) (o : Outside V) (ctx : Ctx) (zero : Fetching.Kind → V)
    (conv : Fetching.Kind → Scalar → Option V) (get : Fetching.Kind → Scalar → V) (kind : Item Field → Fetching.Kind)
    (hconv : ∀ gs, Answers C O same A (T s) a G gs → ∀ g ∈ gs, ∀ i ∈ G.items,
      conv (kind i) (i.value A Field.value g) = some (get (kind i) (i.value A Field.value g))) :
    ∃ gs, Answers C O same A (T s) a G gs ∧
      ∀ limit offset, Allowed b.lang limit offset →
        let f := fetch o (D.conn source s Ctx) (fromQuery b raw a G limit offset) zero conv (readsItems raw kind G.items) ctx []
        f.fin = .ok ∧ f.count = (page limit offset gs).length ∧
          f.trace = (page limit offset gs).map fun g => G.items.map fun i => get (kind i) (i.value A Field.value g) := by
  obtain ⟨m, m3, m4⟩ := group_reads b raw a G h
  have hA : Answers C O same A (T s) a G ((arrange s (G.keys.map Field.col) (G.order.map fun k => rankCol k.key) m).filter (kept C A Field.value G.having)) := by
    refine ⟨arrange s (G.keys.map Field.col) (G.order.map fun k => rankCol k.key) m, ?_, rfl, (order_value (hD.sorted s _ _ m)).sublist List.filter_sublist⟩
    · unfold Group.Grouped
      split
      · rename_i he
        obtain ⟨g, g1, g2⟩ := hD.one s (G.order.map fun k => rankCol k.key) m
        rw [m3] at g1
        exact ⟨g, g1, by rw [he]; exact g2⟩
      · rename_i he
        have := hD.each s (G.keys.map Field.col) (G.order.map fun k => rankCol k.key) m (by simpa using he)
        rwa [m3, agree_cols] at this
  have hu := h.unsorted
  refine ⟨_, hA, fun limit offset hal => ?_⟩
  intro f
  obtain ⟨r1, r2⟩ := m4 limit offset hal
  have hd : queryDialect (query b raw a G limit offset) = b.lang.dialect := by rw [query_node _ _ _ hu]; rfl
  have hw := fetch_groups D s source hs o zero conv get raw kind A G.items h.some ctx (fromQuery b raw a G limit offset) (query b raw a G limit offset) b.lang.dialect
    (by rw [fromQuery_node _ _ _ hu]; rfl) (by rw [fromQuery_node _ _ _ hu]; trivial) (by rw [fromQuery_node _ _ _ hu, query_node _ _ _ hu]; exact .select ..)
    (by unfold ownSQL at r1; rw [hd] at r1; exact r1)
    (page limit offset ((arrange s (G.keys.map Field.col) (G.order.map fun k => rankCol k.key) m).filter (kept C A Field.value G.having)))
    (by
      unfold ownSQL at r2
      rw [hd] at r2
      rw [hD.select s _ _ _ r2]
      simp only [List.map_map, Function.comp_def, item_value]
      rw [show kept C A World.at (G.having.map boundCol) = kept C A Field.value G.having from funext (kept_value C A G.having)])
    (fun g hg i hi => hconv _ hA g (mem_page hg) i hi)
  exact ⟨hw.1, hw.2.1, hw.2.2.1⟩

/-- **C89 (partial), FetchExists.** It tells whether there is any such group on the page asked for, whether the query has fields or not.
Missing: as in `C89_reads_partial`; no fields in GROUP BY. -/
theorem C89_exists_partial (D : Database) (T : D.State → Tables) (C : Compare) (O : Order) (same : Scalar → Scalar → Bool) (A : Aggregates) (b : Builder)
    (arrange : D.State → List Sel.Col → List (Ranked Sel.Col) → Core → List (List World)) (hD : Understands D T C O same A b.lang arrange) (truth : Bool → Scalar)
    (hE : Group.AnswersExists D C A b.lang arrange truth) (raw : Field → Bool) (a : Ask) (G : Grouping) (h : Group.Body b.lang a G) (hk : G.keys ≠ [])
    (s : D.State) (source : Logging.LogSource) (hs : source.Usable) (o : Outside V) (ctx : Ctx)
    (conv : List Scalar → Option Bool) (hconv : ∀ x, conv [truth x] = some x) :
    ∃ gs, Answers C O same A (T s) a G gs ∧ ∀ limit offset, Allowed b.lang limit offset →
      (let f := fetchExists o (D.conn source s Ctx) (fromQuery b raw a G limit offset) conv ctx
       f.fin = .ok ∧ (f.exist = true ↔ ∃ g, g ∈ page limit offset gs)) ∧
      (Sound b.lang a G →
        let f := fetchExists o (D.conn source s Ctx) (query b raw a G limit offset) conv ctx
        f.fin = .ok ∧ (f.exist = true ↔ ∃ g, g ∈ page limit offset gs)) := by
  obtain ⟨hl, m, m2, m3⟩ := group_parts b raw a G h
  have hu := h.unsorted
  have hkm : G.keys.map Field.col ≠ [] := by simpa using hk
  have hA : Answers C O same A (T s) a G ((arrange s (G.keys.map Field.col) (G.order.map fun k => rankCol k.key) m).filter (kept C A Field.value G.having)) := by
    refine ⟨arrange s (G.keys.map Field.col) (G.order.map fun k => rankCol k.key) m, ?_, rfl, (order_value (hD.sorted s _ _ m)).sublist List.filter_sublist⟩
    · unfold Group.Grouped
      rw [if_neg hk]
      have := hD.each s (G.keys.map Field.col) (G.order.map fun k => rankCol k.key) m hkm
      rwa [m2, agree_cols] at this
  refine ⟨_, hA, fun limit offset hal => ?_⟩
  have key : ∀ (q : Node) (fields : List Node) (P : List Part) (Y : List Lex) (is : List (Item Sel.Col)), fields ≠ [] →
      Adds b.lang.dialect (items { d := b.lang.dialect, env := b.env } fields) P → Asking.Piece b.lang P Y → NoWord Y →
      (if Y = [.tok (.word "1".toList)] then some [] else items? b.lang a.labels Y) = some is → is.all (Item.within (G.keys.map Field.col)) = true →
      Dial.getDialect o.own q = .ok b.lang.dialect → OwnFirst q → Asked q (groupNode b raw a G fields limit offset) →
      let f := fetchExists o (D.conn source s Ctx) q conv ctx
      f.fin = .ok ∧ (f.exist = true ↔ ∃ g, g ∈ page limit offset ((arrange s (G.keys.map Field.col) (G.order.map fun k => rankCol k.key) m).filter (kept C A Field.value G.having))) := by
    intro q fields P Y is hne hP hpc hY hcs hin hd ho hq f
    obtain ⟨xs, Z, ⟨o1, o2, o3⟩, z1, z2⟩ := m3 fields P Y hne hP hpc hY limit offset hal
    have hqd : queryDialect (groupNode b raw a G fields limit offset) = b.lang.dialect := rfl
    unfold ownSQL at o1 o2 o3
    rw [hqd] at o1 o2 o3
    have hr := exists_reads z1 _ (z2 _ is hcs hin)
    rw [← o2, ← o3] at hr
    have hans := hE s _ _ _ hkm hr
    have h := (C75_exists_answer o (D.conn source s Ctx) q _ conv ctx b.lang.dialect hd ho hs hq o1).2 _ _
      (by
        show Except.ok ({ rows := D.query _ _ s } : Fetching.Rows Scalar) = _
        rw [hans]) (hconv _)
    refine ⟨h.1, ?_⟩
    rw [show f.exist = _ from h.2]
    show (!(page limit offset ((arrange s (G.keys.map Field.col) (G.order.map fun k => rankCol k.key) m).filter (kept C A World.at (G.having.map boundCol)))).isEmpty) = true ↔ _
    rw [show kept C A World.at (G.having.map boundCol) = kept C A Field.value G.having from funext (kept_value C A G.having)]
    cases page limit offset ((arrange s (G.keys.map Field.col) (G.order.map fun k => rankCol k.key) m).filter (kept C A Field.value G.having)) <;> simp
  refine ⟨?_, fun hS => ?_⟩
  · obtain ⟨p1, p2, p3⟩ := one_parts b.lang b.env
    refine key _ _ _ _ [] (by simp) p1 p2 p3 (if_pos rfl) rfl (by rw [fromQuery_node _ _ _ hu]; rfl) (by rw [fromQuery_node _ _ _ hu]; trivial) ?_
    rw [fromQuery_node _ _ _ hu]
    exact .inr ⟨.select .., .select ..⟩
  · obtain ⟨P, Y, c1, c2, c3, c4⟩ := items_parts b.lang raw a.labels hl G.items hS.some hS.items b.env
    have hY : Y ≠ [.tok (.word "1".toList)] := by
      rintro rfl
      revert c4
      obtain ⟨c, cs, e⟩ := List.exists_cons_of_ne_nil hS.some
      rw [e]
      cases b.lang <;> (intro h; revert h; simp [Sel.pieces, every, item?, itemAt?, column?])
    refine key _ _ P Y (G.items.map itemCol) (by simpa using hS.some) c1 c2 c3 (by rw [if_neg hY]; exact c4) ?_ (by rw [query_node _ _ _ hu]; rfl) (by rw [query_node _ _ _ hu]; trivial) ?_
    · rw [List.all_map, List.all_eq_true]
      intro i hi
      cases i with
      | key c => exact decide_eq_true (hS.selected _ hi c rfl)
      | agg f c => rfl
      | all => rfl
    · rw [query_node _ _ _ hu]
      obtain ⟨c, cs, e⟩ := List.exists_cons_of_ne_nil hS.some
      refine .inl ⟨c.node raw, cs.map (Item.node raw), ?_, rfl⟩
      unfold groupNode
      rw [e]
      exact .select ..

/-- **C89 (partial), COUNT(*).** `Select(CountAll())` of a question fetches one row: the number of records that answer it.  Missing: as in `C89_reads_partial`. -/
theorem C89_total_partial (D : Database) (T : D.State → Tables) (C : Compare) (O : Order) (same : Scalar → Scalar → Bool) (A : Aggregates) (b : Builder)
    (arrange : D.State → List Sel.Col → List (Ranked Sel.Col) → Core → List (List World)) (hD : Understands D T C O same A b.lang arrange)
    (raw : Field → Bool) (a : Ask) (h : a.Body b.lang) (ho : a.order = [])
    (s : D.State) (source : Logging.LogSource) (hs : source.Usable) (o : Outside Scalar) (ctx : Ctx) (zero : Fetching.Kind → Scalar) (kind : Item Field → Fetching.Kind) :
    let f := fetch o (D.conn source s Ctx) (fromQuery b raw a { items := [.all], keys := [] } none none) zero (fun _ v => some v) (readsItems raw kind [.all]) ctx []
    f.fin = .ok ∧ f.trace = [[A.all (a.answer C (T s)).length]] := by
  intro f
  have hS : Sound b.lang a { items := [.all], keys := [] } :=
    { ask := h
      some := by simp
      items := by
        intro i hi c hc
        rw [List.mem_singleton.1 hi] at hc
        cases hc
      keys := by simp
      having := by simp
      compared := by simp
      selected := by
        intro i hi c hc
        rw [List.mem_singleton.1 hi] at hc
        cases hc
      unsorted := ho
      order := by simp
      ranked := by simp }
  obtain ⟨gs, h1, h3⟩ := C89_fetched_partial D T C O same A b arrange hD raw a _ hS s source hs o ctx zero (fun _ v => some v) (fun _ v => v) kind (fun _ _ _ _ _ _ => rfl)
  obtain ⟨f1, _, f3⟩ := h3 none none (fun e => absurd rfl e)
  obtain ⟨all, h2, rfl, _⟩ := h1
  rw [show all.filter (kept C A Field.value []) = all from List.filter_eq_self.2 fun _ _ => rfl] at f3
  unfold Group.Grouped at h2
  rw [if_pos rfl] at h2
  obtain ⟨g, hg, rfl⟩ := h2
  refine ⟨f1, ?_⟩
  rw [show f.trace = _ from f3, ← hg.length_eq]
  rfl

/-- **C89 (partial), once each.** The rows of `Select(fields...).GroupBy(fields...)` are, each once, the combinations of values that the records asked for have in these
fields.  Missing: as in `C89_reads_partial`. -/
theorem C89_once_partial (D : Database) (T : D.State → Tables) (C : Compare) (O : Order) (A : Aggregates) (b : Builder)
    (arrange : D.State → List Sel.Col → List (Ranked Sel.Col) → Core → List (List World)) (hD : Understands D T C O (fun x y => decide (x = y)) A b.lang arrange)
    (raw : Field → Bool) (a : Ask) (ks : List Field) (hk : ks ≠ []) (h : Sound b.lang a { items := ks.map .key, keys := ks })
    (s : D.State) (source : Logging.LogSource) (hs : source.Usable) (o : Outside Scalar) (ctx : Ctx) (zero : Fetching.Kind → Scalar) (kind : Item Field → Fetching.Kind) :
    let f := fetch o (D.conn source s Ctx) (fromQuery b raw a { items := ks.map .key, keys := ks } none none) zero (fun _ v => some v) (readsItems raw kind (ks.map .key)) ctx []
    f.fin = .ok ∧ f.trace.Nodup ∧ ∀ row, row ∈ f.trace ↔ row ∈ (a.answer C (T s)).map fun w => ks.map (Field.value w) := by
  intro f
  obtain ⟨gs, h1, h3⟩ := C89_fetched_partial D T C O _ A b arrange hD raw a _ h s source hs o ctx zero (fun _ v => some v) (fun _ v => v) kind (fun _ _ _ _ _ _ => rfl)
  obtain ⟨f1, _, f3⟩ := h3 none none (fun e => absurd rfl e)
  obtain ⟨all, h2, hall, _⟩ := h1
  rw [show all.filter (kept C A Field.value []) = all from List.filter_eq_self.2 fun _ _ => rfl] at hall
  subst hall
  unfold Group.Grouped at h2
  rw [if_neg hk] at h2
  have hag : ∀ w v, agree (fun x y => decide (x = y)) ks w v = true ↔ ks.map (Field.value w) = ks.map (Field.value v) := by
    intro w v
    show (ks.all fun c => decide (c.value w = c.value v)) = true ↔ _
    rw [List.all_eq_true]
    constructor
    · intro e
      exact List.map_congr_left fun c hc => of_decide_eq_true (e c hc)
    · intro e c hc
      exact decide_eq_true (List.map_inj_left.1 e c hc)
  have ht : f.trace = gs.map fun g => ks.map fun c => (Item.key c).value A Field.value g := by
    rw [show f.trace = _ from f3, show page none none gs = gs by simp [page]]
    simp only [List.map_map, Function.comp_def]
  have hrow : ∀ g ∈ gs, ∃ w ∈ g, (ks.map fun c => (Item.key c).value A Field.value g) = ks.map (Field.value w) := by
    intro g hg
    cases g with
    | nil => exact absurd rfl (h2.some _ hg)
    | cons w g => exact ⟨w, List.mem_cons_self .., rfl⟩
  refine ⟨f1, ?_, fun row => ?_⟩
  · rw [ht]
    unfold List.Nodup
    rw [List.pairwise_map]
    refine h2.apart.imp_of_mem fun {g g'} hg hg' e e' => ?_
    obtain ⟨w, w1, w2⟩ := hrow g hg
    obtain ⟨v, v1, v2⟩ := hrow g' hg'
    rw [w2, v2, ← hag, e w w1 v v1] at e'
    cases e'
  · rw [ht]
    constructor
    · intro hr
      obtain ⟨g, hg, rfl⟩ := List.mem_map.1 hr
      obtain ⟨w, w1, w2⟩ := hrow g hg
      simp only [w2]
      exact List.mem_map_of_mem (h2.all.mem_iff.1 (List.mem_flatten.2 ⟨g, hg, w1⟩))
    · intro hr
      obtain ⟨v, hv, rfl⟩ := List.mem_map.1 hr
      obtain ⟨g, hg, hv⟩ := List.mem_flatten.1 (h2.all.mem_iff.2 hv)
      obtain ⟨w, w1, w2⟩ := hrow g hg
      refine List.mem_map.2 ⟨g, hg, ?_⟩
      rw [w2]
      exact (hag w v).1 (h2.within g hg w w1 v hv)

/-- **C89 (partial), counted once.** The numbers that `Select(CountAll())` with GROUP BY gives, one for each group, are positive and add up to the number of records asked
for: every record is counted, in one group only.  Missing: as in `C89_reads_partial`. -/
theorem C89_counted_partial (D : Database) (T : D.State → Tables) (C : Compare) (O : Order) (same : Scalar → Scalar → Bool) (A : Aggregates) (b : Builder)
    (arrange : D.State → List Sel.Col → List (Ranked Sel.Col) → Core → List (List World)) (hD : Understands D T C O same A b.lang arrange)
    (raw : Field → Bool) (a : Ask) (ks : List Field) (os : List Ranking) (hk : ks ≠ []) (h : Sound b.lang a { items := [.all], keys := ks, order := os })
    (s : D.State) (source : Logging.LogSource) (hs : source.Usable) (o : Outside Scalar) (ctx : Ctx) (zero : Fetching.Kind → Scalar) (kind : Item Field → Fetching.Kind) :
    let f := fetch o (D.conn source s Ctx) (fromQuery b raw a { items := [.all], keys := ks, order := os } none none) zero (fun _ v => some v) (readsItems raw kind [.all]) ctx []
    f.fin = .ok ∧ ∃ ns : List Nat, f.trace = ns.map (fun n => [A.all n]) ∧ (∀ n ∈ ns, 0 < n) ∧ ns.sum = (a.answer C (T s)).length := by
  intro f
  obtain ⟨gs, h1, h3⟩ := C89_fetched_partial D T C O same A b arrange hD raw a _ h s source hs o ctx zero (fun _ v => some v) (fun _ v => v) kind (fun _ _ _ _ _ _ => rfl)
  obtain ⟨f1, _, f3⟩ := h3 none none (fun e => absurd rfl e)
  obtain ⟨all, h2, hall, _⟩ := h1
  rw [show all.filter (kept C A Field.value []) = all from List.filter_eq_self.2 fun _ _ => rfl] at hall
  subst hall
  unfold Group.Grouped at h2
  rw [if_neg hk] at h2
  refine ⟨f1, gs.map List.length, ?_, fun n hn => ?_, ?_⟩
  · rw [show f.trace = _ from f3, show page none none gs = gs by simp [page]]
    simp only [List.map_map, Function.comp_def]
    rfl
  · obtain ⟨g, hg, rfl⟩ := List.mem_map.1 hn
    exact List.length_pos_iff.2 (h2.some g hg)
  · rw [← List.length_flatten]
    exact h2.all.length_eq

/-! ### A database that reads such statements -/

/-- At most so many groups. -/
def groupsOf (alike : World → World → Bool) : Nat → List World → List (List World)
  | n + 1, x :: xs => (x :: xs.filter (alike x)) :: groupsOf alike n (xs.filter fun y => !alike x y)
  | _, _ => []

theorem parted (p : World → Bool) (xs : List World) : (xs.filter p ++ xs.filter fun y => !p y).Perm xs := by
  induction xs with
  | nil => exact .refl _
  | cons x xs ih =>
    cases h : p x with
    | true => simpa [List.filter_cons, h] using ih
    | false =>
      simp only [List.filter_cons, h, Bool.not_false, if_true, Bool.false_eq_true, if_false]
      exact List.perm_middle.trans (ih.cons x)

theorem groupsOf_mem (alike : World → World → Bool) : ∀ n xs, ∀ g ∈ groupsOf alike n xs, ∀ w ∈ g, w ∈ xs := by
  intro n
  induction n with
  | zero => intro xs g hg; simp [groupsOf] at hg
  | succ n ih =>
    intro xs g hg w hw
    cases xs with
    | nil => simp [groupsOf] at hg
    | cons x xs =>
      rcases List.mem_cons.1 hg with rfl | hg
      · rcases List.mem_cons.1 hw with rfl | hw
        · exact List.mem_cons_self ..
        · exact List.mem_cons_of_mem _ (List.mem_filter.1 hw).1
      · exact List.mem_cons_of_mem _ (List.mem_filter.1 (ih _ g hg w hw)).1

theorem groupsOf_groups (alike : World → World → Bool) (refl : ∀ w, alike w w = true) (symm : ∀ v w, alike v w = true → alike w v = true)
    (trans : ∀ u v w, alike u v = true → alike v w = true → alike u w = true) : ∀ n xs, xs.length ≤ n → Groups alike xs (groupsOf alike n xs) := by
  intro n
  induction n with
  | zero =>
    intro xs h
    rw [List.length_eq_zero_iff.1 (Nat.le_zero.1 h)]
    exact ⟨.refl _, by simp [groupsOf], by simp [groupsOf], .nil⟩
  | succ n ih =>
    intro xs h
    cases xs with
    | nil => exact ⟨.refl _, by simp [groupsOf], by simp [groupsOf], .nil⟩
    | cons x xs =>
      have ih := ih (xs.filter fun y => !alike x y) (Nat.le_trans (List.length_filter_le ..) (Nat.le_of_succ_le_succ h))
      have hx : ∀ w ∈ x :: xs.filter (alike x), alike x w = true := by
        intro w hw
        rcases List.mem_cons.1 hw with rfl | hw
        · exact refl w
        · exact (List.mem_filter.1 hw).2
      refine ⟨?_, ?_, ?_, ?_⟩
      · show (x :: xs.filter (alike x) ++ (groupsOf alike n _).flatten).Perm _
        exact ((ih.all.append_left _).trans (parted (alike x) xs)).cons x
      · intro g hg
        rcases List.mem_cons.1 hg with rfl | hg
        · simp
        · exact ih.some g hg
      · intro g hg w hw v hv
        rcases List.mem_cons.1 hg with rfl | hg
        · exact trans _ _ _ (symm _ _ (hx w hw)) (hx v hv)
        · exact ih.within g hg w hw v hv
      · refine List.pairwise_cons.2 ⟨fun g hg w hw v hv => ?_, ih.apart⟩
        have hv := (List.mem_filter.1 (groupsOf_mem alike n _ g hg v hv)).2
        cases e : alike w v with
        | false => rfl
        | true => rw [trans _ _ _ (hx w hw) e] at hv; cases hv

theorem before_weak {O : Order} (h : Weak O) (A : Aggregates) {κ : Type} (r : World → κ → Scalar) (ks : List (Ranked κ)) :
    (∀ u v, before O A r ks u v = true → before O A r ks v u = false) ∧
    (∀ u v w, before O A r ks u v = false → before O A r ks v w = false → before O A r ks u w = false) := by
  induction ks with
  | nil => exact ⟨fun _ _ h => by simp [before] at h, fun _ _ _ _ _ => rfl⟩
  | cons k ks ih =>
    refine ⟨fun u v hu => ?_, fun u v w h1 h2 => ?_⟩
    · simp only [before, Bool.or_eq_true, Bool.and_eq_true, Bool.not_eq_true'] at hu
      simp only [before, Bool.or_eq_false_iff, Bool.and_eq_false_iff, Bool.not_eq_false']
      rcases hu with hu | ⟨h1, h2⟩
      · exact ⟨h.not_both _ _ _ _ hu, .inl hu⟩
      · exact ⟨h1, .inr (ih.1 _ _ h2)⟩
    · simp only [before, Bool.or_eq_false_iff, Bool.and_eq_false_iff, Bool.not_eq_false'] at h1 h2 ⊢
      refine ⟨h.not_between _ _ _ _ _ h1.1 h2.1, ?_⟩
      cases hc : O.before k.desc k.nullsFirst (k.item.value A r w) (k.item.value A r u) with
      | true => exact .inl rfl
      | false =>
        refine .inr (ih.2 u v w (h1.2.resolve_left ?_) (h2.2.resolve_left ?_))
        · rw [h.not_between _ _ _ _ _ h2.1 hc]; simp
        · rw [h.not_between _ _ _ _ _ hc h1.1]; simp

/-- Insertion sort. -/
def insertG (lt : List World → List World → Bool) (x : List World) : List (List World) → List (List World)
  | [] => [x]
  | y :: ys => if lt y x then y :: insertG lt x ys else x :: y :: ys
def sortG (lt : List World → List World → Bool) : List (List World) → List (List World)
  | [] => []
  | x :: xs => insertG lt x (sortG lt xs)

theorem insertG_perm (lt : List World → List World → Bool) (x : List World) (ys : List (List World)) : (insertG lt x ys).Perm (x :: ys) := by
  induction ys with
  | nil => exact .refl _
  | cons y ys ih =>
    unfold insertG
    split
    · exact (ih.cons y).trans (.swap x y ys)
    · exact .refl _

theorem sortG_perm (lt : List World → List World → Bool) (xs : List (List World)) : (sortG lt xs).Perm xs := by
  induction xs with
  | nil => exact .refl _
  | cons x xs ih => exact (insertG_perm lt x _).trans (ih.cons x)

theorem insertG_sorted {O : Order} (h : Weak O) (A : Aggregates) (os : List (Ranked Sel.Col)) (x : List World) (ys : List (List World))
    (hy : InOrder O A World.at os ys) : InOrder O A World.at os (insertG (before O A World.at os) x ys) := by
  obtain ⟨w1, w2⟩ := before_weak h A World.at os
  induction ys with
  | nil => simp [InOrder, insertG]
  | cons y ys ih =>
    obtain ⟨hy1, hy2⟩ := List.pairwise_cons.1 hy
    unfold insertG
    cases hc : before O A World.at os y x with
    | true =>
      rw [if_pos rfl]
      refine List.pairwise_cons.2 ⟨fun z hz => ?_, ih hy2⟩
      rcases List.mem_cons.1 ((insertG_perm _ x ys).mem_iff.1 hz) with rfl | hz
      · exact w1 _ _ hc
      · exact hy1 z hz
    | false =>
      rw [if_neg (by simp)]
      refine List.pairwise_cons.2 ⟨fun z hz => ?_, hy⟩
      rcases List.mem_cons.1 hz with rfl | hz
      · exact hc
      · exact w2 _ _ _ (hy1 z hz) hc

theorem sortG_sorted {O : Order} (h : Weak O) (A : Aggregates) (os : List (Ranked Sel.Col)) (xs : List (List World)) :
    InOrder O A World.at os (sortG (before O A World.at os) xs) := by
  induction xs with
  | nil => exact List.Pairwise.nil
  | cons x xs ih => exact insertG_sorted h A os x _ ih

def arrangedG (C : Compare) (O : Order) (A : Aggregates) (s : Tables) (ks : List Sel.Col) (os : List (Ranked Sel.Col)) (m : Core) : List (List World) :=
  if ks = [] then [m.rows C s] else
    sortG (before O A World.at os) (groupsOf (agreeCols (fun x y => decide (x = y)) ks) (m.rows C s).length (m.rows C s))

/-- Tables in memory. -/
def memoryG (C : Compare) (O : Order) (A : Aggregates) (l : Lang) (truth : Bool → Scalar) : Database :=
  { State := Tables
    exec := fun _ _ s => (s, 0, 0)
    query := fun text args s =>
      match readGroups l args text, Group.readExists l args text with
      | some q, _ => (page q.limit q.offset ((arrangedG C O A s q.keys q.order q.core).filter (kept C A World.at q.having))).map fun g => q.items.map fun i => Item.value A World.at g i
      | none, some q => [[truth (!(page q.limit q.offset ((arrangedG C O A s q.keys q.order q.core).filter (kept C A World.at q.having))).isEmpty)]]
      | none, none => []
    rows := fun _ => []
    eq := fun x y => decide (x = y) }

/-- A text is not read both ways. -/
theorem not_both (l : Lang) (args : List Arg) (text : Str) (m : Group.Stmt) (h : Group.readExists l args text = some m) : readGroups l args text = none := by
  unfold Group.readExists at h
  unfold readGroups
  rw [← Option.bind_assoc] at h ⊢
  cases hx : (tokens (lexing l) text).bind fun ts => Where.resolve l args 0 ts with
  | none => rfl
  | some xs =>
    rw [hx, Option.bind_some] at h
    rw [Option.bind_some]
    split at h
    · rename_i sel ex r
      split at h
      · rename_i hse
        obtain ⟨_, he⟩ := hse
        have c2 : clauseWord (.tok (.word ex)) = none := by show word? (upper ex) = none; rw [he]; decide +kernel
        have c3 : clauseWord (.tok (.sym '(')) = none := rfl
        have hf : fn? (upper ex) = none := by rw [he]; decide +kernel
        have hcol : ∀ labels, items? l labels (.tok (.word ex) :: .tok (.sym '(') :: (sections r).1) = none := by
          intro labels
          unfold items?
          obtain ⟨p, ps, e⟩ := List.exists_cons_of_ne_nil (pieces_ne (sections r).1)
          have hp : Sel.pieces (.tok (.word ex) :: .tok (.sym '(') :: (sections r).1) = (.tok (.word ex) :: .tok (.sym '(') :: p) :: ps := by simp [Sel.pieces, e]
          rw [hp]
          have : item? l.dialect labels (.tok (.word ex) :: .tok (.sym '(') :: p) = none := by
            unfold item? itemAt?
            split
            · rename_i e
              simp only [List.cons.injEq, Lex.tok.injEq, Tok.word.injEq, true_and] at e
              rw [← e.1, hf]
              rfl
            · rename_i e
              simp only [List.cons.injEq, Lex.tok.injEq, Tok.word.injEq, true_and] at e
              rw [← e.1, hf]
              rfl
            · rename_i e
              exact (e _ _ rfl).elim
          simp [every, this]
        show Group.stmt? l _ = none
        unfold Group.stmt? Group.stmtOf?
        cases c1 : clauseWord (.tok (.word sel)) with
        | some w => simp only [sections, c1]
        | none =>
          simp only [sections, c1, c2, c3]
          split
          · rename_i sel' cols x r' e
            simp only [Prod.mk.injEq, List.cons.injEq] at e
            obtain ⟨⟨_, rfl⟩, _⟩ := e
            split
            · simp only [hcol, Option.bind_none]
              simp
            · rfl
          · rfl
      · cases h
    · cases h

theorem groups_perm {alike : World → World → Bool} {rows : List World} {gs gs' : List (List World)} (symm : ∀ v w, alike v w = alike w v) (hp : gs'.Perm gs)
    (h : Groups alike rows gs) : Groups alike rows gs' :=
  ⟨hp.flatten.trans h.all, fun g hg => h.some g (hp.mem_iff.1 hg), fun g hg => h.within g (hp.mem_iff.1 hg),
    (hp.pairwise_iff fun {_ _} e w hw v hv => (symm w v).trans (e v hv w hw)).2 h.apart⟩

/-- The hypotheses of the theorems are met. -/
theorem memoryG_understands (C : Compare) (O : Order) (h : Weak O) (A : Aggregates) (l : Lang) (truth : Bool → Scalar) :
    Understands (memoryG C O A l truth) id C O (fun x y => decide (x = y)) A l (arrangedG C O A) where
  each := fun s ks os m hk => by
    unfold arrangedG
    rw [if_neg hk]
    have hs : ∀ v w, agreeCols (fun x y => decide (x = y)) ks v w = true → agreeCols (fun x y => decide (x = y)) ks w v = true := by
      intro v w e
      simp only [agreeCols, List.all_eq_true, decide_eq_true_eq] at e ⊢
      exact fun c hc => (e c hc).symm
    refine groups_perm (fun v w => Bool.eq_iff_iff.2 ⟨hs v w, hs w v⟩) (sortG_perm _ _) (groupsOf_groups _ (fun w => ?_) hs (fun u v w e1 e2 => ?_) _ _ (Nat.le_refl _))
    · simp [agreeCols]
    · simp only [agreeCols, List.all_eq_true, decide_eq_true_eq] at e1 e2 ⊢
      exact fun c hc => (e1 c hc).trans (e2 c hc)
  one := fun s os m => ⟨m.rows C s, .refl _, rfl⟩
  sorted := fun s ks os m => by
    unfold arrangedG
    split
    · exact List.pairwise_singleton _ _
    · exact sortG_sorted h A os _
  select := fun s text args q hq => by
    show (match readGroups l args text, Group.readExists l args text with
      | some q, _ => (page q.limit q.offset ((arrangedG C O A s q.keys q.order q.core).filter (kept C A World.at q.having))).map fun g => q.items.map fun i => Item.value A World.at g i
      | none, some q => [[truth (!(page q.limit q.offset ((arrangedG C O A s q.keys q.order q.core).filter (kept C A World.at q.having))).isEmpty)]]
      | none, none => []) = _
    rw [hq]

theorem memoryG_answers (C : Compare) (O : Order) (A : Aggregates) (l : Lang) (truth : Bool → Scalar) :
    Group.AnswersExists (memoryG C O A l truth) C A l (arrangedG C O A) truth := by
  intro s text args q _ hq
  show (match readGroups l args text, Group.readExists l args text with
    | some q, _ => (page q.limit q.offset ((arrangedG C O A s q.keys q.order q.core).filter (kept C A World.at q.having))).map fun g => q.items.map fun i => Item.value A World.at g i
    | none, some q => [[truth (!(page q.limit q.offset ((arrangedG C O A s q.keys q.order q.core).filter (kept C A World.at q.having))).isEmpty)]]
    | none, none => []) = _
  rw [not_both l args text q hq, hq]

/-! ### A question -/

def ints (vs : List Scalar) : List Int := vs.filterMap fun | .int i => some i | _ => none
/-- NULLs are left out. -/
def tally : Aggregates :=
  { of := fun f vs => match f, ints vs with
      | .count, is => .int is.length
      | _, [] => .nil
      | .sum, is => .int is.sum
      | .avg, is => .int (is.sum / is.length)
      | .min, i :: is => .int (is.foldl min i)
      | .max, i :: is => .int (is.foldl max i)
    all := fun n => .int n }

/-- Users of unknown age or of at least 7: how many rows each of them has, and how large their orders are. -/
def perUser : Ask := { someAsk with order := [] }
def totals : Grouping := { items := [.key userId, .all, .agg .count orderTotal, .agg .sum orderTotal, .agg .max orderTotal], keys := [userId], having := [⟨.all, .ge, .int 1⟩, ⟨.key userId, .ne, .int 9⟩], order := [⟨.agg .max orderTotal, none, some true⟩, ⟨.key userId, some true, none⟩] }

theorem body_perUser : perUser.Body .postgres where
  tab := someAsk_sound.tab
  joins := someAsk_sound.joins
  conds := someAsk_sound.conds
  order := by simp [perUser]

theorem totals_sound : Sound .postgres perUser totals where
  ask := body_perUser
  some := by simp [totals]
  items := by
    intro i hi c hc
    simp only [totals, List.mem_cons, List.not_mem_nil, or_false] at hi
    rcases hi with rfl | rfl | rfl | rfl | rfl <;> cases hc
    · exact someAsk_sound.cols userId (by simp [someAsk])
    all_goals exact someAsk_sound.cols orderTotal (by simp [someAsk])
  keys := by
    intro c hc
    rw [List.mem_singleton.1 hc]
    exact someAsk_sound.cols userId (by simp [someAsk])
  having := by
    intro b hb c hc
    simp only [totals, List.mem_cons, List.not_mem_nil, or_false] at hb
    rcases hb with rfl | rfl <;> cases hc
    exact someAsk_sound.cols userId (by simp [someAsk])
  compared := by
    intro b hb c hc
    simp only [totals, List.mem_cons, List.not_mem_nil, or_false] at hb
    rcases hb with rfl | rfl <;> cases hc
    exact List.mem_singleton.2 rfl
  selected := by
    intro i hi c hc
    subst hc
    simp only [totals, List.mem_cons, List.not_mem_nil, or_false, Item.key.injEq, reduceCtorEq] at hi
    rw [hi]
    exact List.mem_singleton.2 rfl
  unsorted := rfl
  order := by
    intro k hk
    refine ⟨fun c hc => ?_, fun h => nomatch h⟩
    simp only [totals, List.mem_cons, List.not_mem_nil, or_false] at hk
    rcases hk with rfl | rfl <;> cases hc
    · exact someAsk_sound.cols orderTotal (by simp [someAsk])
    · exact someAsk_sound.cols userId (by simp [someAsk])
  ranked := by
    intro k hk c hc
    simp only [totals, List.mem_cons, List.not_mem_nil, or_false] at hk
    rcases hk with rfl | rfl <;> cases hc
    exact List.mem_singleton.2 rfl

def truthOf (x : Bool) : Scalar := .int (if x then 1 else 0)

/-- Is there a group? -/
def existG (a : Ask) (G : Grouping) : Bool :=
  (fetchExists outside ((memoryG plainCompare numbers tally .postgres truthOf).conn .noLogger shop Unit)
    (fromQuery { lang := .postgres, env := none } (fun _ => false) a G none none) (fun vs => some (decide (vs = [truthOf true]))) ()).exist

def fetchedG (a : Ask) (G : Grouping) (limit offset : Option Nat) : List (List Scalar) :=
  (fetch outside ((memoryG plainCompare numbers tally .postgres truthOf).conn .noLogger shop Unit)
    (fromQuery { lang := .postgres, env := none } (fun _ => false) a G limit offset) (fun _ => Scalar.nil) (fun _ v => some v)
    (readsItems (fun _ => false) (fun _ => .custom 0) G.items) () []).trace

example : (ownSQL (query { lang := .postgres, env := none } (fun _ => false) perUser totals (some 5) none)).query =
    ("SELECT u.id, COUNT(*), COUNT(o.total), SUM(o.total), MAX(o.total) FROM users AS u LEFT JOIN shop.orders AS o ON o.user_id = u.id " ++
     "WHERE u.age >= $1 OR u.age IS NULL GROUP BY u.id HAVING COUNT(*) >= $2 AND u.id <> $3 ORDER BY MAX(o.total) NULLS FIRST, u.id DESC LIMIT $4").toList := by
  decide +kernel
example : fetchedG perUser totals none none =
      [[.int 4, .int 1, .int 0, .nil, .nil], [.int 3, .int 2, .int 2, .int 130, .int 80], [.int 2, .int 1, .int 1, .int 80, .int 80]] ∧
    fetchedG perUser { totals with order := [⟨.agg .sum orderTotal, none, some false⟩] } none none =
      [[.int 2, .int 1, .int 1, .int 80, .int 80], [.int 3, .int 2, .int 2, .int 130, .int 80], [.int 4, .int 1, .int 0, .nil, .nil]] ∧
    fetchedG perUser totals (some 1) (some 1) = [[.int 3, .int 2, .int 2, .int 130, .int 80]] ∧
    fetchedG perUser { totals with having := [⟨.agg .sum orderTotal, .lt, .int 100⟩] } none none = [[.int 2, .int 1, .int 1, .int 80, .int 80]] ∧
    fetchedG { perUser with order := [] } { items := [.all, .agg .avg orderTotal, .agg .min orderTotal], keys := [] } none none = [[.int 4, .int 70, .int 50]] := by decide +kernel

example : Sound .postgres perUser { items := [.all], keys := [userId], order := [⟨.all, some true, none⟩] } :=
  { ask := totals_sound.ask, some := by simp, items := by intro i hi c hc; rw [List.mem_singleton.1 hi] at hc; cases hc
    keys := totals_sound.keys, having := by simp, compared := by simp, selected := by intro i hi c hc; rw [List.mem_singleton.1 hi] at hc; cases hc
    unsorted := rfl, order := by intro k hk; rw [List.mem_singleton.1 hk]; exact ⟨fun c hc => by simp [Item.column] at hc, fun h => nomatch h⟩
    ranked := by intro k hk c hc; rw [List.mem_singleton.1 hk] at hc; cases hc }
example : fetchedG perUser { items := [.all], keys := [userId], order := [⟨.all, some true, none⟩] } none none = [[.int 2], [.int 1], [.int 1]] ∧
    (perUser.answer plainCompare shop).length = 4 := by decide +kernel

example : existG perUser totals = true ∧ existG { perUser with order := [] } { totals with having := [⟨.all, .gt, .int 2⟩] } = false := by decide +kernel

/-- **C89 (violated).** A negated group alone in WHERE: `Where(Not(Or(a, b)))` is sent as `WHERE NOT a OR b`, so that records are counted that are not asked for. -/
theorem C89_negated_violated :
    let a : Ask :=
      { cols := [], tab := users, joins := [],
        conds := [.group true true [.test false (.cmp .lt userAge (.val (.int 7))), .test false (.cmp .ge userAge (.val (.int 9)))]], order := [] }
    Understands (memoryG plainCompare numbers tally .postgres truthOf) id plainCompare numbers (fun x y => decide (x = y)) tally .postgres (arrangedG plainCompare numbers tally) ∧
    (a.answer plainCompare shop).length = 1 ∧ fetchedG a { items := [.all], keys := [] } none none = [[.int 2]] :=
  ⟨memoryG_understands _ _ numbers_weak _ _ _, by decide +kernel, by decide +kernel⟩

end RoundTrip
end Sq.Grouped
