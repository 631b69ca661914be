import Verif.Proof.Select
import Verif.Props.Where
/-
C81: a SELECT with joins, conditions, ordering and paging fetches the records that were asked for.
-/
namespace Sq.Asking
open Sq Sq.Spec Sq.Chain Sq.Exprs Sq.Spec.Store Sq.Spec.Where Sq.Spec.Sel Sq.Choosing
open Sq.Storing hiding pieces
open _root_.Spec (Tok tokens BTok BExp readBool identClose isBareIdent)

/-- **C81 (partial), the statement.** `Select(columns...).From(table).Join(...)....Where(...).OrderBy(...).Limit(n).Offset(k)` is sent as a statement that reads
these columns, has these sort keys, this LIMIT and this OFFSET, and whose rows (joined, and filtered by the conditions, with the values sent along) are in
every database the records asked for.  Missing: negated groups where the code writes no parentheses (C17), names that are not read as they are (C01),
`NullsFirst`/`NullsLast` on MySQL (C56). -/
theorem C81_reads_partial (b : Builder) (raw : Field → Bool) (a : Ask) (h : a.Sound b.lang) :
    ∃ m : Core, m.cols = a.cols.map Field.col ∧ m.order = a.order.map Sorting.key ∧ (∀ C T, m.rows C T = a.answer C T) ∧
      ∀ limit offset, Allowed b.lang limit offset →
        (ownSQL (a.query b raw limit offset)).status = .ok ∧
        readSelect b.lang (ownSQL (a.query b raw limit offset)).args (ownSQL (a.query b raw limit offset)).query = some ⟨m, limit, offset⟩ :=
  ask_reads b raw a h

section RoundTrip
open Sq.Sending Sq.Fetching.Spec Sq.Spec.Send

variable {Ctx V : Type}

/-- What a mapper that reads these fields collects, when the query is answered with these columns of these records. -/
theorem fetch_worlds (D : Database) (s : D.State) (source : Logging.LogSource) (hs : source.Usable) (o : Outside V) (zero : Fetching.Kind → V)
    (conv : Fetching.Kind → Scalar → Option V) (get : Fetching.Kind → Scalar → V) (raw : Field → Bool) (kind : Field → Fetching.Kind)
    (cols : List Field) (hc : cols ≠ []) (ctx : Ctx) (q q' : Node) (d : Dialect) (hd : Dial.getDialect o.own q = .ok d) (ho : Own q)
    (hq' : WithFields q (cols.map (Field.node raw)) q') (hok : (toSQL d q').status = .ok) (ws : List World)
    (hans : D.query (toSQL d q').query (toSQL d q').args s = ws.map fun w => cols.map (Field.value w))
    (hconv : ∀ w ∈ ws, ∀ c ∈ cols, conv (kind c) (c.value w) = some (get (kind c) (c.value w))) :
    let f := fetch o (D.conn source s Ctx) q zero conv (readsFields raw kind cols) ctx []
    f.fin = .ok ∧ f.count = ws.length ∧ f.trace = ws.map (fun w => cols.map fun c => get (kind c) (c.value w)) ∧ f.closed = true := by
  intro f
  let D' : List (Fetching.Kind × Node) := cols.map fun c => (kind c, c.node raw)
  have hsnd : D'.map Prod.snd = cols.map (Field.node raw) := by simp [D', List.map_map, Function.comp_def]
  let tab : List ((Node → Scalar) × Option (Fetching.Kind → Node → V)) :=
    ws.map fun w => (fun n => w (labelOf n) n.name, some fun k n => get k (w (labelOf n) n.name))
  have hname : ∀ (w : World) (c : Field), w (labelOf (c.node raw)) (c.node raw).name = c.value w := fun _ _ => rfl
  have h := C75_fetch_values o (D.conn source s Ctx) q q' zero conv (readsFields raw kind cols) ctx [] [] false d hd ho hs D'
    (reader_calls _ _ _ _).symm (by simpa [D'] using hc) (reader_register zero _ [] []) (by rw [hsnd]; exact hq') hok none none tab
    (by
      show Except.ok ({ rows := D.query (toSQL d q').query (toSQL d q').args s } : Fetching.Rows Scalar) = _
      rw [hans, hsnd]
      simp only [tab, List.map_map, Function.comp_def, hname])
    (by
      intro row hrow
      obtain ⟨w, hw, rfl⟩ := List.mem_map.1 hrow
      intro kf hkf
      obtain ⟨c, hc', rfl⟩ := List.mem_map.1 hkf
      exact hconv w hw c hc')
    (by
      intro row hrow val _ tr
      rw [show calls val true (readsFields raw kind cols tr) = D' from reader_calls _ _ _ _]
      exact List.prefix_refl _)
  have hv := reader_visit D' (ws.map fun w k n => get k (w (labelOf n) n.name)) ([] : List (List V)) 0
  have htab : tab.map Prod.snd = (ws.map fun w k n => get k (w (labelOf n) (Node.name n))).map some := by
    simp only [tab, List.map_map, Function.comp_def]
  rw [htab, show (readsFields (V := V) raw kind cols) = fun _ => reader D' [] from rfl, hv] at h
  obtain ⟨h1, h2, h3, h4⟩ := h
  refine ⟨h2, h1.trans (by simp), ?_, h4⟩
  rw [show f.trace = _ from h3]
  simp only [List.nil_append, List.map_map, Function.comp_def, D', hname]

theorem mem_page {α : Type} {limit offset : Option Nat} {xs : List α} {x : α} (h : x ∈ page limit offset xs) : x ∈ xs := by
  unfold page at h
  split at h
  · exact List.mem_of_mem_drop h
  · exact List.mem_of_mem_drop (List.mem_of_mem_take h)

/-- **C81 (partial).** On a database that reads SELECT statements as SQL does, there is one arrangement of the records asked for — each exactly as often as the
joins make it, in the order asked for — such that fetching with a row mapper gives, for every LIMIT and OFFSET, that page of it.  For every contents of the
tables, number and kinds of joins, nesting of And, Or and Not, and values.  Missing: as in `C81_reads_partial`. -/
theorem C81_fetched_partial (D : Database) (T : D.State → Tables) (C : Compare) (O : Order) (b : Builder) (arrange : D.State → Core → List World)
    (hD : Sel.Understands D T C O b.lang arrange) (raw : Field → Bool) (a : Ask) (h : a.Sound b.lang)
    (s : D.State) (source : Logging.LogSource) (hs : source.Usable) (o : Outside V) (ctx : Ctx) (zero : Fetching.Kind → V)
    (conv : Fetching.Kind → Scalar → Option V) (get : Fetching.Kind → Scalar → V) (kind : Field → Fetching.Kind)
    (hconv : ∀ w ∈ a.answer C (T s), ∀ c ∈ a.cols, conv (kind c) (c.value w) = some (get (kind c) (c.value w))) :
    ∃ all : List World, all.Perm (a.answer C (T s)) ∧ Sorted O (a.order.map Sorting.key) all ∧
      ∀ limit offset, Allowed b.lang limit offset →
        let f := fetch o (D.conn source s Ctx) (a.fromQuery b raw limit offset) zero conv (readsFields raw kind a.cols) ctx []
        f.fin = .ok ∧ f.count = (page limit offset all).length ∧
          f.trace = (page limit offset all).map fun w => a.cols.map fun c => get (kind c) (c.value w) := by
  obtain ⟨m, m1, m2, m3, m4⟩ := ask_reads b raw a h
  have hperm := hD.all s m
  rw [m3] at hperm
  refine ⟨arrange s m, hperm, m2 ▸ hD.sorted s m, fun limit offset hal => ?_⟩
  intro f
  obtain ⟨r1, r2⟩ := m4 limit offset hal
  have hd : queryDialect (a.query b raw limit offset) = b.lang.dialect := by rw [query_node]; rfl
  have hw := fetch_worlds D s source hs o zero conv get raw kind a.cols h.some ctx (a.fromQuery b raw limit offset) (a.query b raw limit offset) b.lang.dialect
    (by rw [fromQuery_node]; rfl) (by rw [fromQuery_node]; trivial) (by rw [fromQuery_node, query_node]; exact .select ..)
    (by unfold ownSQL at r1; rw [hd] at r1; exact r1) (page limit offset (arrange s m))
    (by
      unfold ownSQL at r2
      rw [hd] at r2
      rw [hD.select s _ _ _ r2, m1]
      simp only [List.map_map]
      rfl)
    (fun w hw c hc => hconv w (hperm.mem_iff.1 (mem_page hw)) c hc)
  exact ⟨hw.1, hw.2.1, hw.2.2.1⟩

theorem pages_all {α : Type} (n k : Nat) (xs : List α) : ((List.range k).flatMap fun i => page (some n) (some (i * n)) xs) = xs.take (k * n) := by
  induction k with
  | zero => simp
  | succ k ih =>
    rw [List.range_succ, List.flatMap_append, ih, List.flatMap_cons, List.flatMap_nil, List.append_nil, Nat.succ_mul]
    show xs.take (k * n) ++ (xs.drop (k * n)).take n = _
    rw [List.take_add]

/-- **C81 (partial), paging.** Fetching page after page of `n` records, until they are all there, gives every record asked for, each exactly as often as
without paging, and in the order asked for. -/
theorem C81_pages_partial (D : Database) (T : D.State → Tables) (C : Compare) (O : Order) (b : Builder) (arrange : D.State → Core → List World)
    (hD : Sel.Understands D T C O b.lang arrange) (raw : Field → Bool) (a : Ask) (h : a.Sound b.lang)
    (s : D.State) (source : Logging.LogSource) (hs : source.Usable) (o : Outside V) (ctx : Ctx) (zero : Fetching.Kind → V)
    (conv : Fetching.Kind → Scalar → Option V) (get : Fetching.Kind → Scalar → V) (kind : Field → Fetching.Kind)
    (hconv : ∀ w ∈ a.answer C (T s), ∀ c ∈ a.cols, conv (kind c) (c.value w) = some (get (kind c) (c.value w)))
    (n k : Nat) (hk : (a.answer C (T s)).length ≤ k * n) :
    let fetched := fun limit offset => (fetch o (D.conn source s Ctx) (a.fromQuery b raw limit offset) zero conv (readsFields raw kind a.cols) ctx []).trace
    ((List.range k).flatMap fun i => fetched (some n) (some (i * n))) = fetched none none ∧
    (fetched none none).Perm ((a.answer C (T s)).map fun w => a.cols.map fun c => get (kind c) (c.value w)) := by
  intro fetched
  obtain ⟨all, h1, h2, h3⟩ := C81_fetched_partial D T C O b arrange hD raw a h s source hs o ctx zero conv get kind hconv
  have e0 : fetched none none = all.map fun w => a.cols.map fun c => get (kind c) (c.value w) := (h3 none none (fun e => absurd rfl e)).2.2
  refine ⟨?_, ?_⟩
  · have e : (List.range k).flatMap (fun i => fetched (some n) (some (i * n))) =
        (List.range k).flatMap fun i => (page (some n) (some (i * n)) all).map fun w => a.cols.map fun c => get (kind c) (c.value w) := by
      congr 1
      funext i
      exact (h3 (some n) (some (i * n)) (fun _ => .inl (by simp))).2.2
    rw [e, e0, ← List.map_flatMap, pages_all, List.take_of_length_le (h1.length_eq ▸ hk)]
  · rw [e0]
    exact h1.map _

/-- `1`, in parts. -/
theorem one_parts (l : Lang) (env : Env) :
    Adds l.dialect (items { d := l.dialect, env := env } [.literal "1".toList []]) [.text "1".toList] ∧
    Piece l [.text "1".toList] [.tok (.word "1".toList)] ∧ NoWord [.tok (.word "1".toList)] := by
  refine ⟨?_, Piece.text (K := [.word "1".toList]) (by cases l <;> decide +kernel) (by simp [Choosing.Plain]), NoWord.cons (by decide +kernel) NoWord.nil⟩
  rw [show items { d := l.dialect, env := env } [.literal "1".toList []] = [.placed (.literal "1".toList []) { d := l.dialect }] from by
    simp [items, item, listed, named, Node.alias]]
  exact Adds.construct rfl (show Spec.construct { d := l.dialect } (.literal "1".toList []) = some [.text "1".toList] from rfl) trivial (Adds.text _)

/-- **C81 (partial), FetchExists.** It tells whether there is any record on the page asked for, whether the query has fields or not.
Missing: as in `C81_reads_partial`. -/
theorem C81_exists_partial (D : Database) (T : D.State → Tables) (C : Compare) (b : Builder) (truth : Bool → Scalar)
    (hD : AnswersExists D T C b.lang truth) (raw : Field → Bool) (a : Ask) (h : a.Body b.lang)
    (s : D.State) (source : Logging.LogSource) (hs : source.Usable) (o : Outside V) (ctx : Ctx)
    (conv : List Scalar → Option Bool) (hconv : ∀ x, conv [truth x] = some x) (limit offset : Option Nat) (hal : Allowed b.lang limit offset) :
    (let f := fetchExists o (D.conn source s Ctx) (a.fromQuery b raw limit offset) conv ctx
     f.fin = .ok ∧ (f.exist = true ↔ ∃ w, w ∈ page limit offset (a.answer C (T s)))) ∧
    (a.Sound b.lang →
      let f := fetchExists o (D.conn source s Ctx) (a.query b raw limit offset) conv ctx
      f.fin = .ok ∧ (f.exist = true ↔ ∃ w, w ∈ page limit offset (a.answer C (T s)))) := by
  obtain ⟨hl, m, m1, m2, m3⟩ := ask_parts b raw a h
  have key : ∀ (q : Node) (fields : List Node) (P : List Part) (Y : List Lex) (cs : List Sel.Col), fields ≠ [] →
      Adds b.lang.dialect (items { d := b.lang.dialect, env := b.env } fields) P → Piece b.lang P Y → NoWord Y →
      (if Y = [.tok (.word "1".toList)] then some [] else columns? b.lang a.labels Y) = some cs →
      Dial.getDialect o.own q = .ok b.lang.dialect → OwnFirst q → Asked q (askNode b raw a fields limit offset) →
      let f := fetchExists o (D.conn source s Ctx) q conv ctx
      f.fin = .ok ∧ (f.exist = true ↔ ∃ w, w ∈ page limit offset (a.answer C (T s))) := by
    intro q fields P Y cs hne hA hP hY hcs hd ho hq f
    obtain ⟨xs, Z, ⟨o1, o2, o3⟩, z1, z2⟩ := m3 fields P Y hne hA hP hY limit offset hal
    have hqd : queryDialect (askNode b raw a fields limit offset) = b.lang.dialect := rfl
    unfold ownSQL at o1 o2 o3
    rw [hqd] at o1 o2 o3
    have hr := exists_reads z1 _ (z2 _ cs hcs)
    rw [← o2, ← o3] at hr
    have hans := hD s _ _ _ hr
    have h := (C75_exists_answer o (D.conn source s Ctx) q _ conv ctx b.lang.dialect hd ho hs hq o1).2 _ _
      (by
        show Except.ok ({ rows := D.query _ _ s } : Fetching.Rows Scalar) = _
        rw [hans]) (hconv _)
    refine ⟨h.1, ?_⟩
    rw [show f.exist = _ from h.2]
    have hrows : ({ m with cols := cs } : Core).rows C (T s) = a.answer C (T s) := m2 C (T s)
    rw [hrows]
    cases page limit offset (a.answer C (T s)) <;> simp
  refine ⟨?_, fun hS => ?_⟩
  · obtain ⟨p1, p2, p3⟩ := one_parts b.lang b.env
    refine key _ _ _ _ [] (by simp) p1 p2 p3 (if_pos rfl) (by rw [fromQuery_node]; rfl) (by rw [fromQuery_node]; trivial) ?_
    rw [fromQuery_node]
    exact .inr ⟨.select .., .select ..⟩
  · obtain ⟨P, Y, c1, c2, c3, c4⟩ := cols_parts b.lang raw a.labels hl a.cols hS.some hS.cols b.env
    have hY : Y ≠ [.tok (.word "1".toList)] := by
      rintro rfl
      revert c4
      obtain ⟨c, cs, e⟩ := List.exists_cons_of_ne_nil hS.some
      rw [e]
      cases b.lang <;> (intro h; revert h; simp [columns?, Sel.pieces, every, col?, column?])
    refine key _ _ P Y (a.cols.map Field.col) (by simpa using hS.some) c1 c2 c3 (by rw [if_neg hY]; exact c4) (by rw [query_node]; rfl) (by rw [query_node]; trivial) ?_
    rw [query_node]
    obtain ⟨c, cs, e⟩ := List.exists_cons_of_ne_nil hS.some
    refine .inl ⟨c.node raw, cs.map (Field.node raw), ?_, rfl⟩
    unfold askNode
    rw [e]
    exact .select ..

/-! ### A database that reads SELECT statements -/

/-- The order is a strict weak order. -/
structure Weak (O : Order) : Prop where
  not_both : ∀ d n x y, O.before d n x y = true → O.before d n y x = false
  not_between : ∀ d n x y z, O.before d n x y = false → O.before d n y z = false → O.before d n x z = false

theorem earlier_weak {O : Order} (h : Weak O) (ks : List Key) :
    (∀ u v, earlier O ks u v = true → earlier O ks v u = false) ∧
    (∀ u v w, earlier O ks u v = false → earlier O ks v w = false → earlier O ks u w = false) := by
  induction ks with
  | nil => exact ⟨fun _ _ h => by simp [earlier] at h, fun _ _ _ _ _ => rfl⟩
  | cons k ks ih =>
    refine ⟨fun u v hu => ?_, fun u v w h1 h2 => ?_⟩
    · simp only [earlier, Bool.or_eq_true, Bool.and_eq_true, Bool.not_eq_true'] at hu
      simp only [earlier, Bool.or_eq_false_iff, Bool.and_eq_false_iff, Bool.not_eq_false']
      rcases hu with hu | ⟨h1, h2⟩
      · exact ⟨h.not_both _ _ _ _ hu, .inl hu⟩
      · exact ⟨h1, .inr (ih.1 _ _ h2)⟩
    · simp only [earlier, Bool.or_eq_false_iff, Bool.and_eq_false_iff, Bool.not_eq_false'] at h1 h2 ⊢
      refine ⟨h.not_between _ _ _ _ _ h1.1 h2.1, ?_⟩
      cases hc : O.before k.desc k.nullsFirst (w.at k.col) (u.at k.col) with
      | true => exact .inl rfl
      | false =>
        refine .inr (ih.2 u v w (h1.2.resolve_left ?_) (h2.2.resolve_left ?_))
        · rw [h.not_between _ _ _ _ _ h2.1 hc]; simp
        · rw [h.not_between _ _ _ _ _ hc h1.1]; simp

/-- Insertion sort. -/
def place1 (lt : World → World → Bool) (x : World) : List World → List World
  | [] => [x]
  | y :: ys => if lt y x then y :: place1 lt x ys else x :: y :: ys
def arranged (lt : World → World → Bool) : List World → List World
  | [] => []
  | x :: xs => place1 lt x (arranged lt xs)

theorem place1_perm (lt : World → World → Bool) (x : World) (ys : List World) : (place1 lt x ys).Perm (x :: ys) := by
  induction ys with
  | nil => exact .refl _
  | cons y ys ih =>
    unfold place1
    split
    · exact (ih.cons y).trans (.swap x y ys)
    · exact .refl _

theorem arranged_perm (lt : World → World → Bool) (xs : List World) : (arranged lt xs).Perm xs := by
  induction xs with
  | nil => exact .refl _
  | cons x xs ih => exact (place1_perm lt x _).trans (ih.cons x)

theorem place1_sorted {O : Order} (h : Weak O) (ks : List Key) (x : World) (ys : List World) (hy : Sorted O ks ys) : Sorted O ks (place1 (earlier O ks) x ys) := by
  obtain ⟨w1, w2⟩ := earlier_weak h ks
  induction ys with
  | nil => simp [Sorted, place1]
  | cons y ys ih =>
    obtain ⟨hy1, hy2⟩ := List.pairwise_cons.1 hy
    unfold place1
    cases hc : earlier O ks y x with
    | true =>
      rw [if_pos rfl]
      refine List.pairwise_cons.2 ⟨fun z hz => ?_, ih hy2⟩
      rcases List.mem_cons.1 ((place1_perm _ x ys).mem_iff.1 hz) with rfl | hz
      · exact w1 _ _ hc
      · exact hy1 z hz
    | false =>
      rw [if_neg (by simp)]
      refine List.pairwise_cons.2 ⟨fun z hz => ?_, hy⟩
      rcases List.mem_cons.1 hz with rfl | hz
      · exact hc
      · exact w2 _ _ _ (hy1 z hz) hc

theorem arranged_sorted {O : Order} (h : Weak O) (ks : List Key) (xs : List World) : Sorted O ks (arranged (earlier O ks) xs) := by
  induction xs with
  | nil => exact List.Pairwise.nil
  | cons x xs ih => exact place1_sorted h ks x _ ih

/-- Tables in memory. -/
def memory (C : Compare) (O : Order) (l : Lang) (truth : Bool → Scalar) : Database :=
  { State := Tables
    exec := fun _ _ s => (s, 0, 0)
    query := fun text args s =>
      match readSelect l args text, readExists l args text with
      | some m, _ => (page m.limit m.offset (arranged (earlier O m.core.order) (m.core.rows C s))).map fun w : World => m.core.cols.map (World.at w)
      | none, some m => [[truth (!(page m.limit m.offset (m.core.rows C s)).isEmpty)]]
      | none, none => []
    rows := fun _ => []
    eq := fun x y => decide (x = y) }

/-- A text is not read both ways. -/
theorem not_both (l : Lang) (args : List Arg) (text : Str) (m : Stmt) (h : readExists l args text = some m) : readSelect l args text = none := by
  unfold readExists at h
  unfold readSelect
  rw [← Option.bind_assoc] at h ⊢
  cases hx : (tokens (lexing l) text).bind fun ts => Where.resolve l args 0 ts with
  | none => rfl
  | some xs =>
    rw [hx, Option.bind_some] at h
    rw [Option.bind_some]
    split at h
    · rename_i sel ex r
      split at h
      · rename_i hse
        obtain ⟨_, he⟩ := hse
        have c2 : clauseWord (.tok (.word ex)) = none := by show word? (upper ex) = none; rw [he]; decide +kernel
        have c3 : clauseWord (.tok (.sym '(')) = none := rfl
        have key : selected? (columns? l) l (.tok (.word sel) :: .tok (.word ex) :: .tok (.sym '(') :: r) = none := by
         unfold selected?
         cases c1 : clauseWord (.tok (.word sel)) with
         | some w => simp only [sections, c1]
         | none =>
           simp only [sections, c1, c2, c3]
           split
           · rename_i sel' cols x r' e
             simp only [Prod.mk.injEq, List.cons.injEq] at e
             obtain ⟨⟨_, rfl⟩, _⟩ := e
             split
             · have hcol : ∀ labels, columns? l labels (.tok (.word ex) :: .tok (.sym '(') :: (sections r).1) = none := by
                 intro labels
                 unfold columns?
                 have hp : ∃ p ps, Sel.pieces (.tok (.word ex) :: .tok (.sym '(') :: (sections r).1) = (.tok (.word ex) :: .tok (.sym '(') :: p) :: ps := by
                   obtain ⟨p, ps, e⟩ := List.exists_cons_of_ne_nil (pieces_ne (sections r).1)
                   exact ⟨p, ps, by simp [Sel.pieces, e]⟩
                 obtain ⟨p, ps, e⟩ := hp
                 rw [e]
                 simp [every, col?, column?]
               simp only [hcol, Option.map_none]
               simp
             · rfl
           · rfl
        show stmt? l _ = none
        unfold stmt? stmtOf?
        rw [key]
      · cases h
    · cases h

/-- The hypotheses of the theorems are met. -/
theorem memory_understands (C : Compare) (O : Order) (h : Weak O) (l : Lang) (truth : Bool → Scalar) :
    Sel.Understands (memory C O l truth) id C O l fun s m => arranged (earlier O m.order) (m.rows C s) where
  all := fun s m => arranged_perm _ _
  sorted := fun s m => arranged_sorted h _ _
  select := fun s text args m hm => by
    show (match readSelect l args text, readExists l args text with
      | some m, _ => (page m.limit m.offset (arranged (earlier O m.core.order) (m.core.rows C s))).map fun w : World => m.core.cols.map (World.at w)
      | none, some m => [[truth (!(page m.limit m.offset (m.core.rows C s)).isEmpty)]]
      | none, none => []) = _
    rw [hm]

theorem memory_answers (C : Compare) (O : Order) (l : Lang) (truth : Bool → Scalar) : AnswersExists (memory C O l truth) id C l truth := by
  intro s text args m hm
  show (match readSelect l args text, readExists l args text with
    | some m, _ => (page m.limit m.offset (arranged (earlier O m.core.order) (m.core.rows C s))).map fun w : World => m.core.cols.map (World.at w)
    | none, some m => [[truth (!(page m.limit m.offset (m.core.rows C s)).isEmpty)]]
    | none, none => []) = _
  rw [not_both l args text m hm, hm]
  rfl

/-! ### A question -/

def rank : Scalar → Int
  | .int i => i
  | _ => 0
/-- NULLs are the largest values, as in PostgreSQL, unless their place is given. -/
def nullsAhead (desc : Bool) (nullsFirst : Option Bool) : Bool := nullsFirst.getD desc
/-- Compared first: NULL or not.  Then: the numbers. -/
def slot (desc : Bool) (nullsFirst : Option Bool) (v : Scalar) : Int × Int :=
  if v = .nil then (if nullsAhead desc nullsFirst then 0 else 2, 0) else (1, if desc then - rank v else rank v)
def numbers : Order :=
  { before := fun d n x y => decide ((slot d n x).1 < (slot d n y).1 ∨ (slot d n x).1 = (slot d n y).1 ∧ (slot d n x).2 < (slot d n y).2) }

theorem numbers_weak : Weak numbers where
  not_both := fun d n x y h => by
    simp only [numbers, decide_eq_true_eq, decide_eq_false_iff_not] at h ⊢
    omega
  not_between := fun d n x y z h1 h2 => by
    simp only [numbers, decide_eq_false_iff_not] at h1 h2 ⊢
    omega

def orders : Tab := { schema := "shop".toList, name := "orders".toList, alias := "o".toList }
def userId : Field := ⟨users, "id".toList⟩
def userAge : Field := ⟨users, "age".toList⟩
def orderOf : Field := ⟨orders, "user_id".toList⟩
def orderTotal : Field := ⟨orders, "total".toList⟩

/-- Users that are 7 or older, or of unknown age, with their orders, if they have any: the largest first. -/
def someAsk : Ask :=
  { cols := [userId, orderTotal], tab := users,
    joins := [⟨.left, orders, [.test false (.cmp .eq orderOf (.col userId))]⟩],
    conds := [.group true false [.test false (.cmp .ge userAge (.val (.int 7))), .test false (.null userAge)]],
    order := [⟨orderTotal, some true, some false⟩, ⟨userId, none, none⟩] }

theorem readable_these : Readable .postgres "users".toList ∧ Readable .postgres "shop".toList ∧ Readable .postgres "orders".toList ∧
    Readable .postgres "o".toList ∧ Readable .postgres "user_id".toList ∧ Readable .postgres "total".toList ∧ Readable .postgres ([] : Str) := by
  refine ⟨⟨?_, fun _ => by decide +kernel⟩, ⟨?_, fun _ => by decide +kernel⟩, ⟨?_, fun _ => by decide +kernel⟩, ⟨?_, fun _ => by decide +kernel⟩,
    ⟨?_, fun _ => by decide +kernel⟩, ⟨?_, fun _ => by decide +kernel⟩, ⟨?_, fun h => by revert h; decide +kernel⟩⟩ <;> exact no_pair (by decide +kernel)

theorem named_users : Named .postgres users := ⟨readable_these.2.2.2.2.2.2, readable_these.1, readable_id.2.2, by decide +kernel⟩
theorem named_orders : Named .postgres orders := ⟨readable_these.2.1, readable_these.2.2.1, readable_these.2.2.2.1, by decide +kernel⟩

theorem someAsk_sound : someAsk.Sound .postgres where
  some := by simp [someAsk]
  cols := by
    intro c hc
    simp only [someAsk, List.mem_cons, List.not_mem_nil, or_false] at hc
    rcases hc with rfl | rfl
    · exact ⟨by decide +kernel, by decide +kernel, readable_id.1⟩
    · exact ⟨by decide +kernel, by decide +kernel, readable_these.2.2.2.2.2.1⟩
  tab := named_users
  joins := by
    refine ⟨rfl, named_orders, by decide +kernel, ?_, trivial⟩
    rw [if_neg (by decide +kernel)]
    refine ⟨by simp [Cond.fine, allFine], ?_⟩
    intro c hc
    simp only [columns, Cond.columns, Test.columns, Rhs.columns, List.append_nil, List.cons_append, List.nil_append, List.mem_cons, List.not_mem_nil, or_false] at hc
    rcases hc with rfl | rfl
    · exact ⟨by decide +kernel, by decide +kernel, readable_these.2.2.2.2.1⟩
    · exact ⟨by decide +kernel, by decide +kernel, readable_id.1⟩
  conds := by
    refine .inr ⟨by simp [someAsk, Cond.fine, allFine], ?_⟩
    intro c hc
    simp only [someAsk, columns, Cond.columns, Test.columns, Rhs.columns, List.append_nil, List.cons_append, List.nil_append, List.mem_cons, List.not_mem_nil,
      or_false] at hc
    rcases hc with rfl | rfl <;> exact ⟨by decide +kernel, by decide +kernel, readable_id.2.1⟩
  order := by
    intro k hk
    refine ⟨?_, fun h => nomatch h⟩
    simp only [someAsk, List.mem_cons, List.not_mem_nil, or_false] at hk
    rcases hk with rfl | rfl
    · exact ⟨by decide +kernel, by decide +kernel, readable_these.2.2.2.2.2.1⟩
    · exact ⟨by decide +kernel, by decide +kernel, readable_id.1⟩

def order (of total : Scalar) : Row := fun c => if c = "user_id".toList then of else total
def shop : Tables := fun _ name =>
  if name = "users".toList then [user (.int 1) (.int 6), user (.int 2) (.int 7), user (.int 3) .nil, user (.int 4) (.int 9)]
  else [order (.int 3) (.int 50), order (.int 2) (.int 80), order (.int 1) (.int 99), order (.int 3) (.int 80)]

def fetched (a : Ask) (limit offset : Option Nat) : List (List Scalar) :=
  (fetch outside ((memory plainCompare numbers .postgres .bool).conn .noLogger shop Unit)
    (a.fromQuery { lang := .postgres, env := none } (fun _ => false) limit offset) (fun _ => Scalar.nil) (fun _ v => some v)
    (readsFields (fun _ => false) (fun _ => .custom 0) a.cols) () []).trace

example : (ownSQL (someAsk.query { lang := .postgres, env := none } (fun _ => false) (some 3) (some 1))).query =
    "SELECT u.id, o.total FROM users AS u LEFT JOIN shop.orders AS o ON o.user_id = u.id WHERE u.age >= $1 OR u.age IS NULL ORDER BY o.total DESC NULLS LAST, u.id LIMIT $2 OFFSET $3".toList := by
  decide +kernel
example : fetched someAsk none none = [[.int 2, .int 80], [.int 3, .int 80], [.int 3, .int 50], [.int 4, .nil]] ∧
    fetched someAsk (some 2) (some 1) = [[.int 3, .int 80], [.int 3, .int 50]] := by decide +kernel

/-- FetchExists: is there a third and a fifth record? -/
def found (limit offset : Option Nat) : Fetching.Fin × Bool :=
  let f := fetchExists outside ((memory plainCompare numbers .postgres .bool).conn .noLogger shop Unit)
    (someAsk.fromQuery { lang := .postgres, env := none } (fun _ => false) limit offset) (fun | [.bool x] => some x | _ => none) ()
  (f.fin, f.exist)
example : found (some 1) (some 2) = (.ok, true) ∧ found (some 1) (some 4) = (.ok, false) := by decide +kernel

/-- **C81 (violated).** A negated group alone in ON: `Join(orders, Not(Or(a, b)))` is sent as `ON NOT a OR b`; on a database that reads SELECT as SQL does
it fetches records of users and orders that the condition does not join. -/
theorem C81_negated_violated :
    let a : Ask :=
      { cols := [userId, orderTotal], tab := users,
        joins := [⟨.inner, orders, [.group true true [.test false (.cmp .ne orderOf (.col userId)), .test false (.cmp .gt orderTotal (.val (.int 80)))]]⟩],
        conds := [], order := [] }
    Sel.Understands (memory plainCompare numbers .postgres .bool) id plainCompare numbers .postgres
      (fun s m => arranged (earlier numbers m.order) (m.rows plainCompare s)) ∧
    [Scalar.int 1, .int 99] ∉ (a.answer plainCompare shop).map (fun w => a.cols.map (Field.value w)) ∧
    [Scalar.int 1, .int 99] ∈ fetched a none none :=
  ⟨memory_understands _ _ numbers_weak _ _, by decide +kernel, by decide +kernel⟩

/-- **C81 (violated).** `NullsFirst()` on MySQL: what is sent is no statement of that dialect. -/
theorem C81_nulls_violated :
    let a : Ask := { cols := [userId], tab := users, joins := [], conds := [], order := [⟨userId, none, some true⟩] }
    let r := ownSQL (a.query { lang := .mysql, env := none } (fun _ => false) none none)
    r.status = .ok ∧ readSelect .mysql r.args r.query = none := by decide +kernel

end RoundTrip
end Sq.Asking
