import Verif.Proof.Distinct
import Verif.Props.Select
/-
C87: SelectDistinct and DistinctOn fetch one record of each combination.
-/
namespace Sq.Different
open Sq Sq.Spec Sq.Chain Sq.Exprs Sq.Spec.Store Sq.Spec.Where Sq.Spec.Sel Sq.Spec.Dist Sq.Choosing Sq.Asking
open Sq.Storing hiding pieces
open Sq.Spec.Dist (query fromQuery Sound Understands)
open _root_.Spec (Tok tokens BTok BExp readBool identClose isBareIdent)

/-- **C87 (partial), the statement.** `SelectDistinct(columns...)`, and `Select(columns...).DistinctOn(fields...)`, with joins, conditions, ordering and paging, is
sent as a `SELECT DISTINCT`, or a `SELECT DISTINCT ON` with these fields, that reads these columns, has these sort keys, this LIMIT and this OFFSET, and whose rows
(before one of each is taken) are in every database the records asked for.  Missing: as in `C81_reads_partial`. -/
theorem C87_reads_partial (b : Builder) (raw : Field → Bool) (a : Ask) (on : Option (List Field)) (h : Sound b.lang a on) :
    ∃ m : Core, m.cols = a.cols.map Field.col ∧ m.order = a.order.map Sorting.key ∧ (∀ C T, m.rows C T = a.answer C T) ∧
      ∀ limit offset, Allowed b.lang limit offset →
        (ownSQL (query b raw a on limit offset)).status = .ok ∧
        readDistinct b.lang (ownSQL (query b raw a on limit offset)).args (ownSQL (query b raw a on limit offset)).query =
          some (on.map (·.map Field.col), ⟨m, limit, offset⟩) :=
  distinct_reads b raw a on h

section RoundTrip
open Sq.Sending Sq.Fetching.Spec Sq.Spec.Send

variable {Ctx V : Type}

theorem agree_cols (same : Scalar → Scalar → Bool) (fs : List Field) : agreeCols same (fs.map Field.col) = agree same fs := by
  funext w v
  unfold agreeCols agree
  rw [List.all_map]
  rfl

/-- **C87 (partial).** On a database that reads `SELECT DISTINCT` as SQL does there is one arrangement `all` of records asked for, in the order asked for, that
holds exactly one record of each combination of the selected columns (with `DistinctOn`: of the fields given there, and one before which no other of that
combination comes in the order asked for), such that fetching with a row mapper gives, for every LIMIT and OFFSET, that page of it.  For every contents of the
tables, number and kinds of joins, nesting of And, Or and Not, values and notion of sameness.  Missing: as in `C81_reads_partial`. -/
theorem C87_fetched_partial (D : Database) (T : D.State → Tables) (C : Compare) (O : Order) (same : Scalar → Scalar → Bool) (b : Builder)
    (arrange : D.State → Option (List Sel.Col) → Core → List World) (hD : Understands D T C O same b.lang arrange)
    (raw : Field → Bool) (a : Ask) (on : Option (List Field)) (h : Sound b.lang a on)
    (s : D.State) (source : Logging.LogSource) (hs : source.Usable) (o : Outside V) (ctx : Ctx) (zero : Fetching.Kind → V)
    (conv : Fetching.Kind → Scalar → Option V) (get : Fetching.Kind → Scalar → V) (kind : Field → Fetching.Kind)
    (hconv : ∀ w ∈ a.answer C (T s), ∀ c ∈ a.cols, conv (kind c) (c.value w) = some (get (kind c) (c.value w))) :
    ∃ all : List World, OneOfEach (agree same (fieldsOf a on)) (earlier O (a.order.map Sorting.key)) (a.answer C (T s)) all ∧
      Sorted O (a.order.map Sorting.key) all ∧
      ∀ limit offset, Allowed b.lang limit offset →
        let f := fetch o (D.conn source s Ctx) (fromQuery b raw a on limit offset) zero conv (readsFields raw kind a.cols) ctx []
        f.fin = .ok ∧ f.count = (page limit offset all).length ∧
          f.trace = (page limit offset all).map fun w => a.cols.map fun c => get (kind c) (c.value w) := by
  obtain ⟨m, m1, m2, m3, m4⟩ := distinct_reads b raw a on h
  have heach := hD.each s (on.map (·.map Field.col)) m
  rw [m3, m2, m1, show (on.map (·.map Field.col)).getD (a.cols.map Field.col) = (fieldsOf a on).map Field.col by cases on <;> rfl, agree_cols] at heach
  refine ⟨arrange s (on.map (·.map Field.col)) m, heach, m2 ▸ hD.sorted s _ m, fun limit offset hal => ?_⟩
  intro f
  obtain ⟨r1, r2⟩ := m4 limit offset hal
  have hd : queryDialect (query b raw a on limit offset) = b.lang.dialect := by rw [query_node]; rfl
  have hw := fetch_worlds D s source hs o zero conv get raw kind a.cols h.ask.some ctx (fromQuery b raw a on limit offset) (query b raw a on limit offset) b.lang.dialect
    (by rw [fromQuery_node]; rfl) (by rw [fromQuery_node]; trivial) (by rw [fromQuery_node, query_node]; exact .select ..)
    (by unfold ownSQL at r1; rw [hd] at r1; exact r1) (page limit offset (arrange s (on.map (·.map Field.col)) m))
    (by
      unfold ownSQL at r2
      rw [hd] at r2
      rw [hD.select s _ _ _ _ r2, m1]
      simp only [List.map_map]
      rfl)
    (fun w hw c hc => hconv w (heach.among w (mem_page hw)) c hc)
  exact ⟨hw.1, hw.2.1, hw.2.2.1⟩

/-- **C87 (partial), nothing twice.** With `SelectDistinct` no two of the rows that the mapper sees have the same values in all columns, and each combination that
is there is seen: the rows fetched are, as a set, the rows that the same question without DISTINCT has.  Missing: as in `C81_reads_partial`. -/
theorem C87_once_partial (D : Database) (T : D.State → Tables) (C : Compare) (O : Order) (b : Builder)
    (arrange : D.State → Option (List Sel.Col) → Core → List World) (hD : Understands D T C O (fun x y => decide (x = y)) b.lang arrange)
    (raw : Field → Bool) (a : Ask) (h : Sound b.lang a none)
    (s : D.State) (source : Logging.LogSource) (hs : source.Usable) (o : Outside Scalar) (ctx : Ctx) (zero : Fetching.Kind → Scalar) (kind : Field → Fetching.Kind) :
    let f := fetch o (D.conn source s Ctx) (fromQuery b raw a none none none) zero (fun _ v => some v) (readsFields raw kind a.cols) ctx []
    f.fin = .ok ∧ f.trace.Nodup ∧ ∀ row, row ∈ f.trace ↔ row ∈ (a.answer C (T s)).map fun w => a.cols.map (Field.value w) := by
  intro f
  obtain ⟨all, h1, _, h3⟩ := C87_fetched_partial D T C O _ b arrange hD raw a none h s source hs o ctx zero (fun _ v => some v) (fun _ v => v) kind (fun _ _ _ _ => rfl)
  obtain ⟨f1, _, f3⟩ := h3 none none (fun e => absurd rfl e)
  have ht : f.trace = all.map fun w => a.cols.map (Field.value w) := f3
  have hag : ∀ w v, agree (fun x y => decide (x = y)) (fieldsOf a none) w v = true ↔ a.cols.map (Field.value w) = a.cols.map (Field.value v) := by
    intro w v
    show (a.cols.all fun c => decide (c.value w = c.value v)) = true ↔ _
    rw [List.all_eq_true]
    constructor
    · intro e
      exact List.map_congr_left fun c hc => of_decide_eq_true (e c hc)
    · intro e c hc
      exact decide_eq_true (List.map_inj_left.1 e c hc)
  refine ⟨f1, ?_, fun row => ?_⟩
  · rw [ht]
    unfold List.Nodup
    rw [List.pairwise_map]
    refine h1.once.imp fun {w v} e e' => ?_
    rw [(hag w v).2 e'] at e
    cases e
  · rw [ht]
    constructor
    · intro hr
      obtain ⟨w, hw, rfl⟩ := List.mem_map.1 hr
      exact List.mem_map_of_mem (h1.among w hw)
    · intro hr
      obtain ⟨w, hw, rfl⟩ := List.mem_map.1 hr
      obtain ⟨v, hv, e, _⟩ := h1.all w hw
      rw [← (hag v w).1 e]
      exact List.mem_map_of_mem hv

/-! ### A database that reads such statements -/

/-- The first of each. -/
def firsts (alike : World → World → Bool) : List World → List World
  | [] => []
  | x :: xs => x :: (firsts alike xs).filter fun y => !alike x y

theorem firsts_sub (alike : World → World → Bool) (xs : List World) : (firsts alike xs).Sublist xs := by
  induction xs with
  | nil => exact .slnil
  | cons x xs ih => exact (List.filter_sublist.trans ih).cons_cons x

theorem firsts_each (alike before : World → World → Bool) (refl : ∀ w, alike w w = true) (trans : ∀ u v w, alike u v = true → alike v w = true → alike u w = true)
    (irrefl : ∀ w, before w w = false) (xs : List World) (hs : xs.Pairwise fun w v => before v w = false) : OneOfEach alike before xs (firsts alike xs) := by
  induction xs with
  | nil => exact ⟨by simp [firsts], .nil, by simp⟩
  | cons x xs ih =>
    obtain ⟨h1, h2⟩ := List.pairwise_cons.1 hs
    have ih := ih h2
    refine ⟨fun w hw => (firsts_sub alike (x :: xs)).mem hw, ?_, fun r hr => ?_⟩
    · refine List.pairwise_cons.2 ⟨fun y hy => ?_, ih.once.sublist List.filter_sublist⟩
      simpa using (List.mem_filter.1 hy).2
    · rcases List.mem_cons.1 hr with rfl | hr
      · exact ⟨r, List.mem_cons_self .., refl r, irrefl r⟩
      · obtain ⟨w, hw, e1, e2⟩ := ih.all r hr
        cases hx : alike x w with
        | true => exact ⟨x, List.mem_cons_self .., trans _ _ _ hx e1, h1 r hr⟩
        | false => exact ⟨w, List.mem_cons_of_mem _ (List.mem_filter.2 ⟨hw, by simp [hx]⟩), e1, e2⟩

def arrangedD (C : Compare) (O : Order) (s : Tables) (on : Option (List Sel.Col)) (m : Core) : List World :=
  firsts (agreeCols (fun x y => decide (x = y)) (on.getD m.cols)) (arranged (earlier O m.order) (m.rows C s))

/-- Tables in memory. -/
def memoryD (C : Compare) (O : Order) (l : Lang) : Database :=
  { State := Tables
    exec := fun _ _ s => (s, 0, 0)
    query := fun text args s =>
      match readDistinct l args text with
      | some (on, m) => (page m.limit m.offset (arrangedD C O s on m.core)).map fun w : World => m.core.cols.map (World.at w)
      | none => []
    rows := fun _ => []
    eq := fun x y => decide (x = y) }

theorem each_perm {alike before : World → World → Bool} {rows rows' ws : List World} (hp : ∀ w, w ∈ rows ↔ w ∈ rows') (h : OneOfEach alike before rows ws) :
    OneOfEach alike before rows' ws :=
  ⟨fun w hw => (hp w).1 (h.among w hw), h.once, fun r hr => h.all r ((hp r).2 hr)⟩

/-- The hypotheses of the theorems are met. -/
theorem memoryD_understands (C : Compare) (O : Order) (h : Weak O) (l : Lang) :
    Understands (memoryD C O l) id C O (fun x y => decide (x = y)) l (arrangedD C O) where
  each := fun s on m => by
    have hw := earlier_weak h m.order
    refine each_perm (fun w => (arranged_perm (earlier O m.order) (m.rows C s)).mem_iff) (firsts_each _ _ (fun w => ?_) (fun u v w e1 e2 => ?_) (fun w => ?_) _ ?_)
    · simp [agreeCols]
    · simp only [agreeCols, List.all_eq_true, decide_eq_true_eq] at e1 e2 ⊢
      exact fun c hc => (e1 c hc).trans (e2 c hc)
    · cases e : earlier O m.order w w with
      | false => rfl
      | true => exact absurd (hw.1 _ _ e) (by rw [e]; simp)
    · exact arranged_sorted h m.order (m.rows C s)
  sorted := fun s on m => (arranged_sorted h m.order (m.rows C s)).sublist (firsts_sub _ _)
  select := fun s text args on m hm => by
    show (match readDistinct l args text with
      | some (on, m) => (page m.limit m.offset (arrangedD C O s on m.core)).map fun w : World => m.core.cols.map (World.at w)
      | none => []) = _
    rw [hm]

/-! ### Questions -/

/-- The totals of the orders of users of unknown age or of at least 7. -/
def someTotals : Ask := { someAsk with cols := [orderTotal], order := [⟨orderTotal, some true, some false⟩] }
/-- The largest order of each of these users. -/
def largest : Ask := { someAsk with order := [⟨userId, none, none⟩, ⟨orderTotal, some true, some false⟩] }

theorem someTotals_sound : Sound .postgres someTotals none where
  ask :=
    { some := by simp [someTotals]
      cols := fun c hc => someAsk_sound.cols c (by
        simp only [someTotals, List.mem_cons, List.not_mem_nil, or_false] at hc
        simp [someAsk, hc])
      tab := someAsk_sound.tab
      joins := someAsk_sound.joins
      conds := someAsk_sound.conds
      order := fun k hk => someAsk_sound.order k (by
        simp only [someTotals, List.mem_cons, List.not_mem_nil, or_false] at hk
        simp [someAsk, hk]) }
  order := by decide +kernel
  on := fun _ h => nomatch h

theorem largest_sound : Sound .postgres largest (some [userId]) where
  ask :=
    { some := by simp [largest, someAsk]
      cols := someAsk_sound.cols
      tab := someAsk_sound.tab
      joins := someAsk_sound.joins
      conds := someAsk_sound.conds
      order := fun k hk => someAsk_sound.order k (by
        simp only [largest, List.mem_cons, List.not_mem_nil, or_false] at hk
        rcases hk with rfl | rfl <;> simp [someAsk]) }
  order := fun h => nomatch h
  on := by
    rintro fs ⟨⟩
    refine ⟨rfl, by simp, fun c hc => ?_, by decide +kernel⟩
    rw [List.mem_singleton.1 hc]
    exact someAsk_sound.cols userId (by simp [someAsk])

def fetchedD (a : Ask) (on : Option (List Field)) (limit offset : Option Nat) : List (List Scalar) :=
  (fetch outside ((memoryD plainCompare numbers .postgres).conn .noLogger shop Unit)
    (fromQuery { lang := .postgres, env := none } (fun _ => false) a on limit offset) (fun _ => Scalar.nil) (fun _ v => some v)
    (readsFields (fun _ => false) (fun _ => .custom 0) a.cols) () []).trace

example : (ownSQL (query { lang := .postgres, env := none } (fun _ => false) largest (some [userId]) (some 3) none)).query =
    "SELECT DISTINCT ON (u.id) u.id, o.total FROM users AS u LEFT JOIN shop.orders AS o ON o.user_id = u.id WHERE u.age >= $1 OR u.age IS NULL ORDER BY u.id, o.total DESC NULLS LAST LIMIT $2".toList := by
  decide +kernel
example : fetchedD someTotals none none none = [[.int 80], [.int 50], [.nil]] ∧ fetchedD someTotals none (some 1) (some 1) = [[.int 50]] ∧
    fetchedD largest (some [userId]) none none = [[.int 2, .int 80], [.int 3, .int 80], [.int 4, .nil]] := by decide +kernel

/-- **C87 (violated).** A negated group alone in WHERE: `Where(Not(Or(a, b)))` is sent as `WHERE NOT a OR b`, so `SelectDistinct` fetches a combination that is not
asked for. -/
theorem C87_negated_violated :
    let a : Ask :=
      { cols := [userAge], tab := users, joins := [],
        conds := [.group true true [.test false (.cmp .lt userAge (.val (.int 7))), .test false (.cmp .ge userAge (.val (.int 9)))]], order := [] }
    Understands (memoryD plainCompare numbers .postgres) id plainCompare numbers (fun x y => decide (x = y)) .postgres (arrangedD plainCompare numbers) ∧
    [Scalar.int 9] ∉ (a.answer plainCompare shop).map (fun w => a.cols.map (Field.value w)) ∧
    [Scalar.int 9] ∈ fetchedD a none none none :=
  ⟨memoryD_understands _ _ numbers_weak _, by decide +kernel, by decide +kernel⟩

/-- **C87 (violated), FetchExists.** Asking whether `From(users).SelectDistinct().OrderBy(age)` has any record is sent with the literal 1 in place of the columns, but
still as DISTINCT and still sorted by age, which is then no selected column: PostgreSQL and MySQL do not take that for a statement. -/
theorem C87_exists_violated :
    let a : Ask := { cols := [userAge], tab := users, joins := [], conds := [], order := [⟨userAge, none, none⟩] }
    Sound .postgres a none ∧
    (fetchExists outside ((memoryD plainCompare numbers .postgres).conn .noLogger shop Unit) (fromQuery { lang := .postgres, env := none } (fun _ => false) a none none none)
      (fun _ => none) ()).sent = some ((), "SELECT EXISTS (SELECT DISTINCT 1 FROM users AS u ORDER BY u.age)".toList, []) := by
  refine ⟨⟨⟨⟨named_users, trivial, .inl rfl, ?_⟩, by simp, ?_⟩, by decide +kernel, fun _ h => nomatch h⟩, by decide +kernel⟩
  · intro k hk
    rw [List.mem_singleton.1 hk]
    exact ⟨⟨by decide +kernel, by decide +kernel, readable_id.2.1⟩, fun h => nomatch h⟩
  · intro c hc
    rw [List.mem_singleton.1 hc]
    exact ⟨by decide +kernel, by decide +kernel, readable_id.2.1⟩

end RoundTrip
end Sq.Different
