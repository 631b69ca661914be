import Verif.Proof.Guard
import Verif.Props.Select
import Verif.Props.Where
/-
C84: what can be seen and removed through tables with policies (predicate hooks).
-/
namespace Sq.Guarding
open Sq Sq.Spec Sq.Chain Sq.Exprs Sq.Spec.Store Sq.Spec.Where Sq.Spec.Sel Sq.Choosing Sq.Asking
open Sq.Spec.Guard hiding supplied fromQuery deleteQuery updateQuery Sound
open Sq.Storing hiding pieces
open _root_.Spec (Tok tokens BTok BExp readBool identClose isBareIdent)

/-- **C84 (partial), the statement.** A question over tables with hooks is sent as a statement that reads these columns, has these sort keys, this LIMIT and this
OFFSET, and whose rows are in every database the answers to the question for which the policies of all its tables hold.
Missing: a question without conditions (C19_empty_where_violated), and what is missing in `C81_reads_partial`. -/
theorem C84_reads_partial (b : Builder) (raw : Field → Bool) (P : Policy) (a : Ask) (h : Guard.Sound b.lang P b.env a) :
    ∃ m : Core, m.cols = a.cols.map Field.col ∧ m.order = a.order.map Sorting.key ∧ (∀ C T, m.rows C T = permittedAnswer C T P b.env a) ∧
      ∀ limit offset, Allowed b.lang limit offset →
        (ownSQL (Guard.query b raw P a limit offset)).status = .ok ∧
        readSelect b.lang (ownSQL (Guard.query b raw P a limit offset)).args (ownSQL (Guard.query b raw P a limit offset)).query = some ⟨m, limit, offset⟩ := by
  obtain ⟨m, m1, m2, m3, m4⟩ := ask_reads b raw (plain P b.env a) (plain_sound _ P _ a h)
  refine ⟨m, by rw [m1, plain_cols], by rw [m2, plain_order], fun C T => by rw [m3, plain_answer], fun limit offset hal => ?_⟩
  have e : ownSQL (Guard.query b raw P a limit offset) = ownSQL ((plain P b.env a).query b raw limit offset) := by
    rw [query_node, Asking.query_node, plain_cols]
    exact ask_plain b raw P a _ limit offset _
  rw [e]
  exact m4 limit offset hal

section RoundTrip
open Sq.Sending Sq.Fetching.Spec Sq.Spec.Send

variable {Ctx V : Type}

/-- **C84 (partial).** Fetching through tables with hooks, on a database that reads SELECT statements as SQL does: there is one arrangement, in the order asked
for, of exactly the answers for which all policies hold, such that fetching gives, for every LIMIT and OFFSET, that page of it.  So a record that a policy
forbids is never fetched, whatever the conditions, joins and values are.  Missing: as in `C84_reads_partial`. -/
theorem C84_fetched_partial (D : Database) (T : D.State → Tables) (C : Compare) (O : Order) (b : Builder) (arrange : D.State → Core → List World)
    (hD : Sel.Understands D T C O b.lang arrange) (raw : Field → Bool) (P : Policy) (a : Ask) (h : Guard.Sound b.lang P b.env a)
    (s : D.State) (source : Logging.LogSource) (hs : source.Usable) (o : Outside V) (ctx : Ctx) (zero : Fetching.Kind → V)
    (conv : Fetching.Kind → Scalar → Option V) (get : Fetching.Kind → Scalar → V) (kind : Field → Fetching.Kind)
    (hconv : ∀ w ∈ permittedAnswer C (T s) P b.env a, ∀ c ∈ a.cols, conv (kind c) (c.value w) = some (get (kind c) (c.value w))) :
    ∃ all : List World, all.Perm (permittedAnswer C (T s) P b.env a) ∧ Sorted O (a.order.map Sorting.key) all ∧
      ∀ limit offset, Allowed b.lang limit offset →
        let f := fetch o (D.conn source s Ctx) (Guard.fromQuery b raw P a limit offset) zero conv (readsFields raw kind a.cols) ctx []
        f.fin = .ok ∧ f.count = (page limit offset all).length ∧
          f.trace = (page limit offset all).map fun w => a.cols.map fun c => get (kind c) (c.value w) := by
  obtain ⟨m, m1, m2, m3, m4⟩ := C84_reads_partial b raw P a h
  have hperm := hD.all s m
  rw [m3] at hperm
  refine ⟨arrange s m, hperm, m2 ▸ hD.sorted s m, fun limit offset hal => ?_⟩
  intro f
  obtain ⟨r1, r2⟩ := m4 limit offset hal
  have hd : queryDialect (Guard.query b raw P a limit offset) = b.lang.dialect := by rw [query_node]; rfl
  have hw := fetch_worlds D s source hs o zero conv get raw kind a.cols h.some ctx (Guard.fromQuery b raw P a limit offset) (Guard.query b raw P a limit offset)
    b.lang.dialect (by rw [fromQuery_node]; rfl) (by rw [fromQuery_node]; trivial) (by rw [fromQuery_node, query_node]; exact .select ..)
    (by unfold ownSQL at r1; rw [hd] at r1; exact r1) (page limit offset (arrange s m))
    (by
      unfold ownSQL at r2
      rw [hd] at r2
      rw [hD.select s _ _ _ r2, m1]
      simp only [List.map_map]
      rfl)
    (fun w hw c hc => hconv w (hperm.mem_iff.1 (mem_page hw)) c hc)
  exact ⟨hw.1, hw.2.1, hw.2.2.1⟩

/-- **C84 (partial), as if nothing else were there.** If no table with a policy is filled up with NULLs by an outer join, these answers are exactly the ones that
the question has when nothing else is in the tables than what may be seen.  Missing: such outer joins (`C84_outer_violated`). -/
theorem C84_visible_partial (b : Builder) (P : Policy) (a : Ask) (h : Guard.Body b.lang P b.env a) (hp : Placed P b.env [a.tab] a.joins) (C : Compare) (T : Tables) :
    permittedAnswer C T P b.env a = Guard.answer C T P b.env a :=
  permitted_answer b.lang P b.env a h.joins hp C T

/-- **C84 (partial), FetchExists.** It tells whether there is such an answer on the page asked for.  Missing: as in `C84_reads_partial`. -/
theorem C84_exists_partial (D : Database) (T : D.State → Tables) (C : Compare) (b : Builder) (truth : Bool → Scalar)
    (hD : AnswersExists D T C b.lang truth) (raw : Field → Bool) (P : Policy) (a : Ask) (h : Guard.Body b.lang P b.env a)
    (s : D.State) (source : Logging.LogSource) (hs : source.Usable) (o : Outside V) (ctx : Ctx)
    (conv : List Scalar → Option Bool) (hconv : ∀ x, conv [truth x] = some x) (limit offset : Option Nat) (hal : Allowed b.lang limit offset) :
    let f := fetchExists o (D.conn source s Ctx) (Guard.fromQuery b raw P a limit offset) conv ctx
    f.fin = .ok ∧ (f.exist = true ↔ ∃ w, w ∈ page limit offset (permittedAnswer C (T s) P b.env a)) := by
  obtain ⟨hl, m, m1, m2, m3⟩ := ask_parts b raw (plain P b.env a) (plain_body _ P _ a h)
  obtain ⟨p1, p2, p3⟩ := one_parts b.lang b.env
  intro f
  obtain ⟨xs, Z, ⟨o1, o2, o3⟩, z1, z2⟩ := m3 _ _ _ (by simp) p1 p2 p3 limit offset hal
  have hqd : queryDialect (Asking.askNode b raw (plain P b.env a) [.literal "1".toList []] limit offset) = b.lang.dialect := rfl
  unfold ownSQL at o1 o2 o3
  rw [hqd, ← ask_plain] at o1 o2 o3
  have hr := exists_reads z1 _ (z2 (fun labels xs => if xs = [.tok (.word "1".toList)] then some [] else columns? b.lang labels xs) [] (if_pos rfl))
  rw [← o2, ← o3] at hr
  have hans := hD s _ _ _ hr
  have h := (C75_exists_answer o (D.conn source s Ctx) (Guard.fromQuery b raw P a limit offset) _ conv ctx b.lang.dialect (by rw [fromQuery_node]; rfl)
    (by rw [fromQuery_node]; trivial) hs (by rw [fromQuery_node]; exact .inr ⟨.select .., .select ..⟩) o1).2 _ _
    (by
      show Except.ok ({ rows := D.query _ _ s } : Fetching.Rows Scalar) = _
      rw [hans]) (hconv _)
  refine ⟨h.1, ?_⟩
  rw [show f.exist = _ from h.2]
  have hrows : ({ m with cols := [] } : Core).rows C (T s) = permittedAnswer C (T s) P b.env a := (m2 C (T s)).trans (plain_answer ..)
  rw [hrows]
  cases page limit offset (permittedAnswer C (T s) P b.env a) <;> simp

/-- **C84 (partial), removing.** `DeleteFrom(table).Where(conditions...)` removes exactly the records that the policy of the table permits and the conditions
describe: what must not be seen is not removed either.  Missing: no conditions, and tables of USING (`C20_delete_using_violated`); UPDATE
(`C84_update_violated`). -/
theorem C84_removed_partial (D : Database) (C : Compare) (b : Builder) (t : Tab) (raw : Field → Bool) (P : Policy) (cols : List Str)
    (hD : Where.Understands D C b.lang t cols) (s : D.State) (source : Logging.LogSource) (hs : source.Usable) (o : Outside V) (ctx : Ctx)
    (hn : t.name ≠ []) (hl : Readable b.lang.dialect t.label) (hp : PolicySound b.lang.dialect P b.env t) (cs : List (Cond Str))
    (hf : (Cond.group false false cs).fine (P t b.env).isNone) (hc : ∀ c ∈ columns cs, Readable b.lang.dialect c) :
    let e := Sending.exec o (D.conn source s Ctx) (Guard.deleteQuery b raw P t cs) ctx
    e.fin = .ok ∧ D.rows (D.after s e.sent) = (D.rows s).filter fun r => !(permits C (P t b.env) r && described C cs r) := by
  intro e
  have hS : Choosing.Sound b.lang t (withPolicy (P t b.env) cs) := by
    cases h : P t b.env with
    | none =>
      rw [h] at hf
      exact ⟨hn, hf, hl, hc⟩
    | some c =>
      rw [h] at hf
      refine ⟨hn, ⟨fun _ => rfl, (hp c h).1, hf, trivial⟩, hl, ?_⟩
      intro x hx
      simp only [withPolicy, columns, Cond.columns, List.append_nil, List.mem_append] at hx
      rcases hx with hx | hx
      · exact (hp c h).2 x hx
      · exact hc x hx
  obtain ⟨w, x, i1, i2, i3, i4⟩ := C80_delete_partial b t (fun c => raw ⟨t, c⟩) _ hS
  have ho : ownSQL (deleteWhere b t (fun c => raw ⟨t, c⟩) (withPolicy (P t b.env) cs)) = toSQL b.lang.dialect (Guard.deleteQuery b raw P t cs) :=
    (delete_plain b raw P t cs _).symm
  rw [ho] at i1 i2 i3
  obtain ⟨e1, e2⟩ := exec_does D s source hs o ctx (Guard.deleteQuery b raw P t cs) b.lang.dialect
    (by simp only [Guard.deleteQuery, DeleteQ.node, Dial.getDialect]; rfl) i1
  rw [i2] at e2
  refine ⟨e1, ?_⟩
  rw [show D.after s e.sent = _ from e2, hD.delete s _ w x i3, chosen_described C _ x i4]
  refine List.filter_congr fun r _ => ?_
  rw [described_policy]

/-! ### A shop whose customers see their own orders only -/

/-- In the environment of customer `k` the orders are those of `k`; without environment there is no policy. -/
def own : Policy := fun t env =>
  if t.name = "orders".toList then env.map fun k => .test false (.cmp .eq "user_id".toList (.val (.int k))) else none

/-- The totals of the orders, with the user; orders of 80 or more, or of customers of age 7. -/
def totals (how : How) (conds : List (Cond Field)) : Ask :=
  { cols := [userId, orderTotal], tab := users, joins := [⟨how, orders, [.test false (.cmp .eq orderOf (.col userId))]⟩], conds := conds,
    order := [⟨userId, none, none⟩, ⟨orderTotal, none, none⟩] }
def large : List (Cond Field) := [.group true false [.test false (.cmp .ge orderTotal (.val (.int 80))), .test false (.cmp .eq userAge (.val (.int 7)))]]

def see (env : Env) (a : Ask) : List (List Scalar) :=
  (fetch outside ((Asking.memory plainCompare numbers .postgres .bool).conn .noLogger shop Unit)
    (Guard.fromQuery { lang := .postgres, env := env } (fun _ => false) own a none none) (fun _ => Scalar.nil) (fun _ v => some v)
    (readsFields (fun _ => false) (fun _ => .custom 0) a.cols) () []).trace

example : (ownSQL (Guard.query { lang := .postgres, env := some 3 } (fun _ => false) own (totals .inner large) none none)).query =
    "SELECT u.id, o.total FROM users AS u JOIN shop.orders AS o ON o.user_id = u.id WHERE o.user_id = $1 AND (o.total >= $2 OR u.age = $3) ORDER BY u.id, o.total".toList := by
  decide +kernel
example : see (some 3) (totals .inner large) = [[.int 3, .int 80]] ∧ see (some 2) (totals .inner large) = [[.int 2, .int 80]] ∧
    see none (totals .inner large) = [[.int 1, .int 99], [.int 2, .int 80], [.int 3, .int 80]] := by decide +kernel

/-- The hypotheses of the theorems are met. -/
theorem totals_sound : Guard.Sound .postgres own (some 3) (totals .inner large) ∧ Placed own (some 3) [users] (totals .inner large).joins where
  left :=
    { some := by simp [totals]
      cols := by
        intro c hc
        simp only [totals, List.mem_cons, List.not_mem_nil, or_false] at hc
        rcases hc with rfl | rfl
        · exact ⟨by decide +kernel, by decide +kernel, readable_id.1⟩
        · exact ⟨by decide +kernel, by decide +kernel, readable_these.2.2.2.2.2.1⟩
      tab := named_users
      joins := someAsk_sound.joins |> fun h => ⟨rfl, h.2.1, h.2.2.1, h.2.2.2.1, trivial⟩
      policies := by
        intro t _ c hc
        unfold own at hc
        split at hc
        · cases hc
          refine ⟨trivial, fun x hx => ?_⟩
          simp only [Cond.columns, Test.columns, Rhs.columns, List.mem_singleton] at hx
          rw [hx]
          exact readable_these.2.2.2.2.1
        · exact absurd hc (by simp)
      conds := by
        rw [if_neg (by decide +kernel)]
        refine ⟨by simp [totals, large, Cond.fine, allFine], ?_⟩
        intro c hc
        simp only [totals, large, columns, Cond.columns, Test.columns, Rhs.columns, List.append_nil, List.cons_append, List.nil_append, List.mem_cons, List.not_mem_nil,
          or_false] at hc
        rcases hc with rfl | rfl
        · exact ⟨by decide +kernel, by decide +kernel, readable_these.2.2.2.2.2.1⟩
        · exact ⟨by decide +kernel, by decide +kernel, readable_id.2.1⟩
      order := by
        intro k hk
        refine ⟨?_, fun h => nomatch h⟩
        simp only [totals, List.mem_cons, List.not_mem_nil, or_false] at hk
        rcases hk with rfl | rfl
        · exact ⟨by decide +kernel, by decide +kernel, readable_id.1⟩
        · exact ⟨by decide +kernel, by decide +kernel, readable_these.2.2.2.2.2.1⟩ }
  right := by simp [totals, Placed]

/-- **C84 (violated).** LEFT JOIN of a table with a policy: users without an order that may be seen should be there, with NULLs.  The policy stands in WHERE, behind
the join, so they are not. -/
theorem C84_outer_violated :
    let a := totals .left [.test false (.cmp .gt userId (.val (.int 2)))]
    Sel.Understands (Asking.memory plainCompare numbers .postgres .bool) id plainCompare numbers .postgres
      (fun s m => arranged (earlier numbers m.order) (m.rows plainCompare s)) ∧
    [Scalar.int 4, .nil] ∈ (Guard.answer plainCompare shop own (some 3) a).map (fun w => a.cols.map (Field.value w)) ∧
    [Scalar.int 4, .nil] ∉ see (some 3) a :=
  ⟨Asking.memory_understands _ _ numbers_weak _ _, by decide +kernel, by decide +kernel⟩

/-- **C84 (violated).** Without a condition of its own, a SELECT from a table with a policy is no SQL. -/
theorem C84_no_conditions_violated :
    let r := ownSQL (Guard.query { lang := .postgres, env := some 3 } (fun _ => false) own (totals .inner []) none none)
    r.status = .ok ∧ readSelect .postgres r.args r.query = none := by decide +kernel

/-- Customer 2 may see records of age 7 only. -/
def sameAge : Policy := fun _ env => env.map fun _ => .test false (.cmp .eq "age".toList (.val (.int 7)))

/-- **C84 (violated).** UPDATE changes records that must not be seen; DELETE leaves them alone. -/
theorem C84_update_violated :
    let D := Choosing.memory plainCompare .postgres users ["id".toList, "age".toList]
    let b : Builder := { lang := .postgres, env := some 2 }
    let cs : List (Cond Str) := [.test false (.cmp .ge "id".toList (.val (.int 1)))]
    let s : List Row := [user (.int 1) (.int 7), user (.int 2) (.int 8)]
    let u := Sending.exec outside (D.conn .noLogger s Unit) (Guard.updateQuery b (fun _ => false) sameAge users ["id".toList, "age".toList] [.int 5, .int 5] cs) ()
    let d := Sending.exec outside (D.conn .noLogger s Unit) (Guard.deleteQuery b (fun _ => false) sameAge users cs) ()
    Where.Understands D plainCompare .postgres users ["id".toList, "age".toList] ∧
    permits plainCompare (sameAge users (some 2)) (user (.int 2) (.int 8)) = false ∧
    (D.rows (D.after s u.sent)).map (fun r => ["id".toList, "age".toList].map r) = [[.int 5, .int 5], [.int 5, .int 5]] ∧
    (D.rows (D.after s d.sent)).map (fun r => ["id".toList, "age".toList].map r) = [[.int 2, .int 8]] :=
  ⟨Choosing.memory_understands _ _ _ _, by decide +kernel, by decide +kernel, by decide +kernel⟩

end RoundTrip
end Sq.Guarding
