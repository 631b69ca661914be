import Verif.Spec.Send
import Verif.Props.Stats
import Verif.Props.Chain
import Verif.Model.Examples
/-
C75: Fetch, FetchExists and Exec run the query they are given.
-/
namespace Sq.Sending
open Sq Sq.Logging Sq.Spec.Send
open Sq.Fetching (Prog Rows)
open Sq.Fetching.Spec (calls register visit Shows)

variable {Ctx V E Raw : Type}

theorem setFetchable_iff (set : Node → List Node → Res Node) (q : Node) (fs : List Node) (ho : Own q) :
    (∀ q', Deriving.setFetchable set fs q = .ok q' ↔ WithFields q fs q') ∧
    (resErr (Deriving.setFetchable set fs q) = none ↔ ∃ q', WithFields q fs q') := by
  have h1 : ∀ q', Deriving.setFetchable set fs q = .ok q' ↔ WithFields q fs q' := by
    intro q'
    cases q with
    | select =>
      unfold Deriving.setFetchable
      constructor
      · rintro ⟨⟩; constructor
      · rintro ⟨⟩; rfl
    | insert q =>
      by_cases hd : q.dialect = .postgres ∨ q.dialect = .sqlite
      · simp only [Deriving.setFetchable]; rw [if_pos hd]
        constructor
        · rintro ⟨⟩; exact .insert _ _ _ _ _ _ _ _ _ _ _ _ _ hd
        · rintro ⟨⟩; rfl
      · simp only [Deriving.setFetchable]; rw [if_neg hd]
        exact ⟨nofun, fun h => by cases h; rename_i h; exact absurd h hd⟩
    | update q =>
      by_cases hd : q.dialect = .postgres ∨ q.dialect = .sqlite
      · simp only [Deriving.setFetchable]; rw [if_pos hd]
        constructor
        · rintro ⟨⟩; exact .update _ _ _ _ _ _ _ _ _ _ _ hd
        · rintro ⟨⟩; rfl
      · simp only [Deriving.setFetchable]; rw [if_neg hd]
        exact ⟨nofun, fun h => by cases h; rename_i h; exact absurd h hd⟩
    | delete q =>
      by_cases hd : q.dialect = .postgres ∨ q.dialect = .sqlite
      · simp only [Deriving.setFetchable]; rw [if_pos hd]
        constructor
        · rintro ⟨⟩; exact .delete _ _ _ _ _ _ _ _ _ hd
        · rintro ⟨⟩; rfl
      · simp only [Deriving.setFetchable]; rw [if_neg hd]
        exact ⟨nofun, fun h => by cases h; rename_i h; exact absurd h hd⟩
    | customQuery | vquery =>
      unfold Deriving.setFetchable
      exact ⟨nofun, nofun⟩
    | _ => exact ho.elim
  refine ⟨h1, ?_⟩
  cases h : Deriving.setFetchable set fs q with
  | ok q' => exact ⟨fun _ => ⟨q', (h1 q').1 h⟩, fun _ => rfl⟩
  | _ =>
    refine ⟨nofun, ?_⟩
    rintro ⟨q', hq'⟩
    rw [(h1 q').2 hq'] at h
    cases h

theorem not_nil {own : Node → Dialect} {q : Node} {d : Dialect} (h : Dial.getDialect own q = .ok d) : q ≠ .nil := by
  rintro rfl
  unfold Dial.getDialect at h
  cases h

theorem fetch_eq (o : Outside V) (db : Conn Ctx Raw) (q : Node) (zero : Fetching.Kind → V) (conv : Fetching.Kind → Raw → Option V)
    (mapper : List E → Prog Node V E) (ctx : Ctx) (tr : List E) (d : Dialect) (h : Dial.getDialect o.own q = .ok d) :
    fetch o db q zero conv mapper ctx tr = fetchContext (fetchWorld o db q d) zero conv mapper ctx tr := by
  have := not_nil h
  unfold fetch
  split
  · exact absurd rfl this
  · rw [h]

/-- The query `q'` rendered as `ToSQL` renders it. -/
theorem world_render (o : Outside V) (db : Conn Ctx Raw) (q q' : Node) (d : Dialect) (fs : List Node) (ho : Own q) (h : WithFields q fs q') :
    (fetchWorld o db q d).render fs = ren q' { d := d } [] := by
  unfold fetchWorld
  dsimp only
  rw [((setFetchable_iff o.setFields q fs ho).1 q').2 h]
  rfl

/-- What was sent, if anything, as far as `afterFields` goes. -/
theorem afterFields_sent (w : World Ctx Node V Raw) (zero : Fetching.Kind → V) (conv : Fetching.Kind → Raw → Option V)
    (mapper : List E → Prog Node V E) (ctx : Ctx) (r : Fetching.RowSt Node V) (tr : List E) (q : W) :
    (afterFields w zero conv mapper ctx r tr q).sent =
      match statusErr q.st with
      | some _ => none
      | none => some (ctx, textOf w.dialect q, argsOf w.dialect q) := by
  unfold afterFields
  cases statusErr q.st with
  | some e => rfl
  | none =>
    dsimp only
    split
    · rfl
    · unfold afterRows
      dsimp only
      split
      · rfl
      · split <;> rfl

/-- **C75, Fetch.** What is sent, and when.  Let the row mapper, called once to find out, read the fields `D`.  Then `Fetch` sends exactly one
statement: the text and arguments of `ToSQL`, in the query's own dialect, of the query with `D` for its SELECT or RETURNING list — if the mapper
returned, the query can be given these fields (set operations, formatted queries and, without RETURNING, INSERT, UPDATE and DELETE cannot)
and it can be rendered; and otherwise nothing. -/
theorem C75_fetch_sends (o : Outside V) (db : Conn Ctx Raw) (q : Node) (zero : Fetching.Kind → V) (conv : Fetching.Kind → Raw → Option V)
    (mapper : List E → Prog Node V E) (ctx : Ctx) (tr : List E) (d : Dialect) (hd : Dial.getDialect o.own q = .ok d) (ho : Own q)
    (hs : db.source.Usable) (D : List (Fetching.Kind × Node)) (hD : D = calls (fun k _ => zero k) false (mapper tr))
    (hh : ∀ q', WithFields q (D.map Prod.snd) q' → (toSQL d q').status ≠ .hang) (c : Ctx) (text : Str) (args : List Arg) :
    (fetch o db q zero conv mapper ctx tr).sent = some (c, text, args) ↔
      c = ctx ∧ (register zero (mapper tr) false tr).1 = .done ∧
      ∃ q', WithFields q (D.map Prod.snd) q' ∧ (toSQL d q').status = .ok ∧ text = (toSQL d q').query ∧ args = (toSQL d q').args := by
  rw [fetch_eq o db q zero conv mapper ctx tr d hd, fetchContext_usable _ zero conv mapper ctx tr hs]
  obtain ⟨r', h1, h2, h3, h4, h5⟩ := Fetching.run_passive zero (mapper tr) ({} : Fetching.RowSt Node V) tr rfl
  rw [h1]
  change _ = _ at h2
  rcases hreg : register zero (mapper tr) false tr with ⟨en, cl, t⟩
  rw [hreg] at h5
  cases en with
  | panicErr e => dsimp only; exact ⟨nofun, fun h => by simp at h⟩
  | crash => dsimp only; exact ⟨nofun, fun h => by simp at h⟩
  | done =>
    obtain ⟨hf, -⟩ := h5 rfl
    rw [List.nil_append, ← hD] at hf
    dsimp only
    rw [hf]
    obtain ⟨e1, e2⟩ := setFetchable_iff o.setFields q (D.map Prod.snd) ho
    show (match resErr (Deriving.setFetchable o.setFields (D.map Prod.snd) q) with | some e => _ | none => _ : Logging.Outcome Ctx E).sent = _ ↔ _
    cases he : resErr (Deriving.setFetchable o.setFields (D.map Prod.snd) q) with
    | some e =>
      dsimp only
      refine ⟨nofun, ?_⟩
      rintro ⟨-, -, q', hq', -⟩
      rw [e2.2 ⟨q', hq'⟩] at he
      cases he
    | none =>
      obtain ⟨q', hq'⟩ := e2.1 he
      dsimp only
      rw [afterFields_sent, world_render o db q q' d _ ho hq']
      have hst : (ren q' { d := d } []).st = (toSQL d q').status := rfl
      have huniq : ∀ q'', WithFields q (D.map Prod.snd) q'' → q'' = q' := by
        intro q'' h''
        have a := (e1 q'').2 h''
        have b := (e1 q').2 hq'
        rw [a] at b
        cases b; rfl
      rw [hst]
      constructor
      · intro h
        cases hst' : (toSQL d q').status with
        | ok =>
          rw [hst'] at h
          simp only [statusErr, Option.some.injEq, Prod.mk.injEq] at h
          exact ⟨h.1.symm, rfl, q', hq', hst', h.2.1.symm, h.2.2.symm⟩
        | hang => exact absurd hst' (hh q' hq')
        | err e => rw [hst'] at h; simp [statusErr] at h
        | panic => rw [hst'] at h; simp [statusErr] at h
      · rintro ⟨rfl, -, q'', hq'', hok, rfl, rfl⟩
        obtain rfl := huniq q'' hq''
        rw [hok]
        rfl

/-- **C75, Fetch.** A call that sends nothing does not succeed: the caller gets an error (or the mapper's own panic). -/
theorem C75_fetch_refused (o : Outside V) (db : Conn Ctx Raw) (q : Node) (zero : Fetching.Kind → V) (conv : Fetching.Kind → Raw → Option V)
    (mapper : List E → Prog Node V E) (ctx : Ctx) (tr : List E) (h : (fetch o db q zero conv mapper ctx tr).sent = none) :
    (fetch o db q zero conv mapper ctx tr).fin ≠ .ok ∧ (fetch o db q zero conv mapper ctx tr).opened = false := by
  have key : ∀ w : World Ctx Node V Raw, (fetchContext w zero conv mapper ctx tr).sent = none →
      (fetchContext w zero conv mapper ctx tr).fin ≠ .ok ∧ (fetchContext w zero conv mapper ctx tr).opened = false := by
    intro w
    have after : ∀ r t q, (afterFields w zero conv mapper ctx r t q).sent = none →
        (afterFields w zero conv mapper ctx r t q).fin ≠ .ok ∧ (afterFields w zero conv mapper ctx r t q).opened = false := by
      intro r t q h
      rw [afterFields_sent] at h
      unfold afterFields
      cases hs : statusErr q.st with
      | some e => exact ⟨nofun, rfl⟩
      | none => rw [hs] at h; cases h
    unfold fetchContext
    split
    · exact fun _ => ⟨nofun, rfl⟩
    · split
      · exact fun _ => ⟨nofun, rfl⟩
      · exact fun _ => ⟨nofun, rfl⟩
      · split
        · exact fun _ => ⟨nofun, rfl⟩
        · exact after _ _ _
  revert h
  unfold fetch
  split
  · exact fun _ => ⟨nofun, rfl⟩
  · split
    · exact key _
    · split <;> exact fun _ => ⟨nofun, rfl⟩

/-- **C75, Fetch.** What comes back.  If the database answers the statement that is sent with the rows of a table, one value for each field read
in the order they were read (`row f` is the value of field `f`), then on every row the mapper finds under each field the value of that field,
converted to the type it asked for; rows are visited in order, once each, until an error, a panic or `Close`; the row count is the number of rows
visited, and the error the first that occurred.  (`D`: the reads of the first pass; on rows the mapper must make the same reads, or stop early.) -/
theorem C75_fetch_values (o : Outside V) (db : Conn Ctx Raw) (q q' : Node) (zero : Fetching.Kind → V) (conv : Fetching.Kind → Raw → Option V)
    (mapper : List E → Prog Node V E) (ctx : Ctx) (tr tr1 : List E) (cl : Bool) (d : Dialect) (hd : Dial.getDialect o.own q = .ok d) (ho : Own q)
    (hs : db.source.Usable) (D : List (Fetching.Kind × Node)) (hD : D = calls (fun k _ => zero k) false (mapper tr)) (hne : D ≠ [])
    (hreg : register zero (mapper tr) false tr = (.done, cl, tr1))
    (hq' : WithFields q (D.map Prod.snd) q') (hok : (toSQL d q').status = .ok) (closeErr endErr : Option Str)
    (table : List ((Node → Raw) × Option (Fetching.Kind → Node → V)))
    (hans : db.query ctx (toSQL d q').query (toSQL d q').args =
      .ok { rows := table.map fun row => (D.map Prod.snd).map row.1, endErr := endErr, closeErr := closeErr })
    (hconv : ∀ row ∈ table, Shows conv D row.1 row.2)
    (hcalls : ∀ row ∈ table, ∀ val, row.2 = some val → ∀ tr, calls val true (mapper tr) <+: D) :
    let v := visit mapper tr1 cl 0 (table.map Prod.snd)
    let o' := fetch o db q zero conv mapper ctx tr
    o'.count = v.1 ∧ o'.fin = Fetching.finOf closeErr endErr v.2.1 ∧ o'.trace = v.2.2 ∧ o'.closed = true := by
  intro v o'
  have hset : (fetchWorld o db q d).setFields (D.map Prod.snd) = none :=
    (setFetchable_iff o.setFields q (D.map Prod.snd) ho).2.2 ⟨q', hq'⟩
  have hw := world_render o db q q' d _ ho hq'
  obtain ⟨r', h1, h2, h3, h4, h5⟩ := Fetching.run_passive zero (mapper tr) ({} : Fetching.RowSt Node V) tr rfl
  rw [hreg] at h1 h2 h5
  obtain ⟨hf, hdest⟩ := h5 rfl
  rw [List.nil_append, ← hD] at hf hdest
  have hst : (ren q' { d := d } []).st = .ok := hok
  have hsent : o' = afterRows (fetchWorld o db q d) zero conv mapper r' tr1 (ren q' { d := d } [])
      (some (ctx, (toSQL d q').query, (toSQL d q').args))
      { (fetchWorld o db q d).entry0 with query := (toSQL d q').query, timed := (fetchWorld o db q d).source.used.timeQuery }
      { rows := table.map fun row => (D.map Prod.snd).map row.1, endErr := endErr, closeErr := closeErr } := by
    show fetch o db q zero conv mapper ctx tr = _
    rw [fetch_eq o db q zero conv mapper ctx tr d hd, fetchContext_usable _ zero conv mapper ctx tr hs, h1]
    dsimp only
    rw [hf, hset]
    dsimp only
    rw [hw]
    unfold afterFields
    rw [hst]
    dsimp only [statusErr]
    rw [show (fetchWorld o db q d).answer ctx (textOf (fetchWorld o db q d).dialect (ren q' { d := d } []))
      (argsOf (fetchWorld o db q d).dialect (ren q' { d := d } [])) = _ from hans]
    rfl
  have hdest' : ¬ r'.dest = [] := by rw [hdest]; simpa [Fetching.filled] using hne
  have hl := Fetching.loop_visit zero conv mapper D table hconv hcalls { r' with active := true } tr1 0 rfl _ hdest h3
  have hv : v = visit mapper tr1 r'.closed 0 (table.map Prod.snd) := by rw [h2]
  replace hl := hl.trans hv.symm
  rw [hsent]
  unfold afterRows
  rw [if_neg hdest']
  generalize hx : loopR zero conv (fetchWorld o db q d).show_ mapper _ _ _ tr1 0 [] _ = x
  have hx' : (x.1, x.2.1, x.2.2.1) = v := by
    rw [← hl, ← hx]
    exact loopR_loop zero conv _ mapper _ _ _ _ tr1 0 []
  rw [← hx']
  obtain ⟨n, en, t', buf⟩ := x
  dsimp only
  cases en with
  | err e => exact ⟨rfl, rfl, rfl, rfl⟩
  | panicErr e => exact ⟨rfl, rfl, rfl, rfl⟩
  | crash => exact ⟨rfl, rfl, rfl, rfl⟩
  | exhausted =>
    refine ⟨rfl, ?_, rfl, rfl⟩
    dsimp only [Fetching.finOf]
    cases closeErr.or endErr <;> rfl
  | closedEarly =>
    refine ⟨rfl, ?_, rfl, rfl⟩
    dsimp only [Fetching.finOf]
    cases closeErr <;> rfl

/-! ### Exec -/

theorem exec_eq (o : Outside V) (db : Conn Ctx Raw) (q : Node) (ctx : Ctx) (d : Dialect) (h : Dial.getDialect o.own q = .ok d) (hs : db.source.Usable) :
    exec o db q ctx = execContext (execWorld o db q d) ctx := by
  have := not_nil h
  unfold exec
  split
  · exact absurd rfl this
  · rw [h]
    cases hsrc : db.source with
    | fails e => rw [hsrc] at hs; exact hs.elim
    | _ => rfl

/-- **C75, Exec.** One statement is sent, the text and arguments of `ToSQL` in the query's own dialect, if the query can be rendered; otherwise
nothing is, and the call fails.  The result is the database's: its error, or the number of rows it reports and, where the dialect has it, the
last id. -/
theorem C75_exec (o : Outside V) (db : Conn Ctx Raw) (q : Node) (ctx : Ctx) (d : Dialect) (hd : Dial.getDialect o.own q = .ok d)
    (hs : db.source.Usable) (hh : (toSQL d q).status ≠ .hang) :
    let r := exec o db q ctx
    ((toSQL d q).status ≠ .ok → r.sent = none ∧ r.fin ≠ .ok) ∧
    ((toSQL d q).status = .ok → r.sent = some (ctx, (toSQL d q).query, (toSQL d q).args) ∧
      match db.exec ctx (toSQL d q).query (toSQL d q).args with
      | .error e => r.fin = .err e
      | .ok (.error e, _) => r.fin = .err e
      | .ok (.ok n, last) =>
        if d = .sqlite ∨ d = .mysql then
          match last with
          | .error e => r.fin = .err e
          | .ok i => r.fin = .ok ∧ r.rowsAffected = n ∧ r.lastInsertID = i
        else r.fin = .ok ∧ r.rowsAffected = n) := by
  intro r
  have hr : r = execContext (execWorld o db q d) ctx := exec_eq o db q ctx d hd hs
  have hst : (execWorld o db q d).render.st = (toSQL d q).status := rfl
  have htext : textOf (execWorld o db q d).dialect (execWorld o db q d).render = (toSQL d q).query := rfl
  have hargs : argsOf (execWorld o db q d).dialect (execWorld o db q d).render = (toSQL d q).args := rfl
  have hans : (execWorld o db q d).answer = db.exec := rfl
  have hdia : (execWorld o db q d).dialect = d := rfl
  have hsrc : ∀ e, (execWorld o db q d).source ≠ .fails e := by
    intro e he
    have : db.source = .fails e := he
    rw [this] at hs
    exact hs
  rw [hr]
  unfold execContext
  split
  · rename_i e he; exact absurd he (hsrc e)
  · dsimp only
    rw [hst, htext, hargs, hans, hdia]
    constructor
    · intro h
      cases hs' : (toSQL d q).status with
      | ok => exact absurd hs' h
      | hang => exact absurd hs' hh
      | err e => exact ⟨rfl, nofun⟩
      | panic => exact ⟨rfl, nofun⟩
    · intro h
      rw [h]
      dsimp only
      rcases db.exec ctx (toSQL d q).query (toSQL d q).args with e | ⟨a, last⟩
      · exact ⟨rfl, rfl⟩
      · cases a with
        | error e => exact ⟨rfl, rfl⟩
        | ok n =>
          dsimp only
          split
          · rename_i hdd
            cases last with
            | error e => exact ⟨rfl, rfl⟩
            | ok i => exact ⟨rfl, rfl, rfl, rfl⟩
          · exact ⟨rfl, rfl, rfl⟩

/-! ### FetchExists -/

mutual
theorem fetchable_iff (get : Deriving.Ext) : (q : Node) → OwnFirst q → ∀ fs, Deriving.fetchable get q = .ok fs ↔ Selects q fs
  | .select _ _ _ _ _ _ _ _ _ _, _, fs => by
    simp only [Deriving.fetchable]
    exact ⟨by rintro ⟨⟩; constructor, by rintro ⟨⟩; rfl⟩
  | .insert q _ _ _ _ _ _ _ _ _ _ _, _, fs => by
    by_cases hd : q.dialect = .postgres ∨ q.dialect = .sqlite
    · simp only [Deriving.fetchable]; rw [if_pos hd]
      exact ⟨by rintro ⟨⟩; exact .insert _ _ _ _ _ _ _ _ _ _ _ _ hd, by rintro ⟨⟩; rfl⟩
    · simp only [Deriving.fetchable]; rw [if_neg hd]
      exact ⟨nofun, fun h => by cases h; rename_i h; exact absurd h hd⟩
  | .update q _ _ _ _ _ _ _ _ _, _, fs => by
    by_cases hd : q.dialect = .postgres ∨ q.dialect = .sqlite
    · simp only [Deriving.fetchable]; rw [if_pos hd]
      exact ⟨by rintro ⟨⟩; exact .update _ _ _ _ _ _ _ _ _ _ hd, by rintro ⟨⟩; rfl⟩
    · simp only [Deriving.fetchable]; rw [if_neg hd]
      exact ⟨nofun, fun h => by cases h; rename_i h; exact absurd h hd⟩
  | .delete q _ _ _ _ _ _ _, _, fs => by
    by_cases hd : q.dialect = .postgres ∨ q.dialect = .sqlite
    · simp only [Deriving.fetchable]; rw [if_pos hd]
      exact ⟨by rintro ⟨⟩; exact .delete _ _ _ _ _ _ _ _ hd, by rintro ⟨⟩; rfl⟩
    · simp only [Deriving.fetchable]; rw [if_neg hd]
      exact ⟨nofun, fun h => by cases h; rename_i h; exact absurd h hd⟩
  | .customQuery _ _ _, _, fs => by
    simp only [Deriving.fetchable]
    exact ⟨nofun, nofun⟩
  | .vquery _ _ qs, ho, fs => by
    simp only [Deriving.fetchable]
    simp only [OwnFirst] at ho
    rw [fetchableHead_iff get qs ho fs]
    constructor
    · rintro (⟨rfl, rfl⟩ | ⟨q, qs', rfl, h⟩)
      · constructor
      · exact .first _ _ _ _ _ h
    · rintro (⟨⟩ | ⟨⟩ | ⟨⟩ | ⟨⟩ | ⟨⟩ | _)
      · rename_i q qs' h; exact .inr ⟨q, qs', rfl, h⟩
      · exact .inl ⟨by first | rfl | trivial, by first | rfl | trivial⟩
  | .nil, h, _ | .scalar _, h, _ | .namedArg _ _, h, _ | .slice _ _, h, _ | .param _ _, h, _ | .field _ _ _ _, h, _ | .value _ _, h, _
  | .cpred _ _ _ _, h, _ | .vpred _ _ _ _ _, h, _ | .predCases _ _ _, h, _ | .simpleCases _ _ _ _, h, _ | .window _ _ _, h, _
  | .rowValue _, h, _ | .rowValues _, h, _ | .assign _ _, h, _ | .assigns _, h, _ | .fields _, h, _ | .table _ _ _ _ _, h, _
  | .customTable _ _, h, _ | .join _ _ _, h, _ | .cte _ _, h, _ | .subquery _ _ _, h, _ | .checkedField _ _ _, h, _ | .literal _ _, h, _
  | .ext _ _ _ _, h, _ => by simp only [OwnFirst, Own] at h
theorem fetchableHead_iff (get : Deriving.Ext) : (qs : List Node) → OwnHead qs → ∀ fs,
    Deriving.fetchableHead get qs = .ok fs ↔ (qs = [] ∧ fs = []) ∨ ∃ q qs', qs = q :: qs' ∧ Selects q fs
  | [], _, fs => by
    simp only [Deriving.fetchableHead]
    constructor
    · rintro ⟨⟩; exact .inl ⟨by first | rfl | trivial, rfl⟩
    · rintro (⟨-, rfl⟩ | ⟨_, _, h, _⟩)
      · rfl
      · cases h
  | q :: qs, ho, fs => by
    simp only [Deriving.fetchableHead]
    simp only [OwnHead] at ho
    rw [fetchable_iff get q ho fs]
    constructor
    · exact fun h => .inr ⟨q, qs, rfl, h⟩
    · rintro (⟨h, -⟩ | ⟨_, _, h, h'⟩)
      · cases h
      · cases h; exact h'
end

mutual
theorem fetchable_no_panic (get : Deriving.Ext) : (q : Node) → OwnFirst q → Deriving.fetchable get q ≠ .panic
  | .select _ _ _ _ _ _ _ _ _ _, _ => by simp [Deriving.fetchable]
  | .insert q _ _ _ _ _ _ _ _ _ _ _, _ => by simp only [Deriving.fetchable]; split <;> simp
  | .update q _ _ _ _ _ _ _ _ _, _ => by simp only [Deriving.fetchable]; split <;> simp
  | .delete q _ _ _ _ _ _ _, _ => by simp only [Deriving.fetchable]; split <;> simp
  | .customQuery _ _ _, _ => by simp [Deriving.fetchable]
  | .vquery _ _ qs, ho => by
    simp only [Deriving.fetchable]
    exact fetchableHead_no_panic get qs (by simpa only [OwnFirst] using ho)
  | .nil, h | .scalar _, h | .namedArg _ _, h | .slice _ _, h | .param _ _, h | .field _ _ _ _, h | .value _ _, h
  | .cpred _ _ _ _, h | .vpred _ _ _ _ _, h | .predCases _ _ _, h | .simpleCases _ _ _ _, h | .window _ _ _, h
  | .rowValue _, h | .rowValues _, h | .assign _ _, h | .assigns _, h | .fields _, h | .table _ _ _ _ _, h
  | .customTable _ _, h | .join _ _ _, h | .cte _ _, h | .subquery _ _ _, h | .checkedField _ _ _, h | .literal _ _, h
  | .ext _ _ _ _, h => by simp only [OwnFirst, Own] at h
theorem fetchableHead_no_panic (get : Deriving.Ext) : (qs : List Node) → OwnHead qs → Deriving.fetchableHead get qs ≠ .panic
  | [], _ => by simp [Deriving.fetchableHead]
  | q :: qs, ho => by
    simp only [Deriving.fetchableHead]
    exact fetchable_no_panic get q (by simpa only [OwnHead] using ho)
end

theorem setFetchable_no_panic (set : Node → List Node → Res Node) (fs : List Node) (q : Node) (ho : Own q) : Deriving.setFetchable set fs q ≠ .panic := by
  cases q <;> simp only [Own] at ho <;> simp only [Deriving.setFetchable] <;> first | (split <;> simp) | simp

theorem own_of_first {q : Node} (h : OwnFirst q) : Own q := by
  cases q <;> simp_all [OwnFirst, Own]

theorem existsQuery_iff (o : Outside V) (q : Node) (ho : OwnFirst q) :
    (∀ q', existsQuery o q = .ok q' ↔ Asked q q') ∧ (resErr (existsQuery o q) = none ↔ ∃ q', Asked q q') ∧ existsQuery o q ≠ .panic ∧
    ∀ q' q'', Asked q q' → Asked q q'' → q' = q'' := by
  have hf := fetchable_iff o.getFields q ho
  have hset := (setFetchable_iff o.setFields q [.literal "1".toList []] (own_of_first ho)).1
  have h1 : ∀ q', existsQuery o q = .ok q' ↔ Asked q q' := by
    intro q'
    unfold existsQuery Asked
    cases he : Deriving.fetchable o.getFields q with
    | ok fs =>
      have hs := (hf fs).1 he
      have huniq : ∀ gs, Selects q gs → gs = fs := by
        intro gs hg
        have := (hf gs).2 hg
        rw [he] at this
        cases this; rfl
      rw [Res.bind_ok]
      cases fs with
      | nil =>
        rw [if_pos rfl, hset q']
        constructor
        · exact fun h => .inr ⟨hs, h⟩
        · rintro (⟨f, fs, h, -⟩ | ⟨-, h⟩)
          · cases huniq _ h
          · exact h
      | cons f fs =>
        rw [if_neg (by simp)]
        constructor
        · rintro ⟨⟩; exact .inl ⟨f, fs, hs, rfl⟩
        · rintro (⟨_, _, -, rfl⟩ | ⟨h, -⟩)
          · rfl
          · cases huniq _ h
    | _ =>
      constructor
      · exact nofun
      · rintro (⟨f, fs, h, -⟩ | ⟨h, -⟩) <;>
        · have := (hf _).2 h
          rw [he] at this
          cases this
  refine ⟨h1, ?_, ?_, ?_⟩
  · cases h : existsQuery o q with
    | ok q' => exact ⟨fun _ => ⟨q', (h1 q').1 h⟩, fun _ => rfl⟩
    | _ =>
      refine ⟨nofun, ?_⟩
      rintro ⟨q', hq'⟩
      rw [(h1 q').2 hq'] at h
      cases h
  · unfold existsQuery
    cases he : Deriving.fetchable o.getFields q with
    | ok fs =>
      rw [Res.bind_ok]
      split
      · exact setFetchable_no_panic o.setFields _ q (own_of_first ho)
      · exact nofun
    | panic => exact absurd he (fetchable_no_panic o.getFields q ho)
    | _ => exact nofun
  · intro q' q'' a b
    have ha := (h1 q').2 a
    rw [(h1 q'').2 b] at ha
    cases ha; rfl

/-- **C75, FetchExists.** One statement is sent: `SELECT EXISTS (` the query `)`, with the text and arguments of `ToSQL` in the query's own dialect;
the query is the one given, with `1` for its fields if it has none.  If it cannot be asked (a formatted query, an INSERT, UPDATE or DELETE without
RETURNING, an empty set operation), or cannot be rendered, nothing is sent and the call fails. -/
theorem C75_exists_sends (o : Outside V) (db : Conn Ctx Raw) (q : Node) (conv : List Raw → Option Bool) (ctx : Ctx) (d : Dialect)
    (hd : Dial.getDialect o.own q = .ok d) (ho : OwnFirst q) (hs : db.source.Usable) (hh : ∀ q', Asked q q' → (toSQL d q').status ≠ .hang)
    (c : Ctx) (text : Str) (args : List Arg) :
    ((fetchExists o db q conv ctx).sent = some (c, text, args) ↔
      c = ctx ∧ ∃ q', Asked q q' ∧ (toSQL d q').status = .ok ∧ text = "SELECT EXISTS (".toList ++ (toSQL d q').query ++ ")".toList ∧
        args = (toSQL d q').args) ∧
    ((fetchExists o db q conv ctx).sent = none → (fetchExists o db q conv ctx).fin ≠ .ok) := by
  obtain ⟨h1, h2, h3, h4⟩ := existsQuery_iff o q ho
  have heq : fetchExists o db q conv ctx = fetchExistsContext (existsWorld o db q d) conv ctx := by
    have := not_nil hd
    unfold fetchExists
    split
    · exact absurd rfl this
    · rw [hd]
      cases hsrc : db.source with
      | fails e => rw [hsrc] at hs; exact hs.elim
      | _ =>
        dsimp only
        split
        · rename_i h; exact absurd h h3
        · rfl
  have hsrc : ∀ e, (existsWorld o db q d).source ≠ .fails e := by
    intro e he
    have : db.source = .fails e := he
    rw [this] at hs
    exact hs
  rw [heq]
  unfold fetchExistsContext
  split
  · rename_i e he; exact absurd he (hsrc e)
  · rw [show (existsWorld o db q d).early = resErr (existsQuery o q) from rfl]
    cases he : resErr (existsQuery o q) with
    | some e =>
      dsimp only
      refine ⟨⟨nofun, ?_⟩, fun _ => nofun⟩
      rintro ⟨-, q', hq', -⟩
      rw [h2.2 ⟨q', hq'⟩] at he
      cases he
    | none =>
      obtain ⟨q', hq'⟩ := h2.1 he
      have hren : (existsWorld o db q d).render = ren q' { d := d } [] := by
        unfold existsWorld
        dsimp only
        rw [(h1 q').2 hq']
        rfl
      have hst : (ren q' { d := d } []).st = (toSQL d q').status := rfl
      have htext : textOf (existsWorld o db q d).dialect (ren q' { d := d } []) = (toSQL d q').query := rfl
      have hargs : argsOf (existsWorld o db q d).dialect (ren q' { d := d } []) = (toSQL d q').args := rfl
      dsimp only
      rw [hren, hst, htext, hargs]
      cases hst' : (toSQL d q').status with
      | err e =>
        dsimp only
        refine ⟨⟨nofun, ?_⟩, fun _ => nofun⟩
        rintro ⟨-, q'', hq'', hok, -⟩
        rw [← h4 q' q'' hq' hq'', hst'] at hok
        cases hok
      | panic =>
        dsimp only
        refine ⟨⟨nofun, ?_⟩, fun _ => nofun⟩
        rintro ⟨-, q'', hq'', hok, -⟩
        rw [← h4 q' q'' hq' hq'', hst'] at hok
        cases hok
      | hang => exact absurd hst' (hh q' hq')
      | ok =>
        dsimp only
        generalize (existsWorld o db q d).answer ctx _ _ = ans
        have fin : ∀ r : ExistsOutcome Ctx, r.sent = some (ctx, "SELECT EXISTS (".toList ++ (toSQL d q').query ++ ")".toList, (toSQL d q').args) →
            (r.sent = some (c, text, args) ↔ c = ctx ∧ ∃ q', Asked q q' ∧ (toSQL d q').status = .ok ∧
              text = "SELECT EXISTS (".toList ++ (toSQL d q').query ++ ")".toList ∧ args = (toSQL d q').args) ∧ (r.sent = none → r.fin ≠ .ok) := by
          intro r hr
          rw [hr]
          refine ⟨?_, nofun⟩
          constructor
          · intro h
            simp only [Option.some.injEq, Prod.mk.injEq] at h
            exact ⟨h.1.symm, q', hq', hst', h.2.1.symm, h.2.2.symm⟩
          · rintro ⟨rfl, q'', hq'', -, rfl, rfl⟩
            rw [h4 q' q'' hq' hq'']
        apply fin
        split
        · rfl
        · split
          · rfl
          · split <;> rfl

/-- **C75, FetchExists.** What comes back: the database's error, or the truth value in the one row it answers with. -/
theorem C75_exists_answer (o : Outside V) (db : Conn Ctx Raw) (q q' : Node) (conv : List Raw → Option Bool) (ctx : Ctx) (d : Dialect)
    (hd : Dial.getDialect o.own q = .ok d) (ho : OwnFirst q) (hs : db.source.Usable) (hq' : Asked q q') (hok : (toSQL d q').status = .ok) :
    (∀ e, db.query ctx ("SELECT EXISTS (".toList ++ (toSQL d q').query ++ ")".toList) (toSQL d q').args = .error e →
      (fetchExists o db q conv ctx).fin = .err e) ∧
    (∀ row b, db.query ctx ("SELECT EXISTS (".toList ++ (toSQL d q').query ++ ")".toList) (toSQL d q').args = .ok { rows := [row] } →
      conv row = some b → (fetchExists o db q conv ctx).fin = .ok ∧ (fetchExists o db q conv ctx).exist = b) := by
  obtain ⟨h1, h2, h3, h4⟩ := existsQuery_iff o q ho
  have heq : fetchExists o db q conv ctx = fetchExistsContext (existsWorld o db q d) conv ctx := by
    have := not_nil hd
    unfold fetchExists
    split
    · exact absurd rfl this
    · rw [hd]
      cases hsrc : db.source with
      | fails e => rw [hsrc] at hs; exact hs.elim
      | _ =>
        dsimp only
        split
        · rename_i h; exact absurd h h3
        · rfl
  have hsrc : ∀ e, (existsWorld o db q d).source ≠ .fails e := by
    intro e he
    have : db.source = .fails e := he
    rw [this] at hs
    exact hs
  have hren : (existsWorld o db q d).render = ren q' { d := d } [] := by
    unfold existsWorld
    dsimp only
    rw [(h1 q').2 hq']
    rfl
  have hst : (ren q' { d := d } []).st = .ok := hok
  have htext : textOf (existsWorld o db q d).dialect (ren q' { d := d } []) = (toSQL d q').query := rfl
  have hargs : argsOf (existsWorld o db q d).dialect (ren q' { d := d } []) = (toSQL d q').args := rfl
  have hearly : (existsWorld o db q d).early = none := h2.2 ⟨q', hq'⟩
  have hans : (existsWorld o db q d).answer = db.query := rfl
  rw [heq]
  unfold fetchExistsContext
  split
  · rename_i e he; exact absurd he (hsrc e)
  · rw [hearly]
    dsimp only
    rw [hren, hst, htext, hargs, hans]
    dsimp only
    refine ⟨?_, ?_⟩
    · intro e he
      rw [he]
      rfl
    · intro row b he hb
      rw [he]
      dsimp only
      rw [hb]
      exact ⟨rfl, rfl⟩

/-- **C75, builders.** Fetching from a chain of builder calls that make a SELECT: the statement sent is that of the query with the clauses the calls
asked for (C61), the fields the mapper reads for its SELECT list, in the dialect of the builder. -/
theorem C75_fetch_chain (o : Outside V) (db : Conn Ctx Raw) (b : Chain.Builder) (s : Chain.SelectStart) (cs : List Chain.SelectCall)
    (zero : Fetching.Kind → V) (conv : Fetching.Kind → Raw → Option V) (mapper : List E → Prog Node V E) (ctx : Ctx) (tr : List E)
    (hs : db.source.Usable) (D : List (Fetching.Kind × Node)) (hD : D = calls (fun k _ => zero k) false (mapper tr))
    (hreg : (register zero (mapper tr) false tr).1 = .done) (q' : Node)
    (hq' : WithFields (_root_.Spec.Chain.selectAsked b (_root_.Spec.Chain.opening s :: cs)) (D.map Prod.snd) q') (hok : (toSQL b.lang.dialect q').status = .ok) :
    (fetch o db (Chain.select b s cs).node zero conv mapper ctx tr).sent =
      some (ctx, (toSQL b.lang.dialect q').query, (toSQL b.lang.dialect q').args) := by
  rw [← Chains.C61_select] at hq'
  have hdia : Dial.getDialect o.own (Chain.select b s cs).node = .ok b.lang.dialect := by
    rw [Chains.C61_select]
    unfold _root_.Spec.Chain.selectAsked
    simp only [Dial.getDialect]
  have huniq : ∀ q'', WithFields (Chain.select b s cs).node (D.map Prod.snd) q'' → q'' = q' := by
    intro q'' h''
    have hown : Own (Chain.select b s cs).node := by
      rw [Chains.C61_select]; unfold _root_.Spec.Chain.selectAsked; trivial
    have e1 := (setFetchable_iff o.setFields _ (D.map Prod.snd) hown).1
    have a := (e1 q'').2 h''
    rw [(e1 q').2 hq'] at a
    cases a; rfl
  have hown : Own (Chain.select b s cs).node := by
    rw [Chains.C61_select]; unfold _root_.Spec.Chain.selectAsked; trivial
  rw [C75_fetch_sends o db _ zero conv mapper ctx tr _ hdia hown hs D hD (by
    intro q'' h''
    rw [huniq q'' h'', hok]
    exact nofun)]
  exact ⟨rfl, hreg, q', hq', hok, rfl, rfl⟩

/-! ### An example -/

namespace Example

/-- `SELECT ... FROM users AS u WHERE u.id = 7`, with a field to be replaced. -/
def query : Node :=
  .select { dialect := .postgres } [] [Ex.col "u" "old"] [] Ex.users [] (Ex.andp [Ex.eqInt (Ex.col "u" "id") 7]) [] (Ex.andp []) []

/-- Reads a name and an age, and notes both. -/
def mapper (_ : List Str) : Prog Node Str Str :=
  .read .string (Ex.col "u" "name") fun n => .read .int64 (Ex.col "u" "age") fun a => .process [n ++ ":".toList ++ a] false none .ret

/-- Answers the statement that should be sent with two rows, and refuses any other. -/
def db : Conn Unit Str :=
  { source := .noLogger
    query := fun _ text args =>
      if text = "SELECT u.name, u.age FROM users AS u WHERE u.id = $1".toList ∧ args = [.val (.int 7)] then
        .ok { rows := [["ann".toList, "31".toList], ["bob".toList, "32".toList]] }
      else if text = "SELECT EXISTS (SELECT u.old FROM users AS u WHERE u.id = $1)".toList ∧ args = [.val (.int 7)] then .ok { rows := [["t".toList]] }
      else .error "no such statement".toList
    exec := fun _ text _ => if text = "SELECT u.old FROM users AS u WHERE u.id = $1".toList then .ok (.ok 2, .error [])
      else .error "no such statement".toList }

def outside : Outside Str :=
  { value := { verb := .select, goType := some .postgres, env := 0 }, own := fun _ => .other, getFields := fun _ => .err [], setFields := fun _ _ => .err []
    name := fun _ => ([], .ok []), show_ := fun v => .ok v }

theorem C75_applies :
    (let r := fetch outside db query (fun _ => []) (fun _ v => some v) mapper () []
     r.count = 2 ∧ r.fin = .ok ∧ r.trace = ["ann:31".toList, "bob:32".toList]) ∧
    (let r := fetchExists outside db query (fun row => some (row = ["t".toList])) ()
     r.fin = .ok ∧ r.exist = true) ∧
    (exec outside db query ()).rowsAffected = 2 := by
  decide +kernel

/-- The hypotheses of the theorems hold of it. -/
example : Dial.getDialect outside.own query = .ok .postgres ∧ Own query ∧ OwnFirst query ∧ db.source.Usable ∧
    calls (fun _ _ => []) false (mapper []) = [(.string, Ex.col "u" "name"), (.int64, Ex.col "u" "age")] ∧
    register (fun _ => []) (mapper []) false [] = (.done, false, []) ∧ Asked query query :=
  ⟨by simp only [query, Dial.getDialect], trivial, by simp only [query, OwnFirst, Own], trivial, rfl, rfl, .inl ⟨_, _, .select .., rfl⟩⟩

/-- A set operation cannot be fetched from: the call fails, and nothing is sent. -/
example (c : Unit × Str × List Arg) :
    (fetch outside db (Dial.union [query, query]) (fun _ => []) (fun _ v => some v) mapper () []).sent ≠ some c := by
  obtain ⟨c, t, a⟩ := c
  intro h
  have hd : Dial.getDialect outside.own (Dial.union [query, query]) = .ok .postgres := by
    simp only [Dial.union, query, Dial.getDialect, Dial.headDialect]
  obtain ⟨-, -, q', h', -⟩ := (C75_fetch_sends outside db (Dial.union [query, query]) (fun _ => []) (fun _ v => some v) mapper () [] .postgres hd
    trivial trivial _ rfl (fun _ h => nomatch h) c t a).1 h
  cases h'

end Example

end Sq.Sending
