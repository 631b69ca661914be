import Verif.Spec.Stats
import Verif.Props.Fetch
/-
C68: what is logged about a query.
-/
namespace Sq.Logging
open Sq.Fetching (Rows RowSt LoopEnd Fin run scan Prog Ended)

variable {Ctx F V E Raw : Type}

/-! ### The loop -/

/-- Accumulating results does not change the loop. -/
theorem loopR_loop (zero : Fetching.Kind → V) (conv : Fetching.Kind → Raw → Option V) (show_ : V → Except Str Str) (mapper : List E → Prog F V E) (limit : Int)
    (names : List Str) (xs : List (List Raw)) : ∀ (r : RowSt F V) (tr : List E) (n : Nat) (buf : Str),
    (let o := loopR zero conv show_ mapper limit names r tr n buf xs; (o.1, o.2.1, o.2.2.1)) = Fetching.loop zero conv mapper r tr n xs := by
  induction xs with
  | nil => intro r tr n buf; rfl
  | cons x xs ih =>
    intro r tr n buf
    simp only [loopR, Fetching.loop]
    cases scan conv r.dest x with
    | none => rfl
    | some dest =>
      dsimp only
      rcases run zero (mapper tr) { r with dest := dest, index := 0, processed := false } tr with ⟨en, r', tr'⟩
      cases en with
      | panicErr e => rfl
      | crash => rfl
      | done =>
        dsimp only
        cases r'.processingErr with
        | some e => rfl
        | none =>
          dsimp only
          split
          · rfl
          · exact ih _ _ _ _

/-- A mapper does not change the destinations of an active row. -/
theorem run_dest (zero : Fetching.Kind → V) (p : Prog F V E) : ∀ (r : RowSt F V) (tr : List E), r.active = true →
    (run zero p r tr).2.1.dest = r.dest ∧ (run zero p r tr).2.1.active = true := by
  induction p with
  | ret => intro r tr h; exact ⟨rfl, h⟩
  | read kind f k ih =>
    intro r tr h
    simp only [run]
    rw [if_neg (by simp [h])]
    cases r.dest[r.index]? with
    | none => exact ⟨rfl, h⟩
    | some kv =>
      dsimp only
      split
      · exact ih _ { r with index := r.index + 1 } tr h
      · exact ⟨rfl, h⟩
  | effect e k ih => intro r tr h; exact ih r _ h
  | isActive k ih => intro r tr h; exact ih _ r tr h
  | process es c e k ih =>
    intro r tr h
    simp only [run]
    split
    · exact ih r tr h
    · exact ih { r with processed := true, processingErr := e, closed := r.closed || c } _ h
  | close k ih => intro r tr h; exact ih { r with closed := true } tr h
  | panic e => intro r tr h; cases e <;> exact ⟨rfl, h⟩

theorem scan_values (conv : Fetching.Kind → Raw → Option V) : ∀ (ds : List (Fetching.Kind × V)) (x : List Raw),
    scan conv ds x = (Spec.values conv (ds.map (·.1)) x).map fun vs => (ds.map (·.1)).zip vs := by
  intro ds
  induction ds with
  | nil => intro x; cases x <;> simp [scan, Spec.values]
  | cons d ds ih =>
    intro x
    cases x with
    | nil => simp [scan, Spec.values]
    | cons y ys =>
      have := ih ys
      simp only [scan, Spec.values, List.length_map, List.length_cons, List.map_cons, List.zip_cons_cons, List.mapM_cons] at this ⊢
      rw [this]
      by_cases hl : ys.length = ds.length
      · simp only [hl, if_true, Option.map_some, Option.bind_eq_bind, Option.pure_def]
        cases conv d.1 y with
        | none => rfl
        | some v =>
          cases ((ds.map (·.1)).zip ys).mapM fun p => conv p.1 p.2 <;> rfl
      · have : ¬ ys.length + 1 = ds.length + 1 := by omega
        simp only [hl, this, if_false, Option.map_none]
        cases conv d.1 y <;> rfl

theorem values_length (conv : Fetching.Kind → Raw → Option V) : ∀ (kinds : List Fetching.Kind) (x : List Raw) (vs : List V),
    Spec.values conv kinds x = some vs → vs.length = kinds.length := by
  intro kinds
  induction kinds with
  | nil => intro x vs h; cases x <;> simp [Spec.values] at h; simp [← h]
  | cons k ks ih =>
    intro x vs h
    cases x with
    | nil => simp [Spec.values] at h
    | cons y ys =>
      have := ih ys
      simp only [Spec.values, List.length_cons, List.zip_cons_cons, List.mapM_cons] at this h
      by_cases hl : ys.length = ks.length
      · simp only [hl, if_true, Option.bind_eq_bind, Option.pure_def] at this h
        simp only [Option.bind_eq_some_iff] at h
        obtain ⟨v, _, vs', h1, h2⟩ := h
        cases h2
        simp [this _ h1]
      · have : ¬ ys.length + 1 = ks.length + 1 := by omega
        rw [if_neg this] at h
        cases h

/-- A row as `accumulateResults` writes it. -/
theorem rowText_block (show_ : V → Except Str Str) (n : Nat) (kinds : List Fetching.Kind) (vs : List V) (names : List Str) (hk : vs.length = kinds.length)
    (hn : names.length = kinds.length) : rowText show_ names (kinds.zip vs) n = Spec.block names (vs.map fun v => Spec.orError (show_ v)) n := by
  have : ∀ (kinds : List Fetching.Kind) (vs : List V) (names : List Str), vs.length = kinds.length → names.length = kinds.length →
      rowText.go show_ names (kinds.zip vs) = (names.zip (vs.map fun v => Spec.orError (show_ v))).flatMap Spec.line := by
    intro kinds
    induction kinds with
    | nil => intro vs names h1 h2; cases vs <;> cases names <;> simp at h1 h2 <;> rfl
    | cons k ks ih =>
      intro vs names h1 h2
      cases vs with
      | nil => simp at h1
      | cons v vs =>
        cases names with
        | nil => simp at h2
        | cons m ms =>
          simp only [List.length_cons, Nat.add_right_cancel_iff] at h1 h2
          simp only [List.zip_cons_cons, rowText.go, List.map_cons, List.flatMap_cons, List.headD_cons, List.tail_cons, Spec.line]
          rw [ih vs ms h1 h2]
          generalize (ms.zip (List.map (fun v => Spec.orError (show_ v)) vs)).flatMap Spec.line = rest
          have e : "\n".toList = ['\n'] := rfl
          rw [e]
          generalize ": ".toList = sep
          cases show_ v with
          | ok t => rfl
          | error t => rfl
  unfold rowText Spec.block
  rw [this kinds vs names hk hn]

/-- What the loop leaves in the buffer: the blocks of the rows it read, up to the limit. -/
theorem loopR_buf (zero : Fetching.Kind → V) (conv : Fetching.Kind → Raw → Option V) (show_ : V → Except Str Str) (mapper : List E → Prog F V E) (limit : Nat)
    (hl : 0 < limit) (names : List Str) (kinds : List Fetching.Kind) (hn : names.length = kinds.length) (xs : List (List Raw)) :
    ∀ (r : RowSt F V) (tr : List E) (n : Nat) (buf : Str), r.active = true → r.dest.map (·.1) = kinds →
      let o := loopR zero conv show_ mapper limit names r tr n buf xs
      n ≤ o.1 ∧ o.2.2.2 = buf ++ ((((xs.take (o.1 - n)).filterMap fun x => (Spec.values conv kinds x).map (·.map fun v => Spec.orError (show_ v))).take (limit - n)).zipIdx (n + 1)).flatMap
        (fun r => Spec.block names r.1 r.2) := by
  induction xs with
  | nil => intro r tr n buf _ _; simp [loopR]
  | cons x xs ih =>
    intro r tr n buf ha hk
    have hsc := scan_values conv r.dest x
    rw [hk] at hsc
    simp only [loopR]
    cases hv : Spec.values conv kinds x with
    | none =>
      rw [hv] at hsc
      simp only [Option.map_none] at hsc
      rw [hsc]
      simp [hv]
    | some vs =>
      rw [hv] at hsc
      simp only [Option.map_some] at hsc
      rw [hsc]
      dsimp only
      have hlen := values_length conv kinds x vs hv
      have hrow := rowText_block show_ (n + 1) kinds vs names hlen hn
      -- what is added for this row
      have hadd : ∀ m : Nat, n + 1 ≤ m → ∀ (buf' rest : Str),
          buf' = (if 0 < (limit : Int) ∧ ((n + 1 : Nat) : Int) ≤ limit then buf ++ rowText show_ names (kinds.zip vs) (n + 1) else buf) →
          rest = ((((xs.take (m - (n + 1))).filterMap fun x => (Spec.values conv kinds x).map (·.map fun v => Spec.orError (show_ v))).take (limit - (n + 1))).zipIdx (n + 2)).flatMap
            (fun r => Spec.block names r.1 r.2) →
          buf' ++ rest = buf ++ (((((x :: xs).take (m - n)).filterMap fun x => (Spec.values conv kinds x).map (·.map fun v => Spec.orError (show_ v))).take (limit - n)).zipIdx (n + 1)).flatMap
            (fun r => Spec.block names r.1 r.2) := by
        intro m hm buf' rest hb hr
        have e1 : m - n = (m - (n + 1)) + 1 := by omega
        rw [e1, List.take_succ_cons, List.filterMap_cons]
        simp only [hv, Option.map_some]
        by_cases hnl : n + 1 ≤ limit
        · have e2 : limit - n = (limit - (n + 1)) + 1 := by omega
          rw [if_pos ⟨by omega, by omega⟩] at hb
          rw [e2, List.take_succ_cons, List.zipIdx_cons, List.flatMap_cons, hb, hr, hrow]
          simp
        · have e2 : limit - n = 0 := by omega
          have e3 : limit - (n + 1) = 0 := by omega
          rw [if_neg (by omega)] at hb
          rw [e2, hb, hr, e3]
          simp
      have last : ∀ m : Nat, m = n + 1 → ∀ buf' : Str,
          buf' = (if 0 < (limit : Int) ∧ ((n + 1 : Nat) : Int) ≤ limit then buf ++ rowText show_ names (kinds.zip vs) (n + 1) else buf) →
          n ≤ m ∧ buf' = buf ++ (((((x :: xs).take (m - n)).filterMap fun x => (Spec.values conv kinds x).map (·.map fun v => Spec.orError (show_ v))).take (limit - n)).zipIdx (n + 1)).flatMap
            (fun r => Spec.block names r.1 r.2) := by
        intro m hm buf' hb
        refine ⟨by omega, ?_⟩
        rw [← hadd m (by omega) buf' [] hb (by subst hm; simp)]
        simp
      have hd := run_dest zero (mapper tr) { r with dest := kinds.zip vs, index := 0, processed := false } tr ha
      rcases hrun : run zero (mapper tr) { r with dest := kinds.zip vs, index := 0, processed := false } tr with ⟨en, r', tr'⟩
      rw [hrun] at hd
      cases en with
      | panicErr e => exact last _ rfl _ rfl
      | crash => exact last _ rfl _ rfl
      | done =>
        dsimp only
        cases r'.processingErr with
        | some e => exact last _ rfl _ rfl
        | none =>
          dsimp only
          split
          · exact last _ rfl _ rfl
          · have hk' : r'.dest.map (·.1) = kinds := by
              have := hd.1
              dsimp only at this
              rw [this, List.map_fst_zip (by omega)]
            obtain ⟨h1, h2⟩ := ih r' tr' (n + 1)
              (if 0 < (limit : Int) ∧ ((n + 1 : Nat) : Int) ≤ limit then buf ++ rowText show_ names (kinds.zip vs) (n + 1) else buf) hd.2 hk'
            refine ⟨by omega, ?_⟩
            rw [h2]
            exact hadd _ h1 _ _ rfl rfl

/-! ### What a logger changes -/

/-- The logger can be used, or there is none. -/
def LogSource.Usable : LogSource → Prop
  | .fails _ => False
  | _ => True

/-- The calls as Model/Fetch sees them. -/
def World.plain (w : World Ctx F V Raw) : Fetching.World Ctx F Raw :=
  { setFields := w.setFields
    render := fun fs => statusErr (w.render fs).st
    query := fun ctx fs => w.answer ctx (textOf w.dialect (w.render fs)) (argsOf w.dialect (w.render fs))
    logs := w.source.active.isSome }

theorem log_isSome (w : World Ctx F V Raw) (q : W) (n : Nat) (err : Option Str) (res : Str) (e : Entry) :
    ((w.log q n err res e).map fun e => (e.rowCount, e.error)) = (if w.plain.logs then some (n, err) else none).map fun l => (some l.1, l.2) := by
  unfold World.log World.plain
  cases w.source.active <;> rfl

theorem fetchContext_usable (w : World Ctx F V Raw) (zero : Fetching.Kind → V) (conv : Fetching.Kind → Raw → Option V) (mapper : List E → Prog F V E) (ctx : Ctx)
    (tr : List E) (hs : w.source.Usable) : fetchContext w zero conv mapper ctx tr =
      match run zero (mapper tr) {} tr with
      | (.panicErr e, _, tr) => { fin := .err e, trace := tr }
      | (.crash, _, tr) => { fin := .crash, trace := tr }
      | (.done, r, tr) =>
        match w.setFields r.fields with
        | some e => { fin := .err e, trace := tr }
        | none => afterFields w zero conv mapper ctx r tr (w.render r.fields) := by
  unfold fetchContext
  cases h : w.source with
  | fails e => rw [h] at hs; exact hs.elim
  | _ => rfl

/-- **C68, the model of logging agrees with the model of fetching.** Count, result, effects of the mapper, context, closing of the result set, and the logged
count and error are those of `Fetching.FetchContext`, which C28 to C30 and C43 are about.  (A panic while rendering is reported as an error; Model/Fetch does
not distinguish it.) -/
theorem C68_refines (w : World Ctx F V Raw) (zero : Fetching.Kind → V) (conv : Fetching.Kind → Raw → Option V) (mapper : List E → Prog F V E) (ctx : Ctx)
    (tr : List E) (hs : w.source.Usable) (hp : ∀ fs, (w.render fs).st ≠ .panic) :
    let o := fetchContext w zero conv mapper ctx tr
    let o' := Fetching.FetchContext w.plain zero conv mapper ctx tr
    o.count = o'.count ∧ o.fin = o'.fin ∧ o.trace = o'.trace ∧ o.sent.map (·.1) = o'.ctx ∧ o.opened = o'.opened ∧ o.closed = o'.closed ∧
      o.entry.map (fun e => (e.rowCount, e.error)) = o'.log.map (fun l => (some l.1, l.2)) := by
  intro o o'
  simp only [o, o']
  rw [fetchContext_usable w zero conv mapper ctx tr hs]
  unfold Fetching.FetchContext Fetching.fetchContext
  rcases run zero (mapper tr) {} tr with ⟨en, r, t⟩
  cases en with
  | panicErr e => exact ⟨rfl, rfl, rfl, rfl, rfl, rfl, rfl⟩
  | crash => exact ⟨rfl, rfl, rfl, rfl, rfl, rfl, rfl⟩
  | done =>
    dsimp only
    rw [show w.plain.setFields r.fields = w.setFields r.fields from rfl]
    cases w.setFields r.fields with
    | some e => exact ⟨rfl, rfl, rfl, rfl, rfl, rfl, rfl⟩
    | none =>
      dsimp only
      unfold afterFields
      rw [show w.plain.render r.fields = statusErr (w.render r.fields).st from rfl]
      cases statusErr (w.render r.fields).st with
      | some e =>
        dsimp only
        refine ⟨rfl, rfl, rfl, rfl, rfl, rfl, ?_⟩
        rw [if_neg (hp _)]
        exact log_isSome ..
      | none =>
        dsimp only
        rw [show w.plain.query ctx r.fields = w.answer ctx (textOf w.dialect (w.render r.fields)) (argsOf w.dialect (w.render r.fields)) from rfl]
        cases w.answer ctx (textOf w.dialect (w.render r.fields)) (argsOf w.dialect (w.render r.fields)) with
        | error e => exact ⟨rfl, rfl, rfl, rfl, rfl, rfl, log_isSome ..⟩
        | ok rows =>
          dsimp only
          unfold afterRows Fetching.deferClose Fetching.afterOpen
          dsimp only
          by_cases hd : r.dest = []
          · rw [if_pos hd, if_pos hd]
            exact ⟨rfl, rfl, rfl, rfl, rfl, rfl, log_isSome ..⟩
          · rw [if_neg hd, if_neg hd]
            generalize hx : loopR zero conv w.show_ mapper _ _ _ t 0 [] rows.rows = x
            have hl : (x.1, x.2.1, x.2.2.1) = Fetching.loop zero conv mapper { r with active := true } t 0 rows.rows := by
              rw [← hx]; exact loopR_loop zero conv w.show_ mapper _ _ rows.rows _ t 0 []
            rw [← hl]
            obtain ⟨n, en, t', buf⟩ := x
            dsimp only
            cases en with
            | err e => exact ⟨rfl, rfl, rfl, rfl, rfl, rfl, log_isSome ..⟩
            | panicErr e => exact ⟨rfl, rfl, rfl, rfl, rfl, rfl, log_isSome ..⟩
            | crash => exact ⟨rfl, rfl, rfl, rfl, rfl, rfl, log_isSome ..⟩
            | exhausted =>
              refine ⟨rfl, ?_, rfl, rfl, rfl, rfl, log_isSome ..⟩
              dsimp only
              cases rows.closeErr.or rows.endErr <;> rfl
            | closedEarly =>
              refine ⟨rfl, ?_, rfl, rfl, rfl, rfl, log_isSome ..⟩
              dsimp only
              cases rows.closeErr <;> rfl

/-- `FetchExists` as Model/Fetch sees it. -/
def ExistsWorld.plain (w : ExistsWorld Ctx Raw) : Fetching.ExistsWorld Ctx Raw :=
  { early := w.early
    prepare := statusErr w.render.st
    query := fun ctx => w.answer ctx ("SELECT EXISTS (".toList ++ textOf w.dialect w.render ++ ")".toList) (argsOf w.dialect w.render)
    logs := w.source.active.isSome }

/-- **C68, the same for `FetchExists`**: answer, error and context, and the logged answer and error, are those of Model/Fetch, which C29 and C43 are about. -/
theorem C68_refines_exists (w : ExistsWorld Ctx Raw) (conv : List Raw → Option Bool) (ctx : Ctx) (hs : w.source.Usable) (hp : w.render.st ≠ .panic) :
    let o := fetchExistsContext w conv ctx
    let o' := Fetching.fetchExistsContext w.plain conv ctx
    o.exist = o'.exist ∧ o.fin = o'.fin ∧ o.sent.map (·.1) = o'.ctx ∧ o.entry.map (fun e => (e.exists_, e.error)) = o'.log.map (fun l => (some l.1, l.2)) := by
  obtain ⟨source, value, dialect, early, render, answer⟩ := w
  intro o o'
  simp only [o, o']
  unfold fetchExistsContext Fetching.fetchExistsContext ExistsWorld.plain
  cases early with
  | some e => cases source <;> first | exact hs.elim | exact ⟨rfl, rfl, rfl, rfl⟩
  | none =>
    cases hst : render.st with
    | panic => exact absurd hst hp
    | err e => cases source <;> first | exact hs.elim | (simp [hst, statusErr, LogSource.active, finishEntry])
    | _ =>
      cases source with
      | fails e => exact hs.elim
      | _ =>
        simp only [hst, statusErr, LogSource.active, finishEntry]
        generalize answer ctx _ _ = A
        cases A with
        | error e => simp [Fin.ofErr]
        | ok rows =>
          obtain ⟨rs, en, cl⟩ := rows
          cases rs with
          | nil => cases en <;> cases cl <;> simp [Fin.ofErr]
          | cons x xs =>
            dsimp only
            cases conv x with
            | none => simp [Fin.ofErr]
            | some b => cases en <;> cases cl <;> simp [Fin.ofErr]

/-- `Exec` as Model/Fetch sees it. -/
def ExecWorld.plain (w : ExecWorld Ctx) : Fetching.ExecWorld Ctx :=
  { dialect := w.dialect
    render := statusErr w.render.st
    exec := fun ctx => w.answer ctx (textOf w.dialect w.render) (argsOf w.dialect w.render)
    logs := w.source.active.isSome }

/-- **C68, the same for `Exec`.** -/
theorem C68_refines_exec (w : ExecWorld Ctx) (ctx : Ctx) (hs : w.source.Usable) (hp : w.render.st ≠ .panic) :
    let o := execContext w ctx
    let o' := Fetching.ExecContext w.plain ctx
    o.rowsAffected = o'.rowsAffected ∧ o.lastInsertID = o'.lastInsertID ∧ o.fin = Fin.ofErr o'.err ∧ o.sent.map (·.1) = o'.ctx ∧
      o.entry.map (fun e => (e.rowsAffected, e.lastInsertID, e.error)) = o'.log := by
  obtain ⟨source, value, dialect, render, answer⟩ := w
  have h0 : (execSwitch value { dialect := dialect }).rowsAffected = none ∧ (execSwitch value { dialect := dialect }).lastInsertID = none := by
    unfold execSwitch; cases value.goType <;> exact ⟨rfl, rfl⟩
  intro o o'
  simp only [o, o']
  unfold execContext Fetching.ExecContext Fetching.execContext ExecWorld.plain
  cases hst : render.st with
  | panic => exact absurd hst hp
  | err e => cases source <;> first | exact hs.elim | (simp [hst, statusErr, LogSource.active, finishEntry, h0, Fin.ofErr])
  | _ =>
    cases source with
    | fails e => exact hs.elim
    | _ =>
      simp only [hst, statusErr, LogSource.active, finishEntry]
      generalize answer ctx _ _ = A
      rcases A with e | ⟨e | n, last⟩
      · simp [Fin.ofErr, h0]
      · simp [Fin.ofErr, h0]
      · by_cases hd : dialect = .sqlite ∨ dialect = .mysql
        · simp only [hd, if_true]
          rcases last with e | i <;> simp [Fin.ofErr, h0]
        · simp [hd, Fin.ofErr, h0]

/-- **C68, logging does not interfere.** Whether there is a logger, and how it is set, makes no difference to the result, the mapper's effects, the query sent,
or the closing of the result set. -/
theorem C68_transparent (w : World Ctx F V Raw) (zero : Fetching.Kind → V) (conv : Fetching.Kind → Raw → Option V) (mapper : List E → Prog F V E) (ctx : Ctx)
    (tr : List E) (s1 s2 : LogSource) (h1 : s1.Usable) (h2 : s2.Usable) :
    Spec.effect (fetchContext { w with source := s1 } zero conv mapper ctx tr) = Spec.effect (fetchContext { w with source := s2 } zero conv mapper ctx tr) := by
  rw [fetchContext_usable { w with source := s1 } zero conv mapper ctx tr h1, fetchContext_usable { w with source := s2 } zero conv mapper ctx tr h2]
  rcases run zero (mapper tr) {} tr with ⟨en, r, t⟩
  cases en with
  | panicErr e => rfl
  | crash => rfl
  | done =>
    dsimp only
    cases w.setFields r.fields with
    | some e => rfl
    | none =>
      dsimp only
      unfold afterFields
      cases statusErr (w.render r.fields).st with
      | some e => rfl
      | none =>
        dsimp only
        cases w.answer ctx (textOf w.dialect (w.render r.fields)) (argsOf w.dialect (w.render r.fields)) with
        | error e => rfl
        | ok rows =>
          dsimp only
          unfold afterRows
          dsimp only
          by_cases hd : r.dest = []
          · rw [if_pos hd, if_pos hd]; rfl
          · rw [if_neg hd, if_neg hd]
            generalize hx : loopR zero conv w.show_ mapper s1.used.resultsLimit _ _ t 0 [] rows.rows = x
            generalize hy : loopR zero conv w.show_ mapper s2.used.resultsLimit _ _ t 0 [] rows.rows = y
            have hl : (x.1, x.2.1, x.2.2.1) = (y.1, y.2.1, y.2.2.1) := by
              rw [← hx, ← hy]
              exact (loopR_loop zero conv w.show_ mapper _ _ rows.rows _ t 0 []).trans (loopR_loop zero conv w.show_ mapper _ _ rows.rows _ t 0 []).symm
            obtain ⟨n, en, t', buf⟩ := x
            obtain ⟨n2, en2, t2, buf2⟩ := y
            simp only [Prod.mk.injEq] at hl
            obtain ⟨rfl, rfl, rfl⟩ := hl
            cases en <;> rfl

theorem C68_transparent_exists (w : ExistsWorld Ctx Raw) (conv : List Raw → Option Bool) (ctx : Ctx) (s1 s2 : LogSource) (h1 : s1.Usable) (h2 : s2.Usable) :
    { fetchExistsContext { w with source := s1 } conv ctx with entry := none } = { fetchExistsContext { w with source := s2 } conv ctx with entry := none } := by
  have key : ∀ s : LogSource, s.Usable →
      { fetchExistsContext { w with source := s } conv ctx with entry := none } = { fetchExistsContext { w with source := .noLogger } conv ctx with entry := none } := by
    intro s hs
    cases s with
    | fails e => exact hs.elim
    | noLogger => rfl
    | unsupported => rfl
    | settings set =>
      unfold fetchExistsContext
      dsimp only
      cases w.early with
      | some e => rfl
      | none =>
        dsimp only
        cases w.render.st with
        | err e => rfl
        | panic => rfl
        | _ =>
          dsimp only
          split
          · rfl
          · split
            · rfl
            · split <;> rfl
  rw [key s1 h1, key s2 h2]

theorem C68_transparent_exec (w : ExecWorld Ctx) (ctx : Ctx) (s1 s2 : LogSource) (h1 : s1.Usable) (h2 : s2.Usable) :
    { execContext { w with source := s1 } ctx with entry := none } = { execContext { w with source := s2 } ctx with entry := none } := by
  have key : ∀ s : LogSource, s.Usable →
      { execContext { w with source := s } ctx with entry := none } = { execContext { w with source := .noLogger } ctx with entry := none } := by
    intro s hs
    cases s with
    | fails e => exact hs.elim
    | noLogger => rfl
    | unsupported => rfl
    | settings set =>
      unfold execContext
      dsimp only
      cases w.render.st with
      | err e => rfl
      | panic => rfl
      | _ =>
        dsimp only
        split
        · rfl
        · split
          · rfl
          · split
            · split <;> rfl
            · rfl
  rw [key s1 h1, key s2 h2]

/-- **C68, a logger that fails.** If the log settings cannot be had, the call returns that error and does nothing else: the mapper is not run, nothing is sent,
nothing is logged. -/
theorem C68_logger_fails (w : World Ctx F V Raw) (zero : Fetching.Kind → V) (conv : Fetching.Kind → Raw → Option V) (mapper : List E → Prog F V E) (ctx : Ctx)
    (tr : List E) (e : Str) (h : w.source = .fails e) :
    fetchContext w zero conv mapper ctx tr = { fin := .err e, trace := tr } := by
  unfold fetchContext; rw [h]

theorem C68_logger_fails_exists (w : ExistsWorld Ctx Raw) (conv : List Raw → Option Bool) (ctx : Ctx) (e : Str) (h : w.source = .fails e) :
    fetchExistsContext w conv ctx = { fin := .err e } := by
  unfold fetchExistsContext; rw [h]

theorem C68_logger_fails_exec (w : ExecWorld Ctx) (ctx : Ctx) (e : Str) (h : w.source = .fails e) : execContext w ctx = { fin := .err e } := by
  unfold execContext; rw [h]

/-! ### What is logged -/

/-- The fields a mapper asks for when it is first run. -/
def registered (zero : Fetching.Kind → V) (mapper : List E → Prog F V E) (tr : List E) : List (Fetching.Kind × F) :=
  Fetching.Spec.calls (fun k _ => zero k) false (mapper tr)

/-- The rows the database answered with. -/
def answered (a : Except Str (Rows Raw)) : List (List Raw) := match a with | .ok rows => rows.rows | .error _ => []

/-- The values of a row as the log shows them. -/
def shownRow (w : World Ctx F V Raw) (conv : Fetching.Kind → Raw → Option V) (kinds : List Fetching.Kind) (x : List Raw) : Option (List Str) :=
  (Spec.values conv kinds x).map (·.map fun v => Spec.orError (w.show_ v))

theorem more_text (limit : Int) (n : Nat) (buf : Str) (err : Option Str) (hl : 0 < limit) (rows : List (List Str)) (names : List Str)
    (hb : buf = ((rows.take limit.toNat).zipIdx 1).flatMap (fun r => Spec.block names r.1 r.2)) :
    buf ++ moreText limit n err = Spec.results limit.toNat names rows n (decide (Fin.ofErr err = .ok)) := by
  unfold Spec.results moreText
  rw [hb]
  have e : decide (Fin.ofErr err = .ok) = decide (err = none) := by cases err <;> rfl
  rw [e]
  by_cases h : err = none ∧ (0 : Int) < limit ∧ limit < (n : Int)
  · have h2 : limit.toNat < n := by omega
    have h3 : (n : Int) - limit = ((n - limit.toNat : Nat) : Int) := by omega
    rw [if_pos h, if_pos ⟨by simp [h.1], h2⟩, h3]
    rfl
  · rw [if_neg h, if_neg ?_]
    rintro ⟨h1, h2⟩
    exact h ⟨by simpa using h1, hl, by omega⟩

theorem results_error (limit : Nat) (names : List Str) (rows : List (List Str)) (n : Nat) (f : Fin) (hf : f ≠ .ok) (buf : Str)
    (hb : buf = ((rows.take limit).zipIdx 1).flatMap (fun r => Spec.block names r.1 r.2)) : buf = Spec.results limit names rows n (decide (f = .ok)) := by
  unfold Spec.results
  rw [if_neg (by simp [hf]), List.append_nil, hb]

theorem fieldName_label (f : Str × Except Str Str) : fieldName f = Spec.label f := by
  unfold fieldName Spec.label
  by_cases h : f.1 = []
  · rw [if_neg (by simp [h]), if_pos h]; cases f.2 <;> rfl
  · rw [if_pos h, if_neg h]

/-- The entry after a successful query. -/
theorem afterRows_entry (w : World Ctx F V Raw) (zero : Fetching.Kind → V) (conv : Fetching.Kind → Raw → Option V) (mapper : List E → Prog F V E) (r : RowSt F V)
    (tr : List E) (q : W) (sent : Option (Ctx × Str × List Arg)) (e1 : Entry) (rows : Rows Raw) (D : List (Fetching.Kind × F))
    (hf : r.fields = D.map Prod.snd) (hd : r.dest.map (·.1) = D.map Prod.fst) :
    let o := afterRows w zero conv mapper r tr q sent e1 rows
    o.sent = sent ∧ ∃ err res, o.entry = w.log q o.count err res e1 ∧ (0 < w.source.used.resultsLimit →
      res = Spec.results w.source.used.resultsLimit.toNat (D.map fun d => Spec.label (w.name d.2))
        ((rows.rows.take o.count).filterMap (shownRow w conv (D.map Prod.fst))) o.count (decide (o.fin = .ok))) := by
  intro o
  have ho : o = afterRows w zero conv mapper r tr q sent e1 rows := rfl
  clear_value o
  unfold afterRows at ho
  dsimp only at ho
  by_cases hdest : r.dest = []
  · rw [if_pos hdest] at ho
    subst ho
    refine ⟨rfl, none, [], rfl, fun hl => ?_⟩
    simp [Spec.results]
  · rw [if_neg hdest] at ho
    have hnames : (r.fields.map fun f => fieldName (w.name f)) = D.map fun d => Spec.label (w.name d.2) := by
      rw [hf, List.map_map]
      exact List.map_congr_left fun d _ => fieldName_label _
    rw [hnames] at ho
    have hbuf : 0 < w.source.used.resultsLimit →
        ∀ x, loopR zero conv w.show_ mapper w.source.used.resultsLimit (D.map fun d => Spec.label (w.name d.2)) { r with active := true } tr 0 [] rows.rows = x →
        x.2.2.2 = ((((rows.rows.take x.1).filterMap (shownRow w conv (D.map Prod.fst))).take w.source.used.resultsLimit.toNat).zipIdx 1).flatMap
          (fun r => Spec.block (D.map fun d => Spec.label (w.name d.2)) r.1 r.2) := by
      intro hl x hx
      have h := loopR_buf zero conv w.show_ mapper w.source.used.resultsLimit.toNat (by omega) (D.map fun d => Spec.label (w.name d.2)) (D.map Prod.fst) (by simp)
        rows.rows { r with active := true } tr 0 [] rfl hd
      dsimp only at h
      rw [show ((w.source.used.resultsLimit.toNat : Nat) : Int) = w.source.used.resultsLimit by omega, hx] at h
      have h2 := h.2
      simp only [Nat.sub_zero, List.nil_append, Nat.zero_add] at h2
      exact h2
    generalize hx : loopR zero conv w.show_ mapper w.source.used.resultsLimit (D.map fun d => Spec.label (w.name d.2)) { r with active := true } tr 0 [] rows.rows = x at ho
    have hb := fun hl => hbuf hl x hx
    obtain ⟨n, en, t', buf⟩ := x
    dsimp only at hb ho
    cases en with
    | err e => subst ho; exact ⟨rfl, _, buf, rfl, fun hl => results_error _ _ _ _ _ (by simp) _ (hb hl)⟩
    | panicErr e => subst ho; exact ⟨rfl, _, buf, rfl, fun hl => results_error _ _ _ _ _ (by simp) _ (hb hl)⟩
    | crash => subst ho; exact ⟨rfl, _, buf, rfl, fun hl => results_error _ _ _ _ _ (by simp) _ (hb hl)⟩
    | exhausted => subst ho; exact ⟨rfl, _, _, rfl, fun hl => more_text _ _ _ _ hl _ _ (hb hl)⟩
    | closedEarly => subst ho; exact ⟨rfl, _, _, rfl, fun hl => more_text _ _ _ _ hl _ _ (hb hl)⟩

/-- The entry of a fetch whose query was rendered or failed to render. -/
theorem afterFields_entry (w : World Ctx F V Raw) (zero : Fetching.Kind → V) (conv : Fetching.Kind → Raw → Option V) (mapper : List E → Prog F V E) (ctx : Ctx) (r : RowSt F V)
    (tr : List E) (q : W) (D : List (Fetching.Kind × F)) (hf : r.fields = D.map Prod.snd) (hd : r.dest.map (·.1) = D.map Prod.fst) :
    let o := afterFields w zero conv mapper ctx r tr q
    (∃ e, statusErr q.st = some e ∧ o.fin = .err e ∧ o.sent = none ∧ o.entry = w.log q o.count (if q.st = .panic then none else some e) [] w.entry0) ∨
    (statusErr q.st = none ∧ o.sent = some (ctx, textOf w.dialect q, argsOf w.dialect q) ∧ ∃ err res,
      o.entry = w.log q o.count err res { w.entry0 with query := textOf w.dialect q, timed := w.source.used.timeQuery } ∧ (0 < w.source.used.resultsLimit →
      res = Spec.results w.source.used.resultsLimit.toNat (D.map fun d => Spec.label (w.name d.2))
        (((answered (w.answer ctx (textOf w.dialect q) (argsOf w.dialect q))).take o.count).filterMap (shownRow w conv (D.map Prod.fst))) o.count (decide (o.fin = .ok)))) := by
  intro o
  have ho : o = afterFields w zero conv mapper ctx r tr q := rfl
  clear_value o
  unfold afterFields at ho
  cases hst : statusErr q.st with
  | some e => rw [hst] at ho; subst ho; exact .inl ⟨e, rfl, rfl, rfl, rfl⟩
  | none =>
    rw [hst] at ho
    dsimp only at ho
    refine .inr ⟨rfl, ?_⟩
    cases ha : w.answer ctx (textOf w.dialect q) (argsOf w.dialect q) with
    | error e =>
      rw [ha] at ho
      subst ho
      refine ⟨rfl, _, _, rfl, fun _ => ?_⟩
      simp [Spec.results]
    | ok rows =>
      rw [ha] at ho
      dsimp only at ho
      subst ho
      exact afterRows_entry w zero conv mapper r tr q _ _ rows D hf hd

/-- The registration pass went through: the mapper returned, and the query accepted its fields. -/
def Registered (w : World Ctx F V Raw) (zero : Fetching.Kind → V) (mapper : List E → Prog F V E) (tr : List E) : Prop :=
  (Fetching.Spec.register zero (mapper tr) false tr).1 = .done ∧ w.setFields ((registered zero mapper tr).map Prod.snd) = none

theorem fetch_entry (w : World Ctx F V Raw) (zero : Fetching.Kind → V) (conv : Fetching.Kind → Raw → Option V) (mapper : List E → Prog F V E) (ctx : Ctx)
    (tr : List E) (hs : w.source.Usable) :
    let o := fetchContext w zero conv mapper ctx tr
    (¬ Registered w zero mapper tr ∧ o.entry = none ∧ o.sent = none) ∨
    (Registered w zero mapper tr ∧ ∃ r t, o = afterFields w zero conv mapper ctx r t (w.render ((registered zero mapper tr).map Prod.snd)) ∧
      r.fields = (registered zero mapper tr).map Prod.snd ∧ r.dest.map (·.1) = (registered zero mapper tr).map Prod.fst) := by
  intro o
  have ho : o = fetchContext w zero conv mapper ctx tr := rfl
  clear_value o
  rw [fetchContext_usable w zero conv mapper ctx tr hs] at ho
  obtain ⟨r, h1, -, -, -, h5⟩ := Fetching.run_passive zero (mapper tr) ({} : RowSt F V) tr rfl
  rw [h1] at ho
  unfold Registered registered
  change (Fetching.Spec.register zero (mapper tr) false tr).1 = .done → _ at h5
  change o = match ((Fetching.Spec.register zero (mapper tr) false tr).1, r, (Fetching.Spec.register zero (mapper tr) false tr).2.2) with
      | (.panicErr e, _, tr) => { fin := .err e, trace := tr }
      | (.crash, _, tr) => { fin := .crash, trace := tr }
      | (.done, r, tr) =>
        match w.setFields r.fields with
        | some e => { fin := .err e, trace := tr }
        | none => afterFields w zero conv mapper ctx r tr (w.render r.fields) at ho
  cases hreg : (Fetching.Spec.register zero (mapper tr) false tr).1 with
  | panicErr e => rw [hreg] at ho; subst ho; exact .inl ⟨by simp, rfl, rfl⟩
  | crash => rw [hreg] at ho; subst ho; exact .inl ⟨by simp, rfl, rfl⟩
  | done =>
    rw [hreg] at ho
    obtain ⟨hf, hd⟩ := h5 hreg
    simp only [List.nil_append] at hf hd
    dsimp only at ho
    rw [hf] at ho
    cases hsf : w.setFields ((Fetching.Spec.calls (fun k _ => zero k) false (mapper tr)).map Prod.snd) with
    | some e => rw [hsf] at ho; subst ho; exact .inl ⟨by simp, rfl, rfl⟩
    | none =>
      rw [hsf] at ho
      refine .inr ⟨⟨rfl, rfl⟩, r, _, ho, hf, ?_⟩
      rw [hd]
      simp [Fetching.filled]

/-- **C68, when a fetch is logged.** There is an entry exactly if there is a logger that can be used and the registration pass went through; a fetch is sent
only then. -/
theorem C68_logged (w : World Ctx F V Raw) (zero : Fetching.Kind → V) (conv : Fetching.Kind → Raw → Option V) (mapper : List E → Prog F V E) (ctx : Ctx)
    (tr : List E) (hs : w.source.Usable) :
    let o := fetchContext w zero conv mapper ctx tr
    (o.entry.isSome ↔ (∃ set, w.source = .settings set) ∧ Registered w zero mapper tr) ∧ (o.sent.isSome → Registered w zero mapper tr) := by
  intro o
  have hlog : ∀ q n err res e, (w.log q n err res e).isSome ↔ ∃ set, w.source = .settings set := by
    intro q n err res e
    unfold World.log
    cases w.source <;> simp [LogSource.active]
  rcases fetch_entry w zero conv mapper ctx tr hs with ⟨h1, h2, h3⟩ | ⟨h1, r, t, h2, hf, hd⟩
  · refine ⟨?_, ?_⟩
    · rw [show o.entry = none from h2]; simp [h1]
    · rw [show o.sent = none from h3]; simp
  · refine ⟨?_, fun _ => h1⟩
    have h := afterFields_entry w zero conv mapper ctx r t (w.render ((registered zero mapper tr).map Prod.snd)) _ hf hd
    rw [← h2] at h
    rcases h with ⟨e, -, -, -, he⟩ | ⟨-, -, err, res, he, -⟩
    · rw [show o.entry = _ from he, hlog]; simp [h1]
    · rw [show o.entry = _ from he, hlog]; simp [h1]

theorem entry0_query (w : World Ctx F V Raw) : w.entry0.query = [] := by unfold World.entry0 fetchSwitch; cases w.value.goType <;> rfl
theorem entry0_timed (w : World Ctx F V Raw) : w.entry0.timed = false := by unfold World.entry0 fetchSwitch; cases w.value.goType <;> rfl
theorem entry0_dialect (w : World Ctx F V Raw) : w.entry0.dialect = w.dialect := by unfold World.entry0 fetchSwitch; cases w.value.goType <;> rfl

/-- **C68, the query that is logged.** The entry has the dialect of the query and the arguments, and: if the query was sent, its text is the one that was sent
(if that is empty and the database refused it, the error instead) and its time is measured if asked; if it was not sent, because it could not be rendered, the text
rendered so far and the error. -/
theorem C68_query (w : World Ctx F V Raw) (zero : Fetching.Kind → V) (conv : Fetching.Kind → Raw → Option V) (mapper : List E → Prog F V E) (ctx : Ctx)
    (tr : List E) (set : LogSettings) (hs : w.source = .settings set) (en : Entry) :
    let o := fetchContext w zero conv mapper ctx tr
    let q := w.render ((registered zero mapper tr).map Prod.snd)
    o.entry = some en → en.dialect = w.dialect ∧ en.rowCount = some o.count ∧ en.args = argsOf w.dialect q ∧ (en.timed = true ↔ set.timeQuery = true ∧ o.sent ≠ none) ∧
      (∀ c text args, o.sent = some (c, text, args) → c = ctx ∧ text = textOf w.dialect q ∧ args = en.args ∧
        (text ≠ [] → en.query = text) ∧ (text = [] → en.query = (en.error.map errText).getD [])) ∧
      (o.sent = none → q.st ≠ .panic → ∃ e, o.fin = .err e ∧ q.st = .err e ∧ en.error = some e ∧ en.query = textOf w.dialect q ++ "%!(error=".toList ++ e ++ ")".toList) := by
  intro o q hen
  have husable : w.source.Usable := by rw [hs]; trivial
  have hact : w.source.active = some set := by rw [hs]; rfl
  have hused : w.source.used = set := by rw [LogSource.used, hact]; rfl
  rcases fetch_entry w zero conv mapper ctx tr husable with ⟨-, h2, -⟩ | ⟨-, r, t, h2, hf, hd⟩
  · rw [show o.entry = none from h2] at hen; cases hen
  · have h := afterFields_entry w zero conv mapper ctx r t q _ hf hd
    change o = _ at h2
    rw [← h2] at h
    rcases h with ⟨e, hst, hfin, hsent, he⟩ | ⟨hst, hsent, err, res, he, -⟩
    · change o.sent = none at hsent
      rw [show o.entry = _ from he, World.log, hact] at hen
      simp only [Option.map_some, Option.some.injEq] at hen
      subst hen
      refine ⟨entry0_dialect w, rfl, rfl, ?_, ?_, ?_⟩
      · rw [hsent]; simp [finishEntry, entry0_timed]
      · rw [hsent]; nofun
      · intro _ hp
        refine ⟨e, hfin, ?_, ?_, ?_⟩
        · revert hst hp
          cases q.st <;> simp [statusErr]
        · show (if q.st = .panic then none else some e) = some e
          rw [if_neg hp]
        · show (match w.entry0.query, (if q.st = .panic then none else some e) with
            | [], some x => textOf w.dialect q ++ errText x
            | q, _ => q) = _
          rw [entry0_query, if_neg hp]
          unfold errText
          generalize "%!(error=".toList = s1
          generalize ")".toList = s2
          simp only [List.append_assoc]
    · change o.sent = some _ at hsent
      rw [show o.entry = _ from he, World.log, hact] at hen
      simp only [Option.map_some, Option.some.injEq] at hen
      subst hen
      refine ⟨entry0_dialect w, rfl, rfl, ?_, ?_, ?_⟩
      · rw [hsent, hused]; simp [finishEntry]
      · intro c text args h
        rw [hsent] at h
        cases h
        refine ⟨rfl, rfl, rfl, fun hne => ?_, fun he => ?_⟩
        · show (match textOf w.dialect q, err with
            | [], some x => textOf w.dialect q ++ errText x
            | q, _ => q) = _
          cases htx : textOf w.dialect q with
          | nil => exact absurd htx hne
          | cons a b => rfl
        · show (match textOf w.dialect q, err with
            | [], some x => textOf w.dialect q ++ errText x
            | q, _ => q) = _
          rw [he]
          cases err <;> rfl
      · rw [hsent]; nofun

/-- **C68, the results that are logged.** The entry shows the rows that were read, in order, up to the limit of the logger, each with the names of the fields and
the values; and, if the fetch ended well with more rows than that, how many more. -/
theorem C68_results (w : World Ctx F V Raw) (zero : Fetching.Kind → V) (conv : Fetching.Kind → Raw → Option V) (mapper : List E → Prog F V E) (ctx : Ctx)
    (tr : List E) (set : LogSettings) (hs : w.source = .settings set) (en : Entry) :
    let o := fetchContext w zero conv mapper ctx tr
    let D := registered zero mapper tr
    let q := w.render (D.map Prod.snd)
    o.entry = some en → (0 < set.resultsLimit →
      en.results = Spec.results set.resultsLimit.toNat (D.map fun d => Spec.label (w.name d.2))
        (((match o.sent with | some s => answered (w.answer s.1 s.2.1 s.2.2) | none => []).take o.count).filterMap (shownRow w conv (D.map Prod.fst)))
        o.count (decide (o.fin = .ok))) ∧ (set.resultsLimit ≤ 0 → en.results = []) := by
  intro o D q hen
  have husable : w.source.Usable := by rw [hs]; trivial
  have hact : w.source.active = some set := by rw [hs]; rfl
  have hused : w.source.used = set := by rw [LogSource.used, hact]; rfl
  rcases fetch_entry w zero conv mapper ctx tr husable with ⟨-, h2, -⟩ | ⟨-, r, t, h2, hf, hd⟩
  · rw [show o.entry = none from h2] at hen; cases hen
  · have h := afterFields_entry w zero conv mapper ctx r t q _ hf hd
    change o = _ at h2
    rw [← h2] at h
    rcases h with ⟨e, hst, hfin, hsent, he⟩ | ⟨hst, hsent, err, res, he, hres⟩
    · change o.sent = none at hsent
      change o.fin = .err e at hfin
      rw [show o.entry = _ from he, World.log, hact] at hen
      simp only [Option.map_some, Option.some.injEq] at hen
      subst hen
      rw [hsent, hfin]
      simp [Spec.results]
    · change o.sent = some _ at hsent
      rw [show o.entry = _ from he, World.log, hact] at hen
      simp only [Option.map_some, Option.some.injEq] at hen
      subst hen
      rw [hused] at hres
      refine ⟨fun hl => ?_, fun hl => ?_⟩
      · rw [hsent]
        show (if (0 : Int) < set.resultsLimit then res else []) = _
        rw [if_pos hl]
        exact hres hl
      · show (if (0 : Int) < set.resultsLimit then res else []) = _
        rw [if_neg (by omega)]

/-! ### The error -/

/-- The mapper returns: it does not panic, in whatever state it is called. -/
def Returns (zero : Fetching.Kind → V) (mapper : List E → Prog F V E) : Prop := ∀ (r : RowSt F V) (tr : List E), (run zero (mapper tr) r tr).1 = .done

/-- With such a mapper the loop does not end by a panic. -/
theorem loopR_returns (zero : Fetching.Kind → V) (conv : Fetching.Kind → Raw → Option V) (show_ : V → Except Str Str) (mapper : List E → Prog F V E) (limit : Int)
    (names : List Str) (hm : Returns zero mapper) (xs : List (List Raw)) : ∀ (r : RowSt F V) (tr : List E) (n : Nat) (buf : Str),
    (∀ e, (loopR zero conv show_ mapper limit names r tr n buf xs).2.1 ≠ .panicErr e) ∧ (loopR zero conv show_ mapper limit names r tr n buf xs).2.1 ≠ .crash := by
  induction xs with
  | nil => intro r tr n buf; simp [loopR]
  | cons x xs ih =>
    intro r tr n buf
    simp only [loopR]
    cases scan conv r.dest x with
    | none => simp
    | some dest =>
      dsimp only
      have hd := hm { r with dest := dest, index := 0, processed := false } tr
      rcases hrun : run zero (mapper tr) { r with dest := dest, index := 0, processed := false } tr with ⟨en, r', tr'⟩
      rw [hrun] at hd
      dsimp only at hd
      subst hd
      dsimp only
      cases r'.processingErr with
      | some e => simp
      | none =>
        dsimp only
        split
        · simp
        · exact ih _ _ _ _

theorem afterRows_error (w : World Ctx F V Raw) (zero : Fetching.Kind → V) (conv : Fetching.Kind → Raw → Option V) (mapper : List E → Prog F V E) (r : RowSt F V)
    (tr : List E) (q : W) (sent : Option (Ctx × Str × List Arg)) (e1 : Entry) (rows : Rows Raw) :
    let o := afterRows w zero conv mapper r tr q sent e1 rows
    ∀ en, o.entry = some en → (∀ e, en.error = some e → o.fin = .err e) ∧ (Returns zero mapper → o.fin = Fin.ofErr en.error) := by
  intro o
  have ho : o = afterRows w zero conv mapper r tr q sent e1 rows := rfl
  clear_value o
  have hlog : ∀ n err res en, w.log q n err res e1 = some en → en.error = err := by
    intro n err res en h
    unfold World.log at h
    rw [Option.map_eq_some_iff] at h
    obtain ⟨set, -, rfl⟩ := h
    rfl
  have hof : ∀ (err : Option Str) e, err = some e → Fin.ofErr err = .err e := by rintro _ e rfl; rfl
  intro en hen
  unfold afterRows at ho
  dsimp only at ho
  by_cases hdest : r.dest = []
  · rw [if_pos hdest] at ho
    subst ho
    rw [hlog _ _ _ _ hen]
    exact ⟨nofun, fun _ => rfl⟩
  · rw [if_neg hdest] at ho
    have hret := fun hm => loopR_returns zero conv w.show_ mapper w.source.used.resultsLimit (r.fields.map fun f => fieldName (w.name f)) hm rows.rows { r with active := true } tr 0 []
    generalize loopR zero conv w.show_ mapper w.source.used.resultsLimit (r.fields.map fun f => fieldName (w.name f)) { r with active := true } tr 0 [] rows.rows = x at ho hret
    obtain ⟨n, end_, t', buf⟩ := x
    cases end_ with
    | err e => subst ho; rw [hlog _ _ _ _ hen]; exact ⟨fun e' h => by cases h; rfl, fun _ => rfl⟩
    | panicErr e => subst ho; rw [hlog _ _ _ _ hen]; exact ⟨nofun, fun hm => absurd rfl ((hret hm).1 e)⟩
    | crash => subst ho; rw [hlog _ _ _ _ hen]; exact ⟨nofun, fun hm => absurd rfl (hret hm).2⟩
    | exhausted => subst ho; rw [hlog _ _ _ _ hen]; exact ⟨fun e h => hof _ e h, fun _ => rfl⟩
    | closedEarly => subst ho; rw [hlog _ _ _ _ hen]; exact ⟨fun e h => hof _ e h, fun _ => rfl⟩

/-- **C68, the error that is logged.** A logged error is the one the caller gets; and if neither rendering nor the mapper panics, the entry has the error the caller
gets, none if there is none. -/
theorem C68_error (w : World Ctx F V Raw) (zero : Fetching.Kind → V) (conv : Fetching.Kind → Raw → Option V) (mapper : List E → Prog F V E) (ctx : Ctx)
    (tr : List E) (hs : w.source.Usable) (en : Entry) :
    let o := fetchContext w zero conv mapper ctx tr
    o.entry = some en → (∀ e, en.error = some e → o.fin = .err e) ∧
      (Returns zero mapper → (w.render ((registered zero mapper tr).map Prod.snd)).st ≠ .panic → o.fin = Fin.ofErr en.error) := by
  intro o hen
  rcases fetch_entry w zero conv mapper ctx tr hs with ⟨-, h2, -⟩ | ⟨-, r, t, h2, hf, hd⟩
  · rw [show o.entry = none from h2] at hen; cases hen
  · change o = _ at h2
    clear_value o
    generalize w.render ((registered zero mapper tr).map Prod.snd) = q at h2
    have hlog : ∀ n err res e1, w.log q n err res e1 = some en → en.error = err := by
      intro n err res e1 h
      unfold World.log at h
      rw [Option.map_eq_some_iff] at h
      obtain ⟨set, -, rfl⟩ := h
      rfl
    unfold afterFields at h2
    cases hst : statusErr q.st with
    | some e =>
      rw [hst] at h2
      subst h2
      rw [hlog _ _ _ _ hen]
      by_cases hp : q.st = .panic
      · rw [if_pos hp]; exact ⟨nofun, fun _ h => absurd hp h⟩
      · rw [if_neg hp]; exact ⟨fun e' h => by cases h; rfl, fun _ _ => rfl⟩
    | none =>
      rw [hst] at h2
      dsimp only at h2
      cases ha : w.answer ctx (textOf w.dialect q) (argsOf w.dialect q) with
      | error e =>
        rw [ha] at h2
        subst h2
        rw [hlog _ _ _ _ hen]
        exact ⟨fun e' h => by cases h; rfl, fun _ _ => rfl⟩
      | ok rows =>
        rw [ha] at h2
        dsimp only at h2
        subst h2
        have := afterRows_error w zero conv mapper r t q _ _ rows en hen
        exact ⟨this.1, fun hm _ => this.2 hm⟩

/-! ### FetchExists and Exec -/

/-- What a failed rendering is logged as. -/
def failedText (text e : Str) : Str := text ++ "%!(error=".toList ++ e ++ ")".toList

theorem append_errText (text e : Str) : text ++ errText e = failedText text e := by
  unfold errText failedText
  generalize "%!(error=".toList = s1
  generalize ")".toList = s2
  simp only [List.append_assoc]

/-- **C68, `FetchExists`.** With a logger, every call that gets as far as rendering (or panics doing so) is logged, with the arguments and the answer; the error
logged is the one returned; what is logged as the query is what was sent, or else what was rendered so far and the error. -/
theorem C68_exists (w : ExistsWorld Ctx Raw) (conv : List Raw → Option Bool) (ctx : Ctx) (set : LogSettings) (hs : w.source = .settings set) (he : w.early = none) :
    let o := fetchExistsContext w conv ctx
    ∃ en, o.entry = some en ∧ en.dialect = w.dialect ∧ en.exists_ = some o.exist ∧ en.args = argsOf w.dialect w.render ∧
      (w.render.st ≠ .panic → o.fin = Fin.ofErr en.error) ∧ (w.render.st = .panic → o.fin = .crash ∧ o.sent = none) ∧
      (en.timed = true ↔ set.timeQuery = true ∧ o.sent ≠ none) ∧
      (∀ c text args, o.sent = some (c, text, args) → c = ctx ∧ args = en.args ∧ en.query = text ∧
        text = "SELECT EXISTS (".toList ++ textOf w.dialect w.render ++ ")".toList) ∧
      (∀ e, w.render.st = .err e → o.sent = none ∧ en.error = some e ∧ en.query = failedText ("SELECT EXISTS (".toList ++ textOf w.dialect w.render) e) := by
  have hact : w.source.active = some set := by rw [hs]; rfl
  have hused : w.source.used = set := by rw [LogSource.used, hact]; rfl
  have hd0 : (existsSwitch w.value { dialect := w.dialect }).dialect = w.dialect := by unfold existsSwitch; cases w.value.goType <;> rfl
  have hq0 : (existsSwitch w.value { dialect := w.dialect }).query = [] := by unfold existsSwitch; cases w.value.goType <;> rfl
  have ht0 : (existsSwitch w.value { dialect := w.dialect }).timed = false := by unfold existsSwitch; cases w.value.goType <;> rfl
  intro o
  have ho : o = fetchExistsContext w conv ctx := rfl
  clear_value o
  unfold fetchExistsContext at ho
  rw [hs, he] at ho
  dsimp only at ho
  rw [← hs, hused, hact] at ho
  simp only [Option.map_some] at ho
  have hne : ∀ (a b : Str), ("SELECT EXISTS (".toList ++ a ++ b) = 'S' :: ("ELECT EXISTS (".toList ++ a ++ b) := fun _ _ => rfl
  have sentCase : ∀ (b : Bool) (err : Option Str),
      o = { exist := b, fin := Fin.ofErr err, sent := some (ctx, "SELECT EXISTS (".toList ++ textOf w.dialect w.render ++ ")".toList, argsOf w.dialect w.render),
            entry := some { finishEntry ("SELECT EXISTS (".toList ++ textOf w.dialect w.render ++ ")".toList) err
              { existsSwitch w.value { dialect := w.dialect } with
                caller := set.getCallerInfo, query := "SELECT EXISTS (".toList ++ textOf w.dialect w.render ++ ")".toList, timed := set.timeQuery } with
              exists_ := some b, args := argsOf w.dialect w.render } } →
      (∀ e, w.render.st ≠ .err e) → w.render.st ≠ .panic → ∃ en, o.entry = some en ∧ en.dialect = w.dialect ∧ en.exists_ = some o.exist ∧ en.args = argsOf w.dialect w.render ∧
      (w.render.st ≠ .panic → o.fin = Fin.ofErr en.error) ∧ (w.render.st = .panic → o.fin = .crash ∧ o.sent = none) ∧
      (en.timed = true ↔ set.timeQuery = true ∧ o.sent ≠ none) ∧
      (∀ c text args, o.sent = some (c, text, args) → c = ctx ∧ args = en.args ∧ en.query = text ∧
        text = "SELECT EXISTS (".toList ++ textOf w.dialect w.render ++ ")".toList) ∧
      (∀ e, w.render.st = .err e → o.sent = none ∧ en.error = some e ∧ en.query = failedText ("SELECT EXISTS (".toList ++ textOf w.dialect w.render) e) := by
    intro b err h hok hp
    refine ⟨_, by rw [h], ?_⟩
    subst h
    refine ⟨hd0, rfl, rfl, fun _ => rfl, fun h => absurd h hp, ?_, ?_, fun e h => absurd h (hok e)⟩
    · simp [finishEntry]
    · intro c text args h
      cases h
      exact ⟨rfl, rfl, rfl, rfl⟩
  cases hst : w.render.st with
  | err e =>
    rw [hst] at ho
    dsimp only at ho
    subst ho
    refine ⟨_, rfl, hd0, rfl, rfl, fun _ => rfl, nofun, ?_, nofun, ?_⟩
    · simp [finishEntry, ht0]
    · intro e' h
      cases h
      refine ⟨rfl, rfl, ?_⟩
      show (match (existsSwitch w.value { dialect := w.dialect }).query, some e with
        | [], some x => "SELECT EXISTS (".toList ++ textOf w.dialect w.render ++ errText x
        | q, _ => q) = _
      rw [hq0]
      exact append_errText _ _
  | panic =>
    rw [hst] at ho
    dsimp only at ho
    subst ho
    refine ⟨_, rfl, hd0, rfl, rfl, fun h => absurd rfl h, fun _ => ⟨rfl, rfl⟩, ?_, nofun, nofun⟩
    simp [finishEntry, ht0]
  | ok =>
    rw [hst] at ho sentCase
    dsimp only at ho
    split at ho
    · exact sentCase _ _ ho nofun nofun
    · split at ho
      · exact sentCase _ _ ho nofun nofun
      · split at ho
        · exact sentCase _ _ ho nofun nofun
        · exact sentCase _ _ ho nofun nofun
  | hang =>
    rw [hst] at ho sentCase
    dsimp only at ho
    split at ho
    · exact sentCase _ _ ho nofun nofun
    · split at ho
      · exact sentCase _ _ ho nofun nofun
      · split at ho
        · exact sentCase _ _ ho nofun nofun
        · exact sentCase _ _ ho nofun nofun

/-- **C68, `Exec`.** With a logger, every call is logged, with the arguments; the error logged is the one returned; what is logged as the query is what was sent (if
that is empty and the database refused it, the error instead), or else what was rendered so far and the error; the number of rows and, where it is asked for, the
last id are logged as returned. -/
theorem C68_exec (w : ExecWorld Ctx) (ctx : Ctx) (set : LogSettings) (hs : w.source = .settings set) :
    let o := execContext w ctx
    ∃ en, o.entry = some en ∧ en.dialect = w.dialect ∧ en.args = argsOf w.dialect w.render ∧
      (w.render.st ≠ .panic → o.fin = Fin.ofErr en.error) ∧ (w.render.st = .panic → o.fin = .crash ∧ o.sent = none) ∧
      (en.timed = true ↔ set.timeQuery = true ∧ o.sent ≠ none) ∧
      (o.fin = .ok → en.rowsAffected = some o.rowsAffected ∧ en.lastInsertID = if w.dialect = .sqlite ∨ w.dialect = .mysql then some o.lastInsertID else none) ∧
      (∀ c text args, o.sent = some (c, text, args) → c = ctx ∧ args = en.args ∧ text = textOf w.dialect w.render ∧
        (text ≠ [] → en.query = text) ∧ (text = [] → en.query = (en.error.map errText).getD [])) ∧
      (∀ e, w.render.st = .err e → o.sent = none ∧ en.error = some e ∧ en.query = failedText (textOf w.dialect w.render) e) := by
  have hact : w.source.active = some set := by rw [hs]; rfl
  have hused : w.source.used = set := by rw [LogSource.used, hact]; rfl
  have hd0 : (execSwitch w.value { dialect := w.dialect }).dialect = w.dialect := by unfold execSwitch; cases w.value.goType <;> rfl
  have hq0 : (execSwitch w.value { dialect := w.dialect }).query = [] := by unfold execSwitch; cases w.value.goType <;> rfl
  have ht0 : (execSwitch w.value { dialect := w.dialect }).timed = false := by unfold execSwitch; cases w.value.goType <;> rfl
  have hl0 : (execSwitch w.value { dialect := w.dialect }).lastInsertID = none := by unfold execSwitch; cases w.value.goType <;> rfl
  intro o
  have ho : o = execContext w ctx := rfl
  clear_value o
  unfold execContext at ho
  rw [hs] at ho
  dsimp only at ho
  rw [← hs, hused, hact] at ho
  simp only [Option.map_some] at ho
  have hquery : ∀ (err : Option Str) (e1 : Entry) (q0 : Str), e1.query = q0 →
      (q0 ≠ [] → (finishEntry q0 err e1).query = q0) ∧ (q0 = [] → (finishEntry q0 err e1).query = (err.map errText).getD []) := by
    intro err e1 q0 h
    constructor
    · intro hne
      show (match e1.query, err with | [], some x => q0 ++ errText x | q, _ => q) = _
      rw [h]
      cases q0 with
      | nil => exact absurd rfl hne
      | cons a b => rfl
    · intro hnil
      show (match e1.query, err with | [], some x => q0 ++ errText x | q, _ => q) = _
      rw [h, hnil]
      cases err <;> rfl
  have hsent : ∀ (err : Option Str) (e1 : Entry), e1.query = textOf w.dialect w.render → ∀ c text args,
      some (ctx, textOf w.dialect w.render, argsOf w.dialect w.render) = some (c, text, args) →
      c = ctx ∧ args = argsOf w.dialect w.render ∧ text = textOf w.dialect w.render ∧
        (text ≠ [] → (finishEntry (textOf w.dialect w.render) err e1).query = text) ∧
        (text = [] → (finishEntry (textOf w.dialect w.render) err e1).query = (err.map errText).getD []) := by
    intro err e1 h c text args hh
    cases hh
    exact ⟨rfl, rfl, rfl, (hquery err e1 _ h).1, (hquery err e1 _ h).2⟩
  cases hst : w.render.st with
  | err e =>
    rw [hst] at ho
    dsimp only at ho
    subst ho
    refine ⟨_, rfl, hd0, rfl, fun _ => rfl, nofun, ?_, nofun, nofun, ?_⟩
    · simp [finishEntry, ht0]
    · intro e' h
      cases h
      refine ⟨rfl, rfl, ?_⟩
      show (match (execSwitch w.value { dialect := w.dialect }).query, some e with
        | [], some x => textOf w.dialect w.render ++ errText x
        | q, _ => q) = _
      rw [hq0]
      exact append_errText _ _
  | panic =>
    rw [hst] at ho
    dsimp only at ho
    subst ho
    refine ⟨_, rfl, hd0, rfl, fun h => absurd rfl h, fun _ => ⟨rfl, rfl⟩, ?_, nofun, nofun, nofun⟩
    simp [finishEntry, ht0]
  | _ =>
    rw [hst] at ho
    dsimp only at ho
    split at ho
    · subst ho
      exact ⟨_, rfl, hd0, rfl, fun _ => rfl, nofun, by simp [finishEntry], nofun, hsent _ _ rfl, nofun⟩
    · split at ho
      · subst ho
        exact ⟨_, rfl, hd0, rfl, fun _ => rfl, nofun, by simp [finishEntry], nofun, hsent _ _ rfl, nofun⟩
      · split at ho
        · rename_i hd
          split at ho
          · subst ho
            exact ⟨_, rfl, hd0, rfl, fun _ => rfl, nofun, by simp [finishEntry], nofun, hsent _ _ rfl, nofun⟩
          · subst ho
            exact ⟨_, rfl, hd0, rfl, fun _ => rfl, nofun, by simp [finishEntry], fun _ => ⟨rfl, by rw [if_pos hd]; rfl⟩, hsent _ _ rfl, nofun⟩
        · rename_i hd
          subst ho
          exact ⟨_, rfl, hd0, rfl, fun _ => rfl, nofun, by simp [finishEntry], fun _ => ⟨rfl, by rw [if_neg hd]; exact hl0⟩, hsent _ _ rfl, nofun⟩

/-! ### What kind of query it was -/

theorem afterFields_kind (w : World Ctx F V Raw) (zero : Fetching.Kind → V) (conv : Fetching.Kind → Raw → Option V) (mapper : List E → Prog F V E) (ctx : Ctx)
    (tr : List E) (hs : w.source.Usable) (en : Entry) (hen : (fetchContext w zero conv mapper ctx tr).entry = some en) :
    en.env = w.entry0.env ∧ en.queryType = w.entry0.queryType ∧ en.tableModified = w.entry0.tableModified ∧ en.caller = w.entry0.caller := by
  rcases fetch_entry w zero conv mapper ctx tr hs with ⟨-, h2, -⟩ | ⟨-, r, t, h2, hf, hd⟩
  · rw [h2] at hen; cases hen
  · have h := afterFields_entry w zero conv mapper ctx r t (w.render ((registered zero mapper tr).map Prod.snd)) _ hf hd
    rw [← h2] at h
    have hlog : ∀ q n err res e1, w.log q n err res e1 = some en → en.env = e1.env ∧ en.queryType = e1.queryType ∧ en.tableModified = e1.tableModified ∧ en.caller = e1.caller := by
      intro q n err res e1 h
      unfold World.log at h
      rw [Option.map_eq_some_iff] at h
      obtain ⟨set, -, rfl⟩ := h
      exact ⟨rfl, rfl, rfl, rfl⟩
    rcases h with ⟨e, -, -, -, he⟩ | ⟨-, -, err, res, he, -⟩
    · rw [he] at hen; exact hlog _ _ _ _ _ hen
    · rw [he] at hen; have h := hlog _ _ _ _ _ hen; exact h

/-- **C68, kind of the query.** A fetch or exec of one of the four query structs is logged with its environment and its kind, an exec also with the table it
modifies.  Missing: the types the builders return, see `C68_kind_violated`. -/
theorem C68_kind_partial (w : World Ctx F V Raw) (zero : Fetching.Kind → V) (conv : Fetching.Kind → Raw → Option V) (mapper : List E → Prog F V E) (ctx : Ctx)
    (tr : List E) (hs : w.source.Usable) (en : Entry) (hen : (fetchContext w zero conv mapper ctx tr).entry = some en) (hq : w.value.goType = none) :
    en.env = some w.value.env ∧ en.queryType = Spec.kind w.value.verb := by
  obtain ⟨h1, h2, -⟩ := afterFields_kind w zero conv mapper ctx tr hs en hen
  rw [h1, h2]
  unfold World.entry0 fetchSwitch
  rw [hq]
  exact ⟨rfl, by cases w.value.verb <;> rfl⟩

theorem exec_kind (w : ExecWorld Ctx) (ctx : Ctx) (en : Entry) (hen : (execContext w ctx).entry = some en) :
    en.env = (execSwitch w.value { dialect := w.dialect }).env ∧ en.queryType = (execSwitch w.value { dialect := w.dialect }).queryType ∧
    en.tableModified = (execSwitch w.value { dialect := w.dialect }).tableModified := by
  unfold execContext at hen
  cases hs : w.source with
  | fails e => rw [hs] at hen; cases hen
  | noLogger =>
    rw [hs] at hen
    dsimp only at hen
    simp only [LogSource.active, Option.map_none] at hen
    repeat' split at hen
    all_goals cases hen
  | unsupported =>
    rw [hs] at hen
    dsimp only at hen
    simp only [LogSource.active, Option.map_none] at hen
    repeat' split at hen
    all_goals cases hen
  | settings set =>
    rw [hs] at hen
    dsimp only at hen
    simp only [LogSource.active, Option.map_some] at hen
    repeat' split at hen
    all_goals cases hen; exact ⟨rfl, rfl, rfl⟩

theorem C68_kind_exec_partial (w : ExecWorld Ctx) (ctx : Ctx) (en : Entry) (hen : (execContext w ctx).entry = some en) (hq : w.value.goType = none) :
    en.env = some w.value.env ∧ en.queryType = Spec.kind w.value.verb ∧
      (∀ t ts, w.value.verb ≠ .select → w.value.tables = some t :: ts → en.tableModified = t) := by
  obtain ⟨h1, h2, h3⟩ := exec_kind w ctx en hen
  rw [h1, h2, h3]
  unfold execSwitch
  rw [hq]
  refine ⟨rfl, by cases w.value.verb <;> rfl, ?_⟩
  intro t ts hv ht
  dsimp only
  rw [ht]
  revert hv
  cases w.value.verb <;> simp

/-- **C68, violated for builder queries.** Whatever a builder returned (a Postgres, MySQL or SQLite query of any kind): fetching or executing it, the logger is told
neither its environment nor its kind nor the table it modifies. -/
theorem C68_kind_violated (w : World Ctx F V Raw) (zero : Fetching.Kind → V) (conv : Fetching.Kind → Raw → Option V) (mapper : List E → Prog F V E) (ctx : Ctx)
    (tr : List E) (hs : w.source.Usable) (en : Entry) (hen : (fetchContext w zero conv mapper ctx tr).entry = some en) (d : Dialect) (hq : w.value.goType = some d) :
    en.env = none ∧ en.queryType = [] ∧ en.tableModified = ([], []) := by
  obtain ⟨h1, h2, h3, -⟩ := afterFields_kind w zero conv mapper ctx tr hs en hen
  rw [h1, h2, h3]
  unfold World.entry0 fetchSwitch
  rw [hq]
  exact ⟨rfl, rfl, rfl⟩

theorem C68_kind_exec_violated (w : ExecWorld Ctx) (ctx : Ctx) (en : Entry) (hen : (execContext w ctx).entry = some en) (d : Dialect) (hq : w.value.goType = some d) :
    en.env = none ∧ en.queryType = [] ∧ en.tableModified = ([], []) := by
  obtain ⟨h1, h2, h3⟩ := exec_kind w ctx en hen
  rw [h1, h2, h3]
  unfold execSwitch
  rw [hq]
  exact ⟨rfl, rfl, rfl⟩

/-- **C68, kind of a `FetchExists` (partial).** It is logged as a SELECT, whatever the query is, and for one of the four query structs with its environment.  Missing: the
environment of the types the builders return, which is not logged (second part). -/
theorem C68_kind_exists_partial (w : ExistsWorld Ctx Raw) (conv : List Raw → Option Bool) (ctx : Ctx) (en : Entry) (hen : (fetchExistsContext w conv ctx).entry = some en) :
    en.queryType = Spec.kind .select ∧ (w.value.goType = none → en.env = some w.value.env) ∧ (∀ d, w.value.goType = some d → en.env = none) ∧ en.tableModified = ([], []) := by
  have h0 : let e := existsSwitch w.value { dialect := w.dialect }
      e.queryType = Spec.kind .select ∧ (w.value.goType = none → e.env = some w.value.env) ∧ (∀ d, w.value.goType = some d → e.env = none) ∧ e.tableModified = ([], []) := by
    unfold existsSwitch
    cases w.value.goType with
    | none => exact ⟨rfl, fun _ => rfl, nofun, rfl⟩
    | some d => exact ⟨rfl, nofun, fun _ _ => rfl, rfl⟩
  unfold fetchExistsContext at hen
  cases hs : w.source with
  | fails e => rw [hs] at hen; cases hen
  | noLogger =>
    rw [hs] at hen
    dsimp only at hen
    simp only [LogSource.active, Option.map_none] at hen
    repeat' split at hen
    all_goals cases hen
  | unsupported =>
    rw [hs] at hen
    dsimp only at hen
    simp only [LogSource.active, Option.map_none] at hen
    repeat' split at hen
    all_goals cases hen
  | settings set =>
    rw [hs] at hen
    dsimp only at hen
    simp only [LogSource.active, Option.map_some] at hen
    repeat' split at hen
    all_goals cases hen
    all_goals exact h0

/-- **C68, caller information.** It is looked up exactly if the logger asks for it. -/
theorem C68_caller (w : World Ctx F V Raw) (zero : Fetching.Kind → V) (conv : Fetching.Kind → Raw → Option V) (mapper : List E → Prog F V E) (ctx : Ctx)
    (tr : List E) (set : LogSettings) (hs : w.source = .settings set) (en : Entry) (hen : (fetchContext w zero conv mapper ctx tr).entry = some en) :
    en.caller = set.getCallerInfo := by
  obtain ⟨-, -, -, h4⟩ := afterFields_kind w zero conv mapper ctx tr (by rw [hs]; trivial) en hen
  rw [h4]
  unfold World.entry0
  rw [hs]
  rfl

/-- **C68, violated for cancelled calls.** The logger of the package prints nothing about a call whose context is done when it ends: a query that failed by being
cancelled or by timing out is not printed. -/
theorem C68_cancelled_violated (flag : Nat) (s : QueryStats) : printed true flag s = none := rfl
theorem C68_printed (flag : Nat) (s : QueryStats) : printed false flag s = some (logText flag s) := rfl

/-! ### A concrete case: two fields, three rows, two of them shown -/

def exampleWorld : World Unit Str Nat Nat where
  source := .settings { resultsLimit := 2, getCallerInfo := false, asyncLogging := false, timeQuery := true }
  value := { verb := .select, goType := some .sqlite, env := 0 }
  dialect := .sqlite
  render := fun fs => { code := [.text "SELECT ".toList, .text (fs.flatMap id)], st := .ok }
  answer := fun _ _ _ => .ok { rows := [[1, 10], [2, 20], [3, 30]] }
  name := fun f => (f, .ok f)
  show_ := fun v => .ok (toString v).toList

def exampleMapper : List Nat → Prog Str Nat Nat := fun _ =>
  .read .int64 "a".toList fun a => .read .int64 "b".toList fun b => .process [a + b] false none .ret

example :
    let o := fetchContext exampleWorld (fun _ => 0) (fun _ x => some x) exampleMapper () []
    o.count = 3 ∧ o.fin = .ok ∧ o.trace = [11, 22, 33] ∧ o.sent = some ((), "SELECT ab".toList, []) ∧
      o.entry = some
        { dialect := .sqlite, query := "SELECT ab".toList, rowCount := some 3, timed := true,
          results := "\n----[ Row 1 ]----\na: 1\nb: 10\n----[ Row 2 ]----\na: 2\nb: 20\n...\n(1 more rows)".toList } := by
  decide +kernel

example : Registered exampleWorld (fun _ => 0) exampleMapper [] := by
  unfold Registered
  decide +kernel

/-- **C68, violated by panics.** A mapper that panics with an error on the first row: the caller gets the error, the entry has none. -/
theorem C68_panic_violated :
    let o := fetchContext exampleWorld (fun _ => 0) (fun _ x => some x)
      (fun (_ : List Nat) => (.read .int64 "a".toList fun _ => .read .int64 "b".toList fun _ => .isActive fun b => if b then .panic (some "boom".toList) else .ret : Prog Str Nat Nat)) () ([] : List Nat)
    o.fin = .err "boom".toList ∧ o.entry.map (·.error) = some none := by
  decide +kernel

def exampleExec : ExecWorld Unit where
  source := .settings { resultsLimit := 0, getCallerInfo := false, asyncLogging := false, timeQuery := false }
  value := { verb := .delete, goType := none, env := 7, tables := [some ("main".toList, "t".toList)] }
  dialect := .mysql
  render := { code := [.text "DELETE FROM t".toList], st := .ok }
  answer := fun _ _ _ => .ok (.ok 2, .ok 5)

example : (execContext exampleExec ()).entry = some
    { env := some 7, dialect := .mysql, queryType := "DELETE".toList, tableModified := ("main".toList, "t".toList), query := "DELETE FROM t".toList,
      rowsAffected := some 2, lastInsertID := some 5 } := by
  decide +kernel

def exampleExists : ExistsWorld Unit Bool where
  source := .settings { resultsLimit := 0, getCallerInfo := true, asyncLogging := false, timeQuery := false }
  value := { verb := .select, goType := some .postgres, env := 0 }
  dialect := .postgres
  render := { code := [.text "SELECT 1 FROM t".toList], st := .ok }
  answer := fun _ _ _ => .ok { rows := [[true]] }

example : (fetchExistsContext exampleExists List.head? ()).entry = some
    { dialect := .postgres, queryType := "SELECT".toList, query := "SELECT EXISTS (SELECT 1 FROM t)".toList, exists_ := some true, caller := true } := by
  decide +kernel

end Sq.Logging
