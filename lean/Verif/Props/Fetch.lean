import Verif.Spec.Fetch
/-
C28: the row mapper.  C29: fetching.  C30: contexts.  C43: logging.
-/
namespace Sq.Fetching
open Spec

variable {Ctx F V E Raw : Type}

/-- A registered destination list holding the values of a row. -/
def filled (val : Kind → F → V) (D : List (Kind × F)) : List (Kind × V) := D.map fun kf => (kf.1, val kf.1 kf.2)

theorem run_active (zero : Kind → V) (val : Kind → F → V) (D : List (Kind × F)) (p : Prog F V E) (r : RowSt F V) (tr : List E)
    (ha : r.active = true) (hd : r.dest = filled val D) (hc : calls val true p <+: D.drop r.index) :
    let s := behave val p r.processed r.closed r.processingErr tr
    ∃ r', run zero p r tr = (s.ended, r', s.trace) ∧ r'.closed = s.closed ∧ r'.processingErr = s.err ∧ r'.dest = r.dest ∧
      r'.active = true := by
  induction p generalizing r tr with
  | ret => exact ⟨r, rfl, rfl, rfl, rfl, ha⟩
  | read kind f k ih =>
    simp only [calls] at hc
    obtain ⟨t, ht⟩ := hc
    have hget : r.dest[r.index]? = some (kind, val kind f) := by
      rw [hd, filled, List.getElem?_map]
      have : D[r.index]? = some (kind, f) := by
        have := congrArg List.head? ht
        simpa [List.head?_drop] using this.symm
      rw [this]; rfl
    simp only [run, behave]
    rw [if_neg (by simp [ha]), hget]
    dsimp only
    rw [if_pos rfl]
    refine ih _ { r with index := r.index + 1 } tr ha hd ?_
    refine ⟨t, ?_⟩
    have := congrArg List.tail ht
    simpa using this
  | effect e k ih => simp only [run, behave]; exact ih r _ ha hd hc
  | isActive k ih => simp only [run, behave, ha]; exact ih true r tr ha hd hc
  | process es c e k ih =>
    simp only [run, behave]
    by_cases hp : r.processed = true
    · rw [if_pos (.inr hp), if_pos hp]; exact ih r tr ha hd hc
    · rw [if_neg (by simp [ha, hp]), if_neg hp]
      exact ih { r with processed := true, processingErr := e, closed := r.closed || c } _ ha hd hc
  | close k ih => simp only [run, behave]; exact ih { r with closed := true } tr ha hd hc
  | panic e =>
    cases e with
    | some e => exact ⟨r, rfl, rfl, rfl, rfl, ha⟩
    | none => exact ⟨r, rfl, rfl, rfl, rfl, ha⟩

theorem run_passive (zero : Kind → V) (p : Prog F V E) (r : RowSt F V) (tr : List E) (ha : r.active = false) :
    let s := register zero p r.closed tr
    ∃ r', run zero p r tr = (s.1, r', s.2.2) ∧ r'.closed = s.2.1 ∧ r'.processingErr = r.processingErr ∧
      r'.active = false ∧
      (s.1 = .done → r'.fields = r.fields ++ (calls (fun k _ => zero k) false p).map Prod.snd ∧
        r'.dest = r.dest ++ filled (fun k _ => zero k) (calls (fun k _ => zero k) false p)) := by
  induction p generalizing r tr with
  | ret => exact ⟨r, rfl, rfl, rfl, ha, fun _ => ⟨by simp [calls], by simp [calls, filled]⟩⟩
  | read kind f k ih =>
    simp only [run, register]
    rw [if_pos ha]
    obtain ⟨r', h1, h2, h3, h4, h5⟩ := ih (zero kind)
      { r with fields := r.fields ++ [f], dest := r.dest ++ [(kind, zero kind)] } tr ha
    refine ⟨r', h1, h2, h3, h4, fun hd => ?_⟩
    obtain ⟨h6, h7⟩ := h5 hd
    refine ⟨?_, ?_⟩
    · rw [h6]; simp [calls]
    · rw [h7]; simp [calls, filled]
  | effect e k ih => simp only [run, register, calls]; exact ih r _ ha
  | isActive k ih => simp only [run, register, calls, ha]; exact ih false r tr ha
  | process es c e k ih => simp only [run, register, calls]; rw [if_pos (.inl ha)]; exact ih r tr ha
  | close k ih => simp only [run, register, calls]; exact ih { r with closed := true } tr ha
  | panic e =>
    cases e with
    | some e => exact ⟨r, rfl, rfl, rfl, ha, nofun⟩
    | none => exact ⟨r, rfl, rfl, rfl, ha, nofun⟩

theorem scan_filled (conv : Kind → Raw → Option V) (old val : Kind → F → V) (D : List (Kind × F)) (row : F → Raw)
    (h : ∀ kf ∈ D, conv kf.1 (row kf.2) = some (val kf.1 kf.2)) :
    scan conv (filled old D) ((D.map Prod.snd).map row) = some (filled val D) := by
  induction D with
  | nil => rfl
  | cons kf D ih =>
    simp only [filled, List.map_cons, scan] at ih ⊢
    rw [h kf (by simp), ih (fun x hx => h x (by simp [hx]))]

theorem scan_fails (conv : Kind → Raw → Option V) (old : Kind → F → V) (D : List (Kind × F)) (row : F → Raw)
    (h : ∃ kf ∈ D, conv kf.1 (row kf.2) = none) :
    scan conv (filled old D) ((D.map Prod.snd).map row) = none := by
  induction D with
  | nil => obtain ⟨_, h, _⟩ := h; cases h
  | cons kf D ih =>
    obtain ⟨x, hx, hn⟩ := h
    simp only [filled, List.map_cons, scan] at ih ⊢
    rcases List.mem_cons.1 hx with rfl | hx
    · rw [hn]
    · rw [ih ⟨x, hx, hn⟩]
      cases conv kf.1 (row kf.2) <;> rfl

theorem loop_visit (zero : Kind → V) (conv : Kind → Raw → Option V) (mapper : List E → Prog F V E) (D : List (Kind × F))
    (table : List ((F → Raw) × Option (Kind → F → V)))
    (hconv : ∀ row ∈ table, Shows conv D row.1 row.2)
    (hcalls : ∀ row ∈ table, ∀ val, row.2 = some val → ∀ tr, calls val true (mapper tr) <+: D)
    (r : RowSt F V) (tr : List E) (n : Nat) (ha : r.active = true) (old : Kind → F → V) (hd : r.dest = filled old D)
    (he : r.processingErr = none) :
    loop zero conv mapper r tr n (table.map fun row => (D.map Prod.snd).map row.1) =
      visit mapper tr r.closed n (table.map Prod.snd) := by
  induction table generalizing r tr n old with
  | nil => rfl
  | cons row rest ih =>
    obtain ⟨raw, view⟩ := row
    have hsh := hconv (raw, view) (by simp)
    cases view with
    | none =>
      simp only [List.map_cons, loop, visit]
      rw [hd, scan_fails conv old D raw hsh]
    | some val =>
    simp only [List.map_cons, loop, visit]
    rw [hd, scan_filled conv old val D raw hsh]
    dsimp only
    obtain ⟨r', h1, h2, h3, h4, h5⟩ := run_active zero val D (mapper tr)
      { r with dest := filled val D, index := 0, processed := false } tr ha rfl (by simpa using hcalls (raw, some val) (by simp) val rfl tr)
    simp only [he] at h1 h2 h3
    simp only [he]
    rw [h1]
    generalize behave val (mapper tr) false r.closed none tr = s at h1 h2 h3 ⊢
    obtain ⟨ended, err, cl, tr'⟩ := s
    simp only at h1 h2 h3 ⊢
    cases ended with
    | panicErr e => rfl
    | crash => rfl
    | done =>
      dsimp only
      rw [h3]
      cases err with
      | some e => rfl
      | none =>
        dsimp only
        rw [h2]
        split
        · rfl
        · have := ih (fun x hx => hconv x (by simp [hx])) (fun x hx => hcalls x (by simp [hx])) r' tr' (n + 1) h5 val h4 h3
          rw [this, h2]

/-- What the caller gets when the rows ended in a certain way. -/
def finOf (closeErr endErr : Option Str) : LoopEnd → Fin
  | .exhausted => match closeErr.or endErr with | none => .ok | some e => .err e
  | .closedEarly => match closeErr with | none => .ok | some e => .err e
  | .err e | .panicErr e => .err e
  | .crash => .crash

/-- **C28, C29.** Let the mapper's registration pass make the reading calls `D` (at least one), and let it, on every row,
make the same calls or a prefix of them.  If the database answers the query for the registered fields with the rows of a
table (each row a function from fields to values), then `FetchContext` does exactly this: it calls the mapper once per row in
order, every call of `row.X(f)` receiving the value of field `f` in that row, until a value cannot be converted, the mapper
panics, returns a processing error or closes; the row count is the number of rows visited; the error is the first one that occurred. -/
theorem C28_C29_fetch (w : World Ctx F Raw) (zero : Kind → V) (conv : Kind → Raw → Option V) (mapper : List E → Prog F V E)
    (ctx : Ctx) (tr tr1 : List E) (cl : Bool) (D : List (Kind × F)) (closeErr endErr : Option Str)
    (table : List ((F → Raw) × Option (Kind → F → V)))
    (hreg : register zero (mapper tr) false tr = (.done, cl, tr1))
    (hD : D = calls (fun k _ => zero k) false (mapper tr)) (hne : D ≠ [])
    (hset : w.setFields (D.map Prod.snd) = none) (hren : w.render (D.map Prod.snd) = none)
    (hq : w.query ctx (D.map Prod.snd) =
      .ok { rows := table.map fun row => (D.map Prod.snd).map row.1, endErr := endErr, closeErr := closeErr })
    (hconv : ∀ row ∈ table, Shows conv D row.1 row.2)
    (hcalls : ∀ row ∈ table, ∀ val, row.2 = some val → ∀ tr, calls val true (mapper tr) <+: D) :
    let v := visit mapper tr1 cl 0 (table.map Prod.snd)
    let o := FetchContext w zero conv mapper ctx tr
    o.count = v.1 ∧ o.fin = finOf closeErr endErr v.2.1 ∧ o.trace = v.2.2 := by
  intro v o
  obtain ⟨r', h1, h2, h3, h4, h5⟩ := run_passive zero (mapper tr) ({} : RowSt F V) tr rfl
  simp only [hreg] at h1 h2 h5
  obtain ⟨h6, h7⟩ := h5 trivial
  rw [← hD] at h6 h7
  simp only [List.nil_append] at h6 h7
  have hdest : ¬ r'.dest = [] := by rw [h7]; simpa [filled] using hne
  have hl := loop_visit zero conv mapper D table hconv hcalls { r' with active := true } tr1 0 rfl _ h7 h3
  have hcl : visit mapper tr1 r'.closed 0 (table.map Prod.snd) = visit mapper tr1 cl 0 (table.map Prod.snd) := by rw [h2]
  replace hl := hl.trans hcl
  have ho : o = deferClose (afterOpen w.logs zero conv mapper ctx r' tr1
      { rows := table.map fun row => (D.map Prod.snd).map row.1, endErr := endErr, closeErr := closeErr }) := by
    show FetchContext w zero conv mapper ctx tr = _
    simp only [FetchContext, fetchContext, h1, h6, hset, hren, hq]
  rw [ho]
  unfold afterOpen
  rw [if_neg hdest]
  have hv : v = visit mapper tr1 cl 0 (table.map Prod.snd) := rfl
  simp only [hl, ← hv]
  obtain ⟨n, e, t⟩ := v
  cases e <;> exact ⟨rfl, rfl, rfl⟩

/-- **C29.** For every mapper, whatever it does (including panics of either kind), and for every database: a result set that
was opened is closed when the call ends. -/
theorem C29_result_set_closed (w : World Ctx F Raw) (zero : Kind → V) (conv : Kind → Raw → Option V)
    (mapper : List E → Prog F V E) (ctx : Ctx) (tr : List E) :
    let o := FetchContext w zero conv mapper ctx tr
    o.opened = true → o.closed = true := by
  intro o
  show (FetchContext w zero conv mapper ctx tr).opened = true → (FetchContext w zero conv mapper ctx tr).closed = true
  unfold FetchContext fetchContext
  rcases run zero (mapper tr) {} tr with ⟨e, r, t⟩
  cases e with
  | panicErr e => exact nofun
  | crash => exact nofun
  | done =>
    dsimp only
    cases w.setFields r.fields with
    | some e => exact nofun
    | none =>
      cases w.render r.fields with
      | some e => exact nofun
      | none =>
        dsimp only
        cases w.query ctx r.fields with
        | error e => exact nofun
        | ok rows => exact fun _ => rfl

/-- A result set is opened exactly when the query ran without error. -/
theorem C29_opened (w : World Ctx F Raw) (zero : Kind → V) (conv : Kind → Raw → Option V)
    (mapper : List E → Prog F V E) (ctx : Ctx) (tr : List E) (rows : Rows Raw) (hq : ∀ fs, w.query ctx fs = .ok rows)
    (hs : ∀ fs, w.setFields fs = none) (hr : ∀ fs, w.render fs = none)
    (hd : (register zero (mapper tr) false tr).1 = .done) :
    let o := FetchContext w zero conv mapper ctx tr
    o.opened = true ∧ o.closed = true := by
  intro o
  have : o.opened = true := by
    show (FetchContext w zero conv mapper ctx tr).opened = true
    obtain ⟨r', h1, -⟩ := run_passive zero (mapper tr) ({} : RowSt F V) tr rfl
    simp only [hd] at h1
    simp only [FetchContext, fetchContext, h1, hs, hr, hq, deferClose, afterOpen]
    split
    · rfl
    · split <;> rfl
  exact ⟨this, C29_result_set_closed w zero conv mapper ctx tr this⟩

theorem loop_count (zero : Kind → V) (conv : Kind → Raw → Option V) (mapper : List E → Prog F V E)
    (rows : List (List Raw)) (r : RowSt F V) (tr : List E) (n : Nat) :
    let l := loop zero conv mapper r tr n rows
    n ≤ l.1 ∧ l.1 ≤ n + rows.length ∧ (l.2.1 = .exhausted → l.1 = n + rows.length) := by
  induction rows generalizing r tr n with
  | nil => simp [loop]
  | cons x xs ih =>
    simp only [loop]
    cases scan conv r.dest x with
    | none => exact ⟨by simp, by simp, nofun⟩
    | some dest =>
      dsimp only
      rcases run zero (mapper tr) { r with dest := dest, index := 0, processed := false } tr with ⟨e, r', t⟩
      cases e with
      | panicErr e => exact ⟨by simp, by simp, nofun⟩
      | crash => exact ⟨by simp, by simp, nofun⟩
      | done =>
        dsimp only
        cases r'.processingErr with
        | some e => exact ⟨by simp, by simp, nofun⟩
        | none =>
          dsimp only
          split
          · exact ⟨by simp, by simp, nofun⟩
          · obtain ⟨h1, h2, h3⟩ := ih r' t (n + 1)
            refine ⟨by omega, by simp only [List.length_cons]; omega, fun h => ?_⟩
            have := h3 h; simp only [List.length_cons]; omega

/-- **C29.** For every mapper: the row count never exceeds the number of rows, and when the call returns no error without
the mapper ever closing the row, it is the number of rows (unless the mapper reads no field at all, see
`C29_no_fields_violated`). -/
theorem C29_count_bound (w : World Ctx F Raw) (zero : Kind → V) (conv : Kind → Raw → Option V)
    (mapper : List E → Prog F V E) (ctx : Ctx) (tr : List E) (rows : Rows Raw) (hq : ∀ fs, w.query ctx fs = .ok rows) :
    (FetchContext w zero conv mapper ctx tr).count ≤ rows.rows.length := by
  unfold FetchContext fetchContext
  rcases run zero (mapper tr) {} tr with ⟨e, r, t⟩
  cases e with
  | panicErr e => exact Nat.zero_le _
  | crash => exact Nat.zero_le _
  | done =>
    dsimp only
    cases w.setFields r.fields with
    | some e => exact Nat.zero_le _
    | none =>
      cases w.render r.fields with
      | some e => exact Nat.zero_le _
      | none =>
        dsimp only
        rw [hq]
        dsimp only [deferClose, afterOpen]
        split
        · exact Nat.zero_le _
        · have := (loop_count zero conv mapper rows.rows { r with active := true } t 0).2.1
          generalize loop zero conv mapper { r with active := true } t 0 rows.rows = l at this ⊢
          obtain ⟨n, e, t⟩ := l
          cases e <;> (dsimp only at this ⊢; omega)

/-- **C29 fails for a mapper that reads no field**: the query is run, but the mapper is called on none of the rows (neither
`Process` callbacks nor anything else), and the row count is 0 although there are rows. -/
theorem C29_no_fields_violated (zero : Kind → V) (conv : Kind → Raw → Option V) (ctx : Ctx) (e : E) (row : List Raw) :
    let w : World Ctx F Raw := { query := fun _ _ => .ok { rows := [row] } }
    let o := FetchContext w zero conv (fun _ => .process [e] false none .ret) ctx []
    o.fin = .ok ∧ o.count = 0 ∧ o.trace = [] := ⟨rfl, rfl, rfl⟩

/-- **C28, the limit of the protocol.** A mapper that reads a field only when the row is active (so it was not registered) is
answered by an error, not by another field's value. -/
theorem C28_unregistered_read (zero : Kind → V) (val : Kind → F → V) (D : List (Kind × F)) (kind : Kind) (f : F)
    (k : V → Prog F V E) (r : RowSt F V) (tr : List E) (ha : r.active = true) (hd : r.dest = filled val D)
    (hc : (D[r.index]?).all (fun kf => kf.1 ≠ kind) = true) :
    ∃ e, (run zero (.read kind f k) r tr).1 = .panicErr e := by
  simp only [run]
  rw [if_neg (by simp [ha]), hd, filled, List.getElem?_map]
  cases h : D[r.index]? with
  | none => exact ⟨_, rfl⟩
  | some kf =>
    rw [h] at hc
    have : kf.1 ≠ kind := by simpa using hc
    dsimp only [Option.map]
    rw [if_neg this]
    exact ⟨_, rfl⟩

/-- **C28 fails for mappers whose reads depend on the data**: the registration pass sees zero values only; a mapper that then
reads another field of the same kind receives the value of the field that was registered at that position. -/
theorem C28_data_dependent_violated :
    let row : Bool → Int := fun f => if f then 1 else 2
    let w : World Unit Bool Int := { query := fun _ fs => .ok { rows := [fs.map row] } }
    -- reads field `true`; if that is nonzero reads `true` again, else `false`; reports what it read second
    let mapper : List Int → Prog Bool Int Int := fun _ =>
      .read .int64 true fun v =>
        .read .int64 (decide (v ≠ 0)) fun u => .process [u] false none .ret
    (FetchContext w (fun _ => 0) (fun _ x => some x) mapper () []).trace = [2] ∧
      (behave (fun _ f => row f) (mapper []) false false none []).trace = [1] := by
  refine ⟨?_, ?_⟩ <;> rfl

/-- A concrete mapper that meets the hypotheses of `C28_C29_fetch`: it reads an id and a name, and processes them; the third
row cannot be converted. -/
example :
    let mapper : List (Int × Int) → Prog String Int (Int × Int) := fun _ =>
      .read .int64 "id" fun i => .read .string "name" fun s => .process [(i, s)] false none .ret
    let tbl : List (String → Int) := [fun f => if f = "id" then 1 else 10, fun f => if f = "id" then 2 else 20, fun _ => -1]
    let w : World Unit String Int := { query := fun _ fs => .ok { rows := tbl.map (fun row => fs.map row) } }
    let o := FetchContext w (fun _ => 0) (fun _ x => if x < 0 then none else some x) mapper () []
    o.count = 3 ∧ o.fin = .err "scan" ∧ o.trace = [(1, 10), (2, 20)] := by
  intro mapper tbl w o
  exact C28_C29_fetch (tr1 := []) (cl := false) (D := [(.int64, "id"), (.string, "name")]) (closeErr := none) (endErr := none)
    (table := tbl.map fun row => (row, if row "id" < 0 then none else some fun _ f => row f)) w (fun _ => 0)
    (fun _ x => if x < 0 then none else some x) mapper () []
    rfl rfl (by simp) rfl rfl (by simp [w, tbl]) (by simp [tbl, Shows]) (fun row _ val _ tr => by simp [mapper, calls])

/-! ### C29, C30: the other two entry points -/

/-- **C29 (FetchExists).** The answer is that of the first row; no row means `false`; the result set is closed. -/
theorem C29_exists (w : ExistsWorld Ctx Raw) (conv : List Raw → Option Bool) (background ctx : Ctx) :
    let o := FetchExistsContext background w conv ctx
    (o.opened = true → o.closed = true) ∧
      (o.fin = .ok → ∃ rows, w.query background = .ok rows ∧
        ((rows.rows = [] ∧ o.exist = false) ∨ ∃ x xs, rows.rows = x :: xs ∧ conv x = some o.exist)) := by
  intro o
  show ((FetchExistsContext background w conv ctx).opened = true → _) ∧ _
  simp only [o]
  unfold FetchExistsContext fetchExistsContext
  cases w.early with
  | some e => exact ⟨nofun, nofun⟩
  | none =>
  cases w.prepare with
  | some e => exact ⟨nofun, nofun⟩
  | none =>
    dsimp only
    cases hq : w.query background with
    | error e => exact ⟨nofun, nofun⟩
    | ok rows =>
      dsimp only
      rcases hr : rows.rows with _ | ⟨x, xs⟩
      · exact ⟨fun _ => rfl, fun _ => ⟨rows, rfl, .inl ⟨hr, rfl⟩⟩⟩
      · dsimp only
        cases hc : conv x with
        | none => exact ⟨fun _ => rfl, nofun⟩
        | some b => exact ⟨fun _ => rfl, fun _ => ⟨rows, rfl, .inr ⟨x, xs, hr, hc⟩⟩⟩

/-- **C29 (FetchExists, errors).** The call succeeds exactly if the query can be prepared, the database answers it, closing the answer gives no error, and the answer
has a first row that can be read as a boolean, or ended without an error before any row. -/
theorem C29_exists_ok (w : ExistsWorld Ctx Raw) (conv : List Raw → Option Bool) (background ctx : Ctx) :
    (FetchExistsContext background w conv ctx).fin = .ok ↔ w.early = none ∧ w.prepare = none ∧ ∃ rows, w.query background = .ok rows ∧ rows.closeErr = none ∧
      ((rows.rows = [] ∧ rows.endErr = none) ∨ ∃ x xs b, rows.rows = x :: xs ∧ conv x = some b) := by
  unfold FetchExistsContext fetchExistsContext
  cases w.early with
  | some e => simp
  | none =>
  cases w.prepare with
  | some e => simp
  | none =>
    dsimp only
    cases hq : w.query background with
    | error e => simp
    | ok rows =>
      dsimp only
      rcases hr : rows.rows with _ | ⟨x, xs⟩
      · cases hc : rows.closeErr <;> cases he : rows.endErr <;> simp [hr, hc, he]
      · dsimp only
        cases hc : conv x with
        | none => simp [hr, hc]
        | some b => cases hcl : rows.closeErr <;> simp [hr, hc, hcl]

/-- **C30.** Whenever `FetchContext` reaches the database, it hands over the caller's context; and if the database answers
an error for that context (as `database/sql` does for a cancelled one) the caller gets that error and no row is visited. -/
theorem C30_fetch (w : World Ctx F Raw) (zero : Kind → V) (conv : Kind → Raw → Option V)
    (mapper : List E → Prog F V E) (ctx : Ctx) (tr : List E) :
    let o := FetchContext w zero conv mapper ctx tr
    (∀ c, o.ctx = some c → c = ctx) ∧ (o.opened = true → o.ctx = some ctx) ∧
      (∀ e, (∀ fs, w.query ctx fs = .error e) → o.count = 0 ∧ o.opened = false ∧ (o.ctx = some ctx → o.fin = .err e)) := by
  intro o
  simp only [o]
  unfold FetchContext fetchContext
  rcases run zero (mapper tr) {} tr with ⟨e, r, t⟩
  cases e with
  | panicErr e => exact ⟨nofun, nofun, fun _ _ => ⟨rfl, rfl, nofun⟩⟩
  | crash => exact ⟨nofun, nofun, fun _ _ => ⟨rfl, rfl, nofun⟩⟩
  | done =>
    dsimp only
    cases w.setFields r.fields with
    | some e => exact ⟨nofun, nofun, fun _ _ => ⟨rfl, rfl, nofun⟩⟩
    | none =>
      cases w.render r.fields with
      | some e => exact ⟨nofun, nofun, fun _ _ => ⟨rfl, rfl, nofun⟩⟩
      | none =>
        dsimp only
        cases hq : w.query ctx r.fields with
        | error e =>
          refine ⟨fun c h => (Option.some.inj h).symm, nofun, fun e' h => ⟨rfl, rfl, fun _ => ?_⟩⟩
          rw [h] at hq
          rw [Except.error.inj hq]
        | ok rows =>
          have hctx : (afterOpen w.logs zero conv mapper ctx r t rows).ctx = some ctx := by
            unfold afterOpen
            dsimp only
            by_cases hd : r.dest = []
            · rw [if_pos hd]
            · rw [if_neg hd]
              split <;> rfl
          refine ⟨fun c h => ?_, fun _ => hctx, fun e' h => ?_⟩
          · have : (afterOpen w.logs zero conv mapper ctx r t rows).ctx = some c := h
            rw [hctx] at this
            exact (Option.some.inj this).symm
          · rw [h] at hq; cases hq

/-- **C30 (Exec).** -/
theorem C30_exec (w : ExecWorld Ctx) (ctx : Ctx) :
    let o := ExecContext w ctx
    (w.render = none → o.ctx = some ctx) ∧ (∀ c, o.ctx = some c → c = ctx) ∧
      (w.render = none → ∀ e, w.exec ctx = .error e → o.err = some e ∧ o.rowsAffected = 0 ∧ o.lastInsertID = 0) := by
  intro o
  simp only [o]
  unfold ExecContext execContext
  cases hr : w.render with
  | some e => exact ⟨nofun, nofun, nofun⟩
  | none =>
    dsimp only
    cases hq : w.exec ctx with
    | error e =>
      exact ⟨fun _ => rfl, fun c h => (Option.some.inj h).symm, fun _ e' h => ⟨by rw [Except.error.inj h], rfl, rfl⟩⟩
    | ok p =>
      obtain ⟨a, l⟩ := p
      cases a with
      | error e => exact ⟨fun _ => rfl, fun c h => (Option.some.inj h).symm, nofun⟩
      | ok n =>
        dsimp only
        split
        · cases l with
          | error e => exact ⟨fun _ => rfl, fun c h => (Option.some.inj h).symm, nofun⟩
          | ok i => exact ⟨fun _ => rfl, fun c h => (Option.some.inj h).symm, nofun⟩
        · exact ⟨fun _ => rfl, fun c h => (Option.some.inj h).symm, nofun⟩

/-- **C30 fails for `FetchExistsContext`**: the caller's context is ignored; whatever it is, the query runs with the
background context, so a cancelled caller still gets an answer. -/
theorem C30_exists_violated :
    let w : ExistsWorld Bool Unit := { query := fun cancelled => if cancelled then .error "context canceled" else .ok { rows := [[]] } }
    let o := FetchExistsContext false w (fun _ => some true) true
    o.fin = .ok ∧ o.exist = true ∧ o.ctx = some false := ⟨rfl, rfl, rfl⟩

/-- `FetchExistsContext` does not depend on its context argument at all. -/
theorem C30_exists_ignores (w : ExistsWorld Ctx Raw) (conv : List Raw → Option Bool) (background c₁ c₂ : Ctx) :
    FetchExistsContext background w conv c₁ = FetchExistsContext background w conv c₂ := rfl

/-! ### C43: what is logged -/

def Fin.error : Fin → Option Str
  | .ok => none
  | .err e => some e
  | .crash => none

/-- **C43, partial.** Whenever a fetch is logged and the mapper did not panic, the logged row count is the returned one and
the logged error is the returned one.  Missing: panicking mappers, see `C43_panic_violated`. -/
theorem C43_fetch_partial (w : World Ctx F Raw) (zero : Kind → V) (conv : Kind → Raw → Option V)
    (mapper : List E → Prog F V E) (ctx : Ctx) (tr : List E) (n : Nat) (e : Option Str)
    (hnp : ∀ tr (r : RowSt F V), (run zero (mapper tr) r tr).1 = .done) :
    let o := FetchContext w zero conv mapper ctx tr
    o.log = some (n, e) → n = o.count ∧ e = o.fin.error := by
  intro o
  simp only [o]
  unfold FetchContext fetchContext
  rcases hrun : run zero (mapper tr) {} tr with ⟨en, r, t⟩
  cases en with
  | panicErr e => exact nofun
  | crash => exact nofun
  | done =>
    dsimp only
    cases w.setFields r.fields with
    | some e => exact nofun
    | none =>
      cases w.render r.fields with
      | some e =>
        dsimp only
        split
        · intro h; cases h; exact ⟨rfl, rfl⟩
        · exact nofun
      | none =>
        dsimp only
        cases w.query ctx r.fields with
        | error e =>
          dsimp only
          split
          · intro h; cases h; exact ⟨rfl, rfl⟩
          · exact nofun
        | ok rows =>
          have hl : ∀ (rows : List (List Raw)) (r : RowSt F V) tr n, (∀ e, (loop zero conv mapper r tr n rows).2.1 ≠ .panicErr e) ∧
              (loop zero conv mapper r tr n rows).2.1 ≠ .crash := by
            intro rows
            induction rows with
            | nil => intro r tr n; exact ⟨nofun, nofun⟩
            | cons x xs ih =>
              intro r tr n
              simp only [loop]
              cases scan conv r.dest x with
              | none => exact ⟨nofun, nofun⟩
              | some dest =>
                dsimp only
                have := hnp tr { r with dest := dest, index := 0, processed := false }
                rcases h : run zero (mapper tr) { r with dest := dest, index := 0, processed := false } tr with ⟨e, r', t⟩
                rw [h] at this
                subst this
                dsimp only
                cases r'.processingErr with
                | some e => exact ⟨nofun, nofun⟩
                | none =>
                  dsimp only
                  split
                  · exact ⟨nofun, nofun⟩
                  · exact ih _ _ _
          dsimp only [deferClose, afterOpen]
          split
          · dsimp only
            split
            · intro h; cases h; exact ⟨rfl, rfl⟩
            · exact nofun
          · have := hl rows.rows { r with active := true } t 0
            generalize loop zero conv mapper { r with active := true } t 0 rows.rows = l at this ⊢
            obtain ⟨m, le, t⟩ := l
            have hsome : ∀ x : Option Str, (match x with | none => Fin.ok | some e => Fin.err e).error = x := by
              intro x; cases x <;> rfl
            cases le with
            | panicErr e => exact absurd rfl (this.1 e)
            | crash => exact absurd rfl this.2
            | err e =>
              dsimp only
              split
              · intro h; cases h; exact ⟨rfl, rfl⟩
              · exact nofun
            | exhausted =>
              dsimp only
              split
              · intro h; cases h; exact ⟨rfl, (hsome _).symm⟩
              · exact nofun
            | closedEarly =>
              dsimp only
              split
              · intro h; cases h; exact ⟨rfl, (hsome _).symm⟩
              · exact nofun

/-- **C43 fails when the mapper panics with an error**: the caller gets the error, the log says the query succeeded. -/
theorem C43_panic_violated :
    let w : World Unit Unit Unit := { query := fun _ _ => .ok { rows := [[()]] }, logs := true }
    let mapper : List Unit → Prog Unit Unit Unit := fun _ => .read .int64 () fun _ => .isActive fun a =>
      if a then .panic (some "boom") else .ret
    let o := FetchContext w (fun _ => ()) (fun _ _ => some ()) mapper () []
    o.fin = .err "boom" ∧ o.log = some (1, none) := ⟨rfl, rfl⟩

/-- **C43 (FetchExists, Exec).** The logged result and error are the returned ones; an `Exec` result is logged as valid
exactly as far as it was obtained. -/
theorem C43_exists (w : ExistsWorld Ctx Raw) (conv : List Raw → Option Bool) (background ctx : Ctx) (b : Bool) (e : Option Str) :
    let o := FetchExistsContext background w conv ctx
    o.log = some (b, e) → b = o.exist ∧ e = o.fin.error := by
  intro o
  simp only [o]
  unfold FetchExistsContext fetchExistsContext
  have hsome : ∀ x : Option Str, (match x with | none => Fin.ok | some e => Fin.err e).error = x := by
    intro x; cases x <;> rfl
  cases w.early with
  | some e => exact nofun
  | none =>
  cases w.prepare with
  | some e =>
    dsimp only
    split
    · intro h; cases h; exact ⟨rfl, rfl⟩
    · exact nofun
  | none =>
    dsimp only
    cases w.query background with
    | error e =>
      dsimp only
      split
      · intro h; cases h; exact ⟨rfl, rfl⟩
      · exact nofun
    | ok rows =>
      dsimp only
      rcases rows.rows with _ | ⟨x, xs⟩
      · dsimp only
        split
        · intro h; cases h; exact ⟨rfl, (hsome _).symm⟩
        · exact nofun
      · dsimp only
        cases conv x with
        | none =>
          dsimp only
          split
          · intro h; cases h; exact ⟨rfl, rfl⟩
          · exact nofun
        | some b' =>
          dsimp only
          split
          · intro h; cases h; exact ⟨rfl, (hsome _).symm⟩
          · exact nofun

theorem C43_exec (w : ExecWorld Ctx) (ctx : Ctx) (n i : Option Int) (e : Option Str) :
    let o := ExecContext w ctx
    o.log = some (n, i, e) → e = o.err ∧
      (o.err = none → n = some o.rowsAffected ∧ (i = some o.lastInsertID ∨ i = none ∧ o.lastInsertID = 0)) := by
  intro o
  simp only [o]
  unfold ExecContext execContext
  cases w.render with
  | some e =>
    dsimp only
    split
    · intro h; cases h; exact ⟨rfl, nofun⟩
    · exact nofun
  | none =>
    dsimp only
    cases w.exec ctx with
    | error e =>
      dsimp only
      split
      · intro h; cases h; exact ⟨rfl, nofun⟩
      · exact nofun
    | ok p =>
      obtain ⟨a, l⟩ := p
      cases a with
      | error e =>
        dsimp only
        split
        · intro h; cases h; exact ⟨rfl, nofun⟩
        · exact nofun
      | ok m =>
        dsimp only
        by_cases hd : w.dialect = .sqlite ∨ w.dialect = .mysql
        · rw [if_pos hd]
          cases l with
          | error e =>
            dsimp only
            split
            · intro h; cases h; exact ⟨rfl, nofun⟩
            · exact nofun
          | ok i' =>
            dsimp only
            split
            · intro h; cases h; exact ⟨rfl, fun _ => ⟨rfl, .inl rfl⟩⟩
            · exact nofun
        · rw [if_neg hd]
          dsimp only
          split
          · intro h; cases h; exact ⟨rfl, fun _ => ⟨rfl, .inr ⟨rfl, rfl⟩⟩⟩
          · exact nofun

end Sq.Fetching
