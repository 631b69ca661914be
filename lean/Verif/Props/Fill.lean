import Verif.Proof.Fill
import Verif.Props.Select
import Verif.Props.Change
/-
C83: INSERT ... SELECT stores the answers to the question.
-/
namespace Sq.Copying
open Sq Sq.Spec Sq.Chain Sq.Exprs Sq.Spec.Store Sq.Spec.Where Sq.Spec.Sel Sq.Spec.Fill Sq.Choosing Sq.Asking
open Sq.Storing hiding pieces
open _root_.Spec (Tok tokens BTok BExp readBool identClose isBareIdent)

/-- **C83 (partial), the statement.** `InsertInto(table).Columns(columns...).Select(question)`, with or without `.OnConflict().DoNothing()`, is sent as a statement
about this table and these columns, with a SELECT that reads the columns of the question, has its sort keys, LIMIT and OFFSET, and whose rows are in every
database the records asked for.  Missing: negated groups where the code writes no parentheses (C17), names that are not read as they are (C01),
`NullsFirst`/`NullsLast` on MySQL (C56). -/
theorem C83_reads_partial (b : Builder) (env : Env) (raw : Field → Bool) (x : Filling) (h : x.Sound b.lang) :
    ∃ m : Core, m.cols = x.ask.cols.map Field.col ∧ m.order = x.ask.order.map Sorting.key ∧ (∀ C T, m.rows C T = x.ask.answer C T) ∧
      (ownSQL (x.query b env raw)).status = .ok ∧
      readFill b.lang (ownSQL (x.query b env raw)).args (ownSQL (x.query b env raw)).query =
        some ⟨⟨x.tab.schema, x.tab.name, x.tab.label⟩, x.cols, ⟨m, x.limit, x.offset⟩, x.skip⟩ :=
  fill_reads b env raw x h

section Effects
open Sq.Sending Sq.Spec.Send

variable {Ctx V : Type}

/-- **C83 (partial).** On a database that reads INSERT ... SELECT as SQL does, executing the query leaves every other table as it is and every record of the table
where it is, and adds records with the values of the page asked for, in the order asked for: all of them, or, with `OnConflict().DoNothing()`, none but these.
For every contents of the tables, number and kinds of joins, nesting of And, Or and Not, and values.  Missing: as in `C83_reads_partial`. -/
theorem C83_stored_partial (D : Database) (T : D.State → Tables) (C : Compare) (O : Order) (b : Builder) (arrange : D.State → Core → List World)
    (hD : Fill.Understands D T C O b.lang arrange) (env : Env) (raw : Field → Bool) (x : Filling) (h : x.Sound b.lang)
    (s : D.State) (source : Logging.LogSource) (hsrc : source.Usable) (o : Outside V) (ctx : Ctx) :
    let e := Sending.exec o (D.conn source s Ctx) (x.query b env raw) ctx
    let after := T (D.after s e.sent)
    e.fin = .ok ∧
      (∀ schema name, (schema, name) ≠ (x.tab.schema, x.tab.name) → after schema name = T s schema name) ∧
      ∃ (all : List World) (new : List Row), all.Perm (x.ask.answer C (T s)) ∧ Sorted O (x.ask.order.map Sorting.key) all ∧
        after x.tab.schema x.tab.name = T s x.tab.schema x.tab.name ++ new ∧
        Stored x.skip x.cols ((page x.limit x.offset all).map fun w => x.ask.cols.map (Field.value w)) new := by
  intro e after
  obtain ⟨m, m1, m2, m3, r1, r2⟩ := C83_reads_partial b env raw x h
  have hd : queryDialect (x.query b env raw) = b.lang.dialect := by rw [fill_node]; rfl
  unfold ownSQL at r1 r2
  rw [hd] at r1 r2
  obtain ⟨e1, e2⟩ := exec_does D s source hsrc o ctx (x.query b env raw) b.lang.dialect (by rw [fill_node]; rfl) r1
  obtain ⟨u1, new, u2, u3⟩ := hD.fill s _ _ _ r2
  have hperm := hD.all s m
  rw [m3] at hperm
  refine ⟨e1, ?_, arrange s m, new, hperm, m2 ▸ hD.sorted s m, ?_, ?_⟩
  · intro schema name hne
    show T (D.after s e.sent) schema name = _
    rw [e2]
    exact u1 schema name hne
  · show T (D.after s e.sent) _ _ = _
    rw [e2]
    exact u2
  · dsimp only at u3
    rw [m1] at u3
    simp only [List.map_map] at u3
    exact u3

/-! ### Tables in memory -/

/-- A record with these values, and NULL in the other columns. -/
def record (cols : List Str) (vs : List Scalar) : Row := fun c => ((cols.zip vs).lookup c).getD .nil

theorem record_values (cols : List Str) (vs : List Scalar) (hd : cols.Nodup) (hl : vs.length = cols.length) : cols.map (record cols vs) = vs := by
  induction cols generalizing vs with
  | nil => exact (List.eq_nil_of_length_eq_zero hl).symm
  | cons c cs ih =>
    cases vs with
    | nil => simp at hl
    | cons v vs =>
      obtain ⟨h1, h2⟩ := List.nodup_cons.1 hd
      have e : cs.map (record (c :: cs) (v :: vs)) = cs.map (record cs vs) := by
        refine List.map_congr_left fun x hx => ?_
        have hne : (x == c) = false := by
          simp only [beq_eq_false_iff_ne, ne_eq]
          rintro rfl
          exact h1 hx
        simp [record, List.lookup, hne]
      rw [List.map_cons, e, ih vs h2 (by simpa using hl)]
      simp [record, List.lookup]

def memory (C : Compare) (O : Order) (l : Lang) : Database :=
  { State := Tables
    exec := fun text args s =>
      match readFill l args text with
      | some m => (Changing.change s m.ref fun rs => rs ++
          (page m.stmt.limit m.stmt.offset (arranged (earlier O m.stmt.core.order) (m.stmt.core.rows C s))).map
            fun w : World => record m.cols (m.stmt.core.cols.map (World.at w)), 0, 0)
      | none => (s, 0, 0)
    query := fun _ _ _ => []
    rows := fun _ => []
    eq := fun x y => decide (x = y) }

/-- What the reader has checked. -/
theorem read_fits {l : Lang} {args : List Arg} {text : Str} {m : Parts} (h : readFill l args text = some m) :
    m.cols.Nodup ∧ m.cols.length = m.stmt.core.cols.length := by
  unfold readFill at h
  obtain ⟨ts, -, h⟩ := Option.bind_eq_some_iff.1 h
  obtain ⟨xs, -, h⟩ := Option.bind_eq_some_iff.1 h
  unfold fill? at h
  split at h
  · split at h
    · obtain ⟨x, -, h⟩ := Option.bind_eq_some_iff.1 h
      obtain ⟨y, -, h⟩ := Option.bind_eq_some_iff.1 h
      obtain ⟨t, -, h⟩ := Option.bind_eq_some_iff.1 h
      split at h
      · cases h
      · obtain ⟨cs, -, h⟩ := Option.bind_eq_some_iff.1 h
        obtain ⟨q, -, h⟩ := Option.bind_eq_some_iff.1 h
        obtain ⟨k, -, h⟩ := Option.bind_eq_some_iff.1 h
        split at h
        · rename_i hc
          obtain rfl := Option.some.inj h
          exact hc
        · cases h
    · cases h
  · cases h

/-- The hypotheses of the theorem are met. -/
theorem memory_understands (C : Compare) (O : Order) (h : Weak O) (l : Lang) :
    Fill.Understands (memory C O l) id C O l fun s m => arranged (earlier O m.order) (m.rows C s) where
  all := fun s m => arranged_perm _ _
  sorted := fun s m => arranged_sorted h _ _
  fill := fun s text args m hm => by
    have he : ((memory C O l).exec text args s).1 = Changing.change s m.ref fun rs => rs ++
          (page m.stmt.limit m.stmt.offset (arranged (earlier O m.stmt.core.order) (m.stmt.core.rows C s))).map
            fun w : World => record m.cols (m.stmt.core.cols.map (World.at w)) := by
      simp only [memory, hm]
    obtain ⟨f1, f2⟩ := read_fits hm
    show Chg.Only m.ref s ((memory C O l).exec text args s).1 ∧ ∃ new, ((memory C O l).exec text args s).1 _ _ = _ ∧ _
    rw [he]
    refine ⟨fun schema name hne => if_neg hne, _, if_pos rfl, ?_⟩
    have e : (((page m.stmt.limit m.stmt.offset (arranged (earlier O m.stmt.core.order) (m.stmt.core.rows C s))).map
        fun w : World => record m.cols (m.stmt.core.cols.map (World.at w))).map fun r => m.cols.map r) =
        (page m.stmt.limit m.stmt.offset (arranged (earlier O m.stmt.core.order) (m.stmt.core.rows C s))).map fun w : World => m.stmt.core.cols.map (World.at w) := by
      rw [List.map_map]
      refine List.map_congr_left fun w _ => ?_
      exact record_values m.cols _ f1 (by simpa using f2.symm)
    unfold Stored
    split
    · exact e ▸ List.Sublist.refl _
    · exact e

/-! ### An example -/

def bills : Tab := { schema := "shop".toList, name := "bills".toList, alias := [] }
/-- The three largest orders of the users of `someAsk` become bills. -/
def someFilling : Filling := { tab := bills, cols := ["user_id".toList, "total".toList], ask := someAsk, limit := some 3, offset := none, skip := true }

theorem readable_bills : Readable .postgres "bills".toList := ⟨no_pair (by decide +kernel), fun _ => by decide +kernel⟩

theorem someFilling_sound : someFilling.Sound .postgres where
  tab := ⟨readable_these.2.1, readable_bills, readable_bills, by decide +kernel⟩
  alias := fun _ => rfl
  cols := by
    intro c hc
    simp only [someFilling, List.mem_cons, List.not_mem_nil, or_false] at hc
    rcases hc with rfl | rfl
    · exact readable_these.2.2.2.2.1
    · exact readable_these.2.2.2.2.2.1
  once := by decide +kernel
  ask := someAsk_sound
  fits := rfl
  page := fun h => absurd rfl h
  skip := fun _ => by simp

example : (ownSQL (someFilling.query { lang := .postgres, env := none } none (fun _ => false))).query =
    "INSERT INTO shop.bills (user_id, total) SELECT u.id, o.total FROM users AS u LEFT JOIN shop.orders AS o ON o.user_id = u.id WHERE u.age >= $1 OR u.age IS NULL ORDER BY o.total DESC NULLS LAST, u.id LIMIT $2 ON CONFLICT DO NOTHING".toList := by
  decide +kernel

/-- The bills after a query, on the database in memory (where there are none at first). -/
def billsAfter (l : Lang) (x : Filling) : List (List Scalar) :=
  let D := memory plainCompare numbers l
  let s : Tables := fun schema name => if name = "bills".toList then [] else shop schema name
  let e := Sending.exec outside (D.conn .noLogger s Unit) (x.query { lang := l, env := none } none (fun _ => false)) ()
  ((show Tables from D.after s e.sent) "shop".toList "bills".toList).map fun r => ["user_id".toList, "total".toList].map r

example : billsAfter .postgres someFilling = [[.int 2, .int 80], [.int 3, .int 80], [.int 3, .int 50]] := by decide +kernel

/-- On SQLite a question without conditions gets `WHERE TRUE`, without which `ON CONFLICT` would be read as the condition of a join. -/
example :
    let x : Filling := { someFilling with ask := { someAsk with conds := [] } }
    (ownSQL (x.query { lang := .sqlite, env := none } none (fun _ => false))).query =
      "INSERT INTO shop.bills (user_id, total) SELECT u.id, o.total FROM users AS u LEFT JOIN shop.orders AS o ON o.user_id = u.id WHERE TRUE ORDER BY o.total DESC NULLS LAST, u.id LIMIT $1 ON CONFLICT DO NOTHING".toList ∧
    billsAfter .sqlite x = [[.int 1, .int 99], [.int 2, .int 80], [.int 3, .int 80]] := by decide +kernel

/-- **C83 (violated).** A negated group alone in WHERE loses its parentheses: `Select(...).Where(Not(Or(a, b)))` is sent as `WHERE NOT a OR b`, and records are
stored that were not asked for. -/
theorem C83_negated_violated :
    let a : Ask := { someAsk with conds := [.group true true [.test false (.cmp .ge userAge (.val (.int 7))), .test false (.cmp .gt orderTotal (.val (.int 60)))]], order := [] }
    let x : Filling := { someFilling with ask := a, limit := none, skip := false }
    [Scalar.int 1, .int 99] ∉ (a.answer plainCompare shop).map (fun w => a.cols.map (Field.value w)) ∧
    [Scalar.int 1, .int 99] ∈ billsAfter .postgres x := by decide +kernel

end Effects
end Sq.Copying
