import Verif.Proof.Change
import Verif.Props.Select
/-
C82: UPDATE and DELETE with other tables change and remove exactly the records that were asked for.
-/
namespace Sq.Changing
open Sq Sq.Spec Sq.Chain Sq.Exprs Sq.Spec.Store Sq.Spec.Where Sq.Spec.Sel Sq.Spec.Chg Sq.Choosing Sq.Asking
open Sq.Storing hiding pieces
open _root_.Spec (Tok tokens BTok BExp readBool identClose isBareIdent)

/-- **C82 (partial), the UPDATE statement.** `Update(table).Set(...).From(other).Join(...)....Where(...)` (on MySQL `Update(table).Join(...)....Set(...).Where(...)`) is sent
as a statement about this table, that finds for each of its records the combinations with other records that were asked for, and assigns these values.
Missing: columns of the changed table on the right of an assignment on PostgreSQL and SQLite (`C82_own_column_violated`), negated groups where the code writes
no parentheses (C17), names that are not read as they are (C01); on MySQL, assignments that use a column that is assigned, and RIGHT and FULL joins. -/
theorem C82_update_reads_partial (b : Builder) (raw : Field → Bool) (a : Reach) (sets : List Assign) (h : a.Sound b.lang) (hs : SetsSound b.lang a sets) :
    ∃ m : Target, m.ref = ⟨a.tab.schema, a.tab.name, a.tab.label⟩ ∧ (∀ C T r, m.matches C T r = a.matches C T r) ∧
      (ownSQL (a.update b raw sets)).status = .ok ∧
      readUpdate b.lang (ownSQL (a.update b raw sets)).args (ownSQL (a.update b raw sets)).query = some (m, sets.map fun x => (x.col, x.rhs.map Field.col)) := by
  obtain ⟨m, h1, h2, h3, h4⟩ := update_reads b raw a sets h hs
  refine ⟨m, h1, h2, h3, h4.trans ?_⟩
  congr 3
  funext x
  obtain ⟨c, r⟩ := x
  cases r <;> rfl

/-- **C82 (partial), the DELETE statement.** `DeleteFrom(table).Using(other).Join(...)....Where(...)` is sent as a statement about this table, that finds for each
of its records the combinations that were asked for.  Missing: as for UPDATE; on MySQL also tables whose name has to be quoted (`C82_raw_name_violated`). -/
theorem C82_delete_reads_partial (b : Builder) (raw : Field → Bool) (a : Reach) (h : a.Sound b.lang) (hq : b.lang ≠ .sqlite)
    (hb : b.lang = .mysql → isBareIdent a.tab.label = true) :
    ∃ m : Target, m.ref = ⟨a.tab.schema, a.tab.name, a.tab.label⟩ ∧ (∀ C T r, m.matches C T r = a.matches C T r) ∧
      (ownSQL (a.delete b raw)).status = .ok ∧
      readDelete b.lang (ownSQL (a.delete b raw)).args (ownSQL (a.delete b raw)).query = some m :=
  delete_reads b raw a h hq hb

section Effects
open Sq.Sending Sq.Spec.Send

variable {Ctx V : Type}

/-- **C82 (partial), UPDATE.** On a database that reads UPDATE statements as SQL does, executing the query leaves every other table as it is, leaves the records of
the table that match no combination as they are, and gives the others the new values, computed with a combination that matches.  For every contents of the
tables, number and kinds of joins, nesting of And, Or and Not, and values.  Missing: as in `C82_update_reads_partial`. -/
theorem C82_updated_partial (D : Database) (T : D.State → Tables) (C : Compare) (b : Builder) (hD : Chg.Understands D T C b.lang)
    (raw : Field → Bool) (a : Reach) (sets : List Assign) (h : a.Sound b.lang) (hs : SetsSound b.lang a sets)
    (s : D.State) (source : Logging.LogSource) (hsrc : source.Usable) (o : Outside V) (ctx : Ctx) :
    let e := Sending.exec o (D.conn source s Ctx) (a.update b raw sets) ctx
    let after := T (D.after s e.sent)
    e.fin = .ok ∧
      (∀ schema name, (schema, name) ≠ (a.tab.schema, a.tab.name) → after schema name = T s schema name) ∧
      Updated (a.matches C (T s)) (fun w => sets.map (Assign.value w)) (T s a.tab.schema a.tab.name) (after a.tab.schema a.tab.name) := by
  intro e after
  obtain ⟨m, h1, h2, h3, h4⟩ := C82_update_reads_partial b raw a sets h hs
  have hd : queryDialect (a.update b raw sets) = b.lang.dialect := by rw [update_node]; rfl
  unfold ownSQL at h3 h4
  rw [hd] at h3 h4
  obtain ⟨e1, e2⟩ := exec_does D s source hsrc o ctx (a.update b raw sets) b.lang.dialect (by rw [update_node]; rfl) h3
  obtain ⟨u1, u2⟩ := hD.update s _ _ m _ h4
  refine ⟨e1, ?_, ?_⟩
  · intro schema name hne
    show T (D.after s e.sent) schema name = _
    rw [e2]
    exact u1 schema name (by rw [h1]; exact hne)
  · show Updated _ _ _ (T (D.after s e.sent) _ _)
    rw [e2]
    rw [h1, show m.matches C (T s) = a.matches C (T s) from funext (h2 C (T s))] at u2
    have hv : (fun w : World => (sets.map fun x => (x.col, x.rhs.map Field.col)).map fun x => (x.1, x.2.value w.at)) = fun w => sets.map (Assign.value w) := by
      funext w
      rw [List.map_map]
      congr 1
      funext x
      obtain ⟨c, r⟩ := x
      cases r <;> rfl
    rw [hv] at u2
    exact u2

/-- **C82 (partial), DELETE.** On a database that reads DELETE statements as SQL does, executing the query removes exactly the records of the table that match a
combination.  Missing: as in `C82_delete_reads_partial`. -/
theorem C82_removed_partial (D : Database) (T : D.State → Tables) (C : Compare) (b : Builder) (hD : Chg.Understands D T C b.lang)
    (raw : Field → Bool) (a : Reach) (h : a.Sound b.lang) (hq : b.lang ≠ .sqlite) (hb : b.lang = .mysql → isBareIdent a.tab.label = true)
    (s : D.State) (source : Logging.LogSource) (hsrc : source.Usable) (o : Outside V) (ctx : Ctx) :
    let e := Sending.exec o (D.conn source s Ctx) (a.delete b raw) ctx
    let after := T (D.after s e.sent)
    e.fin = .ok ∧
      (∀ schema name, (schema, name) ≠ (a.tab.schema, a.tab.name) → after schema name = T s schema name) ∧
      Removed (a.matches C (T s)) (T s a.tab.schema a.tab.name) (after a.tab.schema a.tab.name) := by
  intro e after
  obtain ⟨m, h1, h2, h3, h4⟩ := C82_delete_reads_partial b raw a h hq hb
  have hd : queryDialect (a.delete b raw) = b.lang.dialect := by rw [delete_node]; rfl
  unfold ownSQL at h3 h4
  rw [hd] at h3 h4
  obtain ⟨e1, e2⟩ := exec_does D s source hsrc o ctx (a.delete b raw) b.lang.dialect (by rw [delete_node]; rfl) h3
  obtain ⟨u1, u2⟩ := hD.delete s _ _ m h4
  refine ⟨e1, ?_, ?_⟩
  · intro schema name hne
    show T (D.after s e.sent) schema name = _
    rw [e2]
    exact u1 schema name (by rw [h1]; exact hne)
  · show Removed _ _ (T (D.after s e.sent) _ _)
    rw [e2]
    rw [h1, show m.matches C (T s) = a.matches C (T s) from funext (h2 C (T s))] at u2
    exact u2

/-! ### Tables in memory -/

/-- One table is changed. -/
def change (s : Tables) (ref : Ref) (f : List Row → List Row) : Tables := fun schema name =>
  if (schema, name) = (ref.schema, ref.name) then f (s schema name) else s schema name

def memory (C : Compare) (l : Lang) : Database :=
  { State := Tables
    exec := fun text args s =>
      match readUpdate l args text, readDelete l args text with
      | some (m, sets), _ => (change s m.ref fun rs => rs.map fun r => match m.matches C s r with
          | [] => r
          | w :: _ => Row.set r (sets.map fun x => (x.1, x.2.value w.at)), 0, 0)
      | none, some m => (change s m.ref fun rs => rs.filter fun r => (m.matches C s r).isEmpty, 0, 0)
      | none, none => (s, 0, 0)
    query := fun _ _ _ => []
    rows := fun _ => []
    eq := fun x y => decide (x = y) }

theorem update_word {l : Lang} {xs : List Lex} {m : Target × List (Str × Rhs Sel.Col)} (h : update? l xs = some m) :
    ∃ u x, (sections xs).1 = .tok (.word u) :: x ∧ upper u = "UPDATE".toList := by
  unfold update? at h
  split at h
  · rename_i u x ss e
    split at h
    · rename_i hu
      exact ⟨u, x, by rw [e], hu⟩
    · cases h
  · cases h
theorem delete_word {l : Lang} {xs : List Lex} {m : Target} (h : delete? l xs = some m) :
    ∃ u, (sections xs).1 = [.tok (.word u)] ∧ upper u = "DELETE".toList := by
  unfold delete? at h
  split at h
  · rename_i u x y r e
    split at h
    · rename_i hu
      exact ⟨u, by rw [e], hu⟩
    · cases h
  · cases h

theorem not_both (l : Lang) (args : List Arg) (text : Str) (m : Target) (h : readDelete l args text = some m) : readUpdate l args text = none := by
  unfold readDelete at h
  unfold readUpdate
  rw [← Option.bind_assoc] at h ⊢
  cases hx : (tokens (lexing l) text).bind fun ts => Where.resolve l args 0 ts with
  | none => rfl
  | some xs =>
    rw [hx, Option.bind_some] at h
    rw [Option.bind_some]
    cases hu : update? l xs with
    | none => rfl
    | some m' =>
      obtain ⟨u, x, e1, e2⟩ := update_word hu
      obtain ⟨u', e3, e4⟩ := delete_word h
      rw [e3] at e1
      simp only [List.cons.injEq, Lex.tok.injEq, Tok.word.injEq] at e1
      rw [← e1.1, e4] at e2
      exact absurd e2 (by decide +kernel)

theorem memory_understands (C : Compare) (l : Lang) : Chg.Understands (memory C l) id C l where
  update := fun s text args m sets h => by
    have he : ((memory C l).exec text args s).1 = change s m.ref fun rs => rs.map fun r => match m.matches C s r with
          | [] => r
          | w :: _ => Row.set r (sets.map fun x => (x.1, x.2.value w.at)) := by
      simp only [memory, h]
    show Only m.ref s ((memory C l).exec text args s).1 ∧ Updated _ _ _ (((memory C l).exec text args s).1 _ _)
    rw [he]
    refine ⟨fun schema name hne => if_neg hne, ?_⟩
    unfold change
    rw [if_pos rfl]
    refine ⟨by simp, fun i r r' hr hr' => ?_⟩
    simp only [List.getElem?_map, id_eq] at hr hr'
    rw [hr, Option.map_some, Option.some.injEq] at hr'
    refine ⟨fun h0 => ?_, fun h0 => ?_⟩
    · rw [show m.matches C s r = [] from h0] at hr'
      exact hr'.symm
    · obtain ⟨w, ws, hw⟩ := List.exists_cons_of_ne_nil h0
      rw [show m.matches C s r = w :: ws from hw] at hr'
      exact ⟨w, by rw [hw]; exact List.mem_cons_self .., hr'.symm⟩
  delete := fun s text args m h => by
    have he : ((memory C l).exec text args s).1 = change s m.ref fun rs => rs.filter fun r => (m.matches C s r).isEmpty := by
      simp only [memory, not_both l args text m h, h]
    show Only m.ref s ((memory C l).exec text args s).1 ∧ Removed _ _ (((memory C l).exec text args s).1 _ _)
    rw [he]
    refine ⟨fun schema name hne => if_neg hne, ?_⟩
    unfold change Removed
    rw [if_pos rfl]
    rfl

/-! ### An example -/

/-- Users with an order over 60 of theirs. -/
def someReach : Reach :=
  { tab := users, other := some orders, joins := [],
    conds := [.test false (.cmp .eq orderOf (.col userId)), .test false (.cmp .gt orderTotal (.val (.int 60)))] }
/-- Their age becomes the total of the order. -/
def someSets : List Assign := [⟨"age".toList, .col orderTotal⟩]

theorem someReach_sound : someReach.Sound .postgres where
  tab := named_users
  shape := by simp [someReach]
  apart := fun t ht => by
    have : orders = t := by simpa [someReach] using ht
    subst this
    exact ⟨named_orders, trivial, by decide +kernel⟩
  within := fun h => by simp [someReach] at h
  conds := by
    refine .inr ⟨by simp [someReach, Cond.fine, allFine], ?_⟩
    intro c hc
    simp only [someReach, columns, Cond.columns, Test.columns, Rhs.columns, List.append_nil, List.cons_append, List.nil_append, List.mem_cons, List.not_mem_nil,
      or_false] at hc
    rcases hc with rfl | rfl | rfl
    · exact ⟨by decide +kernel, by decide +kernel, readable_these.2.2.2.2.1⟩
    · exact ⟨by decide +kernel, by decide +kernel, readable_id.1⟩
    · exact ⟨by decide +kernel, by decide +kernel, readable_these.2.2.2.2.2.1⟩

theorem someSets_sound : SetsSound .postgres someReach someSets where
  some := by simp [someSets]
  once := by simp [someSets]
  names := by
    intro x hx
    rw [List.mem_singleton.1 hx]
    exact readable_id.2.1
  scope := by
    intro x hx c hc
    rw [List.mem_singleton.1 hx] at hc
    cases hc
    exact ⟨by decide +kernel, by decide +kernel, readable_these.2.2.2.2.2.1⟩
  foreign := by
    intro _ x hx c hc
    rw [List.mem_singleton.1 hx] at hc
    cases hc
    decide +kernel
  free := fun h => nomatch h

example : (ownSQL (someReach.update { lang := .postgres, env := none } (fun _ => false) someSets)).query =
    "UPDATE users AS u SET age = o.total FROM shop.orders AS o WHERE o.user_id = u.id AND o.total > $1".toList := by decide +kernel
example : (ownSQL (someReach.delete { lang := .postgres, env := none } (fun _ => false))).query =
    "DELETE FROM users AS u USING shop.orders AS o WHERE o.user_id = u.id AND o.total > $1".toList := by decide +kernel

/-- The users after a query, on the database in memory. -/
def usersAfter (l : Lang) (q : Node) : List (Scalar × Scalar) :=
  let D := memory plainCompare l
  let e := Sending.exec outside (D.conn .noLogger shop Unit) q ()
  ((show Tables from D.after shop e.sent) [] "users".toList).map fun r => (r "id".toList, r "age".toList)

example : usersAfter .postgres (someReach.update { lang := .postgres, env := none } (fun _ => false) someSets) =
    [(.int 1, .int 99), (.int 2, .int 80), (.int 3, .int 80), (.int 4, .int 9)] := by decide +kernel
example : usersAfter .postgres (someReach.delete { lang := .postgres, env := none } (fun _ => false)) = [(.int 4, .int 9)] := by decide +kernel

/-- The same on MySQL. -/
def mysqlReach : Reach :=
  { tab := users, other := none, joins := [⟨.inner, orders, [.test false (.cmp .eq orderOf (.col userId))]⟩],
    conds := [.test false (.cmp .gt orderTotal (.val (.int 60)))] }
example : (ownSQL (mysqlReach.update { lang := .mysql, env := none } (fun _ => false) someSets)).query =
      "UPDATE users AS u JOIN shop.orders AS o ON o.user_id = u.id SET u.age = o.total WHERE o.total > ?".toList ∧
    (ownSQL (mysqlReach.delete { lang := .mysql, env := none } (fun _ => false))).query =
      "DELETE FROM u USING users AS u JOIN shop.orders AS o ON o.user_id = u.id WHERE o.total > ?".toList ∧
    usersAfter .mysql (mysqlReach.update { lang := .mysql, env := none } (fun _ => false) someSets) =
      [(.int 1, .int 99), (.int 2, .int 80), (.int 3, .int 80), (.int 4, .int 9)] ∧
    usersAfter .mysql (mysqlReach.delete { lang := .mysql, env := none } (fun _ => false)) = [(.int 4, .int 9)] := by decide +kernel

/-- **C82 (violated).** A column of the changed table on the right of an assignment is written without the name of its table: `Assign(u.AGE, u.ID)` with
`From(o)` is sent as `SET age = id FROM shop.orders AS o`, where `id` can be a column of `o` as well. -/
theorem C82_own_column_violated :
    let r := ownSQL (someReach.update { lang := .postgres, env := none } (fun _ => false) [⟨"age".toList, .col userId⟩])
    r.status = .ok ∧ r.query = "UPDATE users AS u SET age = id FROM shop.orders AS o WHERE o.user_id = u.id AND o.total > $1".toList ∧
    readUpdate .postgres r.args r.query = none := by decide +kernel

/-- **C82 (violated).** On MySQL the table to delete from is named without quotes. -/
theorem C82_raw_name_violated :
    let t : Tab := { schema := [], name := "users".toList, alias := "old users".toList }
    let r := ownSQL ((Reach.mk t none [⟨.cross, orders, []⟩] []).delete { lang := .mysql, env := none } (fun _ => false))
    r.status = .ok ∧ r.query = "DELETE FROM old users USING users AS `old users` CROSS JOIN shop.orders AS o".toList ∧
    readDelete .mysql r.args r.query = none := by decide +kernel

/-- **C82 (violated).** A negated group that is the only condition loses its parentheses: `DeleteFrom(u).Using(o).Where(Not(Or(a, b)))` is sent as
`WHERE NOT a OR b`; on a database that reads DELETE as SQL does, the users that stay are not those that match nothing. -/
theorem C82_negated_violated :
    let a : Reach := { someReach with conds := [.group true true [.test false (.cmp .ne orderOf (.col userId)), .test false (.cmp .gt orderTotal (.val (.int 80)))]] }
    ((shop [] "users".toList).filter fun r => (a.matches plainCompare shop r).isEmpty).map (fun r => r "id".toList) ≠
      (usersAfter .postgres (a.delete { lang := .postgres, env := none } (fun _ => false))).map Prod.fst := by decide +kernel

end Effects
end Sq.Changing
