import Verif.Spec.Where
/-
Specification: INSERT, UPDATE and DELETE statements that give back what they stored, changed or removed (RETURNING, on PostgreSQL and SQLite).
-/
namespace Sq.Spec.Returning
open Sq Sq.Chain Sq.Spec.Store Sq.Spec.Where

/-- `... RETURNING label.column, ...` -/
def returningText (l : Lang) (t : Tab) (ret : List Str) : Str := " RETURNING ".toList ++ commas (ret.map (t.column l.dialect))

/-- The statements of Spec/Store and Spec/Where, giving back these columns. -/
def insertText (l : Lang) (t : Tab) (cols : List Str) (n : Nat) (ret : List Str) : Str := Store.insertText l t cols n ++ returningText l t ret
def updateText (l : Lang) (t : Tab) (cols : List Str) (w : Str) (ret : List Str) : Str := Where.updateText l t cols w ++ returningText l t ret
def deleteText (l : Lang) (t : Tab) (w : Str) (ret : List Str) : Str := Where.deleteText l t w ++ returningText l t ret

/-! ### The queries a program builds -/

/-- `InsertInto(table).Valuesx(...).Returning(ret...)` -/
def insertQuery (b : Builder) (t : Tab) (raw : Str → Bool) (cols : List Str) (recs : List (List Scalar)) (ret : List Str) : Node :=
  (Chain.insert b (.insertInto t.node) [.valuesx { sets := setAll t raw cols recs, err := none }, .returning (ret.map (t.field raw))]).node
/-- `Update(table).Setx(...).Where(cs...).Returning(ret...)` -/
def updateQuery (b : Builder) (t : Tab) (raw : Str → Bool) (cols : List Str) (rec : List Scalar) (cs : List (Cond Str)) (ret : List Str) : Node :=
  (Chain.update b (.update t.node) [.setx { sets := setAll t raw cols [rec], err := none }, .where (nodes (mapAll (t.field raw) cs)), .returning (ret.map (t.field raw))]).node
/-- `DeleteFrom(table).Where(cs...).Returning(ret...)` -/
def deleteQuery (b : Builder) (t : Tab) (raw : Str → Bool) (cs : List (Cond Str)) (ret : List Str) : Node :=
  (Chain.delete b (.deleteFrom [t.node]) [.where (nodes (mapAll (t.field raw) cs)), .returning (ret.map (t.field raw))]).node

/-! ### A database -/

/-- The database understands these statements: it answers with these columns of the records stored, changed (as they are then) or removed, in some order.
A statement that is sent as a query does what it does when it is executed. -/
structure Understands (D : Database) (C : Compare) (l : Lang) (t : Tab) (cols ret : List Str) : Prop where
  insert : ∀ s recs, recs ≠ [] → (∀ r ∈ recs, r.length = cols.length) →
    ∃ new told : List Row, D.rows (D.exec (insertText l t cols recs.length ret) (recs.flatten.map .val) s).1 = D.rows s ++ new ∧
      new.map (fun r => cols.map r) = recs ∧ told.Perm new ∧
      D.query (insertText l t cols recs.length ret) (recs.flatten.map .val) s = told.map fun r => ret.map r
  update : ∀ s rec args w e, rec.length = cols.length → readWhere l t.label (rec.map .val ++ args) cols.length w = some e →
    D.rows (D.exec (updateText l t cols w ret) (rec.map .val ++ args) s).1 =
      (D.rows s).map (fun r => if chosen C e r then Row.set r (cols.zip rec) else r) ∧
    ∃ told : List Row, told.Perm (((D.rows s).filter (chosen C e)).map fun r => Row.set r (cols.zip rec)) ∧
      D.query (updateText l t cols w ret) (rec.map .val ++ args) s = told.map fun r => ret.map r
  delete : ∀ s args w e, readWhere l t.label args 0 w = some e →
    D.rows (D.exec (deleteText l t w ret) args s).1 = (D.rows s).filter (fun r => !chosen C e r) ∧
    ∃ told : List Row, told.Perm ((D.rows s).filter (chosen C e)) ∧
      D.query (deleteText l t w ret) args s = told.map fun r => ret.map r

end Sq.Spec.Returning
