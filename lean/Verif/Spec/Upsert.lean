import Verif.Spec.Store
/-
Specification: storing records that may be there already.
-/
namespace Sq.Spec.Upsert
open Sq Sq.Chain Sq.Spec.Store

/-- What to do about a record whose key is there already: change these columns to the values of the new record. -/
def changeText (l : Lang) (keys upd : List Str) : Str :=
  let q := quoteIdentifier l.dialect
  match l with
  | .mysql => " ON DUPLICATE KEY UPDATE ".toList ++ commas (upd.map fun c => q c ++ " = VALUES(".toList ++ q c ++ ")".toList)
  | _ => " ON CONFLICT (".toList ++ commas (keys.map q) ++ ") DO UPDATE SET ".toList ++
      commas (upd.map fun c => q c ++ " = EXCLUDED.".toList ++ q c)

def upsertText (l : Lang) (t : Tab) (cols keys upd : List Str) (n : Nat) : Str := insertText l t cols n ++ changeText l keys upd

/-- Leave it alone. -/
def keepText (l : Lang) (t : Tab) (cols keys : List Str) (n : Nat) : Str :=
  match l with
  | .mysql => "INSERT IGNORE INTO ".toList ++ (insertText l t cols n).drop "INSERT INTO ".toList.length
  | _ => insertText l t cols n ++ " ON CONFLICT (".toList ++ commas (keys.map (quoteIdentifier l.dialect)) ++ ") DO NOTHING".toList

/-- The two sides of an `Assignment` (assignment.go:5-8). -/
def sides : Node → Node × Node
  | .assign l r => (l, r)
  | n => (n, n)

/-- `InsertInto(table).Valuesx(...).OnConflict(keys...).DoUpdateSet(AssignExcluded(c1), ...)`; on MySQL
`InsertInto(table).Valuesx(...).OnDuplicateKeyUpdate(AssignValues(c1), ...)`. -/
def upsertQuery (b : Builder) (t : Tab) (raw : Str → Bool) (cols keys upd : List Str) (recs : List (List Scalar)) : Node :=
  let mapper : Mapper := { sets := setAll t raw cols recs, err := none }
  match b.lang with
  | .mysql => (Chain.insert b (.insertInto t.node) [.valuesx mapper, .onDuplicateKeyUpdate (upd.map fun c => sides (assignValues (t.field raw c).name))]).node
  | _ => (Chain.insert b (.insertInto t.node) [.valuesx mapper,
      .onConflict (keys.map (t.field raw)) [] (.doUpdateSet (upd.map fun c => sides (assignExcluded (t.field raw c).name)))]).node

/-- `InsertInto(table).Valuesx(...).OnConflict(keys...).DoNothing()`; on MySQL `InsertIgnoreInto(table).Valuesx(...)`. -/
def keepQuery (b : Builder) (t : Tab) (raw : Str → Bool) (cols keys : List Str) (recs : List (List Scalar)) : Node :=
  let mapper : Mapper := { sets := setAll t raw cols recs, err := none }
  match b.lang with
  | .mysql => (Chain.insert b (.insertIgnoreInto t.node) [.valuesx mapper]).node
  | _ => (Chain.insert b (.insertInto t.node) [.valuesx mapper, .onConflict (keys.map (t.field raw)) [] .doNothing]).node

/-- The row a record describes. -/
def given (cols : List Str) (rec : List Scalar) : Row := Row.set (fun _ => .nil) (cols.zip rec)

/-- Two rows have the same key. -/
def same (eq : Scalar → Scalar → Bool) (keys : List Str) (r r' : Row) : Bool := keys.all fun k => eq (r k) (r' k)

/-- Storing records one after the other: a record with a new key is added, for any other the columns `upd` of the record that is there are changed. -/
inductive Upserts (eq : Scalar → Scalar → Bool) (cols keys upd : List Str) : List Row → List (List Scalar) → List Row → Prop
  | done (rows) : Upserts eq cols keys upd rows [] rows
  | add (rows rec recs r out) : (∀ x ∈ rows, same eq keys x (given cols rec) = false) → cols.map r = rec →
      Upserts eq cols keys upd (rows ++ [r]) recs out → Upserts eq cols keys upd rows (rec :: recs) out
  | change (rows rec recs out) : (∃ x ∈ rows, same eq keys x (given cols rec) = true) →
      Upserts eq cols keys upd
        (rows.map fun x => if same eq keys x (given cols rec) then Row.set x (upd.map fun c => (c, given cols rec c)) else x) recs out →
      Upserts eq cols keys upd rows (rec :: recs) out

/-- The database understands these statements, for records whose keys differ from one another. -/
structure Understands (D : Database) (l : Lang) (t : Tab) (cols keys upd : List Str) : Prop where
  upsert : ∀ s recs, recs ≠ [] → (∀ r ∈ recs, r.length = cols.length) →
    recs.Pairwise (fun r r' => same D.eq keys (given cols r) (given cols r') = false) →
    Upserts D.eq cols keys upd (D.rows s) recs (D.rows (D.exec (upsertText l t cols keys upd recs.length) (recs.flatten.map .val) s).1)
  keep : ∀ s recs, recs ≠ [] → (∀ r ∈ recs, r.length = cols.length) →
    recs.Pairwise (fun r r' => same D.eq keys (given cols r) (given cols r') = false) →
    Upserts D.eq cols keys [] (D.rows s) recs (D.rows (D.exec (keepText l t cols keys recs.length) (recs.flatten.map .val) s).1)
  select : ∀ s, D.query (selectText l t cols) [] s = (D.rows s).map fun r => cols.map r

end Sq.Spec.Upsert
