import Verif.Spec.Renders
import Verif.Spec.Chain
/-
Specification: what a chain of builder calls needs to be rendered, when only methods are called that the builder's type has.  Nothing about
the dialect is left, except that an alias of the table of an INSERT cannot be written for MySQL.
-/
namespace Sq.Spec
open Sq.Chain

structure SelectComplete (q : SelectQ) : Prop where
  someField : q.selectFields ≠ []
  notBoth : q.distinct = true → q.distinctOn = []
  joinable : q.joins ≠ [] → q.fromTable ≠ .nil
  hooksAnswer : ∀ t ∈ q.fromTable :: q.joins, ¬ Refuses t q.env

structure InsertComplete (l : Lang) (q : InsertQ) : Prop where
  mapperWorks : ∀ m, q.mapper = some m → m.err = none ∧ ∀ s ∈ m.sets, s.1 ≠ .nil
  someTable : q.into ≠ .nil
  noAlias : l = .mysql → q.into.alias = []
  something : (match q.mapper with | some m => (columnInsert Node.name m.sets).2 ≠ [] | none => q.rows ≠ []) ∨ q.selectQuery ≠ .nil

structure UpdateComplete (l : Lang) (q : UpdateQ) : Prop where
  mapperWorks : ∀ m, q.mapper = some m → m.err = none ∧ ∀ s ∈ m.sets, s.1 ≠ .nil
  someTable : q.table ≠ .nil
  something : match q.mapper with | some m => m.sets ≠ [] | none => q.assignments ≠ []
  joinable : q.joins ≠ [] → q.fromTable ≠ .nil ∨ l = .mysql
  hooksAnswer : ∀ t ∈ q.table :: q.fromTable :: q.joins, ¬ Refuses t q.env

structure DeleteComplete (l : Lang) (q : DeleteQ) : Prop where
  /-- There is a table, and with USING on MySQL none of the tables is nil. -/
  table : ∃ f fs, q.froms = f :: fs ∧ f ≠ .nil ∧ (q.usingTable ≠ .nil → l = .mysql → ∀ t ∈ fs, t ≠ .nil)
  joinable : q.joins ≠ [] → q.usingTable ≠ .nil
  hooksAnswer : ∀ t ∈ q.froms, ¬ Refuses t q.env
  single : q.orderBy ≠ [] ∨ q.limit ≠ none → q.usingTable = .nil ∧ q.joins = []

/-- The parts of a DELETE, in the dialect of its builder. -/
def deletePartsOf (l : Lang) (q : DeleteQ) : List Part :=
  deleteParts { d := l.dialect, env := q.env } { dialect := q.dialect, env := q.env, limit := q.limit, offset := q.offset }
    q.ctes q.froms q.usingTable q.joins (and_ q.where_) q.orderBy q.returning

end Sq.Spec
