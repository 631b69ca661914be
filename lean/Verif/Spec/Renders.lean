import Verif.Spec.Clauses
import Verif.Spec.Template
/-
Specification: what a construct needs, besides its parts rendering, to be rendered without an error.
-/
namespace Sq.Spec

/-- Whether there is a condition: a group of predicates with at least one of them. -/
def Conditional : Node → Prop
  | .vpred _ _ _ _ (_ :: _) => True
  | _ => False

/-- Whether a table (or the table of a join), asked for its condition in an environment, answers with an error. -/
def Refuses : Node → Env → Prop
  | .table _ _ _ hk _, env => ∃ e, hk env = .err e
  | .join _ tbl _, env => Refuses tbl env
  | _, _ => False

/-- Whether the column mapper does its work: it reports no error and sets no nil field. -/
def MapperWorks (hasMapper : Bool) (error : Option Str) (sets : List (Node × Node)) : Prop :=
  hasMapper = true → error = none ∧ ∀ s ∈ sets, s.1 ≠ .nil

/-- RETURNING exists on PostgreSQL and SQLite only. -/
def ReturningAllowed (d : Dialect) (returning : List Node) : Prop := returning ≠ [] → d = .postgres ∨ d = .sqlite

/-- ORDER BY, LIMIT of UPDATE and DELETE exist on MySQL and SQLite only, OFFSET on SQLite only. -/
def LimitsAllowed (d : Dialect) (orderBy : List Node) (limit offset : Option Int) : Prop :=
  (orderBy ≠ [] ∨ limit ≠ none → d = .mysql ∨ d = .sqlite) ∧ (offset ≠ none → d = .sqlite)

structure SelectNeeds (d : Dialect) (env : Env) (q : SelMeta) (fields on : List Node) (from_ : Node) (joins : List Node) : Prop where
  someField : fields ≠ []
  /-- DISTINCT ON is PostgreSQL's and excludes DISTINCT. -/
  distinctOn : on ≠ [] → d = .postgres ∧ q.distinct = false
  /-- A join needs a table to join. -/
  joinable : joins ≠ [] → from_ ≠ .nil
  hooksAnswer : ∀ t ∈ from_ :: joins, ¬ Refuses t env

structure InsertNeeds (d : Dialect) (q : InsMeta) (into : Node) (columns : List Node) (rows : List (List Node))
    (sets : List (Node × Node)) (sel : Node) (returning : List Node) : Prop where
  mapperWorks : MapperWorks q.hasMapper q.mapErr sets
  ignoreAllowed : q.ignore = true → d = .mysql
  someTable : into ≠ .nil
  /-- MySQL has no alias for the table, the others none for the new row. -/
  aliasAllowed : into.alias ≠ [] → d ≠ .mysql
  rowAliasAllowed : (insertData q columns rows sets).2 ≠ [] → q.rowAlias ≠ [] → d = .mysql
  /-- Something to insert. -/
  something : (insertData q columns rows sets).2 ≠ [] ∨ sel ≠ .nil
  /-- SQLite has no ON CONFLICT ON CONSTRAINT. -/
  constraintAllowed : q.conflictConstraint ≠ [] → d ≠ .sqlite
  returningAllowed : ReturningAllowed d returning

structure UpdateNeeds (d : Dialect) (env : Env) (q : ModMeta) (table from_ : Node) (joins : List Node)
    (as sets : List (Node × Node)) (orderBy returning : List Node) : Prop where
  mapperWorks : MapperWorks q.hasMapper q.mapErr sets
  someTable : table ≠ .nil
  /-- Something to change. -/
  something : (if q.hasMapper then sets else as) ≠ []
  /-- MySQL joins the updated table itself, the others what is in FROM. -/
  fromAllowed : from_ ≠ .nil → d ≠ .mysql
  joinable : joins ≠ [] → from_ ≠ .nil ∨ d = .mysql
  hooksAnswer : ∀ t ∈ table :: from_ :: joins, ¬ Refuses t env
  limitsAllowed : LimitsAllowed d orderBy q.limit q.offset
  returningAllowed : ReturningAllowed d returning

structure DeleteNeeds (d : Dialect) (env : Env) (q : ModMeta) (froms : List Node) (using_ : Node) (joins : List Node)
    (orderBy returning : List Node) : Prop where
  /-- There is a table, and with USING on MySQL none of the tables is nil. -/
  table : ∃ f fs, froms = f :: fs ∧ f ≠ .nil ∧ (using_ ≠ .nil → d = .mysql → ∀ t ∈ fs, t ≠ .nil)
  /-- SQLite has neither USING nor joins here. -/
  usingAllowed : using_ ≠ .nil → d ≠ .sqlite
  joinable : joins ≠ [] → d ≠ .sqlite ∧ using_ ≠ .nil
  hooksAnswer : ∀ t ∈ froms, ¬ Refuses t env
  limitsAllowed : LimitsAllowed d orderBy q.limit q.offset
  /-- ORDER BY and LIMIT go with a single table only. -/
  single : orderBy ≠ [] ∨ q.limit ≠ none → using_ = .nil ∧ joins = []
  returningAllowed : ReturningAllowed d returning

/-- What a construct needs. -/
def Needs (m0 : Mode) : Node → Prop
  | .join jt tbl on =>
    tbl ≠ .nil ∧ (jt = [] ∨ jt = "JOIN".toList ∨ jt = "RIGHT JOIN".toList ∨ jt = "FULL JOIN".toList → Conditional on) ∧
    (jt = "RIGHT JOIN".toList ∨ jt = "FULL JOIN".toList → m0.d ≠ .sqlite)
  | .cte c q => c.sticky = none ∧ c.name ≠ [] ∧ (m0.meth = .cteDef → q ≠ .nil)
  | .subquery sticky alias _ => sticky = none ∧ (alias = [] → m0.d ≠ .postgres ∧ m0.d ≠ .mysql)
  | .predCases _ cs _ => cs ≠ []
  | .simpleCases _ _ cs _ => cs ≠ []
  | .vpred _ _ _ _ ps => ∀ p ∈ ps, p ≠ .nil
  | .vquery _ _ qs => ∀ q ∈ qs, q ≠ .nil
  | .select q _ fields on from_ joins _ _ _ _ => SelectNeeds m0.d (effEnv m0.env q.env) q fields on from_ joins
  | .insert q _ into columns rows sets sel _ _ _ _ returning => InsertNeeds m0.d q into columns rows sets sel returning
  | .update q _ table from_ joins as sets _ orderBy returning =>
    UpdateNeeds m0.d (effEnv m0.env q.env) q table from_ joins as sets orderBy returning
  | .delete q _ froms using_ joins _ orderBy returning =>
    DeleteNeeds m0.d (effEnv m0.env q.env) q froms using_ joins orderBy returning
  | _ => True

/-- Every part renders without an error, rendered the way it is placed. -/
def PartsRender (ps : List Part) : Prop := ∀ k mk, Part.placed k mk ∈ ps → (renderAt mk k).status = .ok

/-- Whether an expression written with a format renders: every reference in the format has its value, and the values referred to render. -/
def FormatRenders (m : Mode) (ts : List TPart) (vals : List Node) : Prop :=
  ∃ steps, plan Node.key vals 0 ts = some steps ∧ ∀ v nm, Step.value v nm ∈ steps → (renderAt m v).status = .ok

end Sq.Spec
