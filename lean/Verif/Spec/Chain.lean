import Verif.Model.Chain
/-
Specification: what a chain of builder calls asks for, clause by clause.  A call either adds to a clause or replaces it; a call is only
about its own clause; `WITH`, joins, conditions, `GROUP BY`, `HAVING`, `ORDER BY`, rows, assignments and `RETURNING` add up; tables,
limits and the like are as last said.
-/
namespace Spec.Chain
open Sq Sq.Chain

/-- What a call says about a list: these as well, or these instead. -/
inductive Say (α : Type) where
  | also (xs : List α)
  | instead (xs : List α)

/-- The list when all is said: the last list said instead of the earlier ones and all that was said after it. -/
def listing {α : Type} (says : List (Say α)) : List α :=
  let afterwards := (says.reverse.takeWhile fun | .also _ => true | .instead _ => false).reverse
  let base := says.filterMap fun | .also _ => none | .instead xs => some xs
  base.getLast?.getD [] ++ afterwards.flatMap fun | .also xs => xs | .instead _ => []

/-- All that was added. -/
def all {α β : Type} (adds : α → List β) (calls : List α) : List β := calls.flatMap adds

/-- What was said last. -/
def last {α β : Type} (says : α → Option β) (calls : List α) : Option β := (calls.filterMap says).getLast?

def conj (ps : List Node) : Node := .vpred false [] false false ps

/-- The joins. -/
def keyword : JoinKind → Str
  | .join => "JOIN"
  | .leftJoin => "LEFT JOIN"
  | .rightJoin => "RIGHT JOIN"
  | .fullJoin => "FULL JOIN"
  | .customJoin k => k

def joining (k : JoinKind) (t : Node) (ps : List Node) : Node := .join (keyword k) t (conj ps)
def crossing (t : Node) : Node := .join "CROSS JOIN" t (conj [])

/-- The function that starts a query says what the method of the same name says. -/
def opening : SelectStart → SelectCall
  | .from t => .from t
  | .selectWith cs => .with cs
  | .select fs => .select fs
  | .selectOne => .selectOne
  | .selectDistinct fs => .selectDistinct fs

/-- The SELECT that the calls ask for. -/
def selectAsked (b : Builder) (calls : List SelectCall) : Node :=
  .select
    { dialect := b.lang.dialect
      env := b.env
      distinct := calls.any fun | .selectDistinct _ => true | _ => false
      limit := last (fun | .limit n => some n | _ => none) calls
      offset := last (fun | .offset n => some n | _ => none) calls }
    (all (fun | .with cs => cs | _ => []) calls)
    (listing <| calls.filterMap fun
      | .select fs => some (.also fs)
      | .selectOne => some (.instead [.literal "1" []])
      | .selectDistinct fs => some (.instead fs)
      | _ => none)
    ((last (fun | .distinctOn fs => some fs | _ => none) calls).getD [])
    ((last (fun | .from t => some t | _ => none) calls).getD .nil)
    (all (fun | .join k t ps => [joining k t ps] | .crossJoin t => [crossing t] | _ => []) calls)
    (conj (all (fun | .where ps => ps | _ => []) calls))
    (all (fun | .groupBy fs => fs | _ => []) calls)
    (conj (all (fun | .having ps => ps | _ => []) calls))
    (all (fun | .orderBy fs => fs | _ => []) calls)

/-- The clauses of a SELECT. -/
inductive SelectClause where
  | with | list | distinctOn | from | joins | where | groupBy | having | orderBy | limit | offset
  deriving DecidableEq

def selectClause : SelectCall → SelectClause
  | .with _ => .with
  | .select _ | .selectOne | .selectDistinct _ => .list
  | .distinctOn _ => .distinctOn
  | .from _ => .from
  | .join _ _ _ | .crossJoin _ => .joins
  | .where _ => .where
  | .groupBy _ => .groupBy
  | .having _ => .having
  | .orderBy _ => .orderBy
  | .limit _ => .limit
  | .offset _ => .offset

/-- What the function that starts an INSERT says. -/
def openingIgnore : InsertStart → Bool
  | .insertIgnoreInto _ => true
  | _ => false
def openingCtes : InsertStart → List Node
  | .insertWith cs => cs
  | _ => []
def openingInto : InsertStart → Node
  | .insertInto t | .insertIgnoreInto t => t
  | .insertWith _ => .nil

/-- The INSERT that the calls ask for; `ON CONFLICT` as last said. -/
def insertAsked (b : Builder) (s : InsertStart) (calls : List InsertCall) : Node :=
  let mapper := last (fun | .valuesx m => some m | _ => none) calls
  let conflict : Option ((List Node ⊕ Str) × List Node × Action) := last (fun
    | .onConflict fs ps a => some (Sum.inl fs, ps, a)
    | .onConstraint n ps a => some (Sum.inr n, ps, a)
    | _ => none) calls
  .insert
    { dialect := b.lang.dialect
      env := b.env
      hasMapper := mapper.isSome
      mapErr := mapper.bind Mapper.err
      ignore := openingIgnore s
      rowAlias := (last (fun | .asRow a => some a | _ => none) calls).getD []
      columnAliases := (last (fun | .asColumns as => some as | _ => none) calls).getD []
      conflictConstraint := match conflict with | some (.inr n, _, _) => n | _ => []
      doNothing := match conflict with | some (_, _, .doNothing) => true | _ => false }
    (openingCtes s ++ all (fun | .with cs => cs | _ => []) calls)
    ((last (fun | .insertInto t => some t | _ => none) calls).getD (openingInto s))
    ((last (fun | .columns fs => some fs | _ => none) calls).getD [])
    (all (fun | .values row => [row] | _ => []) calls)
    ((mapper.map Mapper.sets).getD [])
    ((last (fun | .select q => some q.node | _ => none) calls).getD .nil)
    (match conflict with | some (.inl fs, _, _) => fs | _ => [])
    (match conflict with | some (_, ps, _) => ps.getLast?.getD .nil | _ => .nil)
    (match conflict with
      | some (_, _, .doUpdateSet as) => as
      | _ => (last (fun | .onDuplicateKeyUpdate as => some as | _ => none) calls).getD [])
    (conj (all (fun | .where ps => ps | _ => []) calls))
    (all (fun | .returning fs => fs | _ => []) calls)

def conflictCall : InsertCall → Bool
  | .onConflict _ _ _ | .onConstraint _ _ _ => true
  | _ => false

/-- At most one `ON CONFLICT`. -/
def OneConflict (calls : List InsertCall) : Prop := (calls.filter conflictCall).length ≤ 1

def openingUpdate : UpdateStart → UpdateCall
  | .updateWith cs => .with cs
  | .update t => .update t

/-- The UPDATE that the calls ask for. -/
def updateAsked (b : Builder) (calls : List UpdateCall) : Node :=
  let mapper := last (fun | .setx m => some m | _ => none) calls
  .update
    { dialect := b.lang.dialect
      env := b.env
      hasMapper := mapper.isSome
      mapErr := mapper.bind Mapper.err
      limit := last (fun | .limit n => some n | _ => none) calls
      offset := last (fun | .offset n => some n | _ => none) calls }
    (all (fun | .with cs => cs | _ => []) calls)
    ((last (fun | .update t => some t | _ => none) calls).getD .nil)
    ((last (fun | .from t => some t | _ => none) calls).getD .nil)
    (all (fun | .join k t ps => [joining k t ps] | .crossJoin t => [crossing t] | _ => []) calls)
    (all (fun | .set as => as | _ => []) calls)
    ((mapper.map Mapper.sets).getD [])
    (conj (all (fun | .where ps => ps | _ => []) calls))
    (all (fun | .orderBy fs => fs | _ => []) calls)
    (all (fun | .returning fs => fs | _ => []) calls)

inductive UpdateClause where
  | with | table | set | mapper | from | joins | where | orderBy | limit | offset | returning
  deriving DecidableEq

def updateClause : UpdateCall → UpdateClause
  | .with _ => .with
  | .update _ => .table
  | .set _ => .set
  | .setx _ => .mapper
  | .from _ => .from
  | .join _ _ _ | .crossJoin _ => .joins
  | .where _ => .where
  | .orderBy _ => .orderBy
  | .limit _ => .limit
  | .offset _ => .offset
  | .returning _ => .returning

def openingDelete : DeleteStart → DeleteCall
  | .deleteWith cs => .with cs
  | .deleteFrom ts => .deleteFrom ts

/-- The DELETE that the calls ask for. -/
def deleteAsked (b : Builder) (calls : List DeleteCall) : Node :=
  .delete
    { dialect := b.lang.dialect
      env := b.env
      limit := last (fun | .limit n => some n | _ => none) calls
      offset := last (fun | .offset n => some n | _ => none) calls }
    (all (fun | .with cs => cs | _ => []) calls)
    ((last (fun | .deleteFrom ts => some ts | _ => none) calls).getD [])
    ((last (fun | .using t => some t | _ => none) calls).getD .nil)
    (all (fun | .join k t ps => [joining k t ps] | .crossJoin t => [crossing t] | _ => []) calls)
    (conj (all (fun | .where ps => ps | _ => []) calls))
    (all (fun | .orderBy fs => fs | _ => []) calls)
    (all (fun | .returning fs => fs | _ => []) calls)

def orderCall : DeleteCall → Bool
  | .orderBy _ => true
  | _ => false

/-- At most one `OrderBy`. -/
def OneOrder (calls : List DeleteCall) : Prop := (calls.filter orderCall).length ≤ 1

inductive DeleteClause where
  | with | tables | using | joins | where | orderBy | limit | offset | returning
  deriving DecidableEq

def deleteClause : DeleteCall → DeleteClause
  | .with _ => .with
  | .deleteFrom _ => .tables
  | .using _ => .using
  | .join _ _ _ | .crossJoin _ => .joins
  | .where _ => .where
  | .orderBy _ => .orderBy
  | .limit _ => .limit
  | .offset _ => .offset
  | .returning _ => .returning

inductive InsertClause where
  | with | table | columns | values | mapper | rowAlias | columnAliases | select | conflict | duplicate | where | returning
  deriving DecidableEq

def insertClause : InsertCall → InsertClause
  | .with _ => .with
  | .insertInto _ => .table
  | .columns _ => .columns
  | .values _ => .values
  | .valuesx _ => .mapper
  | .asRow _ => .rowAlias
  | .asColumns _ => .columnAliases
  | .select _ => .select
  | .onConflict _ _ _ | .onConstraint _ _ _ => .conflict
  | .onDuplicateKeyUpdate _ => .duplicate
  | .where _ => .where
  | .returning _ => .returning

/-- Two chains with the same calls for each clause, in the same order within each clause. -/
def SameByClause {α C : Type} [DecidableEq C] (clause : α → C) (cs cs' : List α) : Prop :=
  ∀ c, cs.filter (clause · = c) = cs'.filter (clause · = c)

end Spec.Chain
