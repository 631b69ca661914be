import Verif.Model.Node
/-
Model of the builder methods as functions on query values: {select,insert,update,delete}_query_{mysql,postgres,sqlite}.go and
join_table.go:26-71.  (The sharing of slices between queries is modelled in Model/Builder.lean; by C27 it cannot be seen in a single
chain of calls, which is what is modelled here.)

The twelve query types of the three dialects are conversions of four structs (`type MySQLSelectQuery SelectQuery`); the methods with the
same name have the same body, so there is one definition for the three, and `offered` says which methods exist where.
Their `AppendSQL`, `SetFetchableFields` and `GetFetchableFields` (select_query_mysql.go:9-19, select_query_postgres.go:9-19,
select_query_sqlite.go:9-19, insert_query_mysql.go:9-19, insert_query_postgres.go:9-19, insert_query_sqlite.go:9-19,
update_query_mysql.go:9-19, update_query_postgres.go:9-19, update_query_sqlite.go:9-19, delete_query_mysql.go:9-19,
delete_query_postgres.go:9-19, delete_query_sqlite.go:9-19) convert to those structs and call the methods of the same name there.
-/
namespace Sq.Chain

/-- The query builder of a dialect: `sq.MySQL`, `sq.PostgresEnv(env)`, ... (sq.go:29-66). -/
inductive Lang where
  | mysql | postgres | sqlite
  deriving DecidableEq

def Lang.dialect : Lang → Dialect
  | .mysql => .mysql
  | .postgres => .postgres
  | .sqlite => .sqlite

structure Builder where
  lang : Lang
  env : Env

/-- A column mapper, as the `Set` calls it makes and the error it returns (see Model/Column.lean). -/
structure Mapper where
  sets : List (Node × Node)
  err : Option Str

/-- predicate.go:130-132 `And(predicates...)`; also the zero value with predicates appended to it. -/
def and_ (ps : List Node) : Node := .vpred false [] false false ps

/-- The joins with predicates. -/
inductive JoinKind where
  | join | leftJoin | rightJoin | fullJoin
  | customJoin (joinType : Str)

/-- join_table.go:26-56, 65-71 `Join`, `LeftJoin`, `RightJoin`, `FullJoin`, `CustomJoin`. -/
def joinTable : JoinKind → Node → List Node → Node
  | .join, t, ps => .join "JOIN" t (and_ ps)
  | .leftJoin, t, ps => .join "LEFT JOIN" t (and_ ps)
  | .rightJoin, t, ps => .join "RIGHT JOIN" t (and_ ps)
  | .fullJoin, t, ps => .join "FULL JOIN" t (and_ ps)
  | .customJoin jt, t, ps => .join jt t (and_ ps)

/-- join_table.go:58-63 `CrossJoin`. -/
def crossJoin (t : Node) : Node := .join "CROSS JOIN" t (and_ [])

/-! ### SELECT -/

/-- select_query.go:9-33 `SelectQuery`. -/
structure SelectQ where
  dialect : Dialect
  env : Env
  ctes : List Node := []
  distinct : Bool := false
  selectFields : List Node := []
  distinctOn : List Node := []
  fromTable : Node := .nil
  joins : List Node := []
  where_ : List Node := []
  groupBy : List Node := []
  having : List Node := []
  orderBy : List Node := []
  limit : Option Int := none
  offset : Option Int := none

def SelectQ.node (q : SelectQ) : Node :=
  .select { dialect := q.dialect, env := q.env, distinct := q.distinct, limit := q.limit, offset := q.offset }
    q.ctes q.selectFields q.distinctOn q.fromTable q.joins (and_ q.where_) q.groupBy (and_ q.having) q.orderBy

/-- The methods of MySQLSelectQuery, PostgresSelectQuery and SQLiteSelectQuery. -/
inductive SelectCall where
  | with (ctes : List Node)
  | select (fields : List Node)
  | selectOne
  | selectDistinct (fields : List Node)
  | distinctOn (fields : List Node)
  | from (table : Node)
  | join (k : JoinKind) (table : Node) (predicates : List Node)
  | crossJoin (table : Node)
  | where (predicates : List Node)
  | groupBy (fields : List Node)
  | having (predicates : List Node)
  | orderBy (fields : List Node)
  | limit (n : Int)
  | offset (n : Int)

/-- select_query_mysql.go:64-145, select_query_postgres.go:64-150, select_query_sqlite.go:64-140: `DistinctOn` is Postgres', `RightJoin`
and `FullJoin` are missing for SQLite, `SelectOne` is a method for SQLite only. -/
def SelectCall.offered : Lang → SelectCall → Bool
  | l, .distinctOn _ => l = .postgres
  | l, .selectOne => l = .sqlite
  | l, .join .rightJoin _ _ | l, .join .fullJoin _ _ => l ≠ .sqlite
  | _, _ => true

/-- The methods (lines of select_query_mysql.go unless another file is named). -/
def SelectCall.run (q : SelectQ) : SelectCall → SelectQ
  | .with ctes => { q with ctes := q.ctes ++ ctes }                                   -- 64-67
  | .select fs => { q with selectFields := q.selectFields ++ fs }                     -- 69-72
  | .selectOne => { q with selectFields := [.literal "1" []] }                        -- select_query_sqlite.go:74-77
  | .selectDistinct fs => { q with distinct := true, selectFields := fs }             -- 74-78
  | .distinctOn fs => { q with distinctOn := fs }                                     -- select_query_postgres.go:80-83
  | .from t => { q with fromTable := t }                                              -- 80-83
  | .join k t ps => { q with joins := q.joins ++ [joinTable k t ps] }                 -- 85-103, 110-113
  | .crossJoin t => { q with joins := q.joins ++ [Chain.crossJoin t] }                -- 105-108
  | .where ps => { q with where_ := q.where_ ++ ps }                                  -- 115-118
  | .groupBy fs => { q with groupBy := q.groupBy ++ fs }                              -- 120-123
  | .having ps => { q with having := q.having ++ ps }                                 -- 125-128
  | .orderBy fs => { q with orderBy := q.orderBy ++ fs }                              -- 130-133
  | .limit n => { q with limit := some n }                                            -- 135-139
  | .offset n => { q with offset := some n }                                          -- 141-145

/-- The functions that start a SELECT. -/
inductive SelectStart where
  | from (table : Node)
  | selectWith (ctes : List Node)
  | select (fields : List Node)
  | selectOne
  | selectDistinct (fields : List Node)

/-- select_query_mysql.go:23-62, select_query_postgres.go:23-62, select_query_sqlite.go:23-62. -/
def SelectStart.run (b : Builder) : SelectStart → SelectQ
  | .from t => { dialect := b.lang.dialect, env := b.env, fromTable := t }
  | .selectWith cs => { dialect := b.lang.dialect, env := b.env, ctes := cs }
  | .select fs => { dialect := b.lang.dialect, env := b.env, selectFields := fs }
  | .selectOne => { dialect := b.lang.dialect, env := b.env, selectFields := [.literal "1" []] }
  | .selectDistinct fs => { dialect := b.lang.dialect, env := b.env, distinct := true, selectFields := fs }

/-- `builder.Start(...).Call(...).Call(...)...` -/
def select (b : Builder) (s : SelectStart) (cs : List SelectCall) : SelectQ := cs.foldl SelectCall.run (s.run b)

/-! ### INSERT -/

/-- insert_query.go:9-35 `InsertQuery`. -/
structure InsertQ where
  dialect : Dialect
  env : Env
  mapper : Option Mapper := none
  ctes : List Node := []
  ignore : Bool := false
  into : Node := .nil
  columns : List Node := []
  rows : List (List Node) := []
  rowAlias : Str := []
  columnAliases : List Str := []
  selectQuery : Node := .nil
  conflictConstraint : Str := []
  conflictFields : List Node := []
  conflictPredicate : Node := .nil
  doNothing : Bool := false
  resolution : List (Node × Node) := []
  resolutionWhere : List Node := []
  returning : List Node := []

def InsertQ.node (q : InsertQ) : Node :=
  .insert { dialect := q.dialect, env := q.env, hasMapper := q.mapper.isSome, mapErr := q.mapper.bind Mapper.err, ignore := q.ignore
            rowAlias := q.rowAlias, columnAliases := q.columnAliases, conflictConstraint := q.conflictConstraint, doNothing := q.doNothing }
    q.ctes q.into q.columns q.rows ((q.mapper.map Mapper.sets).getD []) q.selectQuery q.conflictFields q.conflictPredicate
    q.resolution (and_ q.resolutionWhere) q.returning

/-- What follows `OnConflict(...)` or `OnConflictOnConstraint(...)` and the `Where(...)`s on it. -/
inductive Action where
  | doNothing
  | doUpdateSet (assignments : List (Node × Node))

inductive InsertCall where
  | with (ctes : List Node)
  | insertInto (table : Node)
  | columns (fields : List Node)
  | values (row : List Node)
  | valuesx (m : Mapper)
  | asRow (alias : Str)
  | asColumns (aliases : List Str)
  | select (q : SelectQ)
  | onDuplicateKeyUpdate (assignments : List (Node × Node))
  /-- `OnConflict(fields...).Where(p1).Where(p2)....Do...(...)` -/
  | onConflict (fields : List Node) (predicates : List Node) (action : Action)
  | onConstraint (name : Str) (predicates : List Node) (action : Action)
  | where (predicates : List Node)
  | returning (fields : List Node)

/-- insert_query_mysql.go:40-74, insert_query_postgres.go:39-112, insert_query_sqlite.go:39-105. -/
def InsertCall.offered : Lang → InsertCall → Bool
  | l, .with _ | l, .insertInto _ | l, .onConflict _ _ _ | l, .where _ | l, .returning _ => l ≠ .mysql
  | l, .asRow _ | l, .asColumns _ | l, .onDuplicateKeyUpdate _ => l = .mysql
  | l, .onConstraint _ _ _ => l = .postgres
  | _, _ => true

/-- `DoNothing`, `DoUpdateSet` (insert_query_postgres.go:93-102, insert_query_sqlite.go:86-95). -/
def Action.run (q : InsertQ) : Action → InsertQ
  | .doNothing => { q with doNothing := true }
  | .doUpdateSet as => { q with resolution := as }

/-- `Where` of the conflict (insert_query_postgres.go:88-91, insert_query_sqlite.go:81-84), any number of times. -/
def conflictWhere (q : InsertQ) (ps : List Node) : InsertQ := ps.foldl (fun q p => { q with conflictPredicate := p }) q

/-- The methods (lines of insert_query_postgres.go unless another file is named). -/
def InsertCall.run (q : InsertQ) : InsertCall → InsertQ
  | .with ctes => { q with ctes := q.ctes ++ ctes }                                   -- 39-42
  | .insertInto t => { q with into := t }                                             -- 44-47
  | .columns fs => { q with columns := fs }                                           -- 49-52
  | .values row => { q with rows := q.rows ++ [row] }                                 -- 54-57
  | .valuesx m => { q with mapper := some m }                                         -- 59-62
  | .asRow a => { q with rowAlias := a }                                              -- insert_query_mysql.go:55-58
  | .asColumns as => { q with columnAliases := as }                                   -- insert_query_mysql.go:60-63
  | .select s => { q with selectQuery := s.node }                                     -- 64-68
  | .onDuplicateKeyUpdate as => { q with resolution := as }                           -- insert_query_mysql.go:71-74
  | .onConflict fs ps a => a.run (conflictWhere { q with conflictFields := fs } ps)   -- 74-79
  | .onConstraint n ps a => a.run (conflictWhere { q with conflictConstraint := n } ps)   -- 81-86
  | .where ps => { q with resolutionWhere := q.resolutionWhere ++ ps }                -- 104-107
  | .returning fs => { q with returning := q.returning ++ fs }                        -- 109-112

inductive InsertStart where
  | insertWith (ctes : List Node)
  | insertInto (table : Node)
  | insertIgnoreInto (table : Node)

def InsertStart.offered : Lang → InsertStart → Bool
  | l, .insertWith _ => l ≠ .mysql
  | l, .insertIgnoreInto _ => l = .mysql
  | _, _ => true

/-- insert_query_mysql.go:23-38, insert_query_postgres.go:23-37, insert_query_sqlite.go:23-37. -/
def InsertStart.run (b : Builder) : InsertStart → InsertQ
  | .insertWith cs => { dialect := b.lang.dialect, env := b.env, ctes := cs }
  | .insertInto t => { dialect := b.lang.dialect, env := b.env, into := t }
  | .insertIgnoreInto t => { dialect := b.lang.dialect, env := b.env, ignore := true, into := t }

def insert (b : Builder) (s : InsertStart) (cs : List InsertCall) : InsertQ := cs.foldl InsertCall.run (s.run b)

/-! ### UPDATE -/

/-- update_query.go:9-32 `UpdateQuery`. -/
structure UpdateQ where
  dialect : Dialect
  env : Env
  mapper : Option Mapper := none
  ctes : List Node := []
  table : Node := .nil
  fromTable : Node := .nil
  joins : List Node := []
  assignments : List (Node × Node) := []
  where_ : List Node := []
  orderBy : List Node := []
  limit : Option Int := none
  offset : Option Int := none
  returning : List Node := []

def UpdateQ.node (q : UpdateQ) : Node :=
  .update { dialect := q.dialect, env := q.env, hasMapper := q.mapper.isSome, mapErr := q.mapper.bind Mapper.err, limit := q.limit
            offset := q.offset }
    q.ctes q.table q.fromTable q.joins q.assignments ((q.mapper.map Mapper.sets).getD []) (and_ q.where_) q.orderBy q.returning

inductive UpdateCall where
  | with (ctes : List Node)
  | update (table : Node)
  | set (assignments : List (Node × Node))
  | setx (m : Mapper)
  | from (table : Node)
  | join (k : JoinKind) (table : Node) (predicates : List Node)
  | crossJoin (table : Node)
  | where (predicates : List Node)
  | orderBy (fields : List Node)
  | limit (n : Int)
  | offset (n : Int)
  | returning (fields : List Node)

/-- update_query_mysql.go:39-103, update_query_postgres.go:39-102, update_query_sqlite.go:39-104. -/
def UpdateCall.offered : Lang → UpdateCall → Bool
  | l, .from _ => l ≠ .mysql
  | l, .join .rightJoin _ _ | l, .join .fullJoin _ _ => l ≠ .sqlite
  | l, .orderBy _ | l, .limit _ => l ≠ .postgres
  | l, .offset _ => l = .sqlite
  | l, .returning _ => l = .postgres
  | _, _ => true

/-- The methods (lines of update_query_mysql.go unless another file is named). -/
def UpdateCall.run (q : UpdateQ) : UpdateCall → UpdateQ
  | .with ctes => { q with ctes := q.ctes ++ ctes }                                   -- 39-42
  | .update t => { q with table := t }                                                -- 44-47
  | .set as => { q with assignments := q.assignments ++ as }                          -- 49-52
  | .setx m => { q with mapper := some m }                                            -- 54-57
  | .from t => { q with fromTable := t }                                              -- update_query_postgres.go:59-62
  | .join k t ps => { q with joins := q.joins ++ [joinTable k t ps] }                 -- 59-77, 84-87
  | .crossJoin t => { q with joins := q.joins ++ [Chain.crossJoin t] }                -- 79-82
  | .where ps => { q with where_ := q.where_ ++ ps }                                  -- 89-92
  | .orderBy fs => { q with orderBy := q.orderBy ++ fs }                              -- 94-97
  | .limit n => { q with limit := some n }                                            -- 99-103
  | .offset n => { q with offset := some n }                                          -- update_query_sqlite.go:100-104
  | .returning fs => { q with returning := q.returning ++ fs }                        -- update_query_postgres.go:99-102

inductive UpdateStart where
  | updateWith (ctes : List Node)
  | update (table : Node)

/-- update_query_mysql.go:23-37, update_query_postgres.go:23-37, update_query_sqlite.go:23-37. -/
def UpdateStart.run (b : Builder) : UpdateStart → UpdateQ
  | .updateWith cs => { dialect := b.lang.dialect, env := b.env, ctes := cs }
  | .update t => { dialect := b.lang.dialect, env := b.env, table := t }

def update (b : Builder) (s : UpdateStart) (cs : List UpdateCall) : UpdateQ := cs.foldl UpdateCall.run (s.run b)

/-! ### DELETE -/

/-- delete_query.go:9-29 `DeleteQuery`. -/
structure DeleteQ where
  dialect : Dialect
  env : Env
  ctes : List Node := []
  froms : List Node := []
  usingTable : Node := .nil
  joins : List Node := []
  where_ : List Node := []
  orderBy : List Node := []
  limit : Option Int := none
  offset : Option Int := none
  returning : List Node := []

def DeleteQ.node (q : DeleteQ) : Node :=
  .delete { dialect := q.dialect, env := q.env, limit := q.limit, offset := q.offset }
    q.ctes q.froms q.usingTable q.joins (and_ q.where_) q.orderBy q.returning

inductive DeleteCall where
  | with (ctes : List Node)
  /-- any number of tables for MySQL (the others take one) -/
  | deleteFrom (tables : List Node)
  | using (table : Node)
  | join (k : JoinKind) (table : Node) (predicates : List Node)
  | crossJoin (table : Node)
  | where (predicates : List Node)
  | orderBy (fields : List Node)
  | limit (n : Int)
  | offset (n : Int)
  | returning (fields : List Node)

/-- delete_query_mysql.go:39-98, delete_query_postgres.go:39-97, delete_query_sqlite.go:39-79. -/
def DeleteCall.offered : Lang → DeleteCall → Bool
  | l, .deleteFrom ts => l = .mysql ∨ ts.length = 1
  | l, .using _ | l, .join _ _ _ | l, .crossJoin _ => l ≠ .sqlite
  | l, .orderBy _ | l, .limit _ => l ≠ .postgres
  | l, .offset _ => l = .sqlite
  | l, .returning _ => l ≠ .mysql
  | _, _ => true

/-- The methods (lines of delete_query_mysql.go unless another file is named).  `DeleteFrom` of the other dialects
(delete_query_postgres.go:44-52, delete_query_sqlite.go:44-52) overwrites the first table and drops the others, which is the same. -/
def DeleteCall.run (q : DeleteQ) : DeleteCall → DeleteQ
  | .with ctes => { q with ctes := q.ctes ++ ctes }                                   -- 39-42
  | .deleteFrom ts => { q with froms := ts }                                          -- 44-47
  | .using t => { q with usingTable := t }                                            -- 49-52
  | .join k t ps => { q with joins := q.joins ++ [joinTable k t ps] }                 -- 54-72, 79-82
  | .crossJoin t => { q with joins := q.joins ++ [Chain.crossJoin t] }                -- 74-77
  | .where ps => { q with where_ := q.where_ ++ ps }                                  -- 84-87
  | .orderBy fs => { q with orderBy := fs }                                           -- 89-92
  | .limit n => { q with limit := some n }                                            -- 94-98
  | .offset n => { q with offset := some n }                                          -- delete_query_sqlite.go:70-74
  | .returning fs => { q with returning := q.returning ++ fs }                        -- delete_query_postgres.go:94-97

inductive DeleteStart where
  | deleteWith (ctes : List Node)
  | deleteFrom (tables : List Node)

def DeleteStart.offered : Lang → DeleteStart → Bool
  | l, .deleteFrom ts => l = .mysql ∨ ts.length = 1
  | _, _ => true

/-- delete_query_mysql.go:23-37, delete_query_postgres.go:23-37, delete_query_sqlite.go:23-37. -/
def DeleteStart.run (b : Builder) : DeleteStart → DeleteQ
  | .deleteWith cs => { dialect := b.lang.dialect, env := b.env, ctes := cs }
  | .deleteFrom ts => { dialect := b.lang.dialect, env := b.env, froms := ts }

def delete (b : Builder) (s : DeleteStart) (cs : List DeleteCall) : DeleteQ := cs.foldl DeleteCall.run (s.run b)

/-! ### Rendering -/

/-- `GetDialect()` of the queries (line 21 of the twelve files; select_query.go, ...: the `Dialect` field). -/
def queryDialect : Node → Dialect
  | .select q _ _ _ _ _ _ _ _ _ => q.dialect
  | .insert q _ _ _ _ _ _ _ _ _ _ _ => q.dialect
  | .update q _ _ _ _ _ _ _ _ _ => q.dialect
  | .delete q _ _ _ _ _ _ _ => q.dialect
  | .customQuery d _ _ => d
  | _ => .other

/-- sq.go:113-127 `ToSQL("", q)`, and what Fetch and Exec do (fetch.go:72, 107; exec.go:69, 89): the query is rendered in its own dialect. -/
def ownSQL (n : Node) : Rendered := toSQL (queryDialect n) n

end Sq.Chain
