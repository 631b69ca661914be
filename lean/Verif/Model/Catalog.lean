import Verif.Model.Scan
import Verif.Model.Load
import Verif.Model.Command
import Verif.Model.Sprintf
/-
Model of ddl/introspect.go: 56-75 (`NewDatabaseIntrospector`), 132-891 (`Get...`) and of `WithDB`
(ddl/database_metadata.go:197-327) on top of it: from the rows the database answers with to the metadata.

The database is a function from queries to answers.  A query is either one of the fixed texts or one of the embedded scripts, executed
with the default filter (the text this gives is the subject of Model/Filter).  An answer is the rows that can be read, and what `rows.Err` and
`rows.Close` say afterwards.  Conversions are those of database/sql (`convertAssign`, go1.16 src/database/sql/convert.go) to string, bool and
int; floats and times do not occur.  The context is always `context.Background()`.  Error texts are abbreviated.  When `WithDB` fails,
the metadata built so far is left out.  `num` is `strconv.ParseInt` or `strconv.ParseFloat` succeeding (as in Model/Load).
-/
namespace Ddl.Catalog
open Sq (atoi formatInt)


/-! ### database/sql -/

/-- A value as the driver hands it over (`driver.Value`). -/
inductive Cell where
  | null
  | text (s : Str)      -- string or []byte
  | int (i : Int)
  | bool (b : Bool)
  deriving DecidableEq

/-- database/sql convert.go `convertAssign` to a string. -/
def Cell.toText : Cell → Option Str
  | .null => none
  | .text s => some s
  | .int i => some (formatInt i)
  | .bool b => some (if b then "true".toList else "false".toList)

/-- `strconv.ParseBool`. -/
def parseBool (s : Str) : Option Bool :=
  if ["1", "t", "T", "TRUE", "true", "True"].any fun w => s = w.toList then some true
  else if ["0", "f", "F", "FALSE", "false", "False"].any fun w => s = w.toList then some false
  else none

/-- `convertAssign` to a bool (`driver.Bool.ConvertValue`). -/
def Cell.toBool : Cell → Option Bool
  | .null => none
  | .text s => parseBool s
  | .int i => if i = 0 then some false else if i = 1 then some true else none
  | .bool b => some b

/-- `convertAssign` to an int. -/
def Cell.toInt : Cell → Option Int
  | .null => none
  | .text s => atoi s
  | .int i => some i
  | .bool _ => none

/-- A destination of `rows.Scan`: a pointer to a part of `ρ`. -/
inductive Dest (ρ : Type) where
  | text (set : Str → ρ → ρ)
  | bool (set : Bool → ρ → ρ)
  | int (set : Int → ρ → ρ)

/-- `convertAssign` to one destination. -/
def Dest.assign {ρ : Type} (r : ρ) : Dest ρ → Cell → Option ρ
  | .text set, c => c.toText.map fun v => set v r
  | .bool set, c => c.toBool.map fun v => set v r
  | .int set, c => c.toInt.map fun v => set v r

/-- `rows.Scan`: an error if the numbers differ or a value cannot be converted. -/
def scanInto {ρ : Type} : List (Dest ρ) → List Cell → ρ → Option ρ
  | [], [], r => some r
  | d :: ds, c :: cs, r => (d.assign r c).bind (scanInto ds cs)
  | _, _, _ => none

/-- `rows.Scan` as the code uses it: `if err != nil { return nil, err }`. -/
def scan {ρ : Type} (ds : List (Dest ρ)) (cs : List Cell) (r : ρ) : Res ρ :=
  match scanInto ds cs r with
  | some r => .ok r
  | none => .err "scanning".toList

/-- What a query is answered with: the rows that `rows.Next` gets to, `rows.Err()` and `rows.Close()` afterwards. -/
structure Answer where
  rows : List (List Cell) := []
  endErr : Option Str := none
  closeErr : Option Str := none

inductive Query where
  | sql (text : String)
  | script (name : String)
  deriving DecidableEq

/-- The database: `none` if the query fails. -/
structure Server where
  alive : Bool := true
  answer : Query → Option Answer

/-- `queryContext` and the `if err != nil` after it. -/
def Server.query (s : Server) (q : Query) : Res Answer :=
  match s.answer q with
  | some a => .ok a
  | none => .err "query".toList

/-! ### The loop -/

/-- introspect.go:310-325 and copies: the loop over the rows; `σ` are the variables declared outside of it. -/
def readAll {σ α : Type} (reader : σ → List Cell → Res (α × σ)) : σ → List (List Cell) → Res (List α)
  | _, [] => .ok []
  | s, r :: rs => (reader s r).bind fun x => (readAll reader x.2 rs).map (x.1 :: ·)

/-- introspect.go:326-334 and copies. -/
def finish {α : Type} (a : Answer) (x : α) : Res α :=
  match a.closeErr with
  | some _ => .err "rows.Close".toList
  | none => match a.endErr with
    | some _ => .err "rows.Err".toList
    | none => .ok x

/-- introspect.go:286-335 and copies, given the reader of a row. -/
def getRows {σ α : Type} (sv : Server) (q : Query) (s : σ) (reader : σ → List Cell → Res (α × σ)) : Res (List α) :=
  (sv.query q).bind fun a => (readAll reader s a.rows).bind fun xs => finish a xs

/-- The name of an embedded script. -/
def scriptFor (d : Dialect) (what : String) : Option Query :=
  match d with
  | .sqlite => some (.script ("sqlite_" ++ what))
  | .postgres => some (.script ("postgres_" ++ what))
  | .mysql => some (.script ("mysql_" ++ what))
  | _ => none

def unsupported {α : Type} : Res α := .err "unsupported dialect".toList

/-- A reader that keeps nothing from one row to the next. -/
def plainly {α : Type} (f : List Cell → Res α) : Unit → List Cell → Res (α × Unit) := fun _ r => (f r).map fun x => (x, ())

/-! ### Single values -/

/-- introspect.go:156-160, 211-216, 248-253: the text in the first row; empty if there is no row. -/
def firstText (a : Answer) : Res Str :=
  match a.rows with
  | [] => .ok []
  | r :: _ => scan [.text fun v _ => v] r []

/-- `strings.IndexByte(s, ' ')` and cut: introspect.go:161-163. -/
def untilBlank (s : Str) : Str := s.takeWhile (· ≠ ' ')

/-- introspect.go:168-175. -/
def parseVersion (s : Str) : Res (List Int) :=
  (splitOn '.' s).foldr (fun w r => match atoi w with
    | none => .err "version".toList
    | some n => r.map (n :: ·)) (.ok [])

/-- introspect.go:132-187 `GetVersionNums`.  The version is parsed before the result set is closed; if there is no row the empty text is
parsed. -/
def getVersionNums (d : Dialect) (sv : Server) : Res (List Int) :=
  let q : Option Query := match d with
    | .sqlite => some (.sql "SELECT sqlite_version()")
    | .postgres => some (.sql "SELECT current_setting('server_version')")
    | .mysql => some (.sql "SELECT version()")
    | _ => none
  match q with
  | none => unsupported
  | some q => (sv.query q).bind fun a => (firstText a).bind fun s =>
    (parseVersion (if d = .postgres then untilBlank s else s)).bind fun ns => finish a ns

/-- introspect.go:211-226, 248-263. -/
def oneText (sv : Server) (q : Query) : Res Str := (sv.query q).bind fun a => (firstText a).bind fun s => finish a s

/-- introspect.go:189-227 `GetDatabaseName`. -/
def getDatabaseName (d : Dialect) (sv : Server) : Res Str :=
  match d with
  | .sqlite => oneText sv (.sql "SELECT file FROM pragma_database_list WHERE name = 'main'")
  | .postgres => oneText sv (.sql "SELECT current_database()")
  | .mysql => oneText sv (.sql "SELECT database()")
  | _ => unsupported

/-- introspect.go:229-264 `GetCurrentSchema`. -/
def getCurrentSchema (d : Dialect) (sv : Server) : Res Str :=
  match d with
  | .sqlite => .ok []
  | .postgres => oneText sv (.sql "SELECT current_schema()")
  | .mysql => oneText sv (.sql "SELECT database()")
  | _ => unsupported

/-! ### Extensions -/

/-- introspect.go:277: the destinations. -/
def extensionDests : List (Dest (Str × Str)) := [.text fun v x => (v, x.2), .text fun v x => (x.1, v)]

/-- introspect.go:266-284 `GetExtensions`: neither `rows.Close` nor `rows.Err` is looked at. -/
def getExtensions (d : Dialect) (sv : Server) : Res (List Str) :=
  if d ≠ .postgres then .err "dialect does not support this feature".toList
  else (sv.query (.script "postgres_extensions.sql")).bind fun a =>
    readAll (plainly fun r => (scan extensionDests r ([], [])).map fun x => x.1 ++ '@' :: x.2) () a.rows

/-! ### Tables -/

/-- introspect.go:314, 319: the destinations. -/
def tableDests : Dialect → List (Dest Table)
  | .sqlite => [.text fun v t => { t with tableName := v }, .text fun v t => { t with sql := v }]
  | .postgres | .mysql => [.text fun v t => { t with tableSchema := v }, .text fun v t => { t with tableName := v }]
  | _ => []

/-- introspect.go:311-324. -/
def readTable (d : Dialect) (r : List Cell) : Res Table := scan (tableDests d) r {}

/-- introspect.go:286-335 `GetTables`. -/
def getTables (d : Dialect) (sv : Server) : Res (List Table) :=
  match scriptFor d "tables.sql" with
  | none => unsupported
  | some q => getRows sv q () (plainly (readTable d))

/-! ### Columns -/

/-- `strings.TrimSuffix`. -/
def trimSuffix (p s : Str) : Str := if p.isSuffixOf s then s.take (s.length - p.length) else s

/-- ddl.go:146-171 `toExpr`. -/
def toExpr (num : Str → Bool) (d : Dialect) (s : Str) : Str :=
  if s.length ≥ 2 ∧ s.head? = some '\'' ∧ s.getLast? = some '\'' then s
  else if ["TRUE", "FALSE", "CURRENT_DATE", "CURRENT_TIME", "CURRENT_TIMESTAMP", "NULL"].any fun w => eqFold s w.toList then s
  else if num s then s
  else if s.length ≥ 2 ∧ s.head? = some '(' ∧ s.getLast? = some ')' then s
  else match d with
    | .mysql => '\'' :: (Sq.escapeQuote '\'' s ++ ['\''])
    | .postgres => s
    | _ => '(' :: (s ++ [')'])

/-- introspect.go:365-371, 380-394, 399-414: the destinations. -/
def columnDests : Dialect → List (Dest Column)
  | .sqlite =>
    [.text fun v c => { c with tableName := v },
      .text fun v c => { c with columnName := v },
      .text fun v c => { c with columnType := v },
      .bool fun v c => { c with isNotNull := v },
      .text fun v c => { c with columnDefault := v }]
  | .postgres =>
    [.text fun v c => { c with tableSchema := v },
      .text fun v c => { c with tableName := v },
      .text fun v c => { c with columnName := v },
      .text fun v c => { c with columnType := v },
      .int fun v c => { c with numericPrecision := v },
      .int fun v c => { c with numericScale := v },
      .text fun v c => { c with identity := v },
      .bool fun v c => { c with isNotNull := v },
      .text fun v c => { c with generatedExpr := v },
      .bool fun v c => { c with generatedExprStored := v },
      .text fun v c => { c with collationName := v },
      .text fun v c => { c with columnDefault := v },
      .text fun v c => { c with columnComment := v }]
  | .mysql =>
    [.text fun v c => { c with tableSchema := v },
      .text fun v c => { c with tableName := v },
      .text fun v c => { c with columnName := v },
      .text fun v c => { c with columnType := v },
      .int fun v c => { c with numericPrecision := v },
      .int fun v c => { c with numericScale := v },
      .bool fun v c => { c with isAutoincrement := v },
      .bool fun v c => { c with isNotNull := v },
      .bool fun v c => { c with onUpdateCurrentTimestamp := v },
      .text fun v c => { c with generatedExpr := v },
      .bool fun v c => { c with generatedExprStored := v },
      .text fun v c => { c with collationName := v },
      .text fun v c => { c with columnDefault := v },
      .text fun v c => { c with columnComment := v }]
  | _ => []

/-- introspect.go:362-422. -/
def readColumn (num : Str → Bool) (d : Dialect) (r : List Cell) : Res Column :=
  (scan (columnDests d) r {}).map fun c =>
    match d with
    | .sqlite => { c with
        columnType := trimSuffix " GENERATED ALWAYS".toList c.columnType
        columnDefault := if c.columnDefault ≠ [] then toExpr num d c.columnDefault else c.columnDefault }
    | .mysql => { c with generatedExpr := if c.generatedExpr ≠ [] then dropBackslash c.generatedExpr else c.generatedExpr }
    | _ => c

/-- introspect.go:337-433 `GetColumns`. -/
def getColumns (num : Str → Bool) (d : Dialect) (sv : Server) : Res (List Column) :=
  match scriptFor d "columns.sql" with
  | none => unsupported
  | some q => getRows sv q () (plainly (readColumn num d))

/-! ### Constraints -/

/-- ddl.go:21-28: the constants; the code keeps the text. -/
def constraintType (s : Str) : ConstraintType :=
  if s = "PRIMARY KEY".toList then .primaryKey
  else if s = "FOREIGN KEY".toList then .foreignKey
  else if s = "UNIQUE".toList then .unique
  else if s = "CHECK".toList then .check
  else if s = "EXCLUDE".toList then .exclude
  else .other s

/-- introspect.go:459: the variables declared outside of the loop. -/
structure RawCon where
  columns : Str := []
  exprs : Str := []
  referencesColumns : Str := []
  operators : Str := []

abbrev ConRow := Constraint × RawCon

/-- introspect.go:464-472, 477-496, 504-517: the destinations. -/
def constraintDests : Dialect → List (Dest ConRow)
  | .sqlite =>
    [.text fun v c => ({ c.1 with tableName := v }, c.2),
      .text fun v c => ({ c.1 with constraintType := constraintType v }, c.2),
      .text fun v c => (c.1, { c.2 with columns := v }),
      .text fun v c => ({ c.1 with referencesTable := v }, c.2),
      .text fun v c => (c.1, { c.2 with referencesColumns := v }),
      .text fun v c => ({ c.1 with updateRule := v }, c.2),
      .text fun v c => ({ c.1 with deleteRule := v }, c.2)]
  | .postgres =>
    [.text fun v c => ({ c.1 with tableSchema := v }, c.2),
      .text fun v c => ({ c.1 with tableName := v }, c.2),
      .text fun v c => ({ c.1 with constraintName := v }, c.2),
      .text fun v c => ({ c.1 with constraintType := constraintType v }, c.2),
      .text fun v c => (c.1, { c.2 with columns := v }),
      .text fun v c => (c.1, { c.2 with exprs := v }),
      .text fun v c => ({ c.1 with referencesSchema := v }, c.2),
      .text fun v c => ({ c.1 with referencesTable := v }, c.2),
      .text fun v c => (c.1, { c.2 with referencesColumns := v }),
      .text fun v c => ({ c.1 with updateRule := v }, c.2),
      .text fun v c => ({ c.1 with deleteRule := v }, c.2),
      .text fun v c => ({ c.1 with matchOption := v }, c.2),
      .text fun v c => ({ c.1 with checkExpr := v }, c.2),
      .text fun v c => (c.1, { c.2 with operators := v }),
      .text fun v c => ({ c.1 with exclusionIndexType := v }, c.2),
      .text fun v c => ({ c.1 with predicate := v }, c.2),
      .bool fun v c => ({ c.1 with isDeferrable := v }, c.2),
      .bool fun v c => ({ c.1 with isInitiallyDeferred := v }, c.2)]
  | .mysql =>
    [.text fun v c => ({ c.1 with tableSchema := v }, c.2),
      .text fun v c => ({ c.1 with tableName := v }, c.2),
      .text fun v c => ({ c.1 with constraintName := v }, c.2),
      .text fun v c => ({ c.1 with constraintType := constraintType v }, c.2),
      .text fun v c => (c.1, { c.2 with columns := v }),
      .text fun v c => ({ c.1 with referencesSchema := v }, c.2),
      .text fun v c => ({ c.1 with referencesTable := v }, c.2),
      .text fun v c => (c.1, { c.2 with referencesColumns := v }),
      .text fun v c => ({ c.1 with updateRule := v }, c.2),
      .text fun v c => ({ c.1 with deleteRule := v }, c.2),
      .text fun v c => ({ c.1 with matchOption := v }, c.2),
      .text fun v c => ({ c.1 with checkExpr := v }, c.2)]
  | _ => []

/-- introspect.go:461-545. -/
def readConstraintRow (d : Dialect) (raw : RawCon) (r : List Cell) : Res (Constraint × RawCon) :=
  (scan (constraintDests d) r ({}, raw)).map fun c => (readConstraint d c.1 c.2.columns c.2.exprs c.2.referencesColumns c.2.operators, c.2)

/-- introspect.go:435-556 `GetConstraints`. -/
def getConstraints (d : Dialect) (sv : Server) : Res (List Constraint) :=
  match scriptFor d "constraints.sql" with
  | none => unsupported
  | some q => getRows sv q {} (readConstraintRow d)

/-! ### Indexes -/

/-- introspect.go:582-583. -/
structure RawIdx where
  numKeyColumns : Int := 0
  columns : Str := []
  exprs : Str := []

abbrev IdxRow := Index × RawIdx

/-- introspect.go:588-594, 623-633, 650-658: the destinations. -/
def indexDests : Dialect → List (Dest IdxRow)
  | .sqlite =>
    [.text fun v x => ({ x.1 with tableName := v }, x.2),
      .text fun v x => ({ x.1 with indexName := v }, x.2),
      .bool fun v x => ({ x.1 with isUnique := v }, x.2),
      .text fun v x => (x.1, { x.2 with columns := v }),
      .text fun v x => ({ x.1 with sql := v }, x.2)]
  | .postgres =>
    [.text fun v x => ({ x.1 with tableSchema := v }, x.2),
      .text fun v x => ({ x.1 with tableName := v }, x.2),
      .text fun v x => ({ x.1 with indexName := v }, x.2),
      .text fun v x => ({ x.1 with indexType := v }, x.2),
      .bool fun v x => ({ x.1 with isUnique := v }, x.2),
      .int fun v x => (x.1, { x.2 with numKeyColumns := v }),
      .text fun v x => (x.1, { x.2 with columns := v }),
      .text fun v x => (x.1, { x.2 with exprs := v }),
      .text fun v x => ({ x.1 with predicate := v }, x.2)]
  | .mysql =>
    [.text fun v x => ({ x.1 with tableSchema := v }, x.2),
      .text fun v x => ({ x.1 with tableName := v }, x.2),
      .text fun v x => ({ x.1 with indexName := v }, x.2),
      .text fun v x => ({ x.1 with indexType := v }, x.2),
      .bool fun v x => ({ x.1 with isUnique := v }, x.2),
      .text fun v x => (x.1, { x.2 with columns := v }),
      .text fun v x => (x.1, { x.2 with exprs := v })]
  | _ => []

/-- introspect.go:585-674; the parsing is in Model/Scan. -/
def readIndexRow (d : Dialect) (raw : RawIdx) (r : List Cell) : Res (Index × RawIdx) :=
  (scan (indexDests d) r ({}, raw)).bind fun x =>
    match d with
    | .sqlite => (readIndexSQLite x.1 x.2.columns).map fun i => (i, x.2)
    | .postgres =>
      if x.2.numKeyColumns < 0 then .panic
      else (readIndexPg x.1 x.2.numKeyColumns.toNat x.2.columns x.2.exprs).map fun i => (i, x.2)
    | .mysql => (readIndexMySQL x.1 x.2.columns x.2.exprs).map fun i => (i, x.2)
    | _ => .ok x

/-- introspect.go:558-685 `GetIndexes`. -/
def getIndexes (d : Dialect) (sv : Server) : Res (List Index) :=
  match scriptFor d "indexes.sql" with
  | none => unsupported
  | some q => getRows sv q {} (readIndexRow d)

/-! ### Triggers -/

/-- introspect.go:711. -/
structure RawTrg where
  actionTiming : Str := []
  eventManipulation : Str := []

abbrev TrgRow := Trigger × RawTrg

/-- introspect.go:751-757. -/
def mysqlTriggerSQL (t : Trigger) (timing event : Str) : Str :=
  "CREATE TRIGGER ".toList ++ Sq.quoteIdentifier .mysql t.triggerName ++ " ".toList ++ timing ++ " ".toList ++ event ++ " ON ".toList ++
    (if t.tableSchema ≠ [] then Sq.quoteIdentifier .mysql t.tableSchema ++ ".".toList else []) ++
    Sq.quoteIdentifier .mysql t.tableName ++ " FOR EACH ROW ".toList ++ t.sql

/-- introspect.go:721-725, 730-735, 740-747: the destinations. -/
def triggerDests : Dialect → List (Dest TrgRow)
  | .sqlite =>
    [.text fun v x => ({ x.1 with tableName := v }, x.2),
      .text fun v x => ({ x.1 with triggerName := v }, x.2),
      .text fun v x => ({ x.1 with sql := v }, x.2)]
  | .postgres =>
    [.text fun v x => ({ x.1 with tableSchema := v }, x.2),
      .text fun v x => ({ x.1 with tableName := v }, x.2),
      .text fun v x => ({ x.1 with triggerName := v }, x.2),
      .text fun v x => ({ x.1 with sql := v }, x.2)]
  | .mysql =>
    [.text fun v x => ({ x.1 with tableSchema := v }, x.2),
      .text fun v x => ({ x.1 with tableName := v }, x.2),
      .text fun v x => ({ x.1 with triggerName := v }, x.2),
      .text fun v x => ({ x.1 with sql := v }, x.2),
      .text fun v x => (x.1, { x.2 with actionTiming := v }),
      .text fun v x => (x.1, { x.2 with eventManipulation := v })]
  | _ => []

/-- introspect.go:718-759. -/
def readTrigger (d : Dialect) (raw : RawTrg) (r : List Cell) : Res (Trigger × RawTrg) :=
  (scan (triggerDests d) r ({}, raw)).map fun x =>
    match d with
    | .mysql => ({ x.1 with sql := mysqlTriggerSQL x.1 x.2.actionTiming x.2.eventManipulation }, x.2)
    | _ => x

/-- introspect.go:687-770 `GetTriggers`. -/
def getTriggers (d : Dialect) (sv : Server) : Res (List Trigger) :=
  match scriptFor d "triggers.sql" with
  | none => unsupported
  | some q => getRows sv q {} (readTrigger d)

/-! ### Functions -/

/-- introspect.go:798-804: the destinations. -/
def functionDests : List (Dest Function) :=
  [.text fun v f => { f with functionSchema := v },
    .text fun v f => { f with functionName := v },
    .text fun v f => { f with sql := v },
    .text fun v f => { f with rawArgs := v },
    .text fun v f => { f with returnType := v }]

/-- introspect.go:772-820 `GetFunctions`. -/
def getFunctions (d : Dialect) (sv : Server) : Res (List Function) :=
  match d with
  | .postgres => getRows sv (.script "postgres_functions.sql") () (plainly fun r => scan functionDests r {})
  | .sqlite => .err "dialect does not support this feature".toList
  | .mysql => .err "has not yet been implemented for MySQL".toList
  | _ => unsupported

/-! ### Views -/

/-- `strings.Index(s, sep)` and the text after it. -/
def after (sep : Str) : Str → Option Str
  | [] => if sep = [] then some [] else none
  | c :: cs => if sep.isPrefixOf (c :: cs) then some ((c :: cs).drop sep.length) else after sep cs

/-- introspect.go:850-853, 861-866, 871-875: the destinations. -/
def viewDests : Dialect → List (Dest View)
  | .sqlite =>
    [.text fun v x => { x with viewName := v },
      .text fun v x => { x with sql := v }]
  | .postgres =>
    [.text fun v x => { x with viewSchema := v },
      .text fun v x => { x with viewName := v },
      .bool fun v x => { x with isMaterialized := v },
      .text fun v x => { x with sql := v }]
  | .mysql =>
    [.text fun v x => { x with viewSchema := v },
      .text fun v x => { x with viewName := v },
      .text fun v x => { x with sql := v }]
  | _ => []

/-- introspect.go:847-880. -/
def readView (d : Dialect) (r : List Cell) : Res View :=
  (scan (viewDests d) r {}).map fun x =>
    match d with
    | .sqlite => match after " AS ".toList x.sql with
      | some q => { x with sql := q }
      | none => x
    | _ => x

/-- introspect.go:822-891 `GetViews`. -/
def getViews (d : Dialect) (sv : Server) : Res (List View) :=
  match scriptFor d "views.sql" with
  | none => unsupported
  | some q => getRows sv q () (plainly (readView d))

/-! ### The whole database -/

/-- What `WithDB` fills in. -/
structure Loaded where
  versionNums : List Int
  databaseName : Str
  metadata : DatabaseMetadata

/-- introspect.go:56-65. -/
def newIntrospector (d : Dialect) (sv : Server) : Res Unit :=
  if d ≠ .sqlite ∧ d ≠ .postgres ∧ d ≠ .mysql then unsupported
  else if sv.alive = false then .err "liveliness check failed".toList
  else .ok ()

/-- database_metadata.go:197-327 `WithDB`.  The code adds the objects of a kind to the metadata before it asks for the next kind; as
nothing is returned when a later query fails, the model collects them first. -/
def loadDB (num : Str → Bool) (d : Dialect) (sv : Server) : Res Loaded :=
  (newIntrospector d sv).bind fun _ =>
  (getVersionNums d sv).bind fun versionNums =>
  (getDatabaseName d sv).bind fun databaseName =>
  (getCurrentSchema d sv).bind fun currentSchema =>
  (if d = .postgres then getExtensions d sv else .ok []).bind fun extensions =>
  (getTables d sv).bind fun tables =>
  (getViews d sv).bind fun views =>
  (getColumns num d sv).bind fun columns =>
  (getConstraints d sv).bind fun constraints =>
  (getIndexes d sv).bind fun indexes =>
  (if d = .postgres then getFunctions d sv else .ok []).bind fun functions =>
  (getTriggers d sv).bind fun triggers =>
  .ok { versionNums, databaseName, metadata := withDB d { currentSchema, extensions, tables, views, columns, constraints, indexes, functions, triggers } }

end Ddl.Catalog
