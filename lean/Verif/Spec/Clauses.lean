import Verif.Spec.Parts
/-
Specification: the SQL that lists, tables, joins, common table expressions, subqueries, set operations and the four kinds
of statements stand for, one level deep: fixed text with the parts in their places.  `m` says how the construct itself is
being rendered (dialect, environment, qualifiers to leave out, method).
-/
namespace Sq.Spec

/-- Things with a separator between them. -/
def listed (sep : Str) : List (List Part) → List Part
  | [] => []
  | [x] => x
  | x :: xs => x ++ .text sep :: listed sep xs

/-- ` AS alias`, with the alias quoted where necessary. -/
def named (d : Dialect) (alias : Str) : List Part :=
  if alias = [] then [] else [.text " AS ", .text (quoteIdentifier d alias)]

/-- An item of a SELECT or RETURNING list. -/
def item (m : Mode) : Node → List Part
  | .nil => [.placed .nil m]
  | f => .placed f { d := m.d, ex := m.ex } :: named m.d f.alias

def items (m : Mode) (fs : List Node) : List Part := listed ", " (fs.map (item m))

/-- A list of values or fields. -/
def values (m : Mode) (vs : List Node) : List Part := listed ", " (vs.map fun v => [.placed v m])

/-- An element of a slice: what can be rendered is rendered, anything else is bound as it is. -/
def element (m : Mode) : Node → List Part
  | .namedArg n v => [.value (.named n v)]
  | .slice i _ => [.value (.slice i)]
  | v => [.placed v { d := m.d, ex := m.ex }]

def row (m : Mode) (vs : List Node) : List Part := .text "(" :: values m vs ++ [.text ")"]

/-- `column = value`, a query in parentheses. -/
def assignment (m : Mode) (a : Node × Node) : List Part :=
  [.placed a.1 { d := m.d, ex := m.ex }, .text " = "] ++
  (if a.2.kind = .query ∨ a.2.kind = .vquery then [.text "(", .placed a.2 m, .text ")"] else [.placed a.2 m])

/-- The assignments of SET and DO UPDATE SET; they do not see the environment. -/
def assignments (m : Mode) (as : List (Node × Node)) : List Part :=
  listed ", " (as.map (assignment { d := m.d, ex := m.ex }))

/-- A table with its alias. -/
def source (m : Mode) (t : Node) : List Part := .placed t m :: named m.d t.alias

/-- `keyword table`, left out when there is no table. -/
def ifTable (m : Mode) (kw : Str) : Node → List Part
  | .nil => []
  | t => .text kw :: source m t

/-- `keyword condition`, left out when there is no condition. -/
def condition (m : Mode) (kw : Str) : Node → List Part
  | .vpred t a o n (p :: ps) => [.text kw, .placed (.vpred t a o n (p :: ps)) { m with meth := .top true }]
  | _ => []

/-- `keyword` and what follows, left out when there is nothing. -/
def ifAny {α : Type} (kw : Str) (xs : List α) (ps : List Part) : List Part := if xs.isEmpty then [] else .text kw :: ps

def number (kw : Str) : Option Int → List Part
  | none => []
  | some i => [.text kw, .value (.val (.int i))]

def recursive : Node → Bool
  | .cte c _ => c.isRec
  | _ => false

/-- `WITH [RECURSIVE] definitions `. -/
def with_ (m : Mode) (ctes : List Node) : List Part :=
  if ctes.isEmpty then []
  else .text (if ctes.any recursive then "WITH RECURSIVE " else "WITH ") ::
    listed ", " (ctes.map fun c => [.placed c { d := m.d, meth := .cteDef }]) ++ [.text " "]

def joined (m : Mode) (js : List Node) : List Part := ifAny " " js (listed " " (js.map fun j => [.placed j { d := m.d }]))

def tableText (d : Dialect) (schema name : Str) : Str :=
  (if schema = [] then [] else quoteIdentifier d schema ++ ".".toList) ++ quoteIdentifier d name

/-- The predicate a table (or the table of a join) supplies in an environment. -/
def asks : Node → Env → Option Node
  | .table _ _ _ hk hp, env => match hk env with | .pred => some (hp env) | _ => none
  | .join _ tbl _, env => asks tbl env
  | _, _ => none

/-- WHERE of SELECT and DELETE: the conditions the tables ask for and the query's own, joined by AND. -/
def filtered (m : Mode) (tables : List Node) (own : Node) : List Part :=
  match tables.filterMap (asks · m.env) with
  | [] => condition m " WHERE " own
  | asked => condition m " WHERE " (.vpred false [] false false (asked ++ [own]))

def distinct (m : Mode) (q : SelMeta) (on : List Node) : List Part :=
  if on.isEmpty then (if q.distinct then [.text "DISTINCT "] else [])
  else .text "DISTINCT ON (" :: values m on ++ [.text ") "]

/-- The columns and rows of an INSERT: given, or collected by the column mapper (C26). -/
def insertData (q : InsMeta) (columns : List Node) (rows : List (List Node)) (sets : List (Node × Node)) :
    List Node × List (List Node) :=
  if q.hasMapper then columnInsert Node.name sets else (columns, rows)

def qualifier (t : Node) : Str := if t.alias = [] then t.name else t.alias

def names (xs : List Str) : Str := (xs.intersperse ", ".toList).flatten

/-- What ON CONFLICT is about: a constraint, or columns with an optional predicate. -/
def conflictTarget (m : Mode) (ex : List Str) (q : InsMeta) (fields : List Node) (pred : Node) : List Part :=
  if q.conflictConstraint ≠ [] then [.text " ON CONSTRAINT ", .text q.conflictConstraint]
  else if fields = [] then []
  else .text " (" :: values { m with ex := ex } fields ++ .text ")" ::
    (if pred.kind = .nilv then [] else [.text " WHERE ", .placed pred { m with ex := ex, meth := .top true }])

/-- What it does. -/
def conflictAction (m : Mode) (ex : List Str) (q : InsMeta) (resolution : List (Node × Node)) (pred : Node) : List Part :=
  if resolution = [] ∨ q.doNothing = true then [.text " DO NOTHING"]
  else .text " DO UPDATE SET " :: assignments { m with ex := ex } resolution ++ condition m " WHERE " pred

/-- ON CONFLICT, ON DUPLICATE KEY UPDATE. -/
def conflict (m : Mode) (ex : List Str) (q : InsMeta) (fields : List Node) (pred : Node) (resolution : List (Node × Node))
    (resolutionPred : Node) : List Part :=
  if m.d = .mysql then ifAny " ON DUPLICATE KEY UPDATE " resolution (assignments { m with ex := ex } resolution)
  else if m.d = .sqlite ∨ m.d = .postgres then
    if q.conflictConstraint = [] ∧ fields = [] ∧ q.doNothing = false then []
    else .text " ON CONFLICT" :: conflictTarget m ex q fields pred ++ conflictAction m ex q resolution resolutionPred
  else []

/-- The rows of an INSERT or the query that supplies them. -/
def supply (m : Mode) (q : InsMeta) (rows : List (List Node)) (sel : Node) : List Part :=
  if rows.isEmpty then [.text " ", .placed sel { m with meth := if m.d = .sqlite then .whereTrue else .std }]
  else .text " VALUES " :: listed ", " (rows.map (row { d := m.d })) ++
    (if q.rowAlias = [] then [] else [.text " AS ", .text q.rowAlias] ++
      (if q.columnAliases = [] then [] else [.text " (", .text (names q.columnAliases), .text ")"]))

/-- `WHEN a THEN b` for each case. -/
def cases_ (m : Mode) (cs : List (Node × Node)) : List Part :=
  cs.flatMap fun c => [.text " WHEN ", .placed c.1 m, .text " THEN ", .placed c.2 m]

/-- `ELSE c`, left out when there is none, and `END`. -/
def else_ (m : Mode) (fallback : Node) : List Part :=
  (if fallback.kind = .nilv then [] else [.text " ELSE ", .placed fallback m]) ++ [.text " END"]

/-- Whether a predicate or set operation stands on its own: as its user says, or else as it says itself. -/
def alone (m : Mode) (top : Bool) : Bool := match m.meth with | .top b => b | _ => top

/-- Brackets around something that does not stand on its own. -/
def grouped (alone : Bool) (ps : List Part) : List Part := if alone then ps else .text "(" :: ps ++ [.text ")"]

def not_ (neg : Bool) : List Part := if neg then [.text "NOT "] else []

/-- A predicate under NOT, AND or OR. -/
def conjunct (m : Mode) (p : Node) : List Part := [.placed p { d := m.d, ex := m.ex }]

/-- The only operand of a group: a group inside a group of one is bracketed once. -/
def soleConjunct (m : Mode) (alone : Bool) : Node → List Part
  | .vpred t a o n qs => grouped alone [.placed (.vpred t a o n qs) { d := m.d, ex := m.ex, meth := .top true }]
  | p => conjunct m p

/-- An operand of a set operation: in brackets if it is one itself. -/
def setOperand (m : Mode) (q : Node) : List Part :=
  [.placed q { d := m.d, meth := if q.kind = .vquery then .top false else .std }]

/-- OVER (...) -/
def windowForm (d : Dialect) (part order : List Node) (frame : Str) : List Part :=
  [.text "("] ++
  listed " " ((if part = [] then [] else [.text "PARTITION BY " :: values { d := d } part]) ++
    (if order = [] then [] else [.text "ORDER BY " :: values { d := d } order]) ++
    (if frame = [] then [] else [[.text frame]])) ++
  [.text ")"]

/-- The WHERE of a SELECT: in an SQLite INSERT an empty one becomes TRUE, lest ON CONFLICT be read as a join condition. -/
def whereOf (m : Mode) : Node → Option Node
  | .vpred t a o n [] => some (.vpred t a o n (if m.meth = .whereTrue then [.cpred [] "TRUE" false []] else []))
  | .vpred t a o n (p :: ps) => some (.vpred t a o n (p :: ps))
  | w => if m.meth = .whereTrue then none else some w

/-- The tables of a DELETE: with USING on MySQL the names of all of them, otherwise the table itself (there should be one only; the code
drops the others, `C55_delete_tables_violated`). -/
def deleted (m : Mode) (using_ : Node) : List Node → List Part
  | [] => []
  | f :: fs => if using_.kind = .nilv ∨ m.d ≠ .mysql then source m f else [.text (names ((f :: fs).map qualifier))]

def deleteParts (m : Mode) (q : ModMeta) (ctes froms : List Node) (using_ : Node) (joins : List Node) (where_ : Node)
    (orderBy returning : List Node) : List Part :=
  with_ m ctes ++ [.text "DELETE FROM "] ++ deleted m using_ froms ++
  ifTable m " USING " using_ ++ joined m joins ++
  filtered m froms where_ ++ ifAny " ORDER BY " orderBy (values m orderBy) ++
  number " LIMIT " q.limit ++ number " OFFSET " q.offset ++ ifAny " RETURNING " returning (items m returning)

/-- The SQL a construct stands for. -/
def construct (m0 : Mode) : Node → Option (List Part)
  | .slice _ vs => some (listed ", " (vs.map (element m0)))
  | .fields fs => some (values { m0 with meth := .std } fs)
  | .rowValue vs => some (row { m0 with meth := .std } vs)
  | .rowValues rows => some (listed ", " (rows.map (row { d := m0.d })))
  | .assign l r => some (assignment { m0 with meth := .std } (l, r))
  | .assigns as => some (assignments { m0 with meth := .std } as)
  | .table schema name _ _ _ => some [.text (tableText m0.d schema name)]
  | .join jt tbl on => some
      ([.text (if jt = [] then "JOIN".toList else jt), .text " "] ++ source { d := m0.d } tbl ++ condition { d := m0.d } " ON " on)
  | .cte c q => some <|
    if m0.meth = .cteDef then
      [.text c.name] ++ (if c.explicit then [.text " (", .text (names c.fieldNames), .text ")"] else []) ++ [.text " AS "] ++
      (if m0.d = .postgres then
        match c.materialized with | some true => [.text "MATERIALIZED "] | some false => [.text "NOT MATERIALIZED "] | none => []
       else []) ++
      [.text "(", .placed q { d := m0.d, meth := if q.kind = .vquery then .top true else .std }, .text ")"]
    else [.text c.name]
  | .literal s _ => some [.text s]
  | .value v _ => some [.placed v { m0 with meth := .std }]
  | .predCases _ cs fb => some (.text "CASE" :: cases_ { m0 with meth := .std } cs ++ else_ { m0 with meth := .std } fb)
  | .simpleCases _ e cs fb => some
      (.text "CASE " :: .placed e { m0 with meth := .std } :: cases_ { m0 with meth := .std } cs ++ else_ { m0 with meth := .std } fb)
  | .vpred top _ isOr neg ps =>
    if m0.meth = .whereTrue then none
    else some <| match ps with
      | [] => []
      | [p] => not_ neg ++ soleConjunct m0 (alone m0 top) p
      | ps => not_ neg ++ grouped (alone m0 top) (listed (if isOr then " OR " else " AND ") (ps.map (conjunct m0)))
  | .vquery top op qs => some <| match qs with
      | [] => []
      | [q] => [.placed q { d := m0.d, meth := if q.kind = .vquery then .top (alone m0 top) else .std }]
      | qs => grouped (alone m0 top)
          (listed (" ".toList ++ (if op = [] then "UNION".toList else op) ++ " ".toList) (qs.map (setOperand m0)))
  | .subquery _ _ q => some [.text "(", .placed q { d := m0.d }, .text ")"]
  | .select q ctes fields on from_ joins where_ groupBy having orderBy =>
    let m : Mode := { d := m0.d, env := effEnv m0.env q.env }
    (whereOf m0 where_).map fun own =>
      with_ m ctes ++ [.text "SELECT "] ++ distinct m q on ++ items m fields ++
      ifTable m " FROM " from_ ++ joined m joins ++
      filtered m (from_ :: joins) own ++ ifAny " GROUP BY " groupBy (values m groupBy) ++
      condition m " HAVING " having ++ ifAny " ORDER BY " orderBy (values m orderBy) ++
      number " LIMIT " q.limit ++ number " OFFSET " q.offset
  | .insert q ctes into columns0 rows0 sets sel cf cp resolution rp returning =>
    let m : Mode := { d := m0.d, env := effEnv m0.env q.env }
    let data := insertData q columns0 rows0 sets
    some <|
      with_ m ctes ++ [.text (if q.ignore then "INSERT IGNORE INTO " else "INSERT INTO ")] ++ source m into ++
      (if data.1.isEmpty then [] else .text " (" :: values { m with ex := [qualifier into] } data.1 ++ [.text ")"]) ++
      supply m q data.2 sel ++ conflict m [qualifier into] q cf cp resolution rp ++
      ifAny " RETURNING " returning (items m returning)
  | .update q ctes table from_ joins as sets where_ orderBy returning =>
    let m : Mode := { d := m0.d, env := effEnv m0.env q.env }
    let changes := if q.hasMapper then sets else as
    some <|
      with_ m ctes ++ [.text "UPDATE "] ++ source m table ++
      (if m.d = .mysql then [] else .text " SET " :: assignments { m with ex := [qualifier table] } changes) ++
      ifTable m " FROM " from_ ++ joined m joins ++
      (if m.d = .mysql then .text " SET " :: assignments m changes else []) ++
      condition m " WHERE " where_ ++ ifAny " ORDER BY " orderBy (values m orderBy) ++
      number " LIMIT " q.limit ++ number " OFFSET " q.offset ++ ifAny " RETURNING " returning (items m returning)
  | .delete q ctes froms using_ joins where_ orderBy returning =>
    -- several tables need MySQL's `DELETE FROM tables USING ...`
    if froms.length ≠ 1 ∧ (m0.d ≠ .mysql ∨ using_.kind = .nilv) then none
    else some (deleteParts { d := m0.d, env := effEnv m0.env q.env } q ctes froms using_ joins where_ orderBy returning)
  | _ => none

end Sq.Spec
