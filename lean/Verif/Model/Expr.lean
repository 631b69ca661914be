import Verif.Model.Node
/-
Model of the functions that build expressions: comparison and membership predicates (predicate.go:8-10, 138-179, rowvalue.go:34, 36),
aggregates and window functions (window.go:63-141), LIKE (string_field.go:83-85), CASE (case.go:59-79, 138-151),
assignments (assignment.go:16-18, 62-81).  The methods of the typed fields (`f.Eq`, `f.GtInt`, `f.In`, `f.IsNull`,
`f.Set`, ...) call these functions with the field as first argument and add nothing.
-/
namespace Sq

/-- predicate.go:21-23 `Predicatef`. -/
def predicatef (fmt : String) (vals : List Node) : Node := .cpred [] fmt.toList false vals

/-- number_field.go:30-35 `NumberFieldf`, custom_field.go:31-36 `Fieldf`: a field with one default format. -/
def fieldf (fmt : String) (vals : List Node) : Node :=
  .field { formats := [("default".toList, fmt.toList)] } false false vals

/-- predicate.go:144-156 `cmp`: an operand that is a query is put in parentheses. -/
def cmp (a b : Node) (op : String) : Node :=
  if !a.kind.isQuery && !b.kind.isQuery then predicatef ("{} " ++ op ++ " {}") [a, b]
  else if !a.kind.isQuery && b.kind.isQuery then predicatef ("{} " ++ op ++ " ({})") [a, b]
  else if a.kind.isQuery && !b.kind.isQuery then predicatef ("({}) " ++ op ++ " {}") [a, b]
  else predicatef ("({}) " ++ op ++ " ({})") [a, b]

/-- A call of one of the functions. -/
inductive Call where
  | eq (a b : Node) | ne (a b : Node) | gt (a b : Node) | ge (a b : Node) | lt (a b : Node) | le (a b : Node)
  | in_ (a b : Node) | isNull (f : Node) | isNotNull (f : Node) | exists_ (q : Node) | notExists (q : Node)
  | like (f v : Node) | ilike (f v : Node)
  | count (f : Node) | countAll | sum (f : Node) | avg (f : Node) | min (f : Node) | max (f : Node)
  | countOver (f w : Node) | countAllOver (w : Node) | sumOver (f w : Node) | avgOver (f w : Node)
  | minOver (f w : Node) | maxOver (f w : Node) | rowNumberOver (w : Node) | rankOver (w : Node)
  | denseRankOver (w : Node) | percentRankOver (w : Node) | cumeDistOver (w : Node)
  | leadOver (f offset fallback w : Node) | lagOver (f offset fallback w : Node)
  | ntileOver (n w : Node) | firstValueOver (f w : Node) | lastValueOver (f w : Node) | nthValueOver (f n w : Node)
  | assign (l r : Node)
  /-- CaseWhen(p, r).When(p, r)...[.Else(e)] -/
  | caseWhen (first : Node × Node) (rest : List (Node × Node)) (fallback : Node)
  /-- Case(field).When(v, r)...[.Else(e)] -/
  | caseOf (field : Node) (first : Node × Node) (rest : List (Node × Node)) (fallback : Node)

/-- What the call returns. -/
def Call.node : Call → Node
  | .eq a b => cmp a b "="                                                     -- predicate.go:158
  | .ne a b => cmp a b "<>"                                                    -- predicate.go:160
  | .gt a b => cmp a b ">"                                                     -- predicate.go:162
  | .ge a b => cmp a b ">="                                                    -- predicate.go:164
  | .lt a b => cmp a b "<"                                                     -- predicate.go:166
  | .le a b => cmp a b "<="                                                    -- predicate.go:168
  | .in_ a b =>                                                                -- predicate.go:170-175
    if b.kind = .rowvalue then predicatef "{} IN {}" [a, b] else predicatef "{} IN ({})" [a, b]
  | .isNull f => predicatef "{} IS NULL" [f]                                   -- predicate.go:138
  | .isNotNull f => predicatef "{} IS NOT NULL" [f]                            -- predicate.go:140
  | .exists_ q => predicatef "EXISTS ({})" [q]                                 -- predicate.go:177
  | .notExists q => predicatef "NOT EXISTS ({})" [q]                           -- predicate.go:179
  | .like f v => predicatef "{} LIKE {}" [f, v]                                -- string_field.go:83
  | .ilike f v => predicatef "{} ILIKE {}" [f, v]                              -- string_field.go:85
  | .count f => fieldf "COUNT({})" [f]                                         -- window.go:131
  | .countAll => fieldf "COUNT(*)" []                                          -- window.go:133
  | .sum f => fieldf "SUM({})" [f]                                             -- window.go:135
  | .avg f => fieldf "AVG({})" [f]                                             -- window.go:137
  | .min f => fieldf "MIN({})" [f]                                             -- window.go:139
  | .max f => fieldf "MAX({})" [f]                                             -- window.go:141
  | .countOver f w => fieldf "COUNT({}) OVER {}" [f, w]                        -- window.go:63-65
  | .countAllOver w => fieldf "COUNT(*) OVER {}" [w]                           -- window.go:67-69
  | .sumOver f w => fieldf "SUM({}) OVER {}" [f, w]                            -- window.go:71-73
  | .avgOver f w => fieldf "AVG({}) OVER {}" [f, w]                            -- window.go:75-77
  | .minOver f w => fieldf "MIN({}) OVER {}" [f, w]                            -- window.go:79-81
  | .maxOver f w => fieldf "MAX({}) OVER {}" [f, w]                            -- window.go:83-85
  | .rowNumberOver w => fieldf "ROW_NUMBER() OVER {}" [w]                      -- window.go:87-89
  | .rankOver w => fieldf "RANK() OVER {}" [w]                                 -- window.go:91-93
  | .denseRankOver w => fieldf "DENSE_RANK() OVER {}" [w]                      -- window.go:95-97
  | .percentRankOver w => fieldf "PERCENT_RANK() OVER {}" [w]                  -- window.go:99-101
  | .cumeDistOver w => fieldf "CUME_DIST() OVER {}" [w]                        -- window.go:103-105
  | .leadOver f o x w => fieldf "LEAD({}, {}, {}) OVER {}" [f, o, x, w]        -- window.go:107-109
  | .lagOver f o x w => fieldf "LAG({}, {}, {}) OVER {}" [f, o, x, w]          -- window.go:111-113
  | .ntileOver n w => fieldf "NTILE({}) OVER {}" [n, w]                        -- window.go:115-117
  | .firstValueOver f w => fieldf "FIRST_VALUE({}) OVER {}" [f, w]             -- window.go:119-121
  | .lastValueOver f w => fieldf "LAST_VALUE({}) OVER {}" [f, w]               -- window.go:123-125
  | .nthValueOver f n w => fieldf "NTH_VALUE({}, {}) OVER {}" [f, n, w]        -- window.go:127-129
  | .assign l r => .assign l r                                                 -- assignment.go:16-18
  | .caseWhen c cs e => .predCases [] (c :: cs) e                              -- case.go:59-79
  | .caseOf f c cs e => .simpleCases [] f (c :: cs) e                          -- case.go:138-151

/-- assignment.go:62-81: `AssignExcluded`, `AssignAlias`, `AssignSelf`, `AssignValues` of a field with this name. -/
def assignExcluded (name : Str) : Node := .assign (.literal name []) (.literal ("EXCLUDED.".toList ++ name) [])
def assignAlias (name alias : Str) : Node := .assign (.literal name []) (.literal (alias ++ ".".toList ++ name) [])
def assignSelf (name : Str) : Node := .assign (.literal name []) (.literal name [])
def assignValues (name : Str) : Node := .assign (.literal name []) (.literal ("VALUES(".toList ++ name ++ ")".toList) [])

end Sq
