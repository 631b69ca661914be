import Verif.Spec.Args
import Verif.Spec.Ident
/-
What the catalogs of the databases report about an index.
-/
namespace Ddl.Spec
open _root_.Spec (blanks)

/-- A key of an index: a column, or an expression (`gap` is the blank the catalog puts before it in its list). -/
inductive Key where
  | column (name : Str)
  | expr (gap : Str) (pieces : List Piece)

def Key.name : Key → Str
  | .column n => n
  | .expr _ _ => []

/-- No white space at either end. -/
def NoEdge (s : Str) : Prop := ∀ c, s.head? = some c ∨ s.getLast? = some c → Sq.isSpace c = false

/-- A column has a name without commas; an expression is well formed and starts and ends with no white space. -/
def Key.Ok : Key → Prop
  | .column n => n ≠ [] ∧ ',' ∉ n
  | .expr g p => (∀ c ∈ g, c ∈ blanks) ∧ ArgOk p ∧ writeArg p ≠ [] ∧ NoEdge (writeArg p)

def Key.isExpr : Key → Bool
  | .column _ => false
  | .expr _ _ => true

/-- `string_agg(column_name, ',')`, an expression counting as the empty name. -/
def reportedColumns (ks : List Key) : Str := join (ks.map Key.name)

/-- `pg_get_expr(indexprs)`: the expressions in order, separated by commas and blanks. -/
def reportedExprs (ks : List Key) : Str :=
  join (ks.filterMap fun k => match k with | .column _ => none | .expr g p => some (g ++ writeArg p))

/-- The expression of a key as it stands. -/
def Key.text : Key → Str
  | .column _ => []
  | .expr _ p => writeArg p

/-- MySQL escapes quotes in the expressions it reports. -/
def escapeQuotes : Str → Str
  | [] => []
  | c :: cs => if c = '\'' then '\\' :: '\'' :: escapeQuotes cs else c :: escapeQuotes cs

/-- MySQL: `group_concat(COALESCE(expression, ''))`. -/
def reportedExprsMySQL (ks : List Key) : Str :=
  escapeQuotes (join (ks.map Key.text))

/-- The expression of every key, in brackets; nothing for a column. -/
def Key.bracketed : Key → Str
  | .column _ => []
  | .expr _ p => "(".toList ++ writeArg p ++ ")".toList

/-- How a key stands in the text of a CREATE INDEX statement: blanks around the column name or expression. -/
def Key.inSQL (k : Key) (before after : Str) : Str :=
  before ++ (match k with | .column n => n | .expr _ p => writeArg p) ++ after

/-- A column name that needs no quotes around it. -/
def PlainName (n : Str) : Prop := ∀ c ∈ n, c ≠ ',' ∧ c ≠ '\'' ∧ c ≠ '(' ∧ c ≠ '[' ∧ Sq.isSpace c = false

/-- `CREATE INDEX ... (keys) [WHERE predicate]`; no bracket before the keys and none after them. -/
structure IndexText (sql : Str) (ks : List Key) (predicate : Str) where
  pre : Str
  gaps : List (Str × Str)
  post : Str
  text : sql = pre ++ '(' :: (join ((ks.zip gaps).map fun p => p.1.inSQL p.2.1 p.2.2) ++ ')' :: post)
  hpre : '(' ∉ pre
  hpost : ')' ∉ post
  hlen : gaps.length = ks.length
  hgaps : ∀ g ∈ gaps, (∀ c ∈ g.1, c ∈ blanks) ∧ (∀ c ∈ g.2, c ∈ blanks)
  hkeys : ∀ k ∈ ks, k.Ok ∧ ∀ n, k = .column n → PlainName n
  hwhere : (post = [] ∧ predicate = []) ∨ ∃ s kw t u, post = s ++ (kw ++ (t ++ (predicate ++ u))) ∧ _root_.Spec.Sep s ∧
    _root_.Spec.sameKeyword kw "WHERE" ∧ _root_.Spec.Sep t ∧ (∀ c ∈ u, c ∈ blanks) ∧ predicate ≠ [] ∧ NoEdge predicate

end Ddl.Spec
