import Verif.Spec.Scanner
import Verif.Model.Tokenize
/-
Words of a SQL statement, as a reader who knows blanks and quoted identifiers splits it.
-/
namespace Spec

/-- The Latin-1 blanks. -/
def blanks : List Char := [' ', '\t', '\n', '\x0b', '\x0c', '\r', '\u0085', '\u00A0']

/-- A separator between words. -/
def Sep (s : Str) : Prop := s ≠ [] ∧ ∀ c ∈ s, c ∈ blanks

/-- The quotes a dialect uses for identifiers: opening and closing character. -/
def identQuotes : Dialect → List (Char × Char)
  | .mysql => [('"', '"'), ('`', '`')]
  | .sqlserver => [('"', '"'), ('[', ']')]
  | _ => [('"', '"')]

/-- A character that is no white space (Unicode) and opens no quote. -/
def bareWordChar (d : Dialect) (c : Char) : Prop := Sq.isSpace c = false ∧ ∀ q ∈ identQuotes d, c ≠ q.1

/-- A word: unquoted characters and quoted parts (which may contain blanks), every quoted part closed. -/
inductive Word (d : Dialect) : Str → Prop where
  | nil : Word d []
  | bare {c : Char} {w : Str} : bareWordChar d c → Word d w → Word d (c :: w)
  | quoted {q : Char × Char} {body w x : Str} : q ∈ identQuotes d → w.head? ≠ some q.2 → scan q.2 (body ++ q.2 :: w) = some (x, w) →
      Word d w → Word d (q.1 :: (body ++ q.2 :: w))

/-- Words and the separators after them. -/
def layout (ws : List (Str × Str)) : Str := ws.flatMap fun p => p.1 ++ p.2

/-- The same keyword, in any case. -/
def sameKeyword (a b : Str) : Prop := a.map Char.toLower = b.map Char.toLower

/-- Words with their separators, none of them the keyword. -/
def Words (d : Dialect) (kw : Str) (ws : List (Str × Str)) : Prop :=
  ∀ p ∈ ws, Word d p.1 ∧ p.1 ≠ [] ∧ Sep p.2 ∧ ¬ sameKeyword p.1 kw

/-- What may follow the part of a statement we look at: nothing, or white space and anything. -/
def Ends (t : Str) : Prop := ∀ c, t.head? = some c → Sq.isSpace c = true

/-- `... TRIGGER [IF NOT EXISTS] name ... ON table ...`. -/
structure TriggerText (d : Dialect) (sql name table : Str) where
  lead : Str
  pre : List (Str × Str)
  kwTrigger : Str
  sep1 : Str
  ine : List (Str × Str)
  sep2 : Str
  mid : List (Str × Str)
  kwOn : Str
  sep3 : Str
  rest : Str
  text : sql = lead ++ (layout pre ++ (kwTrigger ++ (sep1 ++ (layout ine ++ (name ++ (sep2 ++ (layout mid ++ (kwOn ++ (sep3 ++ (table ++ rest))))))))))
  hlead : ∀ c ∈ lead, c ∈ blanks
  hpre : Words d "TRIGGER" pre
  hkwTrigger : sameKeyword kwTrigger "TRIGGER"
  hsep1 : Sep sep1
  hine : (ine = [] ∧ ¬ (d = .sqlite ∧ sameKeyword name "IF")) ∨
    (d = .sqlite ∧ ∃ a s b t c u, ine = [(a, s), (b, t), (c, u)] ∧ sameKeyword a "IF" ∧ sameKeyword b "NOT" ∧ sameKeyword c "EXISTS" ∧
      Sep s ∧ Sep t ∧ Sep u)
  hname : Word d name ∧ name ≠ []
  hsep2 : Sep sep2
  hmid : Words d "ON" mid
  hkwOn : sameKeyword kwOn "ON"
  hsep3 : Sep sep3
  htable : Word d table ∧ table ≠ []
  hrest : Ends rest

/-- `... FUNCTION [schema.]name (args) RETURNS type ...`, without quoted names and with no brackets inside the arguments. -/
structure FunctionText (sql schema name args ret : Str) where
  lead : Str
  pre : List (Str × Str)
  kwFunction : Str
  sep1 : Str
  qual : Str
  gap : Str
  l : Str
  r : Str
  sep2 : Str
  kwReturns : Str
  sep3 : Str
  rest : Str
  text : sql = lead ++ (layout pre ++ (kwFunction ++ (sep1 ++ (qual ++ (name ++ (gap ++ '(' :: ((l ++ args ++ r) ++ ')' ::
    (sep2 ++ (kwReturns ++ (sep3 ++ (ret ++ rest)))))))))))
  hlead : ∀ c ∈ lead, c ∈ blanks
  hpre : Words .postgres "FUNCTION" pre
  hkwFunction : sameKeyword kwFunction "FUNCTION"
  hsep1 : Sep sep1
  hqual : (qual = [] ∧ schema = []) ∨ (schema ≠ [] ∧ qual = schema ++ ['.'])
  hnames : ∀ c ∈ schema ++ name, bareWordChar .postgres c ∧ c ∉ ['.', '(', ')']
  hname : name ≠ []
  hgap : ∀ c ∈ gap, c ∈ blanks
  hargs : ∀ c ∈ args, c ∉ ['(', ')']
  hl : ∀ c ∈ l, c ∈ blanks
  hr : ∀ c ∈ r, c ∈ blanks
  /-- the arguments start and end with no white space -/
  hedges : ∀ c, args.head? = some c ∨ args.getLast? = some c → Sq.isSpace c = false
  /-- when name and bracket touch and there is no schema, the arguments have no dot and no quoted names -/
  hclose : qual = [] → gap = [] → ∀ c ∈ args, c ∉ ['.', '"']
  hsep2 : Sep sep2
  hkwReturns : sameKeyword kwReturns "RETURNS"
  hsep3 : Sep sep3
  hret : Word .postgres ret ∧ ret ≠ []
  hrest : Ends rest

end Spec
