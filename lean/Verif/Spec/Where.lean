import Verif.Spec.Store
import Verif.Spec.Lexer
import Verif.Spec.Boolean
/-
Specification: conditions on the records of a table, which records they describe, and how SQL reads the text of a WHERE clause.

The first part is about Go programs: what conditions they build and what these mean.  The second part is about SQL text only: a reader that turns the
text behind `WHERE`, with the arguments sent along, into an expression.  It mentions nothing of the Go code.
-/
namespace Sq.Spec.Where
open Sq Sq.Spec.Store

/-- The comparisons. -/
inductive Op where
  | eq | ne | gt | ge | lt | le | like | ilike
  deriving DecidableEq, Repr

/-- What a column is compared with (`κ`: the columns). -/
inductive Rhs (κ : Type) where
  | col (c : κ)
  | val (v : Scalar)
  deriving DecidableEq, Repr

/-- A test of one record. -/
inductive Test (κ : Type) where
  | cmp (op : Op) (c : κ) (x : Rhs κ)
  | null (c : κ)
  | notNull (c : κ)
  | among (c : κ) (vs : List Scalar)
  deriving DecidableEq, Repr

/-! ### Truth -/

/-- Three-valued logic: `none` is NULL. -/
def neg3 : Option Bool → Option Bool
  | some b => some (!b)
  | none => none
def and3 : Option Bool → Option Bool → Option Bool
  | some false, _ => some false
  | _, some false => some false
  | some true, some true => some true
  | _, _ => none
def or3 : Option Bool → Option Bool → Option Bool
  | some true, _ => some true
  | _, some true => some true
  | some false, some false => some false
  | _, _ => none

/-- How the database compares values, and which of them are NULL. -/
structure Compare where
  op : Op → Scalar → Scalar → Option Bool
  null : Scalar → Bool

/-- `r`: the values of the columns. -/
def Rhs.value (r : κ → Scalar) : Rhs κ → Scalar
  | .col c => r c
  | .val v => v

/-- A test of a record. -/
def Test.truth (C : Compare) (r : κ → Scalar) : Test κ → Option Bool
  | .cmp op c x => C.op op (r c) (x.value r)
  | .null c => some (C.null (r c))
  | .notNull c => some (!C.null (r c))
  | .among c vs => (vs.map (C.op .eq (r c))).foldr or3 (some false)

/-! ### Conditions, as a Go program builds them -/

/-- A test or its negation; `And(cs...)` or `Or(cs...)`, or the negation. -/
inductive Cond (κ : Type) where
  | test (neg : Bool) (x : Test κ)
  | group (or neg : Bool) (cs : List (Cond κ))

/-- `Not`. -/
def Cond.not : Cond κ → Cond κ
  | .test n x => .test (!n) x
  | .group o n cs => .group o (!n) cs

def signed (neg : Bool) (b : Option Bool) : Option Bool := if neg then neg3 b else b

mutual
/-- Which records a condition describes: all of the conditions hold, or one of them, or not. -/
def Cond.truth (C : Compare) (r : κ → Scalar) : Cond κ → Option Bool
  | .test n x => signed n (x.truth C r)
  | .group false n cs => signed n (allTrue C r cs)
  | .group true n cs => signed n (oneTrue C r cs)
def allTrue (C : Compare) (r : κ → Scalar) : List (Cond κ) → Option Bool
  | [] => some true
  | c :: cs => and3 (c.truth C r) (allTrue C r cs)
def oneTrue (C : Compare) (r : κ → Scalar) : List (Cond κ) → Option Bool
  | [] => some false
  | c :: cs => or3 (c.truth C r) (oneTrue C r cs)
end

def Op.call (a b : Node) : Op → Call
  | .eq => .eq a b | .ne => .ne a b | .gt => .gt a b | .ge => .ge a b | .lt => .lt a b | .le => .le a b
  | .like => .like a b | .ilike => .ilike a b

/-- `t.C.Eq(v)`, `t.C.Gt(t.D)`, `t.C.IsNull()`, `t.C.In([]T{...})`, ... -/
def Test.node : Test Node → Node
  | .cmp op c (.col c') => (op.call c c').node
  | .cmp op c (.val v) => (op.call c (.scalar v)).node
  | .null c => (Call.isNull c).node
  | .notNull c => (Call.isNotNull c).node
  | .among c vs => (Call.in_ c (.slice 0 (vs.map .scalar))).node

/-- predicate.go:41-44, 116-119 `Not()` of these predicates. -/
def negate : Node → Node
  | .cpred a f n vs => .cpred a f (!n) vs
  | .vpred t a o n ps => .vpred t a o (!n) ps
  | n => n

mutual
/-- The predicate that a condition on fields is. -/
def Cond.node : Cond Node → Node
  | .test n x => if n then negate x.node else x.node
  | .group o n cs => .vpred false [] o n (nodes cs)
def nodes : List (Cond Node) → List Node
  | [] => []
  | c :: cs => c.node :: nodes cs
end

def Rhs.map (f : κ → κ') : Rhs κ → Rhs κ'
  | .col c => .col (f c)
  | .val v => .val v
def Test.map (f : κ → κ') : Test κ → Test κ'
  | .cmp op c x => .cmp op (f c) (x.map f)
  | .null c => .null (f c)
  | .notNull c => .notNull (f c)
  | .among c vs => .among (f c) vs
mutual
/-- The same condition on other columns. -/
def Cond.map (f : κ → κ') : Cond κ → Cond κ'
  | .test n x => .test n (x.map f)
  | .group o n cs => .group o n (mapAll f cs)
def mapAll (f : κ → κ') : List (Cond κ) → List (Cond κ')
  | [] => []
  | c :: cs => c.map f :: mapAll f cs
end

def Cond.isGroup : Cond κ → Bool
  | .group _ _ _ => true
  | _ => false

mutual
/-- No group is empty, and no negated group stands where the code writes no parentheses: alone in the clause (`top`), or as the only operand of a
group that stands so. -/
def Cond.fine : Bool → Cond κ → Prop
  | _, .test _ (.among _ vs) => vs ≠ []
  | _, .test _ _ => True
  | _, .group _ _ [] => False
  | top, .group _ n [c] => (c.isGroup = true → top = true → n = false) ∧ c.fine true
  | top, .group _ n (c :: c' :: cs) => (top = true → n = false) ∧ c.fine false ∧ c'.fine false ∧ allFine cs
def allFine : List (Cond κ) → Prop
  | [] => True
  | c :: cs => c.fine false ∧ allFine cs
end

/-- `From(table).Where(cs...)`, to be fetched with a row mapper. -/
def fromWhere (b : Chain.Builder) (t : Tab) (raw : Str → Bool) (cs : List (Cond Str)) : Node :=
  (Chain.select b (.from t.node) [.where (nodes (mapAll (t.field raw) cs))]).node
def selectWhere (b : Chain.Builder) (t : Tab) (raw : Str → Bool) (cols : List Str) (cs : List (Cond Str)) : Node :=
  (Chain.select b (.select (cols.map (t.field raw))) [.from t.node, .where (nodes (mapAll (t.field raw) cs))]).node
/-- `Update(table).Setx(...).Where(cs...)` -/
def updateWhere (b : Chain.Builder) (t : Tab) (raw : Str → Bool) (cols : List Str) (rec : List Scalar) (cs : List (Cond Str)) : Node :=
  (Chain.update b (.update t.node) [.setx { sets := setAll t raw cols [rec], err := none }, .where (nodes (mapAll (t.field raw) cs))]).node
/-- `DeleteFrom(table).Where(cs...)` -/
def deleteWhere (b : Chain.Builder) (t : Tab) (raw : Str → Bool) (cs : List (Cond Str)) : Node :=
  (Chain.delete b (.deleteFrom [t.node]) [.where (nodes (mapAll (t.field raw) cs))]).node

/-! ### How SQL reads the text behind WHERE -/

open _root_.Spec (Tok tokens BTok BExp readBool identClose isBareIdent)

/-- A token, or a value that was sent along. -/
inductive Lex where
  | tok (t : Tok)
  | val (v : Scalar)
  deriving DecidableEq, Repr

def argValue : Option Arg → Option Scalar
  | some (.val v) => some v
  | _ => none

/-- `$i` is the `i`-th argument, `?` the next one (`n` were used before); on MySQL only `?` counts, on the others only `$i`. -/
def resolve (l : Chain.Lang) (args : List Arg) : Nat → List Tok → Option (List Lex)
  | _, [] => some []
  | n, .sym '?' :: ts => if l = .mysql then (argValue args[n]?).bind fun v => (resolve l args (n + 1) ts).map (.val v :: ·) else none
  | n, .sym '$' :: .word w :: ts =>
    if l ≠ .mysql ∧ w.all Char.isDigit = true ∧ 0 < Nat.ofDigitChars 10 w 0 then
      (argValue args[Nat.ofDigitChars 10 w 0 - 1]?).bind fun v => (resolve l args n ts).map (.val v :: ·)
    else none
  | n, t :: ts => if t = .sym '$' then none else (resolve l args n ts).map (.tok t :: ·)

/-- Words are compared without regard to case. -/
def upper (w : Str) : Str := w.map Char.toUpper
def keywords : List Str := ["AND".toList, "OR".toList, "NOT".toList, "IS".toList, "IN".toList, "NULL".toList, "LIKE".toList, "ILIKE".toList,
  "SELECT".toList, "FROM".toList, "JOIN".toList, "INNER".toList, "LEFT".toList, "RIGHT".toList, "FULL".toList, "CROSS".toList, "ON".toList, "AS".toList,
  "WHERE".toList, "ORDER".toList, "LIMIT".toList, "OFFSET".toList, "SET".toList, "USING".toList, "GROUP".toList, "HAVING".toList]

/-- The name a token stands for: a delimited identifier, or a word that is no keyword and that case folding does not change. -/
def name? (d : Dialect) : Tok → Option Str
  | .quoted q x => if q = identClose d then some x else none
  | .word x => if isBareIdent x = true ∧ upper x ∉ keywords then some x else none
  | .sym _ => none

/-- Which column `label.name` is, if there is such a column. -/
abbrev Scope (κ : Type) := Str → Str → Option κ

/-- `label.name` -/
def column? (d : Dialect) (sc : Scope κ) : List Lex → Option (κ × List Lex)
  | .tok a :: .tok (.sym '.') :: .tok b :: r =>
    (name? d a).bind fun label => (name? d b).bind fun c => (sc label c).map fun k => (k, r)
  | _ => none

/-- What stands to the right of a comparison. -/
def rhs? (d : Dialect) (sc : Scope κ) : List Lex → Option (Rhs κ × List Lex)
  | .val v :: r => some (.val v, r)
  | r => (column? d sc r).map fun x => (.col x.1, x.2)

/-- Values separated by commas, up to the closing parenthesis. -/
def values? : List Lex → Option (List Scalar × List Lex)
  | .val v :: .tok (.sym ',') :: r => (values? r).map fun x => (v :: x.1, x.2)
  | .val v :: .tok (.sym ')') :: r => some ([v], r)
  | _ => none

/-- The comparison that starts here. -/
def op? : List Lex → Option (Op × List Lex)
  | .tok (.sym '<') :: .tok (.sym '>') :: r => some (.ne, r)
  | .tok (.sym '<') :: .tok (.sym '=') :: r => some (.le, r)
  | .tok (.sym '>') :: .tok (.sym '=') :: r => some (.ge, r)
  | .tok (.sym '=') :: r => some (.eq, r)
  | .tok (.sym '<') :: r => some (.lt, r)
  | .tok (.sym '>') :: r => some (.gt, r)
  | .tok (.word w) :: r => if upper w = "LIKE".toList then some (.like, r) else if upper w = "ILIKE".toList then some (.ilike, r) else none
  | _ => none

/-- A test of the column `c`. -/
def test? (d : Dialect) (sc : Scope κ) (c : κ) (r : List Lex) : Option (Test κ × List Lex) :=
  match op? r with
  | some (op, r) => (rhs? d sc r).map fun x => (.cmp op c x.1, x.2)
  | none =>
    match r with
    | .tok (.word is) :: .tok (.word n) :: r =>
      if upper is = "IS".toList then
        if upper n = "NULL".toList then some (.null c, r)
        else if upper n = "NOT".toList then
          match r with
          | .tok (.word n) :: r => if upper n = "NULL".toList then some (.notNull c, r) else none
          | _ => none
        else none
      else none
    | .tok (.word in_) :: .tok (.sym '(') :: r => if upper in_ = "IN".toList then (values? r).map fun x => (.among c x.1, x.2) else none
    | _ => none

/-- The connective or parenthesis that a token is. -/
def connective? : Tok → Option (BTok (Test κ))
  | .sym '(' => some .lp
  | .sym ')' => some .rp
  | .word w => if upper w = "AND".toList then some .and else if upper w = "OR".toList then some .or
    else if upper w = "NOT".toList then some .not else none
  | _ => none

/-- Connectives, parentheses and tests (first number: recursion bound). -/
def group (d : Dialect) (sc : Scope κ) : Nat → List Lex → Option (List (BTok (Test κ)))
  | _, [] => some []
  | 0, _ => none
  | k + 1, x :: xs =>
    match (match x with | .tok t => connective? t | .val _ => none) with
    | some b => (group d sc k xs).map (b :: ·)
    | none => (column? d sc (x :: xs)).bind fun y => (test? d sc y.1 y.2).bind fun z => (group d sc k z.2).map (.atom z.1 :: ·)

/-- NOT binds tighter than AND, AND tighter than OR (Spec/Boolean). -/
def expression (d : Dialect) (sc : Scope κ) (xs : List Lex) : Option (BExp (Test κ)) := (group d sc xs.length xs).bind readBool

/-- The dialect whose tokens are read: on PostgreSQL `$` starts a placeholder here (the reader of `Spec/Lexer` takes it for a dollar quote). -/
def lexing : Chain.Lang → Dialect
  | .mysql => .mysql
  | _ => .sqlite

/-- The columns of one table. -/
def oneTable (label : Str) : Scope Str := fun l c => if l = label then some c else none

/-- The expression that a text is, for a table of this name. -/
def readWhere (l : Chain.Lang) (label : Str) (args : List Arg) (n : Nat) (w : Str) : Option (BExp (Test Str)) :=
  (tokens (lexing l) w).bind fun ts => (resolve l args n ts).bind fun xs => expression l.dialect (oneTable label) xs

def truthOf (C : Compare) (r : κ → Scalar) : BExp (Test κ) → Option Bool
  | .atom x => x.truth C r
  | .not e => neg3 (truthOf C r e)
  | .and e f => and3 (truthOf C r e) (truthOf C r f)
  | .or e f => or3 (truthOf C r e) (truthOf C r f)

deriving instance DecidableEq for BExp

example : readWhere .postgres "u".toList [.val (.int 18), .val .nil, .val (.int 3)] 0 "u.age >= $1 AND NOT (u.\"Id\" IN ($3, $1) OR u.x IS NOT NULL)".toList =
    some (.and (.atom (.cmp .ge "age".toList (.val (.int 18))))
      (.not (.or (.atom (.among "Id".toList [.int 3, .int 18])) (.atom (.notNull "x".toList))))) := by decide +kernel
example : readWhere .mysql "u".toList [.val (.int 18), .val .nil, .val (.int 3)] 1 "u.a = ? OR u.b < u.`B`".toList =
    some (.or (.atom (.cmp .eq "a".toList (.val .nil))) (.atom (.cmp .lt "b".toList (.col "B".toList)))) := by decide +kernel
example : readWhere .sqlite "u".toList [] 0 "u.a = $1".toList = none := by decide +kernel

/-! ### A database that understands WHERE -/

/-- The SELECT, UPDATE and DELETE statements with this text behind WHERE. -/
def selectText (l : Chain.Lang) (t : Tab) (cols : List Str) (w : Str) : Str := Store.selectText l t cols ++ " WHERE ".toList ++ w
def updateText (l : Chain.Lang) (t : Tab) (cols : List Str) (w : Str) : Str :=
  "UPDATE ".toList ++ t.source l.dialect ++ " SET ".toList ++
  commas ((cols.zip (List.range' 1 cols.length)).map fun x => target l t x.1 ++ " = ".toList ++ slot l x.2) ++ " WHERE ".toList ++ w
def deleteText (l : Chain.Lang) (t : Tab) (w : Str) : Str := "DELETE FROM ".toList ++ t.source l.dialect ++ " WHERE ".toList ++ w

/-- The records for which the expression is true. -/
def chosen (C : Compare) (e : BExp (Test κ)) (r : κ → Scalar) : Bool := truthOf C r e == some true

/-- The database understands statements about the table whose WHERE text is an expression: they concern the records for which it is true. -/
structure Understands (D : Database) (C : Compare) (l : Chain.Lang) (t : Tab) (cols : List Str) : Prop where
  select : ∀ s args w e, readWhere l t.label args 0 w = some e →
    D.query (selectText l t cols w) args s = ((D.rows s).filter (chosen C e)).map fun r => cols.map r
  update : ∀ s rec args w e, rec.length = cols.length → readWhere l t.label (rec.map .val ++ args) cols.length w = some e →
    D.rows (D.exec (updateText l t cols w) (rec.map .val ++ args) s).1 =
      (D.rows s).map fun r => if chosen C e r then Row.set r (cols.zip rec) else r
  delete : ∀ s args w e, readWhere l t.label args 0 w = some e →
    D.rows (D.exec (deleteText l t w) args s).1 = (D.rows s).filter fun r => !chosen C e r

/-- The records that all of the conditions describe. -/
def described (C : Compare) (cs : List (Cond κ)) (r : κ → Scalar) : Bool := allTrue C r cs == some true

def Rhs.columns : Rhs κ → List κ
  | .col c => [c]
  | .val _ => []
def Test.columns : Test κ → List κ
  | .cmp _ c x => c :: x.columns
  | .null c | .notNull c | .among c _ => [c]
mutual
/-- The columns that conditions are about. -/
def Cond.columns : Cond κ → List κ
  | .test _ x => x.columns
  | .group _ _ cs => columns cs
def columns : List (Cond κ) → List κ
  | [] => []
  | c :: cs => c.columns ++ columns cs
end

/-- A name that is read as itself: no two quotes next to each other inside of it (C01), and not a keyword in lower case. -/
def Readable (d : Dialect) (x : Str) : Prop := ¬ _root_.Spec.InnerPair (identClose d) x ∧ (isBareIdent x = true → upper x ∉ keywords)

end Sq.Spec.Where
