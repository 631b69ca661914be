import Verif.Spec.Select
import Verif.Model.Derived
/-
Specification: questions about the answers to other questions (common table expressions, `WITH`).

The first part says what a program asks for and what answers it.  The second part is the Go program.  The third part is about SQL text only.
-/
namespace Sq.Spec.Cte
open Sq Sq.Chain Sq.Deriving Sq.Spec.Store Sq.Spec.Where Sq.Spec.Sel
open _root_.Spec (Tok tokens isBareIdent)

/-! ### What a program asks for -/

/-- A question (Spec/Select) whose answer has a name. -/
structure Given where
  name : Str
  ask : Ask
  limit : Option Nat
  offset : Option Nat

/-- A record with these columns. -/
def record (cols : List Str) (vs : List Scalar) : Row := fun c => (((cols.zip vs).find? fun x => x.1 = c).map Prod.snd).getD .nil
def Given.columns (g : Given) : List Str := g.ask.cols.map Field.name
/-- The answers as records of a table, which has the columns asked for. -/
def Given.records (g : Given) (ws : List World) : List Row := ws.map fun w => record g.columns (g.ask.cols.map (Field.value w))

/-- The tables, and these records under this name. -/
def add (T : Tables) (name : Str) (rows : List Row) : Tables := fun s n => if s = [] ∧ n = name then rows else T s n

/-- `ws` answers the question: it is the page asked for of the records that answer it, in the order asked for. -/
def Answers (C : Compare) (O : Order) (T : Tables) (a : Ask) (limit offset : Option Nat) (ws : List World) : Prop :=
  ∃ all : List World, all.Perm (a.answer C T) ∧ Sorted O (a.order.map Sorting.key) all ∧ ws = page limit offset all

/-- `T'` are the tables together with an answer to each of the questions, under its name; each question is about the tables and the answers before it. -/
def Answered (C : Compare) (O : Order) : Tables → List Given → Tables → Prop
  | T, [], T' => T' = T
  | T, g :: gs, T' => ∃ ws, Answers C O T g.ask g.limit g.offset ws ∧ Answered C O (add T g.name (g.records ws)) gs T'

/-- The same where nothing is paged: all the answers, in some order. -/
def withAnswers (C : Compare) : Tables → List Given → Tables
  | T, [] => T
  | T, g :: gs => withAnswers C (add T g.name (g.records (g.ask.answer C T))) gs

/-! ### The Go program -/

/-- The CTE that a table of a question is, among these. -/
def cteFor (cs : List CTE) (t : Tab) : Option CTE := if t.schema = [] then cs.find? fun c => c.info.name = t.name else none
/-- `cte` or `cte.As(alias)`; a table otherwise. -/
def tabNode (cs : List CTE) (t : Tab) : Node :=
  match cteFor cs t with
  | some c => (c.as t.alias).node
  | none => t.node
/-- `cte.Field(name)`; a field of a table otherwise. -/
def fieldNode (raw : Field → Bool) (cs : List CTE) (c : Field) : Node :=
  match cteFor cs c.tab with
  | some k => (k.as c.tab.alias).field c.name
  | none => c.node raw
/-- cte.go:231-253 `Asc()`, `Desc()`, `NullsFirst()`, `NullsLast()`: the sort order is kept in the field. -/
def sortNode (raw : Field → Bool) (cs : List CTE) (k : Sorting) : Node :=
  match fieldNode raw cs k.col with
  | .field fi r n vs => .field { fi with desc := k.desc, nullsFirst := k.nullsFirst } r n vs
  | .checkedField s a fi => .checkedField s a { fi with desc := k.desc, nullsFirst := k.nullsFirst }
  | n => n

/-- As `Join.call`, `Ask.calls` and `Ask.query` (Spec/Select), with these tables and fields. -/
def joinCall (raw : Field → Bool) (cs : List CTE) (j : Join) : SelectCall :=
  match j.how with
  | .inner => .join .join (tabNode cs j.tab) (nodes (mapAll (fieldNode raw cs) j.on))
  | .left => .join .leftJoin (tabNode cs j.tab) (nodes (mapAll (fieldNode raw cs) j.on))
  | .right => .join .rightJoin (tabNode cs j.tab) (nodes (mapAll (fieldNode raw cs) j.on))
  | .full => .join .fullJoin (tabNode cs j.tab) (nodes (mapAll (fieldNode raw cs) j.on))
  | .cross => .crossJoin (tabNode cs j.tab)
def calls (raw : Field → Bool) (cs : List CTE) (a : Ask) (limit offset : Option Nat) : List SelectCall :=
  a.joins.map (joinCall raw cs) ++ [.where (nodes (mapAll (fieldNode raw cs) a.conds)), .orderBy (a.order.map (sortNode raw cs))] ++
  (limit.map fun n => SelectCall.limit n).toList ++ (offset.map fun n => SelectCall.offset n).toList
/-- `Select(cols...).From(tab).Join(tab, on...)....Where(conds...).OrderBy(order...).Limit(n).Offset(k)` -/
def question (b : Builder) (raw : Field → Bool) (cs : List CTE) (a : Ask) (limit offset : Option Nat) : Node :=
  (Chain.select b (.select (a.cols.map (fieldNode raw cs))) (.from (tabNode cs a.tab) :: calls raw cs a limit offset)).node
/-- `NewCTE(name, nil, question)`, where the question may be about the CTEs `cs`.  (`NewCTE` does not panic here.) -/
def Given.cte (b : Builder) (raw : Field → Bool) (cs : List CTE) (g : Given) : CTE :=
  match newCTE (fun _ => .panic) false g.name [] (question b raw cs g.ask g.limit g.offset) with
  | .ok c => c
  | _ => ⟨{}, [], .nil⟩
/-- The CTEs, one after another. -/
def made (b : Builder) (raw : Field → Bool) : List CTE → List Given → List CTE
  | cs, [] => cs
  | cs, g :: gs => made b raw (cs ++ [g.cte b raw cs]) gs
/-- `Select(cols...).With(ctes...).From(tab).Join(tab, on...)....` -/
def query (b : Builder) (raw : Field → Bool) (gs : List Given) (a : Ask) (limit offset : Option Nat) : Node :=
  let cs := made b raw [] gs
  (Chain.select b (.select (a.cols.map (fieldNode raw cs))) (.with (cs.map CTE.node) :: .from (tabNode cs a.tab) :: calls raw cs a limit offset)).node
/-- The same without fields, to be fetched with a row mapper. -/
def fromQuery (b : Builder) (raw : Field → Bool) (gs : List Given) (a : Ask) (limit offset : Option Nat) : Node :=
  let cs := made b raw [] gs
  (Chain.select b (.from (tabNode cs a.tab)) (.with (cs.map CTE.node) :: calls raw cs a limit offset)).node
/-- A row mapper that reads these fields. -/
def readsFields {V : Type} (raw : Field → Bool) (cs : List CTE) (kind : Field → Fetching.Kind) (cols : List Field) (_ : List (List V)) :
    Fetching.Prog Node V (List V) :=
  reader (cols.map fun c => (kind c, fieldNode raw cs c)) []

/-! ### How SQL reads the text -/

/-- What stands before the parenthesis that closes here (`n`: those opened since), and what follows it. -/
def close? : Nat → List Lex → Option (List Lex × List Lex)
  | _, [] => none
  | n, x :: xs =>
    if x = .tok (.sym '(') then (close? (n + 1) xs).map fun y => (x :: y.1, y.2)
    else if x = .tok (.sym ')') then
      match n with
      | 0 => some ([], xs)
      | n + 1 => (close? n xs).map fun y => (x :: y.1, y.2)
    else (close? n xs).map fun y => (x :: y.1, y.2)

/-- `name AS (...)` -/
def cte? (l : Lang) : List Lex → Option ((Str × List Lex) × List Lex)
  | .tok n :: .tok (.word as) :: .tok (.sym '(') :: r =>
    if upper as = "AS".toList then (name? l.dialect n).bind fun n => (close? 0 r).map fun y => ((n, y.1), y.2) else none
  | _ => none
/-- The same, once or more, separated by commas (first number: recursion bound). -/
def ctes? (l : Lang) : Nat → List Lex → Option (List (Str × List Lex) × List Lex)
  | 0, _ => none
  | k + 1, xs => (cte? l xs).bind fun c =>
    match c.2 with
    | .tok (.sym ',') :: r => (ctes? l k r).map fun y => (c.1 :: y.1, y.2)
    | r => some ([c.1], r)

/-- `WITH name AS (SELECT ...), ... SELECT ...`: no name is given twice. -/
def withOf? (list? : List Str → List Lex → Option (List Sel.Col)) (l : Lang) : List Lex → Option (List (Str × Stmt) × Stmt)
  | .tok (.word w) :: r =>
    if upper w = "WITH".toList then
      (ctes? l (r.length + 1) r).bind fun c =>
      if (c.1.map Prod.fst).Nodup then
        (every (fun p => (stmt? l p.2).map fun m => (p.1, m)) c.1).bind fun gs => (stmtOf? list? l c.2).map fun m => (gs, m)
      else none
    else none
  | _ => none
def with? (l : Lang) (xs : List Lex) : Option (List (Str × Stmt) × Stmt) := withOf? (columns? l) l xs

def readWith (l : Lang) (args : List Arg) (text : Str) : Option (List (Str × Stmt) × Stmt) :=
  (tokens (lexing l) text).bind fun ts => (resolve l args 0 ts).bind fun xs => with? l xs

/-- `SELECT EXISTS (WITH name AS (SELECT ...) SELECT ...)`: the statement in parentheses, which may also select just `1`. -/
def readExists (l : Lang) (args : List Arg) (text : Str) : Option (List (Str × Stmt) × Stmt) :=
  (tokens (lexing l) text).bind fun ts => (resolve l args 0 ts).bind fun xs =>
    match xs with
    | .tok (.word sel) :: .tok (.word ex) :: .tok (.sym '(') :: r =>
      if upper sel = "SELECT".toList ∧ upper ex = "EXISTS".toList then
        (inside r).bind (withOf? (fun labels xs => if xs = [.tok (.word "1".toList)] then some [] else columns? l labels xs) l)
      else none
    | _ => none

example : readWith .postgres [.val (.int 18), .val (.int 2)]
    "WITH old AS (SELECT u.id FROM users AS u WHERE (u.age >= $1)), best AS (SELECT old.id FROM old) SELECT best.id FROM best LIMIT $2".toList =
  some ([("old".toList, ⟨⟨[⟨"u".toList, "id".toList⟩], ⟨[], "users".toList, "u".toList⟩, [], some (.atom (.cmp .ge ⟨"u".toList, "age".toList⟩ (.val (.int 18)))), []⟩, none, none⟩),
    ("best".toList, ⟨⟨[⟨"old".toList, "id".toList⟩], ⟨[], "old".toList, "old".toList⟩, [], none, []⟩, none, none⟩)],
    ⟨⟨[⟨"best".toList, "id".toList⟩], ⟨[], "best".toList, "best".toList⟩, [], none, []⟩, some 2, none⟩) := by decide +kernel
example : readWith .mysql [] "WITH a AS (SELECT u.id FROM users AS u), a AS (SELECT u.id FROM users AS u) SELECT a.id FROM a".toList = none := by decide +kernel

/-! ### A database that understands WITH -/

/-- The tables with the results of these statements, each seeing the ones before; `arrange` is the order in which rows come. -/
def withResults (arrange : Tables → Core → List World) : Tables → List (Str × Stmt) → Tables
  | T, [] => T
  | T, (n, m) :: gs =>
    withResults arrange (add T n ((page m.limit m.offset (arrange T m.core)).map fun w => record (m.core.cols.map Col.name) (m.core.cols.map w.at))) gs

/-- The database answers every such statement: the results of the named statements are tables for those that follow. -/
structure Understands (D : Database) (T : D.State → Tables) (C : Compare) (O : Order) (l : Lang) (arrange : Tables → Core → List World) : Prop where
  all : ∀ T m, (arrange T m).Perm (m.rows C T)
  sorted : ∀ T m, Sorted O m.order (arrange T m)
  select : ∀ s text args gs m, readWith l args text = some (gs, m) →
    D.query text args s = (page m.limit m.offset (arrange (withResults arrange (T s) gs) m.core)).map fun w => m.core.cols.map w.at

/-- The database answers every `SELECT EXISTS (...)` of such a statement with one truth value: whether the statement in parentheses has any row. -/
def AnswersExists (D : Database) (T : D.State → Tables) (C : Compare) (l : Lang) (arrange : Tables → Core → List World) (truth : Bool → Scalar) : Prop :=
  ∀ s text args gs m, Cte.readExists l args text = some (gs, m) →
    D.query text args s = [[truth (!(page m.limit m.offset (m.core.rows C (withResults arrange (T s) gs))).isEmpty)]]

/-! ### Questions that can be asked -/

/-- Fields of a CTE that is there (`gs`) are among its columns. -/
def HasColumn (gs : List Given) (c : Field) : Prop := c.tab.schema = [] → ∀ g ∈ gs, g.name = c.tab.name → c.name ∈ g.columns
def fieldsOf (a : Ask) : List Field := a.cols ++ (a.joins.flatMap fun j => columns j.on) ++ columns a.conds ++ a.order.map Sorting.col

/-- Each question makes sense, about the tables and the questions before it; the names are different, and are words that need no quotes;
the columns of an answer have different names. -/
def Sound (l : Lang) : List Given → List Given → Prop
  | _, [] => True
  | before, g :: gs => isBareIdent g.name = true ∧ Readable l.dialect g.name ∧ (∀ x ∈ before, x.name ≠ g.name) ∧
      g.ask.Sound l ∧ (∀ c ∈ g.ask.cols, c.name ≠ []) ∧ g.columns.Nodup ∧ (∀ c ∈ fieldsOf g.ask, HasColumn before c) ∧ Allowed l g.limit g.offset ∧ Sound l (before ++ [g]) gs

end Sq.Spec.Cte
