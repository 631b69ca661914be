import Verif.Spec.Cte
/-
Specification: questions about the answers to other questions (subqueries in FROM and JOIN).

The first part says what a program asks for and what answers it.  The second part is the Go program.  The third part is about SQL text only.
-/
namespace Sq.Spec.Sub
open Sq Sq.Chain Sq.Deriving Sq.Spec.Store Sq.Spec.Where Sq.Spec.Sel
open Sq.Spec.Cte (Given record add Answers close? HasColumn fieldsOf)
open _root_.Spec (Tok tokens)

/-! ### What a program asks for -/

/-- The question that a table of another question stands for, among these: the one with that name. -/
def givenFor (gs : List Given) (t : Tab) : Option Given := if t.schema = [] then gs.find? fun g => g.name = t.name else none
def tabs (a : Ask) : List Tab := a.tab :: a.joins.map Join.tab
/-- The questions that a question is about, as they come. -/
def used (gs : List Given) (a : Ask) : List Given := (tabs a).filterMap (givenFor gs)

/-- `T'` are the tables together with an answer to each of the questions, under its name; each question is about the tables only. -/
def Answered (C : Compare) (O : Order) (T : Tables) : List Given → Tables → Prop
  | [], T' => T' = T
  | g :: gs, T' => ∃ ws T'', Answers C O T g.ask g.limit g.offset ws ∧ Answered C O T gs T'' ∧ T' = add T'' g.name (g.records ws)

/-- The same where nothing is paged: all the answers, in some order. -/
def withAnswers (C : Compare) (T : Tables) : List Given → Tables
  | [] => T
  | g :: gs => add (withAnswers C T gs) g.name (g.records (g.ask.answer C T))

/-! ### The Go program -/

/-- `NewSubquery(name, question)`.  (`NewSubquery` does not panic here.) -/
def made (b : Builder) (raw : Field → Bool) (g : Given) : Subquery :=
  match newSubquery (fun _ => .panic) g.name (g.ask.query b raw g.limit g.offset) with
  | .ok s => s
  | _ => ⟨none, [], [], [], .nil⟩
/-- The subquery; a table otherwise. -/
def tabNode (b : Builder) (raw : Field → Bool) (gs : List Given) (t : Tab) : Node :=
  match givenFor gs t with
  | some g => (made b raw g).node
  | none => t.node
/-- `sub.Field(name)`; a field of a table otherwise. -/
def fieldNode (b : Builder) (raw : Field → Bool) (gs : List Given) (c : Field) : Node :=
  match givenFor gs c.tab with
  | some g => (made b raw g).field c.name
  | none => c.node raw
/-- subquery.go:120-142 `Asc()`, `Desc()`, `NullsFirst()`, `NullsLast()`: the sort order is kept in the field. -/
def sortNode (b : Builder) (raw : Field → Bool) (gs : List Given) (k : Sorting) : Node :=
  match fieldNode b raw gs k.col with
  | .field fi r n vs => .field { fi with desc := k.desc, nullsFirst := k.nullsFirst } r n vs
  | .checkedField s a fi => .checkedField s a { fi with desc := k.desc, nullsFirst := k.nullsFirst }
  | n => n

/-- As `Join.call`, `Ask.calls` and `Ask.query` (Spec/Select), with these tables and fields. -/
def joinCall (b : Builder) (raw : Field → Bool) (gs : List Given) (j : Join) : SelectCall :=
  match j.how with
  | .inner => .join .join (tabNode b raw gs j.tab) (nodes (mapAll (fieldNode b raw gs) j.on))
  | .left => .join .leftJoin (tabNode b raw gs j.tab) (nodes (mapAll (fieldNode b raw gs) j.on))
  | .right => .join .rightJoin (tabNode b raw gs j.tab) (nodes (mapAll (fieldNode b raw gs) j.on))
  | .full => .join .fullJoin (tabNode b raw gs j.tab) (nodes (mapAll (fieldNode b raw gs) j.on))
  | .cross => .crossJoin (tabNode b raw gs j.tab)
def calls (b : Builder) (raw : Field → Bool) (gs : List Given) (a : Ask) (limit offset : Option Nat) : List SelectCall :=
  a.joins.map (joinCall b raw gs) ++ [.where (nodes (mapAll (fieldNode b raw gs) a.conds)), .orderBy (a.order.map (sortNode b raw gs))] ++
  (limit.map fun n => SelectCall.limit n).toList ++ (offset.map fun n => SelectCall.offset n).toList
/-- `Select(cols...).From(sub).Join(sub, on...)....Where(conds...).OrderBy(order...).Limit(n).Offset(k)`, where a table may be a subquery. -/
def query (b : Builder) (raw : Field → Bool) (gs : List Given) (a : Ask) (limit offset : Option Nat) : Node :=
  (Chain.select b (.select (a.cols.map (fieldNode b raw gs))) (.from (tabNode b raw gs a.tab) :: calls b raw gs a limit offset)).node
/-- The same without fields, to be fetched with a row mapper. -/
def fromQuery (b : Builder) (raw : Field → Bool) (gs : List Given) (a : Ask) (limit offset : Option Nat) : Node :=
  (Chain.select b (.from (tabNode b raw gs a.tab)) (calls b raw gs a limit offset)).node
/-- A row mapper that reads these fields. -/
def readsFields {V : Type} (b : Builder) (raw : Field → Bool) (gs : List Given) (kind : Field → Fetching.Kind) (cols : List Field) (_ : List (List V)) :
    Fetching.Prog Node V (List V) :=
  reader (cols.map fun c => (kind c, fieldNode b raw gs c)) []

/-! ### How SQL reads the text -/

/-- Behind these words comes a table. -/
def opens (x : Lex) : Bool := clauseWord x = some .from_ || clauseWord x = some .join

/-- `(...) AS name` in the place of a table: the name and what stands in parentheses.  Gives these, and the statement with just the names in their places
(first number: recursion bound; `here`: this is the place of a table). -/
def flat? (l : Lang) : Nat → Bool → List Lex → Option (List (Str × List Lex) × List Lex)
  | _, _, [] => some ([], [])
  | 0, _, _ :: _ => none
  | k + 1, here, x :: xs =>
    if here = true ∧ x = .tok (.sym '(') then
      (close? 0 xs).bind fun y =>
        match y.2 with
        | .tok (.word as) :: .tok n :: r =>
          if upper as = "AS".toList then
            (name? l.dialect n).bind fun name => (flat? l k false r).map fun z => ((name, y.1) :: z.1, .tok n :: z.2)
          else none
        | _ => none
    else (flat? l k (opens x) xs).map fun z => (z.1, x :: z.2)

/-- The tables of a statement. -/
def refs (m : Core) : List Ref := m.ref :: m.joins.map JoinPart.ref

/-- `SELECT ... FROM (SELECT ...) AS name JOIN ...`: the statements in parentheses, and the statement about their results.  (The names of tables must be different;
a table whose name is used for a subquery as well could not be told from it, and is not read.) -/
def subsOf? (list? : List Str → List Lex → Option (List Sel.Col)) (l : Lang) (xs : List Lex) : Option (List (Str × Stmt) × Stmt) :=
  (flat? l xs.length false xs).bind fun f =>
  (every (fun p => (stmt? l p.2).map fun m => (p.1, m)) f.1).bind fun gs =>
  (stmtOf? list? l f.2).bind fun m =>
  if ∀ g ∈ gs, ∀ r ∈ refs m.core, r.schema = [] → r.name = g.1 → r.label = g.1 then some (gs, m) else none
def subs? (l : Lang) (xs : List Lex) : Option (List (Str × Stmt) × Stmt) := subsOf? (columns? l) l xs

def readSub (l : Lang) (args : List Arg) (text : Str) : Option (List (Str × Stmt) × Stmt) :=
  (tokens (lexing l) text).bind fun ts => (resolve l args 0 ts).bind fun xs => subs? l xs

/-- `SELECT EXISTS (SELECT ... FROM (SELECT ...) AS name ...)`: the statement in parentheses, which may also select just `1`. -/
def readExists (l : Lang) (args : List Arg) (text : Str) : Option (List (Str × Stmt) × Stmt) :=
  (tokens (lexing l) text).bind fun ts => (resolve l args 0 ts).bind fun xs =>
    match xs with
    | .tok (.word sel) :: .tok (.word ex) :: .tok (.sym '(') :: r =>
      if upper sel = "SELECT".toList ∧ upper ex = "EXISTS".toList then
        (inside r).bind (subsOf? (fun labels xs => if xs = [.tok (.word "1".toList)] then some [] else columns? l labels xs) l)
      else none
    | _ => none

example : readSub .postgres [.val (.int 18), .val (.int 2)]
    "SELECT old.id FROM (SELECT u.id FROM users AS u WHERE (u.age >= $1)) AS old JOIN orders AS o ON o.user_id = old.id LIMIT $2".toList =
  some ([("old".toList, ⟨⟨[⟨"u".toList, "id".toList⟩], ⟨[], "users".toList, "u".toList⟩, [], some (.atom (.cmp .ge ⟨"u".toList, "age".toList⟩ (.val (.int 18)))), []⟩, none, none⟩)],
    ⟨⟨[⟨"old".toList, "id".toList⟩], ⟨[], "old".toList, "old".toList⟩,
      [⟨.inner, ⟨[], "orders".toList, "o".toList⟩, some (.atom (.cmp .eq ⟨"o".toList, "user_id".toList⟩ (.col ⟨"old".toList, "id".toList⟩)))⟩], none, []⟩, some 2, none⟩) := by decide +kernel
/-- No name; a name used twice. -/
example : readSub .mysql [] "SELECT a.id FROM (SELECT u.id FROM users AS u)".toList = none ∧
    readSub .mysql [] "SELECT a.id FROM (SELECT u.id FROM users AS u) AS a JOIN (SELECT u.id FROM users AS u) AS a ON a.id = a.id".toList = none := by decide +kernel

/-! ### A database that understands subqueries -/

/-- The tables with the results of these statements; `arrange` is the order in which rows come. -/
def withResults (arrange : Tables → Core → List World) (T : Tables) : List (Str × Stmt) → Tables
  | [] => T
  | (n, m) :: gs =>
    add (withResults arrange T gs) n ((page m.limit m.offset (arrange T m.core)).map fun w => record (m.core.cols.map Col.name) (m.core.cols.map w.at))

/-- The database answers every such statement: the results of the statements in parentheses are tables for the statement. -/
structure Understands (D : Database) (T : D.State → Tables) (C : Compare) (O : Order) (l : Lang) (arrange : Tables → Core → List World) : Prop where
  all : ∀ T m, (arrange T m).Perm (m.rows C T)
  sorted : ∀ T m, Sorted O m.order (arrange T m)
  select : ∀ s text args gs m, readSub l args text = some (gs, m) →
    D.query text args s = (page m.limit m.offset (arrange (withResults arrange (T s) gs) m.core)).map fun w => m.core.cols.map w.at

/-- The database answers every `SELECT EXISTS (...)` of such a statement with one truth value: whether the statement in parentheses has any row. -/
def AnswersExists (D : Database) (T : D.State → Tables) (C : Compare) (l : Lang) (arrange : Tables → Core → List World) (truth : Bool → Scalar) : Prop :=
  ∀ s text args gs m, readExists l args text = some (gs, m) →
    D.query text args s = [[truth (!(page m.limit m.offset (m.core.rows C (withResults arrange (T s) gs))).isEmpty)]]

/-! ### Questions that can be asked -/

/-- A question that makes sense, with a name that is read as it is, and different names for its columns. -/
structure Fine (l : Lang) (g : Given) : Prop where
  name : g.name ≠ []
  readable : Readable l.dialect g.name
  ask : g.ask.Sound l
  cols : ∀ c ∈ g.ask.cols, c.name ≠ []
  nodup : g.columns.Nodup
  page : Allowed l g.limit g.offset

/-- The questions have different names, and a table that is one of them goes by its name. -/
structure Sound (l : Lang) (gs : List Given) (a : Ask) : Prop where
  fine : ∀ g ∈ gs, Fine l g
  names : (gs.map Given.name).Nodup
  ask : a.Sound l
  columns : ∀ c ∈ fieldsOf a, HasColumn gs c
  plain : ∀ t ∈ tabs a ++ (fieldsOf a).map Field.tab, t.schema = [] → ∀ g ∈ gs, g.name = t.name → t.alias = []

end Sq.Spec.Sub
