import Verif.Spec.Literal
import Verif.Spec.Template
import Verif.Model.Node
/-
Specification: how a database reads the text it is sent, as far as quotes and placeholders are concerned.
-/
namespace Sq.Lexical
open Sq.SqlText (opens sigil separator close NameOk)

instance (d : Dialect) (c : Char) : Decidable (opens d c) := by unfold opens; infer_instance
instance (d : Dialect) (c : Char) : Decidable (sigil d c) := by unfold sigil; cases d <;> infer_instance
instance (c : Char) : Decidable (separator c) := by unfold separator; infer_instance

/-- What is written: characters, and placeholders for arguments. -/
inductive Tok where
  | ch (c : Char)
  | ph
  deriving DecidableEq

/-- Where a reader is: in ordinary text, inside a string or delimited identifier opened by `q`, just after a character that may close it,
just after a placeholder. -/
inductive At where
  | plain
  | inside (q : Char)
  | closed (q : Char)
  | after
  deriving DecidableEq

/-- An ordinary position: a quote opens, a character that starts placeholders must not stand there by itself. -/
def free (d : Dialect) (c : Char) : Option At :=
  if opens d c then some (.inside c) else if sigil d c then none else some .plain

/-- One step of reading; `none` if it goes wrong: a placeholder inside quotes, one glued to what follows, or one nobody wrote. -/
def step (d : Dialect) : At → Tok → Option At
  | .plain, .ch c => free d c
  | .plain, .ph => some .after
  | .inside q, .ch c => some (if c = close q then .closed q else .inside q)
  | .inside _, .ph => none
  | .closed q, .ch c => if c = close q then some (.inside q) else free d c
  | .closed _, .ph => some .after
  | .after, .ch c => if separator c ∧ ¬ sigil d c then some .plain else none
  | .after, .ph => none

def walk (d : Dialect) : At → List Tok → Option At
  | s, [] => some s
  | s, t :: ts => (step d s t).bind fun s' => walk d s' ts

/-- Not inside quotes. -/
def At.ended : At → Bool
  | .inside _ => false
  | _ => true

/-- The text reads from an ordinary position, and every quote is closed at its end. -/
def Reading (d : Dialect) (ts : List Tok) : Prop := ∃ s, walk d .plain ts = some s ∧ s.ended = true

/-- SQL text supplied by the program. -/
def Raw (d : Dialect) (s : Str) : Prop := Reading d (s.map .ch)

instance (d : Dialect) (s : Str) : Decidable (Raw d s) :=
  match h : walk d .plain (s.map .ch) with
  | none => isFalse (by rintro ⟨x, hx, -⟩; rw [h] at hx; cases hx)
  | some x => if hx : x.ended = true then isTrue ⟨x, h, hx⟩ else isFalse (by rintro ⟨y, hy, he⟩; rw [h] at hy; cases hy; exact hx he)

/-- The pieces written into a query. -/
def pieces : List Piece → List Tok
  | [] => []
  | .text s :: ps => s.map .ch ++ pieces ps
  | _ :: ps => .ph :: pieces ps

/-- A format string: values only where ordinary text stands before them, and separated from what follows. -/
def walkT (d : Dialect) : At → List Spec.TPart → Option At
  | s, [] => some s
  | s, .text c :: ts => (step d s (.ch c)).bind fun s' => walkT d s' ts
  | s, _ :: ts => if s = .plain then walkT d .after ts else none

def Format (d : Dialect) (fmt : Str) : Prop :=
  ∃ ts, Spec.WellFormed ts ∧ fmt = Spec.write ts ∧ ∃ s, walkT d .plain ts = some s ∧ s.ended = true

/-- The effects of user code on the query text. -/
def effects : List Instr → List Tok
  | [] => []
  | .text s :: is => s.map .ch ++ effects is
  | .forget _ :: is => effects is
  | _ :: is => .ph :: effects is

/-- A name for a named placeholder, in a dialect that has them. -/
def NamedOk (d : Dialect) (x : Str) : Prop := (d = .sqlite ∨ d = .sqlserver) ∧ NameOk d x

/-- The SQL text a program supplies at one node reads by itself.  Names of tables and columns, aliases and values need no condition. -/
def Tame (d : Dialect) : Node → Prop
  | .namedArg n _ => d = .postgres ∨ d = .mysql ∨ NamedOk d n
  | .field fi _ _ _ | .checkedField _ _ fi => ∀ p ∈ fi.formats, Format d p.2
  | .literal s _ => Raw d s
  | .cpred _ fmt _ _ | .customTable fmt _ | .customQuery _ fmt _ => Format d fmt
  | .window _ _ frame => Raw d frame
  | .join jt _ _ => Raw d jt
  | .cte c _ => Raw d c.name ∧ ∀ x ∈ c.fieldNames, Raw d x
  | .vquery _ op _ => Raw d op
  | .insert q _ _ _ _ _ _ _ _ _ _ _ => Raw d q.conflictConstraint ∧ Raw d q.rowAlias ∧ ∀ x ∈ q.columnAliases, Raw d x
  | .delete _ _ froms _ _ _ _ _ => d = .mysql → ∀ t ∈ froms, Raw d t.alias ∧ Raw d t.name
  | .ext _ _ _ act => ∀ m, m.d = d → Reading d (effects (act m).code) ∧ ∀ x v, .named x v ∈ (act m).code → NamedOk d x
  | _ => True

/-- SELECT, INSERT, UPDATE and DELETE statements. -/
def Statement : Node → Prop
  | .select .. | .insert .. | .update .. | .delete .. => True
  | _ => False

end Sq.Lexical
