import Verif.Spec.View
import Verif.Spec.Built
import Verif.Model.Calls
/-
Specification: what the calls in the `DDL` method of a table say.  A call with its arguments as written (fields, formats, values) says a
`TOp`: the same call with the names of the columns and the SQL texts the arguments stand for.  What a sequence of `TOp`s makes of a table
is the specification `Ddl.Declared.calls`.
-/
namespace Ddl.CallSpec
open Ddl Ddl.ViewSpec
open Sq (Node)

/-- The table a `DDL` method belongs to, the dialect it is called for, the values behind opaque arguments, and which texts are numbers. -/
structure Ctx where
  opq : Nat → Sq.Val
  num : Str → Bool
  d : Dialect
  table : Str

/-- SQL inside the declaration of the table: columns are not qualified with the table. -/
def Ctx.inside (k : Ctx) : Sq.Mode := { d := k.d, ex := [k.table] }

/-- The fields have these names (and all have one). -/
def Names (fields : List Node) (names : List Str) : Prop := names = fields.map Node.name ∧ ∀ f ∈ fields, f ≠ .nil ∧ f.name ≠ []

def brackets (e : Str) : Str := "(".toList ++ e ++ ")".toList

/-- What a field stands for: a literal is an expression as it is, a field with a name is a column, any other field is an expression. -/
inductive Stands (k : Ctx) (around : Str → Str) : Node → Str × Str → Prop
  | literal (s : Str) (a : Str) : Stands k around (.literal s a) ([], s)
  | column (f : Node) : (∀ s a, f ≠ .literal s a) → f ≠ .nil → f.name ≠ [] → Stands k around f (f.name, [])
  | expression (f : Node) (e : Str) : (∀ s a, f ≠ .literal s a) → f ≠ .nil → f.name = [] → Text k.opq k.inside f e →
      Stands k around f ([], around e)

/-- A default that needs no brackets: a quoted literal, a number, or one of five constants. -/
def constant (num : Str → Bool) (e : Str) : Prop :=
  (2 ≤ e.length ∧ e.head? = some '\'' ∧ e.getLast? = some '\'') ∨ num e = true ∨
  e.map Char.toLower ∈ ["true", "false", "current_date", "current_time", "current_timestamp"].map String.toList

/-- The default a format with values stands for; without values the format is the text. -/
def DefaultSays (k : Ctx) (fmt : Str) (vals : List Node) (e : Str) : Prop :=
  (vals = [] ∧ (k.d = .postgres ∨ constant k.num fmt) ∧ e = fmt) ∨
  (vals = [] ∧ ¬ (k.d = .postgres ∨ constant k.num fmt) ∧ e = brackets fmt) ∨
  (vals ≠ [] ∧ ∃ x, FormatText k.opq k.inside fmt vals x ∧ e = if k.d = .postgres then x else brackets x)

inductive ColSays (k : Ctx) : TColCall → ColOp → Prop
  | ignore : ColSays k .ignore .ignore
  | type (s) : ColSays k (.type s) (.type s)
  | config (f) : ColSays k (.config f) (.config f)
  | generated {fmt vals e} : FormatText k.opq k.inside fmt vals e → ColSays k (.generated fmt vals) (.generated e)
  | stored : ColSays k .stored .stored
  | default {fmt vals e} : DefaultSays k fmt vals e → ColSays k (.default fmt vals) (.default e)
  | autoIncrement : ColSays k .autoIncrement .autoIncrement
  | autoincrement : ColSays k .autoincrement .autoincrement
  | identity : ColSays k .identity .identity
  | alwaysIdentity : ColSays k .alwaysIdentity .alwaysIdentity
  | onUpdateCurrentTimestamp : ColSays k .onUpdateCurrentTimestamp .onUpdateCurrentTimestamp
  | notNull : ColSays k .notNull .notNull
  | primaryKey : ColSays k .primaryKey .primaryKey
  | unique : ColSays k .unique .unique
  | collate (s) : ColSays k (.collate s) (.collate s)

inductive ConsSays (k : Ctx) : TConsCall → ConsOp → Prop
  | config (f) : ConsSays k (.config f) (.config f)
  | references {t fields cols} : t ≠ .nil → t.name ≠ [] → Names fields cols → ConsSays k (.references t fields) (.references t.name cols)
  | onUpdate (a) : ConsSays k (.onUpdate a) (.onUpdate a)
  | onDelete (a) : ConsSays k (.onDelete a) (.onDelete a)
  | deferrable : ConsSays k .deferrable .deferrable
  | initiallyDeferred : ConsSays k .initiallyDeferred .initiallyDeferred
  | where {fmt vals e} : FormatText k.opq k.inside fmt vals e → ConsSays k (.where fmt vals) (.where e)

inductive IdxSays (k : Ctx) : TIdxCall → IdxOp → Prop
  | unique : IdxSays k .unique .unique
  | using (t) : IdxSays k (.using t) (.using t)
  | where {fmt vals e} : FormatText k.opq k.inside fmt vals e → IdxSays k (.where fmt vals) (.where e)
  | include {fields cols} : Names fields cols → IdxSays k (.include fields) (.include cols)
  | config (f) : IdxSays k (.config f) (.config f)

inductive Says (k : Ctx) : TCall → TOp → Prop
  | ignore : Says k .ignore .ignore
  | virtualTable (m args) : Says k (.virtualTable m args) (.virtualTable m args)
  | column {f cs ops} : f ≠ .nil → f.name ≠ [] → AllSay (ColSays k) cs ops → Says k (.column f cs) (.column f.name ops)
  | check {name fmt vals cs e ops} : FormatText k.opq k.inside fmt vals e → AllSay (ConsSays k) cs ops →
      Says k (.check name fmt vals cs) (.constraint .check (some name) [] e ops)
  | unique {name fields cs cols ops} : Names fields cols → AllSay (ConsSays k) cs ops →
      Says k (.key .unique name fields cs) (.constraint .unique name cols [] ops)
  | primaryKey {name fields cs cols ops} : Names fields cols → AllSay (ConsSays k) cs ops →
      Says k (.key .primaryKey name fields cs) (.constraint .primaryKey name cols [] ops)
  | foreignKey {name fields cs cols ops} : Names fields cols → AllSay (ConsSays k) cs ops →
      Says k (.key .foreignKey name fields cs) (.constraint .foreignKey name cols [] ops)
  /-- PostgreSQL only; without a name, which is made of the names of the columns, all fields must have one -/
  | exclude {name type xs cs es ops} : k.d = .postgres → (name = none → ∀ x ∈ xs, x.1 ≠ .nil ∧ x.1.name ≠ []) →
      AllSay (Stands k id) (xs.map Prod.fst) es → AllSay (ConsSays k) cs ops →
      Says k (.exclude name type xs cs) (.exclude name type (es.map Prod.fst) (es.map Prod.snd) (xs.map Prod.snd) ops)
  | index {name fields cs es ops} : AllSay (Stands k brackets) fields es → AllSay (IdxSays k) cs ops →
      Says k (.index name fields cs) (.index name (es.map Prod.fst) (es.map Prod.snd) ops)
  /-- in the text of a trigger, columns are qualified -/
  | trigger {fmt vals sql trg} : FormatText k.opq { d := k.d } fmt vals sql → triggerOp k.d sql = .ok trg → Says k (.trigger fmt vals) (.trigger trg)

/-- No call of `Config` (whose effect is that of the function given), no empty name, no trigger with a blank text. -/
def Simple (k : Ctx) : TCall → Prop
  | .column _ cs => ∀ f, TColCall.config f ∉ cs
  | .check name _ _ cs => name ≠ [] ∧ ∀ f, TConsCall.config f ∉ cs
  | .key _ name _ cs => name ≠ some [] ∧ ∀ f, TConsCall.config f ∉ cs
  | .exclude _ _ _ cs => ∀ f, TConsCall.config f ∉ cs
  | .index _ _ cs => ∀ f, TIdxCall.config f ∉ cs
  | .trigger fmt vals => ∀ sql, FormatText k.opq { d := k.d } fmt vals sql → trim sql ≠ []
  | _ => True

/-- The table with these calls in place of its `DDL` method. -/
def _root_.Ddl.TableSource.saying (src : TableSource) (ops : List TOp) : TableDecl :=
  { schema := src.schema, name := src.name, fields := src.fields, ddl := fun _ => ops }

end Ddl.CallSpec
