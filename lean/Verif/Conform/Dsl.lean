import Verif.Model.Node
import Verif.Model.Sprintf
import Verif.Model.Field
import Verif.Model.Chain
import Verif.Model.Derived
import Verif.Model.Dialect
/-
Conformance of the model with the tests of /repo: the expectations of the Go tests, which were run against the real code by its authors, are checked here against the
model.  These are tests of the model, not proofs; no property rests on them.  This file: notation.
-/
namespace Conform
open Sq Sq.Deriving

open Lean in
/-- A string as a list of characters, which the kernel need not decode. -/
macro:max "c!" s:str : term => do
  let cs : Array (TSyntax `term) := (s.getString.toList.map fun c => (⟨Syntax.mkCharLit c⟩ : TSyntax `term)).toArray
  `((([ $cs,* ] : List Char)))

instance : OfNat Node n := ⟨.scalar (.int n)⟩
instance : Coe Str Node := ⟨fun s => .scalar (.str s)⟩
instance : OfNat Arg n := ⟨.val (.int n)⟩
instance : Coe Str Arg := ⟨fun s => .val (.str s)⟩

def tt : Node := .scalar (.bool true)
def ff : Node := .scalar (.bool false)
def nilv : Node := .scalar .nil
def argTrue : Arg := .val (.bool true)
def argFalse : Arg := .val (.bool false)
def argNil : Arg := .val .nil
/-- `sql.Named(name, v)` -/
def named (n : Str) : Node → Node
  | .scalar v => .namedArg n v
  | _ => .nil
def argNamed (n : Str) : Arg → Arg
  | .val v => .named n v
  | a => a
/-- `sq.Param(name, v)` -/
def param (n : Str) (v : Node) : Node := .param n v
/-- a slice -/
def sl (xs : List Node) : Node := .slice 0 xs
/-- the type `tmpfield` of sq_test.go:27-47 -/
def tmpfield (t n : Str) : Node := .field { tableName := t, name := n } true false []
/-- the type `tmptable` of sq_test.go:11-25 -/
def tmptable (s n : Str) : Node := .table s n [] (fun _ => .none) (fun _ => .nil)

/-- `BufferPrintf(dialect, buf, &args, params, nil, nil, format, values)` -/
def bp (d : Dialect) (fmt : Str) (vals : List Node) : W := bprintf { d := d } fmt ((objs vals).map PV.toObj)

/-- A method of a value, with excluded qualifiers. -/
def app (d : Dialect) (n : Node) (ex : List Str := []) : W := ren n { d := d, ex := ex } []

/-- The text, the args and the positions of the named parameters. -/
def gives (d : Dialect) (w : W) (query : Str) (args : List Arg) (params : List (Str × List Nat) := []) : Bool :=
  let s := exec d w.code {}
  w.st == .ok && bufString d s.out == query && s.args == args && params.all (fun p => s.params p.1 == p.2)

/-- It fails with an error. -/
def fails (w : W) : Bool := match w.st with | .err _ => true | _ => false

/-- It fails with this error. -/
def failsWith (w : W) (msg : Str) : Bool := w.st == .err msg

/-- `ToSQL(dialect, item)`. -/
def sql (d : Dialect) (n : Node) : W :=
  if d = .other ∧ Dial.isQuery n = true then
    match Dial.getDialect (fun _ => .other) n with
    | .ok d' => ren n { d := d' } []
    | _ => { st := .panic }
  else ren n { d := d } []

/-- `AliasFields{...}.AppendSQLExclude`, `JoinTables{...}.AppendSQL`. -/
def appAlias (d : Dialect) (fs : List Node) : W := aliasFieldsAppend { d := d } ((objs fs).map PV.toObj)

def appJoins (d : Dialect) (fs : List Node) : W := joinsAppend { d := d } ((objs fs).map PV.toObj)
def appCtes (d : Dialect) (cs : List Node) : W := ctesAppend { d := d } ((objs cs).map PV.toObj)

/-- The type `FaultySQL` of sq_test.go:53-91. -/
def faulty (k : ExtKind) : Node := .ext k [] [] (fun _ => W.fail c!"sql broke")
/-- Its `GetFetchableFields`. -/
def faultyFields : Ext := fun _ => .err c!"sql broke"

def fieldf (fmt : Str) (vals : List Node) : Node := .field { formats := [("default".toList, fmt)] } false false vals
def cteOf (r : Bool) (name : Str) (cols : List Str) (q : Node) : CTE :=
  match newCTE faultyFields r name cols q with | .ok c => c | _ => ⟨{ sticky := some c!"panic" }, [], .nil⟩
def subOf (a : Str) (q : Node) : Subquery :=
  match newSubquery faultyFields a q with | .ok s => s | _ => { sticky := some c!"panic", «alias» := [], cache := [], fieldNames := [], query := .nil }
def pairOf : Node → Node × Node | .assign l r => (l, r) | n => (n, n)
/-- `Not`: predicate.go:19-23, 120-123. -/
def notOf : Node → Node
  | .cpred a f n v => .cpred a f (!n) v
  | .vpred t a o n ps => .vpred t a o (!n) ps
  | .field fi r n v => .field fi r (!n) v
  | n => n
/-- `As`: custom_field.go:116-119, 148-151, predicate.go:25-28, 125-128, case.go:76-79, 153-156. -/
def asOf (n : Node) (a : Str) : Node := match n with
  | .literal s _ => .literal s a
  | .value v _ => .value v a
  | .cpred _ f n v => .cpred a f n v
  | .vpred t _ o n ps => .vpred t a o n ps
  | .predCases _ c e => .predCases a c e
  | .simpleCases _ e c f => .simpleCases a e c f
  | n => n
/-- `When` and `Else`: case.go:59-74, 138-151. -/
def whenOf (n : Node) (p r : Node) : Node := match n with
  | .predCases a c e => .predCases a (c ++ [(p, r)]) e
  | .simpleCases a e c f => .simpleCases a e (c ++ [(p, r)]) f
  | n => n
def elseOf (n : Node) (r : Node) : Node := match n with
  | .predCases a c _ => .predCases a c r
  | .simpleCases a e c _ => .simpleCases a e c r
  | n => n
def appendOf (n : Node) (ps : List Node) : Node := match n with
  | .vpred t a o neg qs => .vpred t a o neg (qs ++ ps)
  | n => n

end Conform
