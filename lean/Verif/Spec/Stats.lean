import Verif.Model.Stats
/-
Specification: what a log entry should say, in terms of the call, the query and the rows.
-/
namespace Sq.Logging.Spec
open Sq.Logging

/-- The values of a row for a list of destinations: one column each, all convertible. -/
def values {V Raw : Type} (conv : Fetching.Kind → Raw → Option V) (kinds : List Fetching.Kind) (row : List Raw) : Option (List V) :=
  if row.length = kinds.length then (kinds.zip row).mapM fun p => conv p.1 p.2 else none

/-- One line: the name of a field and its value. -/
def line (p : Str × Str) : Str := '\n' :: p.1 ++ ": ".toList ++ p.2

/-- The block of row number `k`. -/
def block (names vals : List Str) (k : Nat) : Str :=
  "\n----[ Row ".toList ++ (toString k).toList ++ " ]----".toList ++ (names.zip vals).flatMap line

/-- The results shown for `rows` (those that were read) of `count` fetched ones: the first `limit`, and how many more there were. -/
def results (limit : Nat) (names : List Str) (rows : List (List Str)) (count : Nat) (complete : Bool) : Str :=
  ((rows.take limit).zipIdx 1).flatMap (fun r => block names r.1 r.2) ++
    if complete ∧ limit < count then "\n...\n(".toList ++ (toString (count - limit)).toList ++ " more rows)".toList else []

/-- A name or value that cannot be written is replaced by the error. -/
def orError : Except Str Str → Str
  | .ok s => s
  | .error e => "%!(error=".toList ++ e ++ ")".toList

/-- A field is shown by its alias, else by its SQL. -/
def label (f : Str × Except Str Str) : Str := if f.1 = [] then orError f.2 else f.1

/-- An outcome without its log entry: what the caller and the database see. -/
structure Effect (Ctx E : Type) where
  count : Nat
  fin : Fetching.Fin
  trace : List E
  sent : Option (Ctx × Str × List Arg)
  opened : Bool
  closed : Bool

def effect {Ctx E : Type} (o : Outcome Ctx E) : Effect Ctx E := ⟨o.count, o.fin, o.trace, o.sent, o.opened, o.closed⟩

/-- What the query types and the modified table should be, for a query of the package. -/
def kind : Verb → Str
  | .select => "SELECT".toList
  | .insert => "INSERT".toList
  | .update => "UPDATE".toList
  | .delete => "DELETE".toList

end Sq.Logging.Spec
