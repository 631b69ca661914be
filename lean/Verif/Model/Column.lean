import Verif.Basic
/-
Model of column.go:16-85: the `Column` state machine, generic in the type `F` of fields and `V` of
values (only `GetName()` of a field is used).
-/
namespace Sq

/-- column.go:16-27, insert mode (the fields of update mode are in `columnUpdate`). -/
structure Col (F V : Type) where
  rowStarted : Bool := false
  rowEnded : Bool := false
  firstField : Str := []
  insertColumns : List F := []
  rowValues : List (List V) := []

/-- Append to the last row value (column.go:83-84); `rowValues[last]` panics on an empty slice, which
cannot happen because the row has been started; modelled by leaving `[]` alone. -/
def appendLast {V : Type} (v : V) : List (List V) → List (List V)
  | [] => []
  | [r] => [r ++ [v]]
  | r :: rs => r :: appendLast v rs

/-- column.go:47-85 `Column.Set` in insert mode for a non-nil field. -/
def Col.set {F V : Type} (nm : F → Str) (col : Col F V) (f : F) (v : V) : Col F V :=
  if col.rowStarted = false then
    { col with rowStarted := true, firstField := nm f,
               insertColumns := col.insertColumns ++ [f], rowValues := col.rowValues ++ [[v]] }
  else if nm f = col.firstField then
    { col with rowEnded := true, rowValues := col.rowValues ++ [[v]] }
  else
    { col with insertColumns := if col.rowEnded then col.insertColumns else col.insertColumns ++ [f],
               rowValues := appendLast v col.rowValues }

/-- Running a mapper that makes the given `Set` calls (insert_query.go:43-49, `ColumnInsertResult`). -/
def columnInsert {F V : Type} (nm : F → Str) (calls : List (F × V)) : List F × List (List V) :=
  let c := calls.foldl (fun c p => c.set nm p.1 p.2) ({} : Col F V)
  (c.insertColumns, c.rowValues)

/-- Update mode (column.go:53-56, `ColumnUpdateResult`): one assignment per call. -/
def columnUpdate {F V : Type} (calls : List (F × V)) : List (F × V) :=
  calls.foldl (fun as p => as ++ [p]) []

end Sq
