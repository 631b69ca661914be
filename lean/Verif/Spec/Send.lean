import Verif.Model.Send
/-
Specification: what a query is once it has been given the fields that a row mapper reads.
-/
namespace Sq.Spec.Send
open Sq

/-- A query value of the package's own types. -/
def Own : Node → Prop
  | .select .. | .insert .. | .update .. | .delete .. | .customQuery .. | .vquery .. => True
  | _ => False

mutual
/-- It is, and so are its first query, the first query of that, and so on. -/
def OwnFirst : Node → Prop
  | .vquery _ _ qs => OwnHead qs
  | n => Own n
def OwnHead : List Node → Prop
  | [] => True
  | q :: _ => OwnFirst q
end

/-- The third query is the first one with these fields as its SELECT list, or RETURNING list where the dialect has one. -/
inductive WithFields : Node → List Node → Node → Prop
  | select (q : SelMeta) (ctes old don : List Node) (from_ : Node) (joins : List Node) (wh : Node) (gb : List Node) (hv : Node) (ob fs : List Node) :
    WithFields (.select q ctes old don from_ joins wh gb hv ob) fs (.select q ctes fs don from_ joins wh gb hv ob)
  | insert (q : InsMeta) (ctes : List Node) (into : Node) (cols : List Node) (rows : List (List Node)) (sets : List (Node × Node)) (sel : Node)
      (cf : List Node) (cp : Node) (res : List (Node × Node)) (rp : Node) (old fs : List Node) (hd : q.dialect = .postgres ∨ q.dialect = .sqlite) :
    WithFields (.insert q ctes into cols rows sets sel cf cp res rp old) fs (.insert q ctes into cols rows sets sel cf cp res rp fs)
  | update (q : ModMeta) (ctes : List Node) (t from_ : Node) (joins : List Node) (as sets : List (Node × Node)) (wh : Node) (ob old fs : List Node)
      (hd : q.dialect = .postgres ∨ q.dialect = .sqlite) :
    WithFields (.update q ctes t from_ joins as sets wh ob old) fs (.update q ctes t from_ joins as sets wh ob fs)
  | delete (q : ModMeta) (ctes froms : List Node) (us : Node) (joins : List Node) (wh : Node) (ob old fs : List Node)
      (hd : q.dialect = .postgres ∨ q.dialect = .sqlite) :
    WithFields (.delete q ctes froms us joins wh ob old) fs (.delete q ctes froms us joins wh ob fs)

/-- The fields a query selects or returns, where the dialect has RETURNING; of a set operation those of its first query. -/
inductive Selects : Node → List Node → Prop
  | select (q : SelMeta) (ctes fs don : List Node) (from_ : Node) (joins : List Node) (wh : Node) (gb : List Node) (hv : Node) (ob : List Node) :
    Selects (.select q ctes fs don from_ joins wh gb hv ob) fs
  | insert (q : InsMeta) (ctes : List Node) (into : Node) (cols : List Node) (rows : List (List Node)) (sets : List (Node × Node)) (sel : Node)
      (cf : List Node) (cp : Node) (res : List (Node × Node)) (rp : Node) (fs : List Node) (hd : q.dialect = .postgres ∨ q.dialect = .sqlite) :
    Selects (.insert q ctes into cols rows sets sel cf cp res rp fs) fs
  | update (q : ModMeta) (ctes : List Node) (t from_ : Node) (joins : List Node) (as sets : List (Node × Node)) (wh : Node) (ob fs : List Node)
      (hd : q.dialect = .postgres ∨ q.dialect = .sqlite) :
    Selects (.update q ctes t from_ joins as sets wh ob fs) fs
  | delete (q : ModMeta) (ctes froms : List Node) (us : Node) (joins : List Node) (wh : Node) (ob fs : List Node)
      (hd : q.dialect = .postgres ∨ q.dialect = .sqlite) :
    Selects (.delete q ctes froms us joins wh ob fs) fs
  | first (top : Bool) (op : Str) (q : Node) (qs : List Node) (fs : List Node) (h : Selects q fs) : Selects (.vquery top op (q :: qs)) fs
  | none (top : Bool) (op : Str) : Selects (.vquery top op []) []

/-- The query whose existence of rows is asked for: the query itself, or the query with `1` for its fields if it has none. -/
def Asked (q q' : Node) : Prop :=
  (∃ f fs, Selects q (f :: fs) ∧ q' = q) ∨ (Selects q [] ∧ WithFields q [.literal "1".toList []] q')

end Sq.Spec.Send
