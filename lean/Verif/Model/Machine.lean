import Verif.Basic
/-
The effects of rendering: what every `AppendSQL(dialect, buf, args, params, env)` method of the
package does to `buf`, `args` and `params`.

The control flow of those methods never depends on the contents of `buf`, `args` or `params`
(the only reads are the lookups `params[name]` inside the four binding sites), so the model splits
each method into the *sequence of elementary effects* it performs (`Instr`, produced by the functions
of `Verif.Model.Render`) and the execution of those effects (`exec`).
-/
namespace Sq

/-- A plain Go value that is not an SQLAppender (driver argument). `opaque` stands for floats, times,
structs, ... -/
inductive Scalar where
  | nil
  | bool (b : Bool)
  | int (i : Int)
  | str (s : Str)
  | bytes (s : Str)
  | opaque (id : Nat)
  deriving DecidableEq, Repr

/-- An element of the `args` slice: a value, an `sql.NamedArg`, or (inside an exploded slice of slices)
a whole slice. -/
inductive Arg where
  | val (s : Scalar)
  | named (name : Str) (s : Scalar)
  | slice (id : Nat)
  deriving DecidableEq, Repr

/-- What is written to the buffer.  `text` is literal SQL; `ph n` is a numbered placeholder (`$n` on
postgres/sqlite, `@pn` on sqlserver); `anon` is `?`; `ref x` is a named placeholder. -/
inductive Piece where
  | text (s : Str)
  | ph (n : Nat)
  | anon
  | ref (name : Str)
  deriving DecidableEq, Repr

/-- Elementary effects. -/
inductive Instr where
  /-- `buf.WriteString(s)` -/
  | text (s : Str)
  /-- the scalar case of `BufferPrintValue` (fmt.go:152-190); `pn = ""` is also what `explodeSlice`
  does with an element that is not an appender (sq.go:181-189) -/
  | bind (pn : Str) (v : Arg)
  /-- the `sql.NamedArg` case of `BufferPrintValue` after its checks (fmt.go:132-146) -/
  | named (name : Str) (v : Scalar)
  /-- the scalar case of `NamedParam.AppendSQLExclude` (param.go:51-78) -/
  | param (name : Str) (v : Arg)
  /-- `delete(params, name)` for the ordinals of one `BufferPrintf` call (fmt.go:114-116) -/
  | forget (names : List Str)
  deriving DecidableEq, Repr

/-- `map[string][]int`; a missing key and an empty list behave identically at every use. -/
abbrev Params := Str → List Nat

def Params.set (p : Params) (k : Str) (v : List Nat) : Params := fun x => if x = k then v else p x
def Params.erase (p : Params) (ks : List Str) : Params := fun x => if x ∈ ks then [] else p x

/-- buffer, args, params. -/
structure St where
  out : List Piece := []
  args : List Arg := []
  params : Params := fun _ => []

/-- Dialects with numbered placeholders (`case DialectPostgres, DialectSQLite` / `DialectSQLServer`). -/
def numbered : Dialect → Bool
  | .postgres | .sqlite | .sqlserver => true
  | _ => false

/-- Execution of one effect. -/
def exec1 (d : Dialect) (i : Instr) (s : St) : St :=
  match i with
  | .text t => { s with out := s.out ++ [.text t] }
  -- fmt.go:152-190
  | .bind pn v =>
    if numbered d then
      match (if pn = [] then [] else s.params pn) with
      | k :: _ => { s with out := s.out ++ [.ph (k + 1)] }
      | [] =>
        { out := s.out ++ [.ph (s.args.length + 1)]
          args := s.args ++ [v]
          params := if pn = [] then s.params else s.params.set pn [s.args.length] }
    else { s with out := s.out ++ [.anon], args := s.args ++ [v] }
  -- fmt.go:132-146
  | .named name v =>
    match s.params name with
    | k :: _ => { s with out := s.out ++ [.ref name], args := s.args.set k (.named name v) }
    | [] =>
      { out := s.out ++ [.ref name]
        args := s.args ++ [.named name v]
        params := s.params.set name [s.args.length] }
  -- param.go:51-78
  | .param name v =>
    if numbered d then
      match s.params name with
      | k :: _ => { s with out := s.out ++ [.ph (k + 1)], args := s.args.set k v }
      | [] =>
        { out := s.out ++ [.ph (s.args.length + 1)]
          args := s.args ++ [v]
          params := s.params.set name [s.args.length] }
    else
      { out := s.out ++ [.anon]
        args := s.args ++ [v]
        params := s.params.set name (s.params name ++ [s.args.length]) }
  | .forget names => { s with params := s.params.erase names }

def exec (d : Dialect) (is : List Instr) (s : St) : St := is.foldl (fun s i => exec1 d i s) s

/-- Text of a piece (fmt.go:139-146, 165-188; param.go; sq.go:181-188; `strconv.Itoa` is decimal). -/
def Piece.str (d : Dialect) : Piece → Str
  | .text s => s
  | .ph n => (if d = .sqlserver then "@p".toList else "$".toList) ++ (toString n).toList
  | .anon => "?"
  | .ref name =>
    (match d with | .sqlserver => "@".toList | .sqlite => "$".toList | _ => ":".toList) ++ name

/-- `buf.String()`. -/
def bufString (d : Dialect) (ps : List Piece) : Str := (ps.map (Piece.str d)).flatten

/-- How a rendering function ended. -/
inductive Status where
  | ok
  | err (msg : Str)
  | panic
  | hang
  deriving DecidableEq, Repr

/-- Result of a rendering function: the effects performed and how it ended.  When a function fails, the
effects performed before the failure remain (the buffer is shared). -/
structure W where
  code : List Instr := []
  st : Status := .ok
  deriving DecidableEq, Repr

namespace W

def ok : W := {}
def wr (s : Str) : W := { code := [.text s] }
def fail (msg : Str) : W := { st := .err msg }
def panic : W := { st := .panic }
def hang : W := { st := .hang }
def emit (i : Instr) : W := { code := [i] }

/-- Sequencing: `err = a(); if err != nil { return err }; b()`. -/
def seq (a b : W) : W :=
  match a.st with
  | .ok => { code := a.code ++ b.code, st := b.st }
  | _ => a

/-- Calling a function and ignoring its error result. -/
def ignoreErr (a : W) : W :=
  match a.st with
  | .err _ => { a with st := .ok }
  | _ => a

/-- Conditional part. -/
def when (c : Bool) (a : W) : W := if c then a else ok

def ofRes {α : Type} (r : Res α) (f : α → W) : W :=
  match r with
  | .ok a => f a
  | .err e => fail e
  | .panic => panic
  | .hang => hang

end W

infixr:65 " ⨟ " => W.seq

end Sq
