import Verif.Conform.Dsl
import Verif.Model.Tokenize
import Verif.Model.Ident
import Verif.Model.SplitArgs
import Verif.Model.GenName
import Verif.Model.Meta
/-
/repo/ddl/fmt_test.go, ddl_test.go and the caches of view_test.go: the expectations of the Go tests, checked against the model.
Tests of the model, not proofs; no property rests on them.
-/
namespace Conform.DdlFmt
open Sq Conform

def givesOk {α : Type} [DecidableEq α] (r : Res α) (x : α) : Bool := match r with | .ok y => decide (y = x) | _ => false

/-! ### fmt_test.go:10-75 -/
example : givesOk (lexModifiers false c!"") [] = true := by decide +kernel
example : givesOk (lexModifiers false c!"notnull unique index={. unique} name=testing references={inventory onupdate=cascade ondelete=restrict}")
    [(c!"notnull", []), (c!"unique", []), (c!"index", c!". unique"), (c!"name", c!"testing"), (c!"references", c!"inventory onupdate=cascade ondelete=restrict")] = true := by
  decide +kernel
example : givesOk (lexModifiers false c!"cols=a,b,c index={. where={email LIKE '%gmail'}}")
    [(c!"cols", c!"a,b,c"), (c!"index", c!". where={email LIKE '%gmail'}")] = true := by decide +kernel

/-! ### fmt_test.go:77-157 -/
example : givesOk (lexValue false c!"") ([], []) = true := by decide +kernel
example : givesOk (lexValue false c!"1 unique") (c!"1", [(c!"unique", [])]) = true := by decide +kernel
example : givesOk (lexValue false c!"{abcd efg} generated={first_name || ' ' || last_name} virtual name=gg=G")
    (c!"abcd efg", [(c!"generated", c!"first_name || ' ' || last_name"), (c!"virtual", []), (c!"name", c!"gg=G")]) = true := by decide +kernel
example : givesOk (lexValue false c!"inventory cols=1,2,3,4 onupdate=cascade ondelete=restrict")
    (c!"inventory", [(c!"cols", c!"1,2,3,4"), (c!"onupdate", c!"cascade"), (c!"ondelete", c!"restrict")]) = true := by decide +kernel

/-! ### fmt_test.go:159-230 -/
example : (Ddl.popToken .other c!"" == ([], [])) = true := by decide +kernel
example : (Ddl.popTokens .other 3 c!"" == ([], [])) = true := by decide +kernel
example : (Ddl.popTokens .other 4 c!" the\n    quick\r\n\tbrown      fox  jumped over the lazy dog" ==
    ([c!"the", c!"quick", c!"brown", c!"fox"], c!"  jumped over the lazy dog")) = true := by decide +kernel
example : (Ddl.popTokens .mysql 4 c!"CREATE TRIGGER \"a \"\"b c\".`d e f``ghi` AS" ==
    ([c!"CREATE", c!"TRIGGER", c!"\"a \"\"b c\".`d e f``ghi`", c!"AS"], [])) = true := by decide +kernel
example : (Ddl.popTokens .sqlserver 4 c!"CREATE TRIGGER \"a \"\"b c\".[d e f]]ghi] AS" ==
    ([c!"CREATE", c!"TRIGGER", c!"\"a \"\"b c\".[d e f]]ghi]", c!"AS"], [])) = true := by decide +kernel

/-! ### fmt_test.go:232-245 -/
example : (Ddl.splitArgs c!"salary_val IN decimal, alphabets []TEXT='{\"a\", \"b\", \"c\"}', names VARIADIC [][]text = ARRAY[ARRAY['a', 'b'], ARRAY['c', 'd']]" ==
    [c!"salary_val IN decimal", c!" alphabets []TEXT='{\"a\", \"b\", \"c\"}'", c!" names VARIADIC [][]text = ARRAY[ARRAY['a', 'b'], ARRAY['c', 'd']]"]) = true := by
  decide +kernel

/-! ### ddl_test.go -/
example : (Ddl.generateName .primaryKey c!"pm_url_role_capability" [c!"site_id", c!"urlpath", c!"plugin", c!"role", c!"capability"] ==
    c!"pm_url_role_capability_site_id_urlpath_plugin_role_capabil_pkey") = true := by decide +kernel

/-! ### view_test.go:11-65: the caches -/
def idx (n : Str) : Ddl.Index := { indexName := n }
def trg (s t n : Str) : Ddl.Trigger := { tableSchema := s, tableName := t, triggerName := n }

def appendAll {α κ : Type} [DecidableEq κ] [Ddl.Entry α κ] (xs : List α) : List α × Ddl.Cache κ :=
  xs.foldl (fun s x => Ddl.appendItem s.1 s.2 x) ([], [])
def pos {α κ : Type} [DecidableEq κ] [Ddl.Entry α κ] (s : List α × Ddl.Cache κ) (k : κ) : Option Nat := (Ddl.cachedPosition s.1 s.2 k).1

example : (appendAll [idx c!"A", idx c!"B", idx c!"C"]).1.length = 3 := by decide +kernel
example : let s := appendAll (κ := Str) [idx c!"A", idx c!"B", idx c!"C"]
    [c!"A", c!"B", c!"C", [], c!"does not exist"].map (pos s) = [some 0, some 1, some 2, none, none] := by decide +kernel
/-- `view.Indexes[2].IndexName = "D"` -/
example : let s := appendAll (κ := Str) [idx c!"A", idx c!"B", idx c!"C"]
    pos (s.1.set 2 (idx c!"D"), s.2) c!"C" = none := by decide +kernel
example : let xs := [idx c!"A", idx c!"B", idx c!"D"]
    [c!"A", c!"B", c!"D"].map (pos (κ := Str) (xs, Ddl.refreshCache xs [])) = [some 0, some 1, some 2] := by decide +kernel

def vt (s t n : Str) : Ddl.ViewTrigger := ⟨trg s t n⟩
example : let s := appendAll (κ := Str × Str × Str) [vt c!"A" c!"B" c!"C", vt c!"D" c!"E" c!"F", vt c!"G" c!"H" c!"I"]
    [(c!"A", c!"B", c!"C"), (c!"D", c!"E", c!"F"), (c!"G", c!"H", c!"I"), ([], [], []), ([], [], c!"does not exist")].map (pos s) = [some 0, some 1, some 2, none, none] := by
  decide +kernel
/-- `view.triggerCache[[3]string{"D", "E", "F"}] = 999`, `view.Triggers[2].TriggerName = "J"` -/
example : let s := appendAll (κ := Str × Str × Str) [vt c!"A" c!"B" c!"C", vt c!"D" c!"E" c!"F", vt c!"G" c!"H" c!"I"]
    let s' := (s.1.set 2 (vt c!"G" c!"H" c!"J"), s.2.put (c!"D", c!"E", c!"F") 999)
    [(c!"D", c!"E", c!"F"), (c!"G", c!"H", c!"I")].map (pos s') = [none, none] := by decide +kernel
example : let xs := [vt c!"A" c!"B" c!"C", vt c!"D" c!"E" c!"F", vt c!"G" c!"H" c!"J"]
    [(c!"A", c!"B", c!"C"), (c!"D", c!"E", c!"F"), (c!"G", c!"H", c!"J")].map (pos (κ := Str × Str × Str) (xs, Ddl.refreshCache xs [])) = [some 0, some 1, some 2] := by
  decide +kernel
end Conform.DdlFmt
