import Verif.Conform.Dsl
/-
fmt_test.go, sq_test.go.
-/
namespace Conform.Fmt
open Sq Conform

def USERS := tmptable c!"" c!"users"
def USER_ID := tmpfield c!"" c!"user_id"
def NAME := tmpfield c!"" c!"name"
def EMAIL := tmpfield c!"" c!"email"
def AGE := tmpfield c!"" c!"age"

/-! Test_Fprintf (fmt_test.go:11-366) -/
section
example : gives .other (bp .other c!"" []) c!"" [] = true := by decide +kernel
example : gives .other (bp .other c!"SELECT {} = '{{}'" [c!"{}"]) c!"SELECT ? = '{}'" [c!"{}"] = true := by decide +kernel
example : gives .other (bp .other c!"(MAX(AVG({avg1}), AVG({avg2}), SUM({sum})) + {incr}) IN ({slice})"
    [param c!"avg1" USER_ID, param c!"avg2" AGE, param c!"sum" AGE, param c!"incr" 1, param c!"slice" (sl [1, 2, 3])])
    c!"(MAX(AVG(user_id), AVG(age), SUM(age)) + ?) IN (?, ?, ?)" [1, 1, 2, 3] [(c!"incr", [0])] = true := by decide +kernel
example : gives .other (bp .other c!"UPDATE {table}, {table:nameonly} SET {name} = {3:nameonly} WHERE {user_id} = NEW.{user_id:nameonly}"
    [param c!"table" (tmptable c!"public" c!"users"), param c!"name" (tmpfield c!"users" c!"name"), c!"bob", param c!"user_id" (tmpfield c!"users" c!"user_id")])
    c!"UPDATE public.users, users SET users.name = ? WHERE users.user_id = NEW.user_id" [c!"bob"] = true := by decide +kernel

def anonFmt := c!"SELECT {} FROM {} WHERE {} = {} AND {} <> {} AND {} IN ({})"
def anonVals : List Node := [NAME, USERS, AGE, 5, EMAIL, c!"bob@email.com", NAME, sl [c!"tom", c!"dick", c!"harry"]]
def anonArgs : List Arg := [5, c!"bob@email.com", c!"tom", c!"dick", c!"harry"]
example : gives .mysql (bp .mysql anonFmt anonVals) c!"SELECT name FROM users WHERE age = ? AND email <> ? AND name IN (?, ?, ?)" anonArgs = true := by decide +kernel
example : gives .postgres (bp .postgres anonFmt anonVals) c!"SELECT name FROM users WHERE age = $1 AND email <> $2 AND name IN ($3, $4, $5)" anonArgs = true := by decide +kernel
example : gives .sqlite (bp .sqlite anonFmt anonVals) c!"SELECT name FROM users WHERE age = $1 AND email <> $2 AND name IN ($3, $4, $5)" anonArgs = true := by decide +kernel
example : gives .sqlserver (bp .sqlserver anonFmt anonVals) c!"SELECT name FROM users WHERE age = @p1 AND email <> @p2 AND name IN (@p3, @p4, @p5)" anonArgs = true := by decide +kernel

example : gives .mysql (bp .mysql c!"SELECT {} FROM {} WHERE {} = {5} AND {} <> {5} AND {1} IN ({6})" [NAME, USERS, AGE, EMAIL, c!"bob@email.com", sl [c!"tom", c!"dick", c!"harry"]])
    c!"SELECT name FROM users WHERE age = ? AND email <> ? AND name IN (?, ?, ?)" [c!"bob@email.com", c!"bob@email.com", c!"tom", c!"dick", c!"harry"] = true := by decide +kernel
def ordFmt := c!"SELECT {} FROM {} WHERE {} = {5} AND {} <> {5} AND {1} IN ({6}) AND {4} IN ({6})"
def ordVals : List Node := [NAME, USERS, AGE, EMAIL, c!"bob@email.com", sl [c!"tom", c!"dick", c!"harry"]]
def ordArgs : List Arg := [c!"bob@email.com", c!"tom", c!"dick", c!"harry", c!"tom", c!"dick", c!"harry"]
example : gives .postgres (bp .postgres ordFmt ordVals)
    c!"SELECT name FROM users WHERE age = $1 AND email <> $1 AND name IN ($2, $3, $4) AND email IN ($5, $6, $7)" ordArgs [(c!"5", []), (c!"6", []), (c!"1", []), (c!"4", [])] = true := by decide +kernel
example : gives .sqlite (bp .sqlite ordFmt ordVals)
    c!"SELECT name FROM users WHERE age = $1 AND email <> $1 AND name IN ($2, $3, $4) AND email IN ($5, $6, $7)" ordArgs [(c!"5", []), (c!"6", []), (c!"1", []), (c!"4", [])] = true := by decide +kernel
example : gives .sqlserver (bp .sqlserver ordFmt ordVals)
    c!"SELECT name FROM users WHERE age = @p1 AND email <> @p1 AND name IN (@p2, @p3, @p4) AND email IN (@p5, @p6, @p7)" ordArgs [(c!"5", []), (c!"6", []), (c!"1", []), (c!"4", [])] = true := by decide +kernel

def parVals : List Node := [NAME, USERS, AGE, EMAIL, param c!"email" c!"bob@email.com", param c!"age" 5, param c!"names" (sl [c!"tom", c!"dick", c!"harry"])]
example : gives .mysql (bp .mysql c!"SELECT {} FROM {} WHERE {3} = {age} AND {3} > {age} AND {4} <> {email} AND {1} IN ({names})" parVals)
    c!"SELECT name FROM users WHERE age = ? AND age > ? AND email <> ? AND name IN (?, ?, ?)" [5, 5, c!"bob@email.com", c!"tom", c!"dick", c!"harry"]
    [(c!"age", [0, 1]), (c!"email", [2]), (c!"names", [])] = true := by decide +kernel
def parFmt := c!"SELECT {} FROM {} WHERE {3} = {age} AND {3} > {age} AND {4} <> {email} AND {1} IN ({names}) AND {4} IN ({names})"
def parArgs : List Arg := [5, c!"bob@email.com", c!"tom", c!"dick", c!"harry", c!"tom", c!"dick", c!"harry"]
example : gives .postgres (bp .postgres parFmt parVals)
    c!"SELECT name FROM users WHERE age = $1 AND age > $1 AND email <> $2 AND name IN ($3, $4, $5) AND email IN ($6, $7, $8)" parArgs [(c!"age", [0]), (c!"email", [1]), (c!"names", [])] = true := by decide +kernel
example : gives .sqlite (bp .sqlite parFmt parVals)
    c!"SELECT name FROM users WHERE age = $1 AND age > $1 AND email <> $2 AND name IN ($3, $4, $5) AND email IN ($6, $7, $8)" parArgs [(c!"age", [0]), (c!"email", [1]), (c!"names", [])] = true := by decide +kernel
example : gives .sqlserver (bp .sqlserver parFmt parVals)
    c!"SELECT name FROM users WHERE age = @p1 AND age > @p1 AND email <> @p2 AND name IN (@p3, @p4, @p5) AND email IN (@p6, @p7, @p8)" parArgs [(c!"age", [0]), (c!"email", [1]), (c!"names", [])] = true := by decide +kernel

def namFmt := c!"SELECT {} FROM {} WHERE {3} = {age} AND {3} > {age} AND {4} <> {email}"
def namFmt2 := c!"SELECT {} FROM {} WHERE {4} <> {email} AND {3} = {age} AND {3} > {age}"
def namVals : List Node := [NAME, USERS, AGE, EMAIL, named c!"email" c!"bob@email.com", named c!"age" 5]
def mixVals : List Node := [NAME, USERS, AGE, EMAIL, param c!"email" c!"bob@email.com", named c!"age" 5]
def mixVals2 : List Node := [NAME, USERS, AGE, EMAIL, named c!"age" 5, param c!"email" c!"bob@email.com"]
example : fails (bp .mysql namFmt namVals) = true := by decide +kernel
example : fails (bp .postgres namFmt namVals) = true := by decide +kernel
example : gives .sqlite (bp .sqlite namFmt namVals) c!"SELECT name FROM users WHERE age = $age AND age > $age AND email <> $email"
    [argNamed c!"age" 5, argNamed c!"email" c!"bob@email.com"] [(c!"age", [0]), (c!"email", [1])] = true := by decide +kernel
example : gives .sqlite (bp .sqlite namFmt mixVals) c!"SELECT name FROM users WHERE age = $age AND age > $age AND email <> $2"
    [argNamed c!"age" 5, c!"bob@email.com"] [(c!"age", [0]), (c!"email", [1])] = true := by decide +kernel
example : gives .sqlite (bp .sqlite namFmt2 mixVals2) c!"SELECT name FROM users WHERE email <> $1 AND age = $age AND age > $age"
    [c!"bob@email.com", argNamed c!"age" 5] [(c!"age", [1]), (c!"email", [0])] = true := by decide +kernel
example : gives .sqlserver (bp .sqlserver namFmt namVals) c!"SELECT name FROM users WHERE age = @age AND age > @age AND email <> @email"
    [argNamed c!"age" 5, argNamed c!"email" c!"bob@email.com"] [(c!"age", [0]), (c!"email", [1])] = true := by decide +kernel
example : gives .sqlserver (bp .sqlserver namFmt mixVals) c!"SELECT name FROM users WHERE age = @age AND age > @age AND email <> @p2"
    [argNamed c!"age" 5, c!"bob@email.com"] [(c!"age", [0]), (c!"email", [1])] = true := by decide +kernel
example : gives .sqlserver (bp .sqlserver namFmt2 mixVals2) c!"SELECT name FROM users WHERE email <> @p1 AND age = @age AND age > @age"
    [c!"bob@email.com", argNamed c!"age" 5] [(c!"age", [1]), (c!"email", [0])] = true := by decide +kernel
end

/-! Test_Sprintf (fmt_test.go:368-580) -/
section
instance : OfNat Val n := ⟨.int n⟩
instance : Coe Str Val := ⟨fun s => .str s⟩
def vn (n : Str) (v : Val) : Val := .named n v
def spr (d : Dialect) (q : Str) (args : List Val) (want : Str) : Bool := match sprintf d q args with | .ok s => s == want | _ => false

example : spr .other c!"" [] c!"" = true := by decide +kernel
def three : List Val := [c!"normal string", c!"string with 'quotes' must be escaped", c!"string with already escaped ''quotes'' except for 'this'"]
example : spr .other c!"SELECT ?, 'do not \"rebind\" ? ? ?', \"do not 'rebind' ? ? ?\", ?, ?" three
    c!"SELECT 'normal string', 'do not \"rebind\" ? ? ?', \"do not 'rebind' ? ? ?\", 'string with ''quotes'' must be escaped', 'string with already escaped ''quotes'' except for ''this'''" = true := by decide +kernel
example : spr .mysql c!"SELECT ?, 'do not \"rebind\" ? ? ?', `do not \" 'rebind' ? ? ?`, \"do not ``` 'rebind' ? ? ?\", ?, ?" three
    c!"SELECT 'normal string', 'do not \"rebind\" ? ? ?', `do not \" 'rebind' ? ? ?`, \"do not ``` 'rebind' ? ? ?\", 'string with ''quotes'' must be escaped', 'string with already escaped ''quotes'' except for ''this'''" = true := by decide +kernel
example : spr .sqlserver c!"SELECT ?, 'do not [[rebind] @p1 @p2 @name', [do not \" 'rebind' [[[[[@pp]] @p3 @p1], \"do not [[[ 'rebind' [[[[[@pp]] @p3 @p1\", ?, @p3" three
    c!"SELECT 'normal string', 'do not [[rebind] @p1 @p2 @name', [do not \" 'rebind' [[[[[@pp]] @p3 @p1], \"do not [[[ 'rebind' [[[[[@pp]] @p3 @p1\", 'string with ''quotes'' must be escaped', 'string with already escaped ''quotes'' except for ''this'''" = true := by decide +kernel
example : spr .mysql c!"SELECT name FROM users WHERE age = ? AND email <> ? AND name IN (?, ?, ?)" [5, c!"bob@email.com", c!"tom", c!"dick", c!"harry"]
    c!"SELECT name FROM users WHERE age = 5 AND email <> 'bob@email.com' AND name IN ('tom', 'dick', 'harry')" = true := by decide +kernel
example : spr .mysql c!"SELECT name FROM users WHERE age = ? AND email <> '? ? ? ? ''bruh ?' AND name IN (?, ?) ?" [5, c!"tom", c!"dick", c!"harry"]
    c!"SELECT name FROM users WHERE age = 5 AND email <> '? ? ? ? ''bruh ?' AND name IN ('tom', 'dick') 'harry'" = true := by decide +kernel
example : spr .other c!"SELECT name FROM users WHERE age = ? AND email <> '? ? ? ? ''bruh ?' AND name IN (?, ?) ?" [5, c!"tom", c!"dick", c!"harry"]
    c!"SELECT name FROM users WHERE age = 5 AND email <> '? ? ? ? ''bruh ?' AND name IN ('tom', 'dick') 'harry'" = true := by decide +kernel
example : spr .postgres c!"SELECT name FROM users WHERE age = $1 AND email <> $2 AND name IN ($2, $3, $4, $1)" [5, c!"tom", c!"dick", c!"harry"]
    c!"SELECT name FROM users WHERE age = 5 AND email <> 'tom' AND name IN ('tom', 'dick', 'harry', 5)" = true := by decide +kernel
example : spr .postgres c!"SELECT name FROM users WHERE age = $1 AND email <> '$2 $2 $3 $4 ''bruh $1' AND name IN ($2, $3) $4" [5, c!"tom", c!"dick", c!"harry"]
    c!"SELECT name FROM users WHERE age = 5 AND email <> '$2 $2 $3 $4 ''bruh $1' AND name IN ('tom', 'dick') 'harry'" = true := by decide +kernel
example : spr .sqlite c!"SELECT name FROM users WHERE age = $1 AND email <> $2 AND name IN ($2, $3, $4, $1)" [5, c!"tom", c!"dick", c!"harry"]
    c!"SELECT name FROM users WHERE age = 5 AND email <> 'tom' AND name IN ('tom', 'dick', 'harry', 5)" = true := by decide +kernel
example : spr .sqlite c!"SELECT name FROM users WHERE age = $1 AND email <> '$2 $2 $3 $4 ''bruh $1' AND name IN ($2, $3) $4" [5, c!"tom", c!"dick", c!"harry"]
    c!"SELECT name FROM users WHERE age = 5 AND email <> '$2 $2 $3 $4 ''bruh $1' AND name IN ('tom', 'dick') 'harry'" = true := by decide +kernel
example : spr .sqlite c!"SELECT name FROM users WHERE age = $age AND age > $1 AND email <> $email" [vn c!"age" 5, vn c!"email" c!"bob@email.com"]
    c!"SELECT name FROM users WHERE age = 5 AND age > 5 AND email <> 'bob@email.com'" = true := by decide +kernel
example : spr .sqlite c!"SELECT name FROM users WHERE age = ?age AND email <> :email AND name IN (@3, ?4, $5, :5) ? ?" [vn c!"age" 5, vn c!"email" c!"bob@email.com", c!"tom", c!"dick", c!"harry"]
    c!"SELECT name FROM users WHERE age = 5 AND email <> 'bob@email.com' AND name IN ('tom', 'dick', 'harry', 'harry') 5 'bob@email.com'" = true := by decide +kernel
example : spr .sqlserver c!"SELECT name FROM users WHERE age = @p1 AND email <> @P2 AND name IN (@p2, @p3, @p4, @P1)" [5, c!"tom", c!"dick", c!"harry"]
    c!"SELECT name FROM users WHERE age = 5 AND email <> 'tom' AND name IN ('tom', 'dick', 'harry', 5)" = true := by decide +kernel
example : spr .sqlserver c!"SELECT name FROM users WHERE age = @p1 AND email <> '@p2 @p2 @p3 @p4 ''bruh @p1' AND name IN (@p2, @p3) @p4" [5, c!"tom", c!"dick", c!"harry"]
    c!"SELECT name FROM users WHERE age = 5 AND email <> '@p2 @p2 @p3 @p4 ''bruh @p1' AND name IN ('tom', 'dick') 'harry'" = true := by decide +kernel
example : spr .sqlserver c!"SELECT name FROM users WHERE age = @age AND age > @p1 AND email <> @email" [vn c!"age" 5, vn c!"email" c!"bob@email.com"]
    c!"SELECT name FROM users WHERE age = 5 AND age > 5 AND email <> 'bob@email.com'" = true := by decide +kernel
end

/-! Test_explodeSlice (sq_test.go:89-141) -/
example : gives .other (app .other (sl [tmpfield c!"111" c!"aaa", tmpfield c!"222" c!"bbb", tmpfield c!"333" c!"ccc"]) [c!"222"]) c!"\"111\".aaa, bbb, \"333\".ccc" [] = true := by decide +kernel
example : gives .other (app .other (sl [tmptable c!"" c!"111", tmptable c!"" c!"222", tmptable c!"" c!"333"]) [c!"222"]) c!"\"111\", \"222\", \"333\"" [] = true := by decide +kernel

end Conform.Fmt
