import Verif.Conform.Dsl
/-
Generated by tools/gotest.py from case_test.go, cte_test.go, subquery_test.go, predicate_test.go, rowvalue_test.go, join_table_test.go, variadic_query_test.go, table_info_test.go of /repo: tests of the model, not proofs.
-/
namespace Conform.Exprs
open Sq Conform Sq.Deriving

/-! case_test.go -/
/-- empty -/
example : fails (app .other (.predCases [] [] .nil) []) = true := by decide +kernel
/-- 1 case -/
example : gives .other (app .other (.predCases [] [((Call.isNull (newField c!"actor_id" { name := c!"actor", «alias» := c!"a" })).node, (.scalar (.int 5)))] .nil) [])
    c!"CASE WHEN a.actor_id IS NULL THEN ? END" [5] = true := by decide +kernel
/-- 2 cases -/
example : gives .other (app .other (asOf (whenOf (.predCases [] [((Call.isNull (newField c!"actor_id" { name := c!"actor", «alias» := c!"a" })).node, (.scalar (.int 5)))] .nil) (Call.eq (newField c!"first_name" { name := c!"actor", «alias» := c!"a" }) (.scalar (.str c!"abc"))).node (newField c!"last_name" { name := c!"actor", «alias» := c!"a" })) c!"alias") [])
    c!"CASE WHEN a.actor_id IS NULL THEN ? WHEN a.first_name = ? THEN a.last_name END" [5, .val (.str c!"abc")] = true := by decide +kernel
/-- 2 cases, fallback -/
example : gives .other (app .other (elseOf (whenOf (.predCases [] [((Call.isNull (newField c!"actor_id" { name := c!"actor", «alias» := c!"a" })).node, (.scalar (.int 5)))] .nil) (Call.eq (newField c!"first_name" { name := c!"actor", «alias» := c!"a" }) (.scalar (.str c!"abc"))).node (newField c!"last_name" { name := c!"actor", «alias» := c!"a" })) (.scalar (.int 6789))) [])
    c!"CASE WHEN a.actor_id IS NULL THEN ? WHEN a.first_name = ? THEN a.last_name ELSE ? END" [5, .val (.str c!"abc"), 6789] = true := by decide +kernel
/-- empty -/
example : fails (app .other (.simpleCases [] .nil [] .nil) []) = true := by decide +kernel
/-- expression only -/
example : fails (app .other (.simpleCases [] (newField c!"actor_id" { name := c!"actor", «alias» := c!"a" }) [] .nil) []) = true := by decide +kernel
/-- expression, 1 case -/
example : gives .other (app .other (whenOf (.simpleCases [] (newField c!"actor_id" { name := c!"actor", «alias» := c!"a" }) [] .nil) (.scalar (.int 99)) (.scalar (.int 97))) [])
    c!"CASE a.actor_id WHEN ? THEN ? END" [99, 97] = true := by decide +kernel
/-- expression, 2 cases -/
example : gives .other (app .other (asOf (whenOf (whenOf (.simpleCases [] (newField c!"actor_id" { name := c!"actor", «alias» := c!"a" }) [] .nil) (.scalar (.int 99)) (.scalar (.int 97))) (newField c!"first_name" { name := c!"actor", «alias» := c!"a" }) (newField c!"last_name" { name := c!"actor", «alias» := c!"a" })) c!"alias") [])
    c!"CASE a.actor_id WHEN ? THEN ? WHEN a.first_name THEN a.last_name END" [99, 97] = true := by decide +kernel
/-- expression, 2 cases, fallback -/
example : gives .other (app .other (elseOf (whenOf (whenOf (.simpleCases [] (newField c!"actor_id" { name := c!"actor", «alias» := c!"a" }) [] .nil) (.scalar (.int 99)) (.scalar (.int 97))) (newField c!"first_name" { name := c!"actor", «alias» := c!"a" }) (newField c!"last_name" { name := c!"actor", «alias» := c!"a" })) (.scalar (.str c!"abcde"))) [])
    c!"CASE a.actor_id WHEN ? THEN ? WHEN a.first_name THEN a.last_name ELSE ? END" [99, 97, .val (.str c!"abcde")] = true := by decide +kernel
/-! cte_test.go -/
/-- basic CTE -/
example : gives .postgres (sql .other (Chain.select ⟨.postgres, none⟩ (.selectWith [(((cteOf false c!"cte_rental" [] (Chain.select ⟨.postgres, none⟩ (.select [(newField c!"staff_id" { name := c!"rental", «alias» := c!"" }), (modify (.as_ c!"rental_count") (Conform.fieldf c!"COUNT({})" [(newField c!"rental_id" { name := c!"rental", «alias» := c!"" })]))]) [.from (.table c!"" c!"rental" c!"" (fun _ => .none) (fun _ => .nil)), .groupBy [(newField c!"staff_id" { name := c!"rental", «alias» := c!"" })]]).node)).as c!"cte").node]) [.select [(newField c!"staff_id" { name := c!"staff", «alias» := c!"s" }), (newField c!"first_name" { name := c!"staff", «alias» := c!"s" }), (newField c!"last_name" { name := c!"staff", «alias» := c!"s" }), ((((cteOf false c!"cte_rental" [] (Chain.select ⟨.postgres, none⟩ (.select [(newField c!"staff_id" { name := c!"rental", «alias» := c!"" }), (modify (.as_ c!"rental_count") (Conform.fieldf c!"COUNT({})" [(newField c!"rental_id" { name := c!"rental", «alias» := c!"" })]))]) [.from (.table c!"" c!"rental" c!"" (fun _ => .none) (fun _ => .nil)), .groupBy [(newField c!"staff_id" { name := c!"rental", «alias» := c!"" })]]).node)).as c!"cte").field c!"rental_count")], .from (.table c!"" c!"staff" c!"s" (fun _ => .none) (fun _ => .nil)), .join .join (((cteOf false c!"cte_rental" [] (Chain.select ⟨.postgres, none⟩ (.select [(newField c!"staff_id" { name := c!"rental", «alias» := c!"" }), (modify (.as_ c!"rental_count") (Conform.fieldf c!"COUNT({})" [(newField c!"rental_id" { name := c!"rental", «alias» := c!"" })]))]) [.from (.table c!"" c!"rental" c!"" (fun _ => .none) (fun _ => .nil)), .groupBy [(newField c!"staff_id" { name := c!"rental", «alias» := c!"" })]]).node)).as c!"cte").node [(Call.eq ((((cteOf false c!"cte_rental" [] (Chain.select ⟨.postgres, none⟩ (.select [(newField c!"staff_id" { name := c!"rental", «alias» := c!"" }), (modify (.as_ c!"rental_count") (Conform.fieldf c!"COUNT({})" [(newField c!"rental_id" { name := c!"rental", «alias» := c!"" })]))]) [.from (.table c!"" c!"rental" c!"" (fun _ => .none) (fun _ => .nil)), .groupBy [(newField c!"staff_id" { name := c!"rental", «alias» := c!"" })]]).node)).as c!"cte").field c!"staff_id") (newField c!"staff_id" { name := c!"staff", «alias» := c!"s" })).node]]).node)
    c!"WITH cte_rental AS (SELECT rental.staff_id, COUNT(rental.rental_id) AS rental_count FROM rental GROUP BY rental.staff_id) SELECT s.staff_id, s.first_name, s.last_name, cte.rental_count FROM staff AS s JOIN cte_rental AS cte ON cte.staff_id = s.staff_id" [] = true := by decide +kernel
/-- recursive CTE -/
example : gives .sqlite (sql .other (Chain.select ⟨.sqlite, none⟩ (.selectWith [((cteOf false c!"cte_1" [] (Chain.select ⟨.sqlite, none⟩ (.select [(asOf (.value (.scalar (.int 1)) []) c!"some_number")]) []).node)).node, ((cteOf true c!"tens" [c!"n"] (Dial.unionAll [(Dial.queryf c!"SELECT {ten}" [(param c!"ten" (.scalar (.int 10)))]), (Dial.queryf c!"SELECT tens.n FROM tens WHERE tens.n + {ten} <= {hundred}" [(param c!"ten" (.scalar (.int 10))), (param c!"hundred" (.scalar (.int 100)))])]))).node]) [.select [(Conform.fieldf c!"n" [])], .from (.customTable c!"tens" [])]).node)
    c!"WITH RECURSIVE cte_1 AS (SELECT $1 AS some_number), tens (n) AS (SELECT $2 UNION ALL SELECT tens.n FROM tens WHERE tens.n + $2 <= $3) SELECT n FROM tens" [1, 10, 100] [(c!"ten", [1]), (c!"hundred", [2])] = true := by decide +kernel
/-- CTE no name -/
example : fails (sql .other (Chain.select ⟨.sqlite, none⟩ (.selectWith [((cteOf false c!"" [] .nil)).node]) [.select [(.literal c!"1" [])]]).node) = true := by decide +kernel
/-- CTE nil query -/
example : fails (sql .other (Chain.select ⟨.sqlite, none⟩ (.selectWith [((cteOf false c!"cte" [] .nil)).node]) [.select [(.literal c!"1" [])]]).node) = true := by decide +kernel
/-- CTE query GetFetchableFields error -/
example : fails (sql .other (Chain.select ⟨.sqlite, none⟩ (.selectWith [((cteOf false c!"cte" [] (Dial.queryf c!"SELECT 1" []))).node]) [.select [(.literal c!"1" [])]]).node) = true := by decide +kernel
/-- CTE query no fields -/
example : fails (sql .other (Chain.select ⟨.sqlite, none⟩ (.selectWith [((cteOf false c!"cte" [] (Chain.select ⟨.sqlite, none⟩ (.select []) []).node)).node]) [.select [(.literal c!"1" [])]]).node) = true := by decide +kernel
/-- CTE query field no name -/
example : fails (sql .other (Chain.select ⟨.sqlite, none⟩ (.selectWith [((cteOf false c!"cte" [] (Chain.select ⟨.sqlite, none⟩ (.select [(Conform.fieldf c!"bruh" [])]) []).node)).node]) [.select [(.literal c!"1" [])]]).node) = true := by decide +kernel
/-- empty CTE -/
example : fails (sql .other ((⟨{ name := [] }, [], .nil⟩ : CTE)).node) = true := by decide +kernel
/-- aliased CTE with stickyErr -/
example : fails (sql .other (((cteOf false c!"" [] .nil)).as c!"aliased_cte").node) = true := by decide +kernel
/-- aliased CTE with no name -/
example : fails (sql .other (((⟨{ name := [] }, [], .nil⟩ : CTE)).as c!"aliased_cte").node) = true := by decide +kernel
/-- aliased CTE with no query -/
example : fails (sql .other (((⟨{ name := c!"cte" }, [], .nil⟩ : CTE)).as c!"aliased_cte").node) = true := by decide +kernel
/-- aliased CTE with no fields -/
example : fails (sql .other (((⟨{ name := c!"cte" }, [], (Chain.select ⟨.sqlite, none⟩ (.select []) []).node⟩ : CTE)).as c!"aliased_cte").node) = true := by decide +kernel
/-- CTEs, some with no name -/
example : fails (appCtes .other [((cteOf false c!"cte" [] (Chain.select ⟨.sqlite, none⟩ (.select [(.literal c!"1" [])]) []).node)).node, ((⟨{ name := [] }, [], .nil⟩ : CTE)).node, ((cteOf false c!"cte_2" [] (Chain.select ⟨.sqlite, none⟩ (.select [(.literal c!"1" [])]) []).node)).node]) = true := by decide +kernel
/-- CTEs, some with no query -/
example : fails (appCtes .other [((cteOf false c!"cte" [] (Chain.select ⟨.sqlite, none⟩ (.select [(.literal c!"1" [])]) []).node)).node, ((⟨{ name := c!"cte" }, [], .nil⟩ : CTE)).node, ((cteOf false c!"cte_2" [] (Chain.select ⟨.sqlite, none⟩ (.select [(.literal c!"1" [])]) []).node)).node]) = true := by decide +kernel
/-- CTEs, variadic query returns error -/
example : failsWith (appCtes .other [((cteOf false c!"cte" [] (Chain.select ⟨.sqlite, none⟩ (.select [(.literal c!"1" [])]) []).node)).node, ((⟨{ name := c!"faulty_cte" }, [], (Dial.union [(faulty .query)])⟩ : CTE)).node, ((cteOf false c!"cte_2" [] (Chain.select ⟨.sqlite, none⟩ (.select [(.literal c!"1" [])]) []).node)).node]) c!"sql broke" = true := by decide +kernel
/-- CTEs, query returns error -/
example : failsWith (appCtes .other [((cteOf false c!"cte" [] (Chain.select ⟨.sqlite, none⟩ (.select [(.literal c!"1" [])]) []).node)).node, ((⟨{ name := c!"faulty_cte" }, [], (faulty .query)⟩ : CTE)).node, ((cteOf false c!"cte_2" [] (Chain.select ⟨.sqlite, none⟩ (.select [(.literal c!"1" [])]) []).node)).node]) c!"sql broke" = true := by decide +kernel
/-- propagate CTE stickyErr -/
example : fails (app .other (((cteOf false c!"cte" [] .nil)).field c!"field") []) = true := by decide +kernel
/-- CTE field not exists -/
example : fails (app .other ((((cteOf false c!"cte" [c!"field"] (Dial.queryf c!"SELECT 1" []))).as c!"cte2").field c!"nonexistent_field") []) = true := by decide +kernel
/-- CTEField alias -/
example : gives .other (app .other (modify (.as_ c!"f") (((cteOf false c!"cte" [c!"field"] (Dial.queryf c!"SELECT 1" []))).field c!"field")) [])
    c!"cte.field" [] = true := by decide +kernel
/-- CTEField ASC NULLS LAST -/
example : gives .other (app .other (modify (.nullsLast) (modify (.asc) (((cteOf false c!"cte" [c!"field"] (Dial.queryf c!"SELECT 1" []))).field c!"field"))) [])
    c!"cte.field ASC NULLS LAST" [] = true := by decide +kernel
/-- CTEField DESC NULLS FIRST -/
example : gives .other (app .other (modify (.nullsFirst) (modify (.desc) (((cteOf false c!"cte" [c!"field"] (Dial.queryf c!"SELECT 1" []))).field c!"field"))) [])
    c!"cte.field DESC NULLS FIRST" [] = true := by decide +kernel
/-- CTEField IS NULL -/
example : gives .other (app .other (Call.isNull (((cteOf false c!"cte" [c!"field"] (Dial.queryf c!"SELECT 1" []))).field c!"field")).node [])
    c!"cte.field IS NULL" [] = true := by decide +kernel
/-- CTEField IS NOT NULL -/
example : gives .other (app .other (Call.isNotNull (((cteOf false c!"cte" [c!"field"] (Dial.queryf c!"SELECT 1" []))).field c!"field")).node [])
    c!"cte.field IS NOT NULL" [] = true := by decide +kernel
/-- CTEField IN (slice) -/
example : gives .other (app .other (Call.in_ (((cteOf false c!"cte" [c!"field"] (Dial.queryf c!"SELECT 1" []))).field c!"field") (sl [(.scalar (.int 5)), (.scalar (.int 6)), (.scalar (.int 7))])).node [])
    c!"cte.field IN (?, ?, ?)" [5, 6, 7] = true := by decide +kernel
/-- CTEField Eq -/
example : gives .other (app .other (Call.eq (((cteOf false c!"cte" [c!"field"] (Dial.queryf c!"SELECT 1" []))).field c!"field") (.scalar (.int 123))).node [])
    c!"cte.field = ?" [123] = true := by decide +kernel
/-- CTEField Ne -/
example : gives .other (app .other (Call.ne (((cteOf false c!"cte" [c!"field"] (Dial.queryf c!"SELECT 1" []))).field c!"field") (.scalar (.int 123))).node [])
    c!"cte.field <> ?" [123] = true := by decide +kernel
/-- CTEField Gt -/
example : gives .other (app .other (Call.gt (((cteOf false c!"cte" [c!"field"] (Dial.queryf c!"SELECT 1" []))).field c!"field") (.scalar (.int 123))).node [])
    c!"cte.field > ?" [123] = true := by decide +kernel
/-- CTEField Ge -/
example : gives .other (app .other (Call.ge (((cteOf false c!"cte" [c!"field"] (Dial.queryf c!"SELECT 1" []))).field c!"field") (.scalar (.int 123))).node [])
    c!"cte.field >= ?" [123] = true := by decide +kernel
/-- CTEField Lt -/
example : gives .other (app .other (Call.lt (((cteOf false c!"cte" [c!"field"] (Dial.queryf c!"SELECT 1" []))).field c!"field") (.scalar (.int 123))).node [])
    c!"cte.field < ?" [123] = true := by decide +kernel
/-- CTEField Le -/
example : gives .other (app .other (Call.le (((cteOf false c!"cte" [c!"field"] (Dial.queryf c!"SELECT 1" []))).field c!"field") (.scalar (.int 123))).node [])
    c!"cte.field <= ?" [123] = true := by decide +kernel
/-! subquery_test.go -/
/-- basic subquery -/
example : gives .postgres (sql .other (Chain.select ⟨.postgres, none⟩ (.select [(newField c!"staff_id" { name := c!"staff", «alias» := c!"s" }), (newField c!"first_name" { name := c!"staff", «alias» := c!"s" }), (newField c!"last_name" { name := c!"staff", «alias» := c!"s" }), (((subOf c!"subquery_rental" (Chain.select ⟨.postgres, none⟩ (.select [(newField c!"staff_id" { name := c!"rental", «alias» := c!"" }), (modify (.as_ c!"rental_count") (Conform.fieldf c!"COUNT({})" [(newField c!"rental_id" { name := c!"rental", «alias» := c!"" })]))]) [.from (.table c!"" c!"rental" c!"" (fun _ => .none) (fun _ => .nil)), .groupBy [(newField c!"staff_id" { name := c!"rental", «alias» := c!"" })]]).node)).field c!"rental_count")]) [.from (.table c!"" c!"staff" c!"s" (fun _ => .none) (fun _ => .nil)), .join .join ((subOf c!"subquery_rental" (Chain.select ⟨.postgres, none⟩ (.select [(newField c!"staff_id" { name := c!"rental", «alias» := c!"" }), (modify (.as_ c!"rental_count") (Conform.fieldf c!"COUNT({})" [(newField c!"rental_id" { name := c!"rental", «alias» := c!"" })]))]) [.from (.table c!"" c!"rental" c!"" (fun _ => .none) (fun _ => .nil)), .groupBy [(newField c!"staff_id" { name := c!"rental", «alias» := c!"" })]]).node)).node [(Call.eq (((subOf c!"subquery_rental" (Chain.select ⟨.postgres, none⟩ (.select [(newField c!"staff_id" { name := c!"rental", «alias» := c!"" }), (modify (.as_ c!"rental_count") (Conform.fieldf c!"COUNT({})" [(newField c!"rental_id" { name := c!"rental", «alias» := c!"" })]))]) [.from (.table c!"" c!"rental" c!"" (fun _ => .none) (fun _ => .nil)), .groupBy [(newField c!"staff_id" { name := c!"rental", «alias» := c!"" })]]).node)).field c!"staff_id") (newField c!"staff_id" { name := c!"staff", «alias» := c!"s" })).node]]).node)
    c!"SELECT s.staff_id, s.first_name, s.last_name, subquery_rental.rental_count FROM staff AS s JOIN (SELECT rental.staff_id, COUNT(rental.rental_id) AS rental_count FROM rental GROUP BY rental.staff_id) AS subquery_rental ON subquery_rental.staff_id = s.staff_id" [] = true := by decide +kernel
/-- subquery nil query -/
example : fails (sql .other (Chain.select ⟨.sqlite, none⟩ (.from ((subOf c!"subquery" .nil)).node) [.select [(.literal c!"*" [])]]).node) = true := by decide +kernel
/-- subquery query GetFetchableFields error -/
example : fails (sql .other (Chain.select ⟨.sqlite, none⟩ (.from ((subOf c!"subquery" (Dial.queryf c!"SELECT 1" []))).node) [.select [(.literal c!"*" [])]]).node) = true := by decide +kernel
/-- subquery query no fields -/
example : fails (sql .other (Chain.select ⟨.sqlite, none⟩ (.from ((subOf c!"subquery" (Chain.select ⟨.mysql, none⟩ (.select []) []).node)).node) [.select [(.literal c!"*" [])]]).node) = true := by decide +kernel
/-- subquery query field no name -/
example : fails (sql .other (Chain.select ⟨.sqlite, none⟩ (.from ((subOf c!"subquery" (Chain.select ⟨.mysql, none⟩ (.select [(.value (.scalar (.int 1)) [])]) []).node)).node) [.select [(.literal c!"*" [])]]).node) = true := by decide +kernel
/-- subquery query faulty sql -/
example : failsWith (sql .other (Chain.select ⟨.sqlite, none⟩ (.from ((subOf c!"subquery" (Chain.select ⟨.mysql, none⟩ (.select [(asOf (.value (.scalar (.int 1)) []) c!"field")]) [.where [(faulty .field)]]).node)).node) [.select [(.literal c!"*" [])]]).node) c!"sql broke" = true := by decide +kernel
/-- subquery no alias, dialect == postgres || dialect == mysql -/
example : fails (sql .other (Chain.select ⟨.postgres, none⟩ (.from ((subOf c!"" (Chain.select ⟨.postgres, none⟩ (.select [(asOf (.value (.scalar (.int 1)) []) c!"n")]) []).node)).node) [.select [(.literal c!"*" [])]]).node) = true := by decide +kernel
/-- subquery no alias, dialect == postgres || dialect == mysql -/
example : fails (app .postgres (((subOf c!"" (Chain.select ⟨.postgres, none⟩ (.select [(asOf (.value (.scalar (.int 1)) []) c!"field")]) []).node)).field c!"field") []) = true := by decide +kernel
/-- propagate Subquery stickyErr -/
example : fails (app .other (((subOf c!"subquery" .nil)).field c!"field") []) = true := by decide +kernel
/-- Subquery field not exists -/
example : fails (app .other (((subOf c!"subquery" (Chain.select ⟨.mysql, none⟩ (.select [(asOf (.value (.scalar (.int 1)) []) c!"field")]) []).node)).field c!"nonexistent_field") []) = true := by decide +kernel
/-- SubqueryField alias -/
example : gives .other (app .other (modify (.as_ c!"f") (((subOf c!"subquery" (Chain.select ⟨.mysql, none⟩ (.select [(asOf (.value (.scalar (.int 1)) []) c!"field")]) []).node)).field c!"field")) [])
    c!"subquery.field" [] = true := by decide +kernel
/-- SubqueryField ASC NULLS LAST -/
example : gives .other (app .other (modify (.nullsLast) (modify (.asc) (((subOf c!"subquery" (Chain.select ⟨.mysql, none⟩ (.select [(asOf (.value (.scalar (.int 1)) []) c!"field")]) []).node)).field c!"field"))) [])
    c!"subquery.field ASC NULLS LAST" [] = true := by decide +kernel
/-- SubqueryField DESC NULLS FIRST -/
example : gives .other (app .other (modify (.nullsFirst) (modify (.desc) (((subOf c!"subquery" (Chain.select ⟨.mysql, none⟩ (.select [(asOf (.value (.scalar (.int 1)) []) c!"field")]) []).node)).field c!"field"))) [])
    c!"subquery.field DESC NULLS FIRST" [] = true := by decide +kernel
/-- SubqueryField IS NULL -/
example : gives .other (app .other (Call.isNull (((subOf c!"subquery" (Chain.select ⟨.mysql, none⟩ (.select [(asOf (.value (.scalar (.int 1)) []) c!"field")]) []).node)).field c!"field")).node [])
    c!"subquery.field IS NULL" [] = true := by decide +kernel
/-- SubqueryField IS NOT NULL -/
example : gives .other (app .other (Call.isNotNull (((subOf c!"subquery" (Chain.select ⟨.mysql, none⟩ (.select [(asOf (.value (.scalar (.int 1)) []) c!"field")]) []).node)).field c!"field")).node [])
    c!"subquery.field IS NOT NULL" [] = true := by decide +kernel
/-- SubqueryField IN (slice) -/
example : gives .other (app .other (Call.in_ (((subOf c!"subquery" (Chain.select ⟨.mysql, none⟩ (.select [(asOf (.value (.scalar (.int 1)) []) c!"field")]) []).node)).field c!"field") (sl [(.scalar (.int 5)), (.scalar (.int 6)), (.scalar (.int 7))])).node [])
    c!"subquery.field IN (?, ?, ?)" [5, 6, 7] = true := by decide +kernel
/-- SubqueryField Eq -/
example : gives .other (app .other (Call.eq (((subOf c!"subquery" (Chain.select ⟨.mysql, none⟩ (.select [(asOf (.value (.scalar (.int 1)) []) c!"field")]) []).node)).field c!"field") (.scalar (.int 123))).node [])
    c!"subquery.field = ?" [123] = true := by decide +kernel
/-- SubqueryField Ne -/
example : gives .other (app .other (Call.ne (((subOf c!"subquery" (Chain.select ⟨.mysql, none⟩ (.select [(asOf (.value (.scalar (.int 1)) []) c!"field")]) []).node)).field c!"field") (.scalar (.int 123))).node [])
    c!"subquery.field <> ?" [123] = true := by decide +kernel
/-- SubqueryField Gt -/
example : gives .other (app .other (Call.gt (((subOf c!"subquery" (Chain.select ⟨.mysql, none⟩ (.select [(asOf (.value (.scalar (.int 1)) []) c!"field")]) []).node)).field c!"field") (.scalar (.int 123))).node [])
    c!"subquery.field > ?" [123] = true := by decide +kernel
/-- SubqueryField Ge -/
example : gives .other (app .other (Call.ge (((subOf c!"subquery" (Chain.select ⟨.mysql, none⟩ (.select [(asOf (.value (.scalar (.int 1)) []) c!"field")]) []).node)).field c!"field") (.scalar (.int 123))).node [])
    c!"subquery.field >= ?" [123] = true := by decide +kernel
/-- SubqueryField Lt -/
example : gives .other (app .other (Call.lt (((subOf c!"subquery" (Chain.select ⟨.mysql, none⟩ (.select [(asOf (.value (.scalar (.int 1)) []) c!"field")]) []).node)).field c!"field") (.scalar (.int 123))).node [])
    c!"subquery.field < ?" [123] = true := by decide +kernel
/-- SubqueryField Le -/
example : gives .other (app .other (Call.le (((subOf c!"subquery" (Chain.select ⟨.mysql, none⟩ (.select [(asOf (.value (.scalar (.int 1)) []) c!"field")]) []).node)).field c!"field") (.scalar (.int 123))).node [])
    c!"subquery.field <= ?" [123] = true := by decide +kernel
/-! predicate_test.go -/
/-- empty -/
example : gives .other (app .other (.vpred false [] false false []) [])
    c!"" [] = true := by decide +kernel
/-- nil predicate -/
example : fails (app .other (.vpred false [] false false [.nil]) []) = true := by decide +kernel
/-- 1 predicate -/
example : gives .other (app .other (.vpred false [] false false [(notOf (Call.eq (tmpfield c!"" c!"name") (.scalar (.int 21))).node)]) [])
    c!"NOT name = ?" [21] = true := by decide +kernel
/-- nested variadic predicate -/
example : gives .other (app .other (.vpred false [] false false [(.vpred false [] false false [(.vpred false [] false false [(.vpred false [] false false [(Call.eq (tmpfield c!"" c!"name") (.scalar (.int 21))).node])])])]) [])
    c!"(name = ?)" [21] = true := by decide +kernel
/-- multiple predicates -/
example : gives .other (app .other (.vpred false [] true false [(Call.isNull (tmpfield c!"" c!"name")).node, (Call.isNotNull (tmpfield c!"" c!"name")).node, (notOf (Call.eq (tmpfield c!"" c!"age") (tmpfield c!"" c!"age")).node), (notOf (.vpred false [] false false [(Call.eq (tmpfield c!"" c!"age") (tmpfield c!"" c!"age")).node])), (notOf (.vpred false [] false false [(Call.eq (tmpfield c!"" c!"user_id") (.scalar (.int 1))).node, (Call.ne (tmpfield c!"" c!"user_id") (.scalar (.int 2))).node, (Call.gt (tmpfield c!"" c!"user_id") (.scalar (.int 3))).node, (Call.ge (tmpfield c!"" c!"user_id") (.scalar (.int 4))).node, (Call.lt (tmpfield c!"" c!"user_id") (.scalar (.int 5))).node, (Call.le (tmpfield c!"" c!"user_id") (.scalar (.int 6))).node]))]) [])
    c!"(name IS NULL OR name IS NOT NULL OR NOT age = age OR NOT age = age OR NOT (user_id = ? AND user_id <> ? AND user_id > ? AND user_id >= ? AND user_id < ? AND user_id <= ?))" [1, 2, 3, 4, 5, 6] = true := by decide +kernel
/-- multiple predicates with nil -/
example : fails (app .other (.vpred false [] true false [.nil, (notOf (.vpred false [] false false [.nil, .nil]))]) []) = true := by decide +kernel
/-! rowvalue_test.go -/
/-- rowvalue -/
example : gives .other (app .other (.rowValue [(.scalar (.int 1)), (.scalar (.int 2)), (tmpfield c!"" c!"user_id"), (.scalar (.int 4))]) [])
    c!"(?, ?, user_id, ?)" [1, 2, 4] = true := by decide +kernel
/-- rowvalues -/
example : gives .other (app .other (.rowValues [[(.scalar (.int 1)), (.scalar (.int 2)), (tmpfield c!"" c!"user_id"), (.scalar (.int 4))], [(tmpfield c!"" c!"name"), (.scalar (.int 2)), (.scalar (.int 3)), (.scalar (.int 4))], [(.scalar (.int 1)), (.scalar (.int 2)), (.scalar (.int 3)), (tmpfield c!"" c!"age")]]) [])
    c!"(?, ?, user_id, ?), (name, ?, ?, ?), (?, ?, ?, age)" [1, 2, 4, 2, 3, 4, 1, 2, 3] = true := by decide +kernel
/-! join_table_test.go -/
/-- join -/
example : gives .other (app .other (Chain.joinTable .join (.table c!"" c!"users" c!"" (fun _ => .none) (fun _ => .nil)) [(Call.eq (.scalar (.int 1)) (.scalar (.int 1))).node]) [])
    c!"JOIN users ON ? = ?" [1, 1] = true := by decide +kernel
/-- left join -/
example : gives .other (app .other (Chain.joinTable .leftJoin (.table c!"" c!"users" c!"" (fun _ => .none) (fun _ => .nil)) [(Call.eq (.scalar (.int 1)) (.scalar (.int 1))).node]) [])
    c!"LEFT JOIN users ON ? = ?" [1, 1] = true := by decide +kernel
/-- right join -/
example : gives .other (app .other (Chain.joinTable .rightJoin (.table c!"" c!"users" c!"" (fun _ => .none) (fun _ => .nil)) [(Call.eq (.scalar (.int 1)) (.scalar (.int 1))).node]) [])
    c!"RIGHT JOIN users ON ? = ?" [1, 1] = true := by decide +kernel
/-- full join -/
example : gives .other (app .other (Chain.joinTable .fullJoin (.table c!"" c!"users" c!"" (fun _ => .none) (fun _ => .nil)) [(Call.eq (.scalar (.int 1)) (.scalar (.int 1))).node]) [])
    c!"FULL JOIN users ON ? = ?" [1, 1] = true := by decide +kernel
/-- cross join -/
example : gives .other (app .other (Chain.crossJoin (.table c!"" c!"users" c!"" (fun _ => .none) (fun _ => .nil))) [])
    c!"CROSS JOIN users" [] = true := by decide +kernel
/-- custom join -/
example : gives .other (app .other (Chain.joinTable (.customJoin c!"CROSS JOIN LATERAL") (.customTable c!"unnest({}) WITH ORDINALITY AS uhh(email, seqno)" [(newField c!"email" { name := c!"users", «alias» := c!"" })]) []) [])
    c!"CROSS JOIN LATERAL unnest(users.email) WITH ORDINALITY AS uhh(email, seqno)" [] = true := by decide +kernel
/-- all joins -/
example : gives .other (appJoins .other [(Chain.joinTable .join (.table c!"" c!"users" c!"" (fun _ => .none) (fun _ => .nil)) [(Call.eq (.scalar (.int 1)) (.scalar (.int 1))).node]), (Chain.joinTable .leftJoin (.table c!"" c!"users" c!"" (fun _ => .none) (fun _ => .nil)) [(Call.eq (.scalar (.int 1)) (.scalar (.int 1))).node]), (Chain.joinTable .rightJoin (.table c!"" c!"users" c!"" (fun _ => .none) (fun _ => .nil)) [(Call.eq (.scalar (.int 1)) (.scalar (.int 1))).node]), (Chain.joinTable .fullJoin (.table c!"" c!"users" c!"" (fun _ => .none) (fun _ => .nil)) [(Call.eq (.scalar (.int 1)) (.scalar (.int 1))).node]), (Chain.crossJoin (.table c!"" c!"users" c!"" (fun _ => .none) (fun _ => .nil))), (Chain.joinTable (.customJoin c!"CROSS JOIN LATERAL") (.customTable c!"unnest({}) WITH ORDINALITY AS uhh(email, seqno)" [(newField c!"email" { name := c!"users", «alias» := c!"" })]) [])])
    c!"JOIN users ON ? = ? LEFT JOIN users ON ? = ? RIGHT JOIN users ON ? = ? FULL JOIN users ON ? = ? CROSS JOIN users CROSS JOIN LATERAL unnest(users.email) WITH ORDINALITY AS uhh(email, seqno)" [1, 1, 1, 1, 1, 1, 1, 1] = true := by decide +kernel
/-! variadic_query_test.go -/
/-- empty -/
example : gives .other (app .other (.vquery false [] []) [])
    c!"" [] = true := by decide +kernel
/-- nested single variadic queries -/
example : gives .other (app .other (Dial.union [(Dial.unionAll [(Dial.intersect [(Dial.intersectAll [(Dial.except [(Dial.exceptAll [(Dial.queryf c!"SELECT {}" [(.scalar (.int 1))])])])])])])]) [])
    c!"SELECT ?" [1] = true := by decide +kernel
/-- nested variadic queries -/
example : gives .other (app .other (Dial.intersect [(Dial.union [(Dial.union [(Dial.queryf c!"SELECT {}" [(.scalar (.int 1))])]), (Dial.queryf c!"SELECT {}" [(.scalar (.str c!"abc"))])]), (Dial.union [(Dial.queryf c!"SELECT {}" [(.scalar (.opaque 0))])])]) [])
    c!"(SELECT ? UNION SELECT ?) INTERSECT SELECT ?" [1, .val (.str c!"abc"), .val (.opaque 0)] = true := by decide +kernel
/-! table_info_test.go -/
/-- with schema -/
example : gives .other (app .other (.table c!"public" c!"users" c!"" (fun _ => .none) (fun _ => .nil)) [])
    c!"public.users" [] = true := by decide +kernel
/-- without schema -/
example : gives .other (app .other (.table c!"" c!"users" c!"" (fun _ => .none) (fun _ => .nil)) [])
    c!"users" [] = true := by decide +kernel

end Conform.Exprs
