import Verif.Conform.Dsl
/-
Generated by tools/gotest.py from select_query_test.go, insert_query_test.go, update_query_test.go, delete_query_test.go of /repo: tests of the model, not proofs.
-/
namespace Conform.Queries
open Sq Conform Sq.Deriving

/-! select_query_test.go -/
/-- DistinctOnFields dialect != postgres -/
example : fails (sql .other (.select { dialect := .mysql, distinct := false, limit := none, offset := none } [] [(newField c!"actor_id" { name := c!"actor", «alias» := c!"a" })] [(newField c!"actor_id" { name := c!"actor", «alias» := c!"a" }), (newField c!"first_name" { name := c!"actor", «alias» := c!"a" })] .nil [] (Chain.and_ []) [] (Chain.and_ []) [])) = true := by decide +kernel
/-- Distinct + DistinctOnFields -/
example : fails (sql .other (.select { dialect := .postgres, distinct := true, limit := none, offset := none } [] [(newField c!"actor_id" { name := c!"actor", «alias» := c!"a" })] [(newField c!"actor_id" { name := c!"actor", «alias» := c!"a" }), (newField c!"first_name" { name := c!"actor", «alias» := c!"a" })] .nil [] (Chain.and_ []) [] (Chain.and_ []) [])) = true := by decide +kernel
/-- DistinctOnFields faulty sql -/
example : failsWith (sql .other (.select { dialect := .postgres, distinct := false, limit := none, offset := none } [] [(newField c!"actor_id" { name := c!"actor", «alias» := c!"a" })] [(faulty .field)] .nil [] (Chain.and_ []) [] (Chain.and_ []) [])) c!"sql broke" = true := by decide +kernel
/-- SelectFields empty -/
example : fails (sql .other (.select { dialect := .other, distinct := false, limit := none, offset := none } [] [] [] .nil [] (Chain.and_ []) [] (Chain.and_ []) [])) = true := by decide +kernel
/-- SelectFields faultySQL -/
example : failsWith (sql .other (.select { dialect := .other, distinct := false, limit := none, offset := none } [] [(faulty .field)] [] .nil [] (Chain.and_ []) [] (Chain.and_ []) [])) c!"sql broke" = true := by decide +kernel
/-- FromTable faulty sql -/
example : failsWith (sql .other (.select { dialect := .other, distinct := false, limit := none, offset := none } [] [(newField c!"actor_id" { name := c!"actor", «alias» := c!"a" })] [] (faulty .table) [] (Chain.and_ []) [] (Chain.and_ []) [])) c!"sql broke" = true := by decide +kernel
/-- JoinTables without FromTable -/
example : fails (sql .other (.select { dialect := .other, distinct := false, limit := none, offset := none } [] [(newField c!"actor_id" { name := c!"actor", «alias» := c!"a" })] [] .nil [(Chain.joinTable .join (.table c!"" c!"actor" c!"a" (fun _ => .none) (fun _ => .nil)) [(Call.eq (.scalar (.int 1)) (.scalar (.int 1))).node])] (Chain.and_ []) [] (Chain.and_ []) [])) = true := by decide +kernel
/-- JoinTables faulty sql -/
example : failsWith (sql .other (.select { dialect := .other, distinct := false, limit := none, offset := none } [] [(newField c!"actor_id" { name := c!"actor", «alias» := c!"a" })] [] (.table c!"" c!"actor" c!"a" (fun _ => .none) (fun _ => .nil)) [(Chain.joinTable .join (faulty .table) [(Call.eq (.scalar (.int 1)) (.scalar (.int 1))).node])] (Chain.and_ []) [] (Chain.and_ []) [])) c!"sql broke" = true := by decide +kernel
/-- WherePredicate faulty sql -/
example : failsWith (sql .other (.select { dialect := .other, distinct := false, limit := none, offset := none } [] [(newField c!"actor_id" { name := c!"actor", «alias» := c!"a" })] [] (.table c!"" c!"actor" c!"a" (fun _ => .none) (fun _ => .nil)) [] (.vpred false [] false false [(faulty .field)]) [] (Chain.and_ []) [])) c!"sql broke" = true := by decide +kernel
/-- GroupByFields faulty sql -/
example : failsWith (sql .other (.select { dialect := .other, distinct := false, limit := none, offset := none } [] [(newField c!"actor_id" { name := c!"actor", «alias» := c!"a" })] [] (.table c!"" c!"actor" c!"a" (fun _ => .none) (fun _ => .nil)) [] (Chain.and_ []) [(faulty .field)] (Chain.and_ []) [])) c!"sql broke" = true := by decide +kernel
/-- HavingPredicate faulty sql -/
example : failsWith (sql .other (.select { dialect := .other, distinct := false, limit := none, offset := none } [] [(newField c!"actor_id" { name := c!"actor", «alias» := c!"a" })] [] (.table c!"" c!"actor" c!"a" (fun _ => .none) (fun _ => .nil)) [] (Chain.and_ []) [] (.vpred false [] false false [(faulty .field)]) [])) c!"sql broke" = true := by decide +kernel
/-- OrderByFields faulty sql -/
example : failsWith (sql .other (.select { dialect := .other, distinct := false, limit := none, offset := none } [] [(newField c!"actor_id" { name := c!"actor", «alias» := c!"a" })] [] (.table c!"" c!"actor" c!"a" (fun _ => .none) (fun _ => .nil)) [] (Chain.and_ []) [] (Chain.and_ []) [(faulty .field)])) c!"sql broke" = true := by decide +kernel
/-! insert_query_test.go -/
/-- ColumnMapper return error -/
example : failsWith (sql .other (.insert { dialect := .other, hasMapper := true, mapErr := (some c!"some error"), ignore := false, rowAlias := [], columnAliases := [], conflictConstraint := [], doNothing := false } [] .nil [] [] [] .nil [] .nil [] (Chain.and_ []) [])) c!"some error" = true := by decide +kernel
/-- CTE faulty sql -/
example : failsWith (sql .other (.insert { dialect := .other, hasMapper := false, mapErr := none, ignore := false, rowAlias := [], columnAliases := [], conflictConstraint := [], doNothing := false } [((cteOf false c!"cte" [c!"n"] (faulty .query))).node] .nil [] [] [] .nil [] .nil [] (Chain.and_ []) [])) c!"sql broke" = true := by decide +kernel
/-- INSERT IGNORE dialect != mysql -/
example : fails (sql .other (.insert { dialect := .postgres, hasMapper := false, mapErr := none, ignore := true, rowAlias := [], columnAliases := [], conflictConstraint := [], doNothing := false } [] .nil [] [] [] .nil [] .nil [] (Chain.and_ []) [])) = true := by decide +kernel
/-- nil table provided to INSERT -/
example : fails (sql .other (.insert { dialect := .other, hasMapper := false, mapErr := none, ignore := false, rowAlias := [], columnAliases := [], conflictConstraint := [], doNothing := false } [] .nil [] [] [] .nil [] .nil [] (Chain.and_ []) [])) = true := by decide +kernel
/-- IntoTable faulty sql -/
example : failsWith (sql .other (.insert { dialect := .other, hasMapper := false, mapErr := none, ignore := false, rowAlias := [], columnAliases := [], conflictConstraint := [], doNothing := false } [] (faulty .table) [] [] [] .nil [] .nil [] (Chain.and_ []) [])) c!"sql broke" = true := by decide +kernel
/-- IntoTable alias, dialect == mysql -/
example : fails (sql .other (.insert { dialect := .mysql, hasMapper := false, mapErr := none, ignore := false, rowAlias := [], columnAliases := [], conflictConstraint := [], doNothing := false } [] (.table c!"" c!"actor" c!"a" (fun _ => .none) (fun _ => .nil)) [] [] [] .nil [] .nil [] (Chain.and_ []) [])) = true := by decide +kernel
/-- InsertColumns faulty sql -/
example : failsWith (sql .other (.insert { dialect := .other, hasMapper := false, mapErr := none, ignore := false, rowAlias := [], columnAliases := [], conflictConstraint := [], doNothing := false } [] (.table c!"" c!"actor" c!"" (fun _ => .none) (fun _ => .nil)) [(faulty .field)] [] [] .nil [] .nil [] (Chain.and_ []) [])) c!"sql broke" = true := by decide +kernel
/-- RowValues faulty sql -/
example : failsWith (sql .other (.insert { dialect := .other, hasMapper := false, mapErr := none, ignore := false, rowAlias := [], columnAliases := [], conflictConstraint := [], doNothing := false } [] (.table c!"" c!"actor" c!"" (fun _ => .none) (fun _ => .nil)) [] [[(faulty .field)]] [] .nil [] .nil [] (Chain.and_ []) [])) c!"sql broke" = true := by decide +kernel
/-- RowAlias dialect != mysql -/
example : fails (sql .other (.insert { dialect := .postgres, hasMapper := false, mapErr := none, ignore := false, rowAlias := c!"NEW", columnAliases := [], conflictConstraint := [], doNothing := false } [] (.table c!"" c!"actor" c!"" (fun _ => .none) (fun _ => .nil)) [(newField c!"actor_id" { name := c!"actor", «alias» := c!"" }), (newField c!"first_name" { name := c!"actor", «alias» := c!"" }), (newField c!"last_name" { name := c!"actor", «alias» := c!"" })] [[(.scalar (.int 1)), (.scalar (.str c!"bob")), (.scalar (.str c!"the builder"))], [(.scalar (.int 2)), (.scalar (.str c!"alice")), (.scalar (.str c!"in wonderland"))]] [] .nil [] .nil [] (Chain.and_ []) [])) = true := by decide +kernel
/-- SelectQuery faulty sql -/
example : failsWith (sql .other (.insert { dialect := .other, hasMapper := false, mapErr := none, ignore := false, rowAlias := [], columnAliases := [], conflictConstraint := [], doNothing := false } [] (.table c!"" c!"actor" c!"" (fun _ => .none) (fun _ => .nil)) [] [] [] (.select { dialect := .other, distinct := false, limit := none, offset := none } [] [(faulty .field)] [] .nil [] (Chain.and_ []) [] (Chain.and_ []) []) [] .nil [] (Chain.and_ []) [])) c!"sql broke" = true := by decide +kernel
/-- missing RowValues and SelectQuery -/
example : fails (sql .other (.insert { dialect := .other, hasMapper := false, mapErr := none, ignore := false, rowAlias := [], columnAliases := [], conflictConstraint := [], doNothing := false } [] (.table c!"" c!"actor" c!"" (fun _ => .none) (fun _ => .nil)) [] [] [] .nil [] .nil [] (Chain.and_ []) [])) = true := by decide +kernel
/-- ConflictConstraint dialect != postgres -/
example : fails (sql .other (.insert { dialect := .sqlite, hasMapper := false, mapErr := none, ignore := false, rowAlias := [], columnAliases := [], conflictConstraint := c!"actor_actor_id_pkey", doNothing := false } [] (.table c!"" c!"actor" c!"" (fun _ => .none) (fun _ => .nil)) [(newField c!"actor_id" { name := c!"actor", «alias» := c!"" })] [[(.scalar (.int 1))], [(.scalar (.int 2))], [(.scalar (.int 3))]] [] .nil [] .nil [] (Chain.and_ []) [])) = true := by decide +kernel
/-- ConflictFields faulty sql -/
example : failsWith (sql .other (.insert { dialect := .postgres, hasMapper := false, mapErr := none, ignore := false, rowAlias := [], columnAliases := [], conflictConstraint := [], doNothing := false } [] (.table c!"" c!"actor" c!"" (fun _ => .none) (fun _ => .nil)) [(newField c!"actor_id" { name := c!"actor", «alias» := c!"" })] [[(.scalar (.int 1))], [(.scalar (.int 2))], [(.scalar (.int 3))]] [] .nil [(faulty .field)] .nil [] (Chain.and_ []) [])) c!"sql broke" = true := by decide +kernel
/-- ConflictPredicate faulty sql -/
example : failsWith (sql .other (.insert { dialect := .postgres, hasMapper := false, mapErr := none, ignore := false, rowAlias := [], columnAliases := [], conflictConstraint := [], doNothing := false } [] (.table c!"" c!"actor" c!"" (fun _ => .none) (fun _ => .nil)) [(newField c!"actor_id" { name := c!"actor", «alias» := c!"" })] [[(.scalar (.int 1))], [(.scalar (.int 2))], [(.scalar (.int 3))]] [] .nil [(newField c!"actor_id" { name := c!"actor", «alias» := c!"" })] (.vpred false [] false false [(faulty .field)]) [] (Chain.and_ []) [])) c!"sql broke" = true := by decide +kernel
/-- Resolution faulty sql -/
example : failsWith (sql .other (.insert { dialect := .postgres, hasMapper := false, mapErr := none, ignore := false, rowAlias := [], columnAliases := [], conflictConstraint := [], doNothing := false } [] (.table c!"" c!"actor" c!"" (fun _ => .none) (fun _ => .nil)) [(newField c!"actor_id" { name := c!"actor", «alias» := c!"" })] [[(.scalar (.int 1))], [(.scalar (.int 2))], [(.scalar (.int 3))]] [] .nil [(newField c!"actor_id" { name := c!"actor", «alias» := c!"" })] .nil [((faulty .field), (faulty .field))] (Chain.and_ []) [])) c!"sql broke" = true := by decide +kernel
/-- ResolutionPredicate faulty sql, dialect == mysql -/
example : failsWith (sql .other (.insert { dialect := .mysql, hasMapper := false, mapErr := none, ignore := false, rowAlias := [], columnAliases := [], conflictConstraint := [], doNothing := false } [] (.table c!"" c!"actor" c!"" (fun _ => .none) (fun _ => .nil)) [(newField c!"actor_id" { name := c!"actor", «alias» := c!"" })] [[(.scalar (.int 1))], [(.scalar (.int 2))], [(.scalar (.int 3))]] [] .nil [] .nil [((faulty .field), (faulty .field))] (Chain.and_ []) [])) c!"sql broke" = true := by decide +kernel
/-- ResolutionPredicate faulty sql -/
example : failsWith (sql .other (.insert { dialect := .postgres, hasMapper := false, mapErr := none, ignore := false, rowAlias := [], columnAliases := [], conflictConstraint := [], doNothing := false } [] (.table c!"" c!"actor" c!"" (fun _ => .none) (fun _ => .nil)) [(newField c!"actor_id" { name := c!"actor", «alias» := c!"" })] [[(.scalar (.int 1))], [(.scalar (.int 2))], [(.scalar (.int 3))]] [] .nil [(newField c!"actor_id" { name := c!"actor", «alias» := c!"" })] .nil [((pairOf (assignExcluded c!"actor_id")).1, (pairOf (assignExcluded c!"actor_id")).2)] (.vpred false [] false false [(faulty .field)]) [])) c!"sql broke" = true := by decide +kernel
/-- ReturningFields dialect != postgres && dialect != sqlite -/
example : fails (sql .other (.insert { dialect := .mysql, hasMapper := false, mapErr := none, ignore := false, rowAlias := [], columnAliases := [], conflictConstraint := [], doNothing := false } [] (.table c!"" c!"actor" c!"" (fun _ => .none) (fun _ => .nil)) [(newField c!"actor_id" { name := c!"actor", «alias» := c!"" })] [[(.scalar (.int 1))], [(.scalar (.int 2))], [(.scalar (.int 3))]] [] .nil [] .nil [] (Chain.and_ []) [(newField c!"actor_id" { name := c!"actor", «alias» := c!"" })])) = true := by decide +kernel
/-- ReturningFields faulty sql -/
example : failsWith (sql .other (.insert { dialect := .postgres, hasMapper := false, mapErr := none, ignore := false, rowAlias := [], columnAliases := [], conflictConstraint := [], doNothing := false } [] (.table c!"" c!"actor" c!"" (fun _ => .none) (fun _ => .nil)) [(newField c!"actor_id" { name := c!"actor", «alias» := c!"" })] [[(.scalar (.int 1))], [(.scalar (.int 2))], [(.scalar (.int 3))]] [] .nil [] .nil [] (Chain.and_ []) [(faulty .field)])) c!"sql broke" = true := by decide +kernel
/-! update_query_test.go -/
/-- ColumnMapper return error -/
example : failsWith (sql .other (.update { dialect := .other, hasMapper := true, mapErr := (some c!"some error"), limit := none, offset := none } [] .nil .nil [] [] [] (Chain.and_ []) [] [])) c!"some error" = true := by decide +kernel
/-- CTE faulty sql -/
example : failsWith (sql .other (.update { dialect := .other, hasMapper := false, mapErr := none, limit := none, offset := none } [((cteOf false c!"cte" [c!"n"] (faulty .query))).node] .nil .nil [] [] [] (Chain.and_ []) [] [])) c!"sql broke" = true := by decide +kernel
/-- nil table provided to UPDATE -/
example : fails (sql .other (.update { dialect := .other, hasMapper := false, mapErr := none, limit := none, offset := none } [] .nil .nil [] [] [] (Chain.and_ []) [] [])) = true := by decide +kernel
/-- UpdateTable faulty sql -/
example : failsWith (sql .other (.update { dialect := .other, hasMapper := false, mapErr := none, limit := none, offset := none } [] (faulty .table) .nil [] [] [] (Chain.and_ []) [] [])) c!"sql broke" = true := by decide +kernel
/-- missing Assignments -/
example : fails (sql .other (.update { dialect := .other, hasMapper := false, mapErr := none, limit := none, offset := none } [] (.table c!"" c!"actor" c!"" (fun _ => .none) (fun _ => .nil)) .nil [] [] [] (Chain.and_ []) [] [])) = true := by decide +kernel
/-- Assignments faulty sql, dialect != mysql -/
example : failsWith (sql .other (.update { dialect := .postgres, hasMapper := false, mapErr := none, limit := none, offset := none } [] (.table c!"" c!"actor" c!"" (fun _ => .none) (fun _ => .nil)) .nil [] [((faulty .field), (faulty .field))] [] (Chain.and_ []) [] [])) c!"sql broke" = true := by decide +kernel
/-- FromTable dialect == mysql -/
example : fails (sql .other (.update { dialect := .mysql, hasMapper := false, mapErr := none, limit := none, offset := none } [] (.table c!"" c!"actor" c!"" (fun _ => .none) (fun _ => .nil)) (.table c!"" c!"actor" c!"" (fun _ => .none) (fun _ => .nil)) [] [((faulty .field), (faulty .field))] [] (Chain.and_ []) [] [])) = true := by decide +kernel
/-- FromTable faulty sql -/
example : failsWith (sql .other (.update { dialect := .postgres, hasMapper := false, mapErr := none, limit := none, offset := none } [] (.table c!"" c!"actor" c!"" (fun _ => .none) (fun _ => .nil)) (faulty .table) [] [((newField c!"actor_id" { name := c!"actor", «alias» := c!"" }), (.scalar (.int 1)))] [] (Chain.and_ []) [] [])) c!"sql broke" = true := by decide +kernel
/-- JoinTables without FromTable, dialect != mysql -/
example : fails (sql .other (.update { dialect := .postgres, hasMapper := false, mapErr := none, limit := none, offset := none } [] (.table c!"" c!"actor" c!"" (fun _ => .none) (fun _ => .nil)) .nil [(Chain.joinTable .join (.table c!"" c!"actor" c!"" (fun _ => .none) (fun _ => .nil)) [(Call.eq (.scalar (.int 1)) (.scalar (.int 1))).node])] [((newField c!"actor_id" { name := c!"actor", «alias» := c!"" }), (.scalar (.int 1)))] [] (Chain.and_ []) [] [])) = true := by decide +kernel
/-- JoinTables faulty sql -/
example : failsWith (sql .other (.update { dialect := .postgres, hasMapper := false, mapErr := none, limit := none, offset := none } [] (.table c!"" c!"actor" c!"" (fun _ => .none) (fun _ => .nil)) (.table c!"" c!"actor" c!"" (fun _ => .none) (fun _ => .nil)) [(Chain.joinTable .join (faulty .table) [(Call.eq (.scalar (.int 1)) (.scalar (.int 1))).node])] [((newField c!"actor_id" { name := c!"actor", «alias» := c!"" }), (.scalar (.int 1)))] [] (Chain.and_ []) [] [])) c!"sql broke" = true := by decide +kernel
/-- Assignments faulty sql, dialect == mysql -/
example : failsWith (sql .other (.update { dialect := .mysql, hasMapper := false, mapErr := none, limit := none, offset := none } [] (.table c!"" c!"actor" c!"" (fun _ => .none) (fun _ => .nil)) .nil [] [((faulty .field), (faulty .field))] [] (Chain.and_ []) [] [])) c!"sql broke" = true := by decide +kernel
/-- WherePredicate faulty sql -/
example : failsWith (sql .other (.update { dialect := .other, hasMapper := false, mapErr := none, limit := none, offset := none } [] (.table c!"" c!"actor" c!"" (fun _ => .none) (fun _ => .nil)) .nil [] [((newField c!"actor_id" { name := c!"actor", «alias» := c!"" }), (.scalar (.int 1)))] [] (.vpred false [] false false [(faulty .field)]) [] [])) c!"sql broke" = true := by decide +kernel
/-- OrderByFields dialect != mysql && dialect != sqlite -/
example : fails (sql .other (.update { dialect := .postgres, hasMapper := false, mapErr := none, limit := none, offset := none } [] (.table c!"" c!"actor" c!"" (fun _ => .none) (fun _ => .nil)) .nil [] [((newField c!"actor_id" { name := c!"actor", «alias» := c!"" }), (.scalar (.int 1)))] [] (Chain.and_ []) [(newField c!"actor_id" { name := c!"actor", «alias» := c!"" })] [])) = true := by decide +kernel
/-- OrderByFields faulty sql -/
example : failsWith (sql .other (.update { dialect := .mysql, hasMapper := false, mapErr := none, limit := none, offset := none } [] (.table c!"" c!"actor" c!"" (fun _ => .none) (fun _ => .nil)) .nil [] [((newField c!"actor_id" { name := c!"actor", «alias» := c!"" }), (.scalar (.int 1)))] [] (Chain.and_ []) [(faulty .field)] [])) c!"sql broke" = true := by decide +kernel
/-- RowLimit dialect != mysql && dialect != sqlite -/
example : fails (sql .other (.update { dialect := .postgres, hasMapper := false, mapErr := none, limit := (some 10), offset := none } [] (.table c!"" c!"actor" c!"" (fun _ => .none) (fun _ => .nil)) .nil [] [((newField c!"actor_id" { name := c!"actor", «alias» := c!"" }), (.scalar (.int 1)))] [] (Chain.and_ []) [] [])) = true := by decide +kernel
/-- RowOffset dialect != sqlite -/
example : fails (sql .other (.update { dialect := .mysql, hasMapper := false, mapErr := none, limit := none, offset := (some 20) } [] (.table c!"" c!"actor" c!"" (fun _ => .none) (fun _ => .nil)) .nil [] [((newField c!"actor_id" { name := c!"actor", «alias» := c!"" }), (.scalar (.int 1)))] [] (Chain.and_ []) [] [])) = true := by decide +kernel
/-- ReturningFields dialect != postgres && dialect != sqlite -/
example : fails (sql .other (.update { dialect := .mysql, hasMapper := false, mapErr := none, limit := none, offset := none } [] (.table c!"" c!"actor" c!"" (fun _ => .none) (fun _ => .nil)) .nil [] [((newField c!"actor_id" { name := c!"actor", «alias» := c!"" }), (.scalar (.int 1)))] [] (Chain.and_ []) [] [(newField c!"actor_id" { name := c!"actor", «alias» := c!"" })])) = true := by decide +kernel
/-! delete_query_test.go -/
/-- CTE faulty sql -/
example : failsWith (sql .other (.delete { dialect := .other, hasMapper := false, mapErr := none, limit := none, offset := none } [((cteOf false c!"cte" [c!"n"] (faulty .query))).node] [] .nil [] (Chain.and_ []) [] [])) c!"sql broke" = true := by decide +kernel
/-- no table provided to DELETE -/
example : fails (sql .other (.delete { dialect := .other, hasMapper := false, mapErr := none, limit := none, offset := none } [] [] .nil [] (Chain.and_ []) [] [])) = true := by decide +kernel
/-- nil table provided to DELETE -/
example : fails (sql .other (.delete { dialect := .other, hasMapper := false, mapErr := none, limit := none, offset := none } [] [.nil] .nil [] (Chain.and_ []) [] [])) = true := by decide +kernel
/-- FromTable faulty sql -/
example : failsWith (sql .other (.delete { dialect := .other, hasMapper := false, mapErr := none, limit := none, offset := none } [] [(faulty .table)] .nil [] (Chain.and_ []) [] [])) c!"sql broke" = true := by decide +kernel
/-- UsingTable dialect == sqlite -/
example : fails (sql .other (.delete { dialect := .sqlite, hasMapper := false, mapErr := none, limit := none, offset := none } [] [(.table c!"" c!"actor" c!"" (fun _ => .none) (fun _ => .nil))] (.table c!"" c!"actor" c!"" (fun _ => .none) (fun _ => .nil)) [] (Chain.and_ []) [] [])) = true := by decide +kernel
/-- UsingTable faulty sql -/
example : failsWith (sql .other (.delete { dialect := .other, hasMapper := false, mapErr := none, limit := none, offset := none } [] [(.table c!"" c!"actor" c!"" (fun _ => .none) (fun _ => .nil))] (faulty .table) [] (Chain.and_ []) [] [])) c!"sql broke" = true := by decide +kernel
/-- JoinTables dialect == sqlite -/
example : fails (sql .other (.delete { dialect := .sqlite, hasMapper := false, mapErr := none, limit := none, offset := none } [] [(.table c!"" c!"actor" c!"" (fun _ => .none) (fun _ => .nil))] .nil [(Chain.joinTable .join (.table c!"" c!"actor" c!"" (fun _ => .none) (fun _ => .nil)) [])] (Chain.and_ []) [] [])) = true := by decide +kernel
/-- JoinTables without UsingTable -/
example : fails (sql .other (.delete { dialect := .other, hasMapper := false, mapErr := none, limit := none, offset := none } [] [(.table c!"" c!"actor" c!"" (fun _ => .none) (fun _ => .nil))] .nil [(Chain.joinTable .join (.table c!"" c!"actor" c!"" (fun _ => .none) (fun _ => .nil)) [])] (Chain.and_ []) [] [])) = true := by decide +kernel
/-- JoinTables faulty sql -/
example : failsWith (sql .other (.delete { dialect := .other, hasMapper := false, mapErr := none, limit := none, offset := none } [] [(.table c!"" c!"actor" c!"" (fun _ => .none) (fun _ => .nil))] (.table c!"" c!"actor" c!"" (fun _ => .none) (fun _ => .nil)) [(Chain.joinTable .join (faulty .table) [(Call.eq (.scalar (.int 1)) (.scalar (.int 1))).node])] (Chain.and_ []) [] [])) c!"sql broke" = true := by decide +kernel
/-- WherePredicate faulty sql -/
example : failsWith (sql .other (.delete { dialect := .other, hasMapper := false, mapErr := none, limit := none, offset := none } [] [(.table c!"" c!"actor" c!"" (fun _ => .none) (fun _ => .nil))] .nil [] (.vpred false [] false false [(faulty .field)]) [] [])) c!"sql broke" = true := by decide +kernel
/-- OrderByFields dialect != mysql && dialect != sqlite -/
example : fails (sql .other (.delete { dialect := .postgres, hasMapper := false, mapErr := none, limit := none, offset := none } [] [(.table c!"" c!"actor" c!"" (fun _ => .none) (fun _ => .nil))] .nil [] (Chain.and_ []) [(newField c!"actor_id" { name := c!"actor", «alias» := c!"" }), (newField c!"first_name" { name := c!"actor", «alias» := c!"" })] [])) = true := by decide +kernel
/-- OrderByFields with multi-table DELETE -/
example : fails (sql .other (.delete { dialect := .mysql, hasMapper := false, mapErr := none, limit := none, offset := none } [] [(.table c!"" c!"actor" c!"" (fun _ => .none) (fun _ => .nil))] (.table c!"" c!"actor" c!"" (fun _ => .none) (fun _ => .nil)) [(Chain.joinTable .join (.table c!"" c!"actor" c!"" (fun _ => .none) (fun _ => .nil)) [(Call.eq (.scalar (.int 1)) (.scalar (.int 1))).node])] (Chain.and_ []) [(newField c!"actor_id" { name := c!"actor", «alias» := c!"" }), (newField c!"first_name" { name := c!"actor", «alias» := c!"" })] [])) = true := by decide +kernel
/-- OrderByFields faulty sql -/
example : failsWith (sql .other (.delete { dialect := .mysql, hasMapper := false, mapErr := none, limit := none, offset := none } [] [(.table c!"" c!"actor" c!"" (fun _ => .none) (fun _ => .nil))] .nil [] (Chain.and_ []) [(faulty .field)] [])) c!"sql broke" = true := by decide +kernel
/-- RowLimit dialect != mysql && dialect != sqlite -/
example : fails (sql .other (.delete { dialect := .postgres, hasMapper := false, mapErr := none, limit := (some 10), offset := none } [] [(.table c!"" c!"actor" c!"" (fun _ => .none) (fun _ => .nil))] .nil [] (Chain.and_ []) [] [])) = true := by decide +kernel
/-- RowLimit with multi-table DELETE -/
example : fails (sql .other (.delete { dialect := .mysql, hasMapper := false, mapErr := none, limit := (some 10), offset := none } [] [(.table c!"" c!"actor" c!"" (fun _ => .none) (fun _ => .nil))] (.table c!"" c!"actor" c!"" (fun _ => .none) (fun _ => .nil)) [(Chain.joinTable .join (.table c!"" c!"actor" c!"" (fun _ => .none) (fun _ => .nil)) [(Call.eq (.scalar (.int 1)) (.scalar (.int 1))).node])] (Chain.and_ []) [] [])) = true := by decide +kernel
/-- ReturningFields dialect != postgres && dialect != sqlite -/
example : fails (sql .other (.delete { dialect := .mysql, hasMapper := false, mapErr := none, limit := none, offset := none } [] [(.table c!"" c!"actor" c!"" (fun _ => .none) (fun _ => .nil))] .nil [] (Chain.and_ []) [] [(newField c!"actor_id" { name := c!"actor", «alias» := c!"" })])) = true := by decide +kernel
/-- ReturningFields faulty sql -/
example : failsWith (sql .other (.delete { dialect := .postgres, hasMapper := false, mapErr := none, limit := none, offset := none } [] [(.table c!"" c!"actor" c!"" (fun _ => .none) (fun _ => .nil))] .nil [] (Chain.and_ []) [] [(faulty .field)])) c!"sql broke" = true := by decide +kernel

end Conform.Queries
