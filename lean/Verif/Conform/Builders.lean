import Verif.Conform.Dsl
/-
Generated by tools/gotest.py from select_query_mysql_test.go, select_query_postgres_test.go, select_query_sqlite_test.go, insert_query_mysql_test.go, insert_query_postgres_test.go, insert_query_sqlite_test.go, update_query_mysql_test.go, update_query_postgres_test.go, update_query_sqlite_test.go, delete_query_mysql_test.go, delete_query_postgres_test.go, delete_query_sqlite_test.go of /repo: tests of the model, not proofs.
-/
namespace Conform.Builders
open Sq Conform Sq.Deriving

/-! select_query_mysql_test.go -/
/-- filler v1 -/
example : gives .mysql (sql .other (Chain.select ⟨.mysql, none⟩ (.selectWith [((cteOf false c!"cte" [c!"n"] (Dial.queryf c!"SELECT 1" []))).node]) [.select [(newField c!"actor_id" { name := c!"actor", «alias» := c!"a" })], .from (.table c!"" c!"actor" c!"a" (fun _ => .none) (fun _ => .nil))]).node)
    c!"WITH cte (n) AS (SELECT 1) SELECT a.actor_id FROM actor AS a" [] = true := by decide +kernel
/-- filler v2 -/
example : gives .mysql (sql .other (Chain.select ⟨.mysql, none⟩ (.selectDistinct [(newField c!"actor_id" { name := c!"actor", «alias» := c!"a" })]) [.selectDistinct [(newField c!"actor_id" { name := c!"actor", «alias» := c!"a" })], .from (.table c!"" c!"actor" c!"a" (fun _ => .none) (fun _ => .nil))]).node)
    c!"SELECT DISTINCT a.actor_id FROM actor AS a" [] = true := by decide +kernel
/-- joins -/
example : gives .mysql (sql .other (Chain.select ⟨.mysql, none⟩ (.selectOne) [.from (.table c!"" c!"actor" c!"a" (fun _ => .none) (fun _ => .nil)), .with [((cteOf false c!"cte" [c!"n"] (Dial.queryf c!"SELECT 1" []))).node], .join .join (.table c!"" c!"actor" c!"a" (fun _ => .none) (fun _ => .nil)) [(Call.eq (.scalar (.int 1)) (.scalar (.int 1))).node], .join .leftJoin (.table c!"" c!"actor" c!"a" (fun _ => .none) (fun _ => .nil)) [(Call.eq (.scalar (.int 1)) (.scalar (.int 1))).node], .join .rightJoin (.table c!"" c!"actor" c!"a" (fun _ => .none) (fun _ => .nil)) [(Call.eq (.scalar (.int 1)) (.scalar (.int 1))).node], .join .fullJoin (.table c!"" c!"actor" c!"a" (fun _ => .none) (fun _ => .nil)) [(Call.eq (.scalar (.int 1)) (.scalar (.int 1))).node], .crossJoin (.table c!"" c!"actor" c!"a" (fun _ => .none) (fun _ => .nil)), .join (.customJoin c!"CROSS JOIN LATERAL") (.table c!"" c!"actor" c!"a" (fun _ => .none) (fun _ => .nil)) []]).node)
    c!"WITH cte (n) AS (SELECT 1) SELECT 1 FROM actor AS a JOIN actor AS a ON ? = ? LEFT JOIN actor AS a ON ? = ? RIGHT JOIN actor AS a ON ? = ? FULL JOIN actor AS a ON ? = ? CROSS JOIN actor AS a CROSS JOIN LATERAL actor AS a" [1, 1, 1, 1, 1, 1, 1, 1] = true := by decide +kernel
/-- simple -/
example : gives .mysql (sql .other (Chain.select ⟨.mysql, none⟩ (.from (.table c!"" c!"actor" c!"a" (fun _ => .none) (fun _ => .nil))) [.select [(newField c!"actor_id" { name := c!"actor", «alias» := c!"a" }), (newField c!"first_name" { name := c!"actor", «alias» := c!"a" }), (newField c!"last_name" { name := c!"actor", «alias» := c!"a" })], .with [((cteOf false c!"cte" [c!"n"] (Dial.queryf c!"SELECT 1" []))).node], .groupBy [(newField c!"first_name" { name := c!"actor", «alias» := c!"a" })], .having [(Call.isNotNull (newField c!"first_name" { name := c!"actor", «alias» := c!"a" })).node], .orderBy [(newField c!"last_name" { name := c!"actor", «alias» := c!"a" })], .limit 10, .offset 20]).node)
    c!"WITH cte (n) AS (SELECT 1) SELECT a.actor_id, a.first_name, a.last_name FROM actor AS a GROUP BY a.first_name HAVING a.first_name IS NOT NULL ORDER BY a.last_name LIMIT ? OFFSET ?" [10, 20] = true := by decide +kernel
/-! select_query_postgres_test.go -/
/-- filler -/
example : gives .postgres (sql .other (Chain.select ⟨.postgres, none⟩ (.selectDistinct [(newField c!"actor_id" { name := c!"actor", «alias» := c!"a" })]) [.selectDistinct [(newField c!"actor_id" { name := c!"actor", «alias» := c!"a" })], .from (.table c!"" c!"actor" c!"a" (fun _ => .none) (fun _ => .nil))]).node)
    c!"SELECT DISTINCT a.actor_id FROM actor AS a" [] = true := by decide +kernel
/-- joins -/
example : gives .postgres (sql .other (Chain.select ⟨.postgres, none⟩ (.selectOne) [.from (.table c!"" c!"actor" c!"a" (fun _ => .none) (fun _ => .nil)), .with [((cteOf false c!"cte" [c!"n"] (Dial.queryf c!"SELECT 1" []))).node], .join .join (.table c!"" c!"actor" c!"a" (fun _ => .none) (fun _ => .nil)) [(Call.eq (.scalar (.int 1)) (.scalar (.int 1))).node], .join .leftJoin (.table c!"" c!"actor" c!"a" (fun _ => .none) (fun _ => .nil)) [(Call.eq (.scalar (.int 1)) (.scalar (.int 1))).node], .join .rightJoin (.table c!"" c!"actor" c!"a" (fun _ => .none) (fun _ => .nil)) [(Call.eq (.scalar (.int 1)) (.scalar (.int 1))).node], .join .fullJoin (.table c!"" c!"actor" c!"a" (fun _ => .none) (fun _ => .nil)) [(Call.eq (.scalar (.int 1)) (.scalar (.int 1))).node], .crossJoin (.table c!"" c!"actor" c!"a" (fun _ => .none) (fun _ => .nil)), .join (.customJoin c!"CROSS JOIN LATERAL") (.table c!"" c!"actor" c!"a" (fun _ => .none) (fun _ => .nil)) []]).node)
    c!"WITH cte (n) AS (SELECT 1) SELECT 1 FROM actor AS a JOIN actor AS a ON $1 = $2 LEFT JOIN actor AS a ON $3 = $4 RIGHT JOIN actor AS a ON $5 = $6 FULL JOIN actor AS a ON $7 = $8 CROSS JOIN actor AS a CROSS JOIN LATERAL actor AS a" [1, 1, 1, 1, 1, 1, 1, 1] = true := by decide +kernel
/-- simple -/
example : gives .postgres (sql .other (Chain.select ⟨.postgres, none⟩ (.from (.table c!"" c!"actor" c!"a" (fun _ => .none) (fun _ => .nil))) [.select [(newField c!"actor_id" { name := c!"actor", «alias» := c!"a" }), (newField c!"first_name" { name := c!"actor", «alias» := c!"a" }), (newField c!"last_name" { name := c!"actor", «alias» := c!"a" })], .distinctOn [(newField c!"first_name" { name := c!"actor", «alias» := c!"a" }), (newField c!"last_name" { name := c!"actor", «alias» := c!"a" })], .with [((cteOf false c!"cte" [c!"n"] (Dial.queryf c!"SELECT 1" []))).node], .groupBy [(newField c!"first_name" { name := c!"actor", «alias» := c!"a" })], .having [(Call.isNotNull (newField c!"first_name" { name := c!"actor", «alias» := c!"a" })).node], .orderBy [(newField c!"last_name" { name := c!"actor", «alias» := c!"a" })], .limit 10, .offset 20]).node)
    c!"WITH cte (n) AS (SELECT 1) SELECT DISTINCT ON (a.first_name, a.last_name) a.actor_id, a.first_name, a.last_name FROM actor AS a GROUP BY a.first_name HAVING a.first_name IS NOT NULL ORDER BY a.last_name LIMIT $1 OFFSET $2" [10, 20] = true := by decide +kernel
/-! select_query_sqlite_test.go -/
/-- joins -/
example : gives .sqlite (sql .other (Chain.select ⟨.sqlite, none⟩ (.from (.table c!"" c!"actor" c!"a" (fun _ => .none) (fun _ => .nil))) [.from (.table c!"" c!"actor" c!"a" (fun _ => .none) (fun _ => .nil)), .selectOne, .with [((cteOf false c!"cte" [c!"n"] (Dial.queryf c!"SELECT 1" []))).node], .join .join (.table c!"" c!"actor" c!"a" (fun _ => .none) (fun _ => .nil)) [(Call.eq (.scalar (.int 1)) (.scalar (.int 1))).node], .join .leftJoin (.table c!"" c!"actor" c!"a" (fun _ => .none) (fun _ => .nil)) [(Call.eq (.scalar (.int 1)) (.scalar (.int 1))).node], .crossJoin (.table c!"" c!"actor" c!"a" (fun _ => .none) (fun _ => .nil)), .join (.customJoin c!",") (.table c!"" c!"actor" c!"a" (fun _ => .none) (fun _ => .nil)) []]).node)
    c!"WITH cte (n) AS (SELECT 1) SELECT 1 FROM actor AS a JOIN actor AS a ON $1 = $2 LEFT JOIN actor AS a ON $3 = $4 CROSS JOIN actor AS a , actor AS a" [1, 1, 1, 1] = true := by decide +kernel
/-- simple -/
example : gives .sqlite (sql .other (Chain.select ⟨.sqlite, none⟩ (.selectDistinct [(newField c!"actor_id" { name := c!"actor", «alias» := c!"a" }), (newField c!"first_name" { name := c!"actor", «alias» := c!"a" }), (newField c!"last_name" { name := c!"actor", «alias» := c!"a" })]) [.selectDistinct [(newField c!"actor_id" { name := c!"actor", «alias» := c!"a" }), (newField c!"first_name" { name := c!"actor", «alias» := c!"a" }), (newField c!"last_name" { name := c!"actor", «alias» := c!"a" })], .from (.table c!"" c!"actor" c!"a" (fun _ => .none) (fun _ => .nil)), .with [((cteOf false c!"cte" [c!"n"] (Dial.queryf c!"SELECT 1" []))).node], .groupBy [(newField c!"first_name" { name := c!"actor", «alias» := c!"a" })], .having [(Call.isNotNull (newField c!"first_name" { name := c!"actor", «alias» := c!"a" })).node], .orderBy [(newField c!"last_name" { name := c!"actor", «alias» := c!"a" })], .limit 10, .offset 20]).node)
    c!"WITH cte (n) AS (SELECT 1) SELECT DISTINCT a.actor_id, a.first_name, a.last_name FROM actor AS a GROUP BY a.first_name HAVING a.first_name IS NOT NULL ORDER BY a.last_name LIMIT $1 OFFSET $2" [10, 20] = true := by decide +kernel
/-! insert_query_mysql_test.go -/
/-- simple -/
example : gives .mysql (sql .other (Chain.insert ⟨.mysql, none⟩ (.insertInto (.table c!"" c!"actor" c!"" (fun _ => .none) (fun _ => .nil))) [.columns [(newField c!"first_name" { name := c!"actor", «alias» := c!"" }), (newField c!"last_name" { name := c!"actor", «alias» := c!"" })], .values [(.scalar (.str c!"bob")), (.scalar (.str c!"the builder"))], .values [(.scalar (.str c!"alice")), (.scalar (.str c!"in wonderland"))], .asRow c!"NEW", .asColumns [c!"fname", c!"lname"]]).node)
    c!"INSERT INTO actor (first_name, last_name) VALUES (?, ?), (?, ?) AS NEW (fname, lname)" [.val (.str c!"bob"), .val (.str c!"the builder"), .val (.str c!"alice"), .val (.str c!"in wonderland")] = true := by decide +kernel
/-- INSERT ignore duplicates (INSERT IGNORE) -/
example : gives .mysql (sql .other (Chain.insert ⟨.mysql, none⟩ (.insertIgnoreInto (.table c!"" c!"actor" c!"" (fun _ => .none) (fun _ => .nil))) [.valuesx ⟨[((newField c!"actor_id" { name := c!"actor", «alias» := c!"" }), (.scalar (.int 1))), ((newField c!"first_name" { name := c!"actor", «alias» := c!"" }), (.scalar (.str c!"bob"))), ((newField c!"last_name" { name := c!"actor", «alias» := c!"" }), (.scalar (.str c!"the builder"))), ((newField c!"actor_id" { name := c!"actor", «alias» := c!"" }), (.scalar (.int 2))), ((newField c!"first_name" { name := c!"actor", «alias» := c!"" }), (.scalar (.str c!"alice"))), ((newField c!"last_name" { name := c!"actor", «alias» := c!"" }), (.scalar (.str c!"in wonderland")))], none⟩]).node)
    c!"INSERT IGNORE INTO actor (actor_id, first_name, last_name) VALUES (?, ?, ?), (?, ?, ?)" [1, .val (.str c!"bob"), .val (.str c!"the builder"), 2, .val (.str c!"alice"), .val (.str c!"in wonderland")] = true := by decide +kernel
/-- INSERT ignore duplicates (ON DUPLICATE KEY UPDATE) -/
example : gives .mysql (sql .other (Chain.insert ⟨.mysql, none⟩ (.insertInto (.table c!"" c!"actor" c!"" (fun _ => .none) (fun _ => .nil))) [.valuesx ⟨[((newField c!"actor_id" { name := c!"actor", «alias» := c!"" }), (.scalar (.int 1))), ((newField c!"first_name" { name := c!"actor", «alias» := c!"" }), (.scalar (.str c!"bob"))), ((newField c!"last_name" { name := c!"actor", «alias» := c!"" }), (.scalar (.str c!"the builder"))), ((newField c!"actor_id" { name := c!"actor", «alias» := c!"" }), (.scalar (.int 2))), ((newField c!"first_name" { name := c!"actor", «alias» := c!"" }), (.scalar (.str c!"alice"))), ((newField c!"last_name" { name := c!"actor", «alias» := c!"" }), (.scalar (.str c!"in wonderland")))], none⟩, .onDuplicateKeyUpdate [((pairOf (assignSelf c!"first_name")).1, (pairOf (assignSelf c!"first_name")).2), ((pairOf (assignSelf c!"last_name")).1, (pairOf (assignSelf c!"last_name")).2)]]).node)
    c!"INSERT INTO actor (actor_id, first_name, last_name) VALUES (?, ?, ?), (?, ?, ?) ON DUPLICATE KEY UPDATE first_name = first_name, last_name = last_name" [1, .val (.str c!"bob"), .val (.str c!"the builder"), 2, .val (.str c!"alice"), .val (.str c!"in wonderland")] = true := by decide +kernel
/-- upsert -/
example : gives .mysql (sql .other (Chain.insert ⟨.mysql, none⟩ (.insertInto (.table c!"" c!"actor" c!"" (fun _ => .none) (fun _ => .nil))) [.valuesx ⟨[((newField c!"actor_id" { name := c!"actor", «alias» := c!"" }), (.scalar (.int 1))), ((newField c!"first_name" { name := c!"actor", «alias» := c!"" }), (.scalar (.str c!"bob"))), ((newField c!"last_name" { name := c!"actor", «alias» := c!"" }), (.scalar (.str c!"the builder"))), ((newField c!"actor_id" { name := c!"actor", «alias» := c!"" }), (.scalar (.int 2))), ((newField c!"first_name" { name := c!"actor", «alias» := c!"" }), (.scalar (.str c!"alice"))), ((newField c!"last_name" { name := c!"actor", «alias» := c!"" }), (.scalar (.str c!"in wonderland")))], none⟩, .asRow c!"NEW", .onDuplicateKeyUpdate [((pairOf (assignAlias c!"first_name" c!"NEW")).1, (pairOf (assignAlias c!"first_name" c!"NEW")).2), ((pairOf (assignAlias c!"last_name" c!"NEW")).1, (pairOf (assignAlias c!"last_name" c!"NEW")).2)]]).node)
    c!"INSERT INTO actor (actor_id, first_name, last_name) VALUES (?, ?, ?), (?, ?, ?) AS NEW ON DUPLICATE KEY UPDATE first_name = NEW.first_name, last_name = NEW.last_name" [1, .val (.str c!"bob"), .val (.str c!"the builder"), 2, .val (.str c!"alice"), .val (.str c!"in wonderland")] = true := by decide +kernel
/-- INSERT from SELECT -/
example : gives .mysql (sql .other (Chain.insert ⟨.mysql, none⟩ (.insertInto (.table c!"" c!"actor" c!"" (fun _ => .none) (fun _ => .nil))) [.columns [(newField c!"first_name" { name := c!"actor", «alias» := c!"" }), (newField c!"last_name" { name := c!"actor", «alias» := c!"" })], .select (Chain.select ⟨.mysql, none⟩ (.select [(newField c!"first_name" { name := c!"actor", «alias» := c!"a2" }), (newField c!"last_name" { name := c!"actor", «alias» := c!"a2" })]) [.from (.table c!"" c!"actor" c!"a2" (fun _ => .none) (fun _ => .nil)), .where [(Call.in_ (newField c!"actor_id" { name := c!"actor", «alias» := c!"a2" }) (sl [(.scalar (.int 1)), (.scalar (.int 2))])).node]])]).node)
    c!"INSERT INTO actor (first_name, last_name) SELECT a2.first_name, a2.last_name FROM actor AS a2 WHERE a2.actor_id IN (?, ?)" [1, 2] = true := by decide +kernel
/-! insert_query_postgres_test.go -/
/-- simple -/
example : gives .postgres (sql .other (Chain.insert ⟨.postgres, none⟩ (.insertInto (.table c!"" c!"actor" c!"a" (fun _ => .none) (fun _ => .nil))) [.insertInto (.table c!"" c!"actor" c!"a" (fun _ => .none) (fun _ => .nil)), .columns [(newField c!"first_name" { name := c!"actor", «alias» := c!"a" }), (newField c!"last_name" { name := c!"actor", «alias» := c!"a" })], .values [(.scalar (.str c!"bob")), (.scalar (.str c!"the builder"))], .values [(.scalar (.str c!"alice")), (.scalar (.str c!"in wonderland"))], .with [((cteOf false c!"cte" [c!"n"] (Dial.queryf c!"SELECT 1" []))).node]]).node)
    c!"WITH cte (n) AS (SELECT 1) INSERT INTO actor AS a (first_name, last_name) VALUES ($1, $2), ($3, $4)" [.val (.str c!"bob"), .val (.str c!"the builder"), .val (.str c!"alice"), .val (.str c!"in wonderland")] = true := by decide +kernel
/-- INSERT with RETURNING -/
example : gives .postgres (sql .other (Chain.insert ⟨.postgres, none⟩ (.insertWith [((cteOf false c!"cte" [c!"n"] (Dial.queryf c!"SELECT 1" []))).node]) [.insertInto (.table c!"" c!"actor" c!"a" (fun _ => .none) (fun _ => .nil)), .valuesx ⟨[((newField c!"first_name" { name := c!"actor", «alias» := c!"a" }), (.scalar (.str c!"bob"))), ((newField c!"last_name" { name := c!"actor", «alias» := c!"a" }), (.scalar (.str c!"the builder"))), ((newField c!"first_name" { name := c!"actor", «alias» := c!"a" }), (.scalar (.str c!"alice"))), ((newField c!"last_name" { name := c!"actor", «alias» := c!"a" }), (.scalar (.str c!"in wonderland")))], none⟩, .returning [(newField c!"actor_id" { name := c!"actor", «alias» := c!"a" })]]).node)
    c!"WITH cte (n) AS (SELECT 1) INSERT INTO actor AS a (first_name, last_name) VALUES ($1, $2), ($3, $4) RETURNING a.actor_id" [.val (.str c!"bob"), .val (.str c!"the builder"), .val (.str c!"alice"), .val (.str c!"in wonderland")] = true := by decide +kernel
/-- INSERT ignore duplicates -/
example : gives .postgres (sql .other (Chain.insert ⟨.postgres, none⟩ (.insertWith [((cteOf false c!"cte" [c!"n"] (Dial.queryf c!"SELECT 1" []))).node]) [.insertInto (.table c!"" c!"actor" c!"a" (fun _ => .none) (fun _ => .nil)), .valuesx ⟨[((newField c!"actor_id" { name := c!"actor", «alias» := c!"a" }), (.scalar (.int 1))), ((newField c!"first_name" { name := c!"actor", «alias» := c!"a" }), (.scalar (.str c!"bob"))), ((newField c!"last_name" { name := c!"actor", «alias» := c!"a" }), (.scalar (.str c!"the builder"))), ((newField c!"actor_id" { name := c!"actor", «alias» := c!"a" }), (.scalar (.int 2))), ((newField c!"first_name" { name := c!"actor", «alias» := c!"a" }), (.scalar (.str c!"alice"))), ((newField c!"last_name" { name := c!"actor", «alias» := c!"a" }), (.scalar (.str c!"in wonderland")))], none⟩, .onConflict [(newField c!"actor_id" { name := c!"actor", «alias» := c!"a" })] [Chain.and_ [(.vpred false [] false false [(Call.isNotNull (newField c!"actor_id" { name := c!"actor", «alias» := c!"a" })).node, (Call.ne (newField c!"first_name" { name := c!"actor", «alias» := c!"a" }) (.scalar (.str c!""))).node])]] .doNothing]).node)
    c!"WITH cte (n) AS (SELECT 1) INSERT INTO actor AS a (actor_id, first_name, last_name) VALUES ($1, $2, $3), ($4, $5, $6) ON CONFLICT (actor_id) WHERE actor_id IS NOT NULL AND first_name <> $7 DO NOTHING" [1, .val (.str c!"bob"), .val (.str c!"the builder"), 2, .val (.str c!"alice"), .val (.str c!"in wonderland"), .val (.str c!"")] = true := by decide +kernel
/-- upsert -/
example : gives .postgres (sql .other (Chain.insert ⟨.postgres, none⟩ (.insertWith [((cteOf false c!"cte" [c!"n"] (Dial.queryf c!"SELECT 1" []))).node]) [.insertInto (.table c!"" c!"actor" c!"a" (fun _ => .none) (fun _ => .nil)), .valuesx ⟨[((newField c!"actor_id" { name := c!"actor", «alias» := c!"a" }), (.scalar (.int 1))), ((newField c!"first_name" { name := c!"actor", «alias» := c!"a" }), (.scalar (.str c!"bob"))), ((newField c!"last_name" { name := c!"actor", «alias» := c!"a" }), (.scalar (.str c!"the builder"))), ((newField c!"actor_id" { name := c!"actor", «alias» := c!"a" }), (.scalar (.int 2))), ((newField c!"first_name" { name := c!"actor", «alias» := c!"a" }), (.scalar (.str c!"alice"))), ((newField c!"last_name" { name := c!"actor", «alias» := c!"a" }), (.scalar (.str c!"in wonderland")))], none⟩, .onConstraint c!"actor_actor_id_pkey" [] (.doUpdateSet [((pairOf (assignExcluded c!"first_name")).1, (pairOf (assignExcluded c!"first_name")).2), ((pairOf (assignExcluded c!"last_name")).1, (pairOf (assignExcluded c!"last_name")).2)]), .where [(Call.isNotNull (newField c!"last_update" { name := c!"actor", «alias» := c!"a" })).node, (Call.ne (newField c!"last_name" { name := c!"actor", «alias» := c!"a" }) (.scalar (.str c!""))).node]]).node)
    c!"WITH cte (n) AS (SELECT 1) INSERT INTO actor AS a (actor_id, first_name, last_name) VALUES ($1, $2, $3), ($4, $5, $6) ON CONFLICT ON CONSTRAINT actor_actor_id_pkey DO UPDATE SET first_name = EXCLUDED.first_name, last_name = EXCLUDED.last_name WHERE a.last_update IS NOT NULL AND a.last_name <> $7" [1, .val (.str c!"bob"), .val (.str c!"the builder"), 2, .val (.str c!"alice"), .val (.str c!"in wonderland"), .val (.str c!"")] = true := by decide +kernel
/-- INSERT from SELECT -/
example : gives .postgres (sql .other (Chain.insert ⟨.postgres, none⟩ (.insertWith [((cteOf false c!"cte" [c!"n"] (Dial.queryf c!"SELECT 1" []))).node]) [.insertInto (.table c!"" c!"actor" c!"a1" (fun _ => .none) (fun _ => .nil)), .columns [(newField c!"first_name" { name := c!"actor", «alias» := c!"a1" }), (newField c!"last_name" { name := c!"actor", «alias» := c!"a1" })], .select (Chain.select ⟨.postgres, none⟩ (.select [(newField c!"first_name" { name := c!"actor", «alias» := c!"a2" }), (newField c!"last_name" { name := c!"actor", «alias» := c!"a2" })]) [.from (.table c!"" c!"actor" c!"a2" (fun _ => .none) (fun _ => .nil)), .where [(Call.in_ (newField c!"actor_id" { name := c!"actor", «alias» := c!"a2" }) (sl [(.scalar (.int 1)), (.scalar (.int 2))])).node]])]).node)
    c!"WITH cte (n) AS (SELECT 1) INSERT INTO actor AS a1 (first_name, last_name) SELECT a2.first_name, a2.last_name FROM actor AS a2 WHERE a2.actor_id IN ($1, $2)" [1, 2] = true := by decide +kernel
/-! insert_query_sqlite_test.go -/
/-- simple -/
example : gives .sqlite (sql .other (Chain.insert ⟨.sqlite, none⟩ (.insertInto (.table c!"" c!"actor" c!"a" (fun _ => .none) (fun _ => .nil))) [.insertInto (.table c!"" c!"actor" c!"a" (fun _ => .none) (fun _ => .nil)), .columns [(newField c!"first_name" { name := c!"actor", «alias» := c!"a" }), (newField c!"last_name" { name := c!"actor", «alias» := c!"a" })], .values [(.scalar (.str c!"bob")), (.scalar (.str c!"the builder"))], .values [(.scalar (.str c!"alice")), (.scalar (.str c!"in wonderland"))], .with [((cteOf false c!"cte" [c!"n"] (Dial.queryf c!"SELECT 1" []))).node]]).node)
    c!"WITH cte (n) AS (SELECT 1) INSERT INTO actor AS a (first_name, last_name) VALUES ($1, $2), ($3, $4)" [.val (.str c!"bob"), .val (.str c!"the builder"), .val (.str c!"alice"), .val (.str c!"in wonderland")] = true := by decide +kernel
/-- INSERT with RETURNING -/
example : gives .sqlite (sql .other (Chain.insert ⟨.sqlite, none⟩ (.insertWith [((cteOf false c!"cte" [c!"n"] (Dial.queryf c!"SELECT 1" []))).node]) [.insertInto (.table c!"" c!"actor" c!"a" (fun _ => .none) (fun _ => .nil)), .valuesx ⟨[((newField c!"first_name" { name := c!"actor", «alias» := c!"a" }), (.scalar (.str c!"bob"))), ((newField c!"last_name" { name := c!"actor", «alias» := c!"a" }), (.scalar (.str c!"the builder"))), ((newField c!"first_name" { name := c!"actor", «alias» := c!"a" }), (.scalar (.str c!"alice"))), ((newField c!"last_name" { name := c!"actor", «alias» := c!"a" }), (.scalar (.str c!"in wonderland")))], none⟩, .returning [(newField c!"actor_id" { name := c!"actor", «alias» := c!"a" })]]).node)
    c!"WITH cte (n) AS (SELECT 1) INSERT INTO actor AS a (first_name, last_name) VALUES ($1, $2), ($3, $4) RETURNING a.actor_id" [.val (.str c!"bob"), .val (.str c!"the builder"), .val (.str c!"alice"), .val (.str c!"in wonderland")] = true := by decide +kernel
/-- INSERT ignore duplicates -/
example : gives .sqlite (sql .other (Chain.insert ⟨.sqlite, none⟩ (.insertWith [((cteOf false c!"cte" [c!"n"] (Dial.queryf c!"SELECT 1" []))).node]) [.insertInto (.table c!"" c!"actor" c!"a" (fun _ => .none) (fun _ => .nil)), .valuesx ⟨[((newField c!"actor_id" { name := c!"actor", «alias» := c!"a" }), (.scalar (.int 1))), ((newField c!"first_name" { name := c!"actor", «alias» := c!"a" }), (.scalar (.str c!"bob"))), ((newField c!"last_name" { name := c!"actor", «alias» := c!"a" }), (.scalar (.str c!"the builder"))), ((newField c!"actor_id" { name := c!"actor", «alias» := c!"a" }), (.scalar (.int 2))), ((newField c!"first_name" { name := c!"actor", «alias» := c!"a" }), (.scalar (.str c!"alice"))), ((newField c!"last_name" { name := c!"actor", «alias» := c!"a" }), (.scalar (.str c!"in wonderland")))], none⟩, .onConflict [(newField c!"actor_id" { name := c!"actor", «alias» := c!"a" })] [Chain.and_ [(.vpred false [] false false [(Call.isNotNull (newField c!"actor_id" { name := c!"actor", «alias» := c!"a" })).node, (Call.ne (newField c!"first_name" { name := c!"actor", «alias» := c!"a" }) (.scalar (.str c!""))).node])]] .doNothing]).node)
    c!"WITH cte (n) AS (SELECT 1) INSERT INTO actor AS a (actor_id, first_name, last_name) VALUES ($1, $2, $3), ($4, $5, $6) ON CONFLICT (actor_id) WHERE actor_id IS NOT NULL AND first_name <> $7 DO NOTHING" [1, .val (.str c!"bob"), .val (.str c!"the builder"), 2, .val (.str c!"alice"), .val (.str c!"in wonderland"), .val (.str c!"")] = true := by decide +kernel
/-- upsert -/
example : gives .sqlite (sql .other (Chain.insert ⟨.sqlite, none⟩ (.insertWith [((cteOf false c!"cte" [c!"n"] (Dial.queryf c!"SELECT 1" []))).node]) [.insertInto (.table c!"" c!"actor" c!"a" (fun _ => .none) (fun _ => .nil)), .valuesx ⟨[((newField c!"actor_id" { name := c!"actor", «alias» := c!"a" }), (.scalar (.int 1))), ((newField c!"first_name" { name := c!"actor", «alias» := c!"a" }), (.scalar (.str c!"bob"))), ((newField c!"last_name" { name := c!"actor", «alias» := c!"a" }), (.scalar (.str c!"the builder"))), ((newField c!"actor_id" { name := c!"actor", «alias» := c!"a" }), (.scalar (.int 2))), ((newField c!"first_name" { name := c!"actor", «alias» := c!"a" }), (.scalar (.str c!"alice"))), ((newField c!"last_name" { name := c!"actor", «alias» := c!"a" }), (.scalar (.str c!"in wonderland")))], none⟩, .onConflict [(newField c!"actor_id" { name := c!"actor", «alias» := c!"a" })] [Chain.and_ [(.vpred false [] false false [(Call.isNotNull (newField c!"actor_id" { name := c!"actor", «alias» := c!"a" })).node, (Call.ne (newField c!"first_name" { name := c!"actor", «alias» := c!"a" }) (.scalar (.str c!""))).node])]] (.doUpdateSet [((pairOf (assignExcluded c!"first_name")).1, (pairOf (assignExcluded c!"first_name")).2), ((pairOf (assignExcluded c!"last_name")).1, (pairOf (assignExcluded c!"last_name")).2)]), .where [(Call.isNotNull (newField c!"last_update" { name := c!"actor", «alias» := c!"a" })).node, (Call.ne (newField c!"last_name" { name := c!"actor", «alias» := c!"a" }) (.scalar (.str c!""))).node]]).node)
    c!"WITH cte (n) AS (SELECT 1) INSERT INTO actor AS a (actor_id, first_name, last_name) VALUES ($1, $2, $3), ($4, $5, $6) ON CONFLICT (actor_id) WHERE actor_id IS NOT NULL AND first_name <> $7 DO UPDATE SET first_name = EXCLUDED.first_name, last_name = EXCLUDED.last_name WHERE a.last_update IS NOT NULL AND a.last_name <> $8" [1, .val (.str c!"bob"), .val (.str c!"the builder"), 2, .val (.str c!"alice"), .val (.str c!"in wonderland"), .val (.str c!""), .val (.str c!"")] = true := by decide +kernel
/-- INSERT from SELECT -/
example : gives .sqlite (sql .other (Chain.insert ⟨.sqlite, none⟩ (.insertWith [((cteOf false c!"cte" [c!"n"] (Dial.queryf c!"SELECT 1" []))).node]) [.insertInto (.table c!"" c!"actor" c!"a1" (fun _ => .none) (fun _ => .nil)), .columns [(newField c!"first_name" { name := c!"actor", «alias» := c!"a1" }), (newField c!"last_name" { name := c!"actor", «alias» := c!"a1" })], .select (Chain.select ⟨.sqlite, none⟩ (.select [(newField c!"first_name" { name := c!"actor", «alias» := c!"a2" }), (newField c!"last_name" { name := c!"actor", «alias» := c!"a2" })]) [.from (.table c!"" c!"actor" c!"a2" (fun _ => .none) (fun _ => .nil)), .where [(Call.in_ (newField c!"actor_id" { name := c!"actor", «alias» := c!"a2" }) (sl [(.scalar (.int 1)), (.scalar (.int 2))])).node]])]).node)
    c!"WITH cte (n) AS (SELECT 1) INSERT INTO actor AS a1 (first_name, last_name) SELECT a2.first_name, a2.last_name FROM actor AS a2 WHERE a2.actor_id IN ($1, $2)" [1, 2] = true := by decide +kernel
/-! update_query_mysql_test.go -/
/-- joins -/
example : gives .mysql (sql .other (Chain.update ⟨.mysql, none⟩ (.update (.table c!"" c!"actor" c!"a" (fun _ => .none) (fun _ => .nil))) [.with [((cteOf false c!"cte" [c!"n"] (Dial.queryf c!"SELECT 1" []))).node], .set [((newField c!"actor_id" { name := c!"actor", «alias» := c!"a" }), (.scalar (.int 1)))], .join .join (.table c!"" c!"actor" c!"a" (fun _ => .none) (fun _ => .nil)) [(Call.eq (.scalar (.int 1)) (.scalar (.int 1))).node], .join .leftJoin (.table c!"" c!"actor" c!"a" (fun _ => .none) (fun _ => .nil)) [(Call.eq (.scalar (.int 1)) (.scalar (.int 1))).node], .join .rightJoin (.table c!"" c!"actor" c!"a" (fun _ => .none) (fun _ => .nil)) [(Call.eq (.scalar (.int 1)) (.scalar (.int 1))).node], .join .fullJoin (.table c!"" c!"actor" c!"a" (fun _ => .none) (fun _ => .nil)) [(Call.eq (.scalar (.int 1)) (.scalar (.int 1))).node], .crossJoin (.table c!"" c!"actor" c!"a" (fun _ => .none) (fun _ => .nil)), .join (.customJoin c!"CROSS JOIN LATERAL") (.table c!"" c!"actor" c!"a" (fun _ => .none) (fun _ => .nil)) [], .where [(Call.eq (newField c!"actor_id" { name := c!"actor", «alias» := c!"a" }) (.scalar (.int 1))).node]]).node)
    c!"WITH cte (n) AS (SELECT 1) UPDATE actor AS a JOIN actor AS a ON ? = ? LEFT JOIN actor AS a ON ? = ? RIGHT JOIN actor AS a ON ? = ? FULL JOIN actor AS a ON ? = ? CROSS JOIN actor AS a CROSS JOIN LATERAL actor AS a SET a.actor_id = ? WHERE a.actor_id = ?" [1, 1, 1, 1, 1, 1, 1, 1, 1, 1] = true := by decide +kernel
/-- simple -/
example : gives .mysql (sql .other (Chain.update ⟨.mysql, none⟩ (.updateWith [((cteOf false c!"cte" [c!"n"] (Dial.queryf c!"SELECT 1" []))).node]) [.update (.table c!"" c!"actor" c!"a" (fun _ => .none) (fun _ => .nil)), .setx ⟨[((newField c!"actor_id" { name := c!"actor", «alias» := c!"a" }), (.scalar (.int 1)))], none⟩, .where [(Call.eq (newField c!"actor_id" { name := c!"actor", «alias» := c!"a" }) (.scalar (.int 1))).node], .orderBy [(newField c!"actor_id" { name := c!"actor", «alias» := c!"a" })], .limit 10]).node)
    c!"WITH cte (n) AS (SELECT 1) UPDATE actor AS a SET a.actor_id = ? WHERE a.actor_id = ? ORDER BY a.actor_id LIMIT ?" [1, 1, 10] = true := by decide +kernel
/-- Multi-table UPDATE -/
example : gives .mysql (sql .other (Chain.update ⟨.mysql, none⟩ (.update (.table c!"" c!"address" c!"a" (fun _ => .none) (fun _ => .nil))) [.join .join (.table c!"" c!"city" c!"ci" (fun _ => .none) (fun _ => .nil)) [(Call.eq (newField c!"city_id" { name := c!"city", «alias» := c!"ci" }) (newField c!"city_id" { name := c!"address", «alias» := c!"a" })).node], .join .join (.table c!"" c!"country" c!"co" (fun _ => .none) (fun _ => .nil)) [(Call.eq (newField c!"country_id" { name := c!"country", «alias» := c!"co" }) (newField c!"country_id" { name := c!"city", «alias» := c!"ci" })).node], .setx ⟨[((newField c!"address" { name := c!"address", «alias» := c!"a" }), (.scalar (.str c!"3 CC Street (modified)"))), ((newField c!"city" { name := c!"city", «alias» := c!"ci" }), (.scalar (.str c!"City C-C (modified)"))), ((newField c!"country" { name := c!"country", «alias» := c!"co" }), (.scalar (.str c!"Country C (modified)")))], none⟩, .where [(Call.eq (newField c!"address_id" { name := c!"address", «alias» := c!"a" }) (.scalar (.int 632))).node]]).node)
    c!"UPDATE address AS a JOIN city AS ci ON ci.city_id = a.city_id JOIN country AS co ON co.country_id = ci.country_id SET a.address = ?, ci.city = ?, co.country = ? WHERE a.address_id = ?" [.val (.str c!"3 CC Street (modified)"), .val (.str c!"City C-C (modified)"), .val (.str c!"Country C (modified)"), 632] = true := by decide +kernel
/-! update_query_postgres_test.go -/
/-- joins -/
example : gives .postgres (sql .other (Chain.update ⟨.postgres, none⟩ (.update (.table c!"" c!"actor" c!"a" (fun _ => .none) (fun _ => .nil))) [.with [((cteOf false c!"cte" [c!"n"] (Dial.queryf c!"SELECT 1" []))).node], .set [((newField c!"actor_id" { name := c!"actor", «alias» := c!"a" }), (.scalar (.int 1)))], .from (.table c!"" c!"actor" c!"a" (fun _ => .none) (fun _ => .nil)), .join .join (.table c!"" c!"actor" c!"a" (fun _ => .none) (fun _ => .nil)) [(Call.eq (.scalar (.int 1)) (.scalar (.int 1))).node], .join .leftJoin (.table c!"" c!"actor" c!"a" (fun _ => .none) (fun _ => .nil)) [(Call.eq (.scalar (.int 1)) (.scalar (.int 1))).node], .join .rightJoin (.table c!"" c!"actor" c!"a" (fun _ => .none) (fun _ => .nil)) [(Call.eq (.scalar (.int 1)) (.scalar (.int 1))).node], .join .fullJoin (.table c!"" c!"actor" c!"a" (fun _ => .none) (fun _ => .nil)) [(Call.eq (.scalar (.int 1)) (.scalar (.int 1))).node], .crossJoin (.table c!"" c!"actor" c!"a" (fun _ => .none) (fun _ => .nil)), .join (.customJoin c!"CROSS JOIN LATERAL") (.table c!"" c!"actor" c!"a" (fun _ => .none) (fun _ => .nil)) [], .where [(Call.eq (newField c!"actor_id" { name := c!"actor", «alias» := c!"a" }) (.scalar (.int 1))).node]]).node)
    c!"WITH cte (n) AS (SELECT 1) UPDATE actor AS a SET actor_id = $1 FROM actor AS a JOIN actor AS a ON $2 = $3 LEFT JOIN actor AS a ON $4 = $5 RIGHT JOIN actor AS a ON $6 = $7 FULL JOIN actor AS a ON $8 = $9 CROSS JOIN actor AS a CROSS JOIN LATERAL actor AS a WHERE a.actor_id = $10" [1, 1, 1, 1, 1, 1, 1, 1, 1, 1] = true := by decide +kernel
/-- simple -/
example : gives .postgres (sql .other (Chain.update ⟨.postgres, none⟩ (.updateWith [((cteOf false c!"cte" [c!"n"] (Dial.queryf c!"SELECT 1" []))).node]) [.update (.table c!"" c!"actor" c!"a" (fun _ => .none) (fun _ => .nil)), .setx ⟨[((newField c!"actor_id" { name := c!"actor", «alias» := c!"a" }), (.scalar (.int 1)))], none⟩, .where [(Call.eq (newField c!"actor_id" { name := c!"actor", «alias» := c!"a" }) (.scalar (.int 1))).node], .returning [(newField c!"actor_id" { name := c!"actor", «alias» := c!"a" })]]).node)
    c!"WITH cte (n) AS (SELECT 1) UPDATE actor AS a SET actor_id = $1 WHERE a.actor_id = $2 RETURNING a.actor_id" [1, 1] = true := by decide +kernel
/-! update_query_sqlite_test.go -/
/-- joins -/
example : gives .sqlite (sql .other (Chain.update ⟨.sqlite, none⟩ (.update (.table c!"" c!"actor" c!"" (fun _ => .none) (fun _ => .nil))) [.with [((cteOf false c!"cte" [c!"n"] (Dial.queryf c!"SELECT 1" []))).node], .set [((newField c!"actor_id" { name := c!"actor", «alias» := c!"" }), (.scalar (.int 1)))], .from (.table c!"" c!"actor" c!"" (fun _ => .none) (fun _ => .nil)), .join .join (.table c!"" c!"actor" c!"" (fun _ => .none) (fun _ => .nil)) [(Call.eq (.scalar (.int 1)) (.scalar (.int 1))).node], .join .leftJoin (.table c!"" c!"actor" c!"" (fun _ => .none) (fun _ => .nil)) [(Call.eq (.scalar (.int 1)) (.scalar (.int 1))).node], .crossJoin (.table c!"" c!"actor" c!"" (fun _ => .none) (fun _ => .nil)), .join (.customJoin c!",") (.table c!"" c!"actor" c!"" (fun _ => .none) (fun _ => .nil)) [], .where [(Call.eq (newField c!"actor_id" { name := c!"actor", «alias» := c!"" }) (.scalar (.int 1))).node]]).node)
    c!"WITH cte (n) AS (SELECT 1) UPDATE actor SET actor_id = $1 FROM actor JOIN actor ON $2 = $3 LEFT JOIN actor ON $4 = $5 CROSS JOIN actor , actor WHERE actor.actor_id = $6" [1, 1, 1, 1, 1, 1] = true := by decide +kernel
/-- simple -/
example : gives .sqlite (sql .other (Chain.update ⟨.sqlite, none⟩ (.updateWith [((cteOf false c!"cte" [c!"n"] (Dial.queryf c!"SELECT 1" []))).node]) [.update (.table c!"" c!"actor" c!"a" (fun _ => .none) (fun _ => .nil)), .setx ⟨[((newField c!"actor_id" { name := c!"actor", «alias» := c!"a" }), (.scalar (.int 1)))], none⟩, .where [(Call.eq (newField c!"actor_id" { name := c!"actor", «alias» := c!"a" }) (.scalar (.int 1))).node], .orderBy [(newField c!"actor_id" { name := c!"actor", «alias» := c!"a" })], .limit 10, .offset 20]).node)
    c!"WITH cte (n) AS (SELECT 1) UPDATE actor AS a SET actor_id = $1 WHERE a.actor_id = $2 ORDER BY a.actor_id LIMIT $3 OFFSET $4" [1, 1, 10, 20] = true := by decide +kernel
/-! delete_query_mysql_test.go -/
/-- joins -/
example : gives .mysql (sql .other (Chain.delete ⟨.mysql, none⟩ (.deleteFrom [(.table c!"" c!"actor" c!"" (fun _ => .none) (fun _ => .nil))]) [.with [((cteOf false c!"cte" [c!"n"] (Dial.queryf c!"SELECT 1" []))).node], .using (.table c!"" c!"actor" c!"" (fun _ => .none) (fun _ => .nil)), .join .join (.table c!"" c!"actor" c!"" (fun _ => .none) (fun _ => .nil)) [(Call.eq (.scalar (.int 1)) (.scalar (.int 1))).node], .join .leftJoin (.table c!"" c!"actor" c!"" (fun _ => .none) (fun _ => .nil)) [(Call.eq (.scalar (.int 1)) (.scalar (.int 1))).node], .join .rightJoin (.table c!"" c!"actor" c!"" (fun _ => .none) (fun _ => .nil)) [(Call.eq (.scalar (.int 1)) (.scalar (.int 1))).node], .join .fullJoin (.table c!"" c!"actor" c!"" (fun _ => .none) (fun _ => .nil)) [(Call.eq (.scalar (.int 1)) (.scalar (.int 1))).node], .crossJoin (.table c!"" c!"actor" c!"" (fun _ => .none) (fun _ => .nil)), .join (.customJoin c!"NATURAL JOIN") (.table c!"" c!"actor" c!"" (fun _ => .none) (fun _ => .nil)) []]).node)
    c!"WITH cte (n) AS (SELECT 1) DELETE FROM actor USING actor JOIN actor ON ? = ? LEFT JOIN actor ON ? = ? RIGHT JOIN actor ON ? = ? FULL JOIN actor ON ? = ? CROSS JOIN actor NATURAL JOIN actor" [1, 1, 1, 1, 1, 1, 1, 1] = true := by decide +kernel
/-- delete with join -/
example : gives .mysql (sql .other (Chain.delete ⟨.mysql, none⟩ (.deleteWith [((cteOf false c!"lang" [] (Chain.select ⟨.mysql, none⟩ (.select [(newField c!"language_id" { name := c!"language", «alias» := c!"l" }), (newField c!"name" { name := c!"language", «alias» := c!"l" })]) [.from (.table c!"" c!"language" c!"l" (fun _ => .none) (fun _ => .nil)), .where [(Call.isNotNull (newField c!"name" { name := c!"language", «alias» := c!"l" })).node]]).node)).node]) [.deleteFrom [(.table c!"" c!"film" c!"f" (fun _ => .none) (fun _ => .nil))], .using (.table c!"" c!"film" c!"f" (fun _ => .none) (fun _ => .nil)), .join .join ((cteOf false c!"lang" [] (Chain.select ⟨.mysql, none⟩ (.select [(newField c!"language_id" { name := c!"language", «alias» := c!"l" }), (newField c!"name" { name := c!"language", «alias» := c!"l" })]) [.from (.table c!"" c!"language" c!"l" (fun _ => .none) (fun _ => .nil)), .where [(Call.isNotNull (newField c!"name" { name := c!"language", «alias» := c!"l" })).node]]).node)).node [(Call.eq (((cteOf false c!"lang" [] (Chain.select ⟨.mysql, none⟩ (.select [(newField c!"language_id" { name := c!"language", «alias» := c!"l" }), (newField c!"name" { name := c!"language", «alias» := c!"l" })]) [.from (.table c!"" c!"language" c!"l" (fun _ => .none) (fun _ => .nil)), .where [(Call.isNotNull (newField c!"name" { name := c!"language", «alias» := c!"l" })).node]]).node)).field c!"language_id") (newField c!"language_id" { name := c!"film", «alias» := c!"f" })).node], .join .join (.table c!"" c!"inventory" c!"i" (fun _ => .none) (fun _ => .nil)) [(Call.eq (newField c!"film_id" { name := c!"inventory", «alias» := c!"i" }) (newField c!"film_id" { name := c!"film", «alias» := c!"f" })).node], .where [(Call.in_ (((cteOf false c!"lang" [] (Chain.select ⟨.mysql, none⟩ (.select [(newField c!"language_id" { name := c!"language", «alias» := c!"l" }), (newField c!"name" { name := c!"language", «alias» := c!"l" })]) [.from (.table c!"" c!"language" c!"l" (fun _ => .none) (fun _ => .nil)), .where [(Call.isNotNull (newField c!"name" { name := c!"language", «alias» := c!"l" })).node]]).node)).field c!"name") (sl [(.scalar (.str c!"English")), (.scalar (.str c!"Italian"))])).node, (Call.isNotNull (newField c!"last_update" { name := c!"inventory", «alias» := c!"i" })).node]]).node)
    c!"WITH lang AS (SELECT l.language_id, l.name FROM language AS l WHERE l.name IS NOT NULL) DELETE FROM f USING film AS f JOIN lang ON lang.language_id = f.language_id JOIN inventory AS i ON i.film_id = f.film_id WHERE lang.name IN (?, ?) AND i.last_update IS NOT NULL" [.val (.str c!"English"), .val (.str c!"Italian")] = true := by decide +kernel
/-- Multi-table DELETE -/
example : gives .mysql (sql .other (Chain.delete ⟨.mysql, none⟩ (.deleteFrom [(.table c!"" c!"address" c!"a" (fun _ => .none) (fun _ => .nil)), (.table c!"" c!"city" c!"ci" (fun _ => .none) (fun _ => .nil)), (.table c!"" c!"country" c!"co" (fun _ => .none) (fun _ => .nil))]) [.using (.table c!"" c!"address" c!"a" (fun _ => .none) (fun _ => .nil)), .join .join (.table c!"" c!"city" c!"ci" (fun _ => .none) (fun _ => .nil)) [(Call.eq (newField c!"city_id" { name := c!"city", «alias» := c!"ci" }) (newField c!"city_id" { name := c!"address", «alias» := c!"a" })).node], .join .join (.table c!"" c!"country" c!"co" (fun _ => .none) (fun _ => .nil)) [(Call.eq (newField c!"country_id" { name := c!"country", «alias» := c!"co" }) (newField c!"country_id" { name := c!"city", «alias» := c!"ci" })).node], .where [(Call.eq (newField c!"country_id" { name := c!"country", «alias» := c!"co" }) (.scalar (.int 112))).node]]).node)
    c!"DELETE FROM a, ci, co USING address AS a JOIN city AS ci ON ci.city_id = a.city_id JOIN country AS co ON co.country_id = ci.country_id WHERE co.country_id = ?" [112] = true := by decide +kernel
/-- ORDER BY LIMIT -/
example : gives .mysql (sql .other (Chain.delete ⟨.mysql, none⟩ (.deleteFrom [(.table c!"" c!"actor" c!"a" (fun _ => .none) (fun _ => .nil))]) [.orderBy [(newField c!"actor_id" { name := c!"actor", «alias» := c!"a" })], .limit 0]).node)
    c!"DELETE FROM actor AS a ORDER BY a.actor_id LIMIT ?" [0] = true := by decide +kernel
/-! delete_query_postgres_test.go -/
/-- joins -/
example : gives .postgres (sql .other (Chain.delete ⟨.postgres, none⟩ (.deleteFrom [(.table c!"" c!"actor" c!"a" (fun _ => .none) (fun _ => .nil))]) [.deleteFrom [(.table c!"" c!"actor" c!"a" (fun _ => .none) (fun _ => .nil))], .with [((cteOf false c!"cte" [c!"n"] (Dial.queryf c!"SELECT 1" []))).node], .using (.table c!"" c!"actor" c!"a" (fun _ => .none) (fun _ => .nil)), .join .join (.table c!"" c!"actor" c!"a" (fun _ => .none) (fun _ => .nil)) [(Call.eq (.scalar (.int 1)) (.scalar (.int 1))).node], .join .leftJoin (.table c!"" c!"actor" c!"a" (fun _ => .none) (fun _ => .nil)) [(Call.eq (.scalar (.int 1)) (.scalar (.int 1))).node], .join .rightJoin (.table c!"" c!"actor" c!"a" (fun _ => .none) (fun _ => .nil)) [(Call.eq (.scalar (.int 1)) (.scalar (.int 1))).node], .join .fullJoin (.table c!"" c!"actor" c!"a" (fun _ => .none) (fun _ => .nil)) [(Call.eq (.scalar (.int 1)) (.scalar (.int 1))).node], .crossJoin (.table c!"" c!"actor" c!"a" (fun _ => .none) (fun _ => .nil)), .join (.customJoin c!"NATURAL JOIN") (.table c!"" c!"actor" c!"a" (fun _ => .none) (fun _ => .nil)) []]).node)
    c!"WITH cte (n) AS (SELECT 1) DELETE FROM actor AS a USING actor AS a JOIN actor AS a ON $1 = $2 LEFT JOIN actor AS a ON $3 = $4 RIGHT JOIN actor AS a ON $5 = $6 FULL JOIN actor AS a ON $7 = $8 CROSS JOIN actor AS a NATURAL JOIN actor AS a" [1, 1, 1, 1, 1, 1, 1, 1] = true := by decide +kernel
/-- delete with join -/
example : gives .postgres (sql .other (Chain.delete ⟨.postgres, none⟩ (.deleteWith [((cteOf false c!"lang" [] (Chain.select ⟨.postgres, none⟩ (.select [(newField c!"language_id" { name := c!"language", «alias» := c!"l" }), (newField c!"name" { name := c!"language", «alias» := c!"l" })]) [.from (.table c!"" c!"language" c!"l" (fun _ => .none) (fun _ => .nil)), .where [(Call.isNotNull (newField c!"name" { name := c!"language", «alias» := c!"l" })).node]]).node)).node]) [.deleteFrom [(.table c!"" c!"film" c!"f" (fun _ => .none) (fun _ => .nil))], .using ((cteOf false c!"lang" [] (Chain.select ⟨.postgres, none⟩ (.select [(newField c!"language_id" { name := c!"language", «alias» := c!"l" }), (newField c!"name" { name := c!"language", «alias» := c!"l" })]) [.from (.table c!"" c!"language" c!"l" (fun _ => .none) (fun _ => .nil)), .where [(Call.isNotNull (newField c!"name" { name := c!"language", «alias» := c!"l" })).node]]).node)).node, .join .join (.table c!"" c!"inventory" c!"i" (fun _ => .none) (fun _ => .nil)) [(Call.eq (newField c!"film_id" { name := c!"inventory", «alias» := c!"i" }) (newField c!"film_id" { name := c!"film", «alias» := c!"f" })).node], .where [(Call.eq (((cteOf false c!"lang" [] (Chain.select ⟨.postgres, none⟩ (.select [(newField c!"language_id" { name := c!"language", «alias» := c!"l" }), (newField c!"name" { name := c!"language", «alias» := c!"l" })]) [.from (.table c!"" c!"language" c!"l" (fun _ => .none) (fun _ => .nil)), .where [(Call.isNotNull (newField c!"name" { name := c!"language", «alias» := c!"l" })).node]]).node)).field c!"language_id") (newField c!"language_id" { name := c!"film", «alias» := c!"f" })).node, (Call.in_ (((cteOf false c!"lang" [] (Chain.select ⟨.postgres, none⟩ (.select [(newField c!"language_id" { name := c!"language", «alias» := c!"l" }), (newField c!"name" { name := c!"language", «alias» := c!"l" })]) [.from (.table c!"" c!"language" c!"l" (fun _ => .none) (fun _ => .nil)), .where [(Call.isNotNull (newField c!"name" { name := c!"language", «alias» := c!"l" })).node]]).node)).field c!"name") (sl [(.scalar (.str c!"English")), (.scalar (.str c!"Italian"))])).node, (Call.isNotNull (newField c!"last_update" { name := c!"inventory", «alias» := c!"i" })).node], .returning [(newField c!"film_id" { name := c!"film", «alias» := c!"f" })]]).node)
    c!"WITH lang AS (SELECT l.language_id, l.name FROM language AS l WHERE l.name IS NOT NULL) DELETE FROM film AS f USING lang JOIN inventory AS i ON i.film_id = f.film_id WHERE lang.language_id = f.language_id AND lang.name IN ($1, $2) AND i.last_update IS NOT NULL RETURNING f.film_id" [.val (.str c!"English"), .val (.str c!"Italian")] = true := by decide +kernel
/-! delete_query_sqlite_test.go -/
/-- filler -/
example : gives .sqlite (sql .other (Chain.delete ⟨.sqlite, none⟩ (.deleteFrom [(.table c!"" c!"actor" c!"a" (fun _ => .none) (fun _ => .nil))]) [.deleteFrom [(.table c!"" c!"actor" c!"a" (fun _ => .none) (fun _ => .nil))], .with [((cteOf false c!"cte" [c!"n"] (Dial.queryf c!"SELECT 1" []))).node]]).node)
    c!"WITH cte (n) AS (SELECT 1) DELETE FROM actor AS a" [] = true := by decide +kernel
/-- delete with join -/
example : gives .sqlite (sql .other (Chain.delete ⟨.sqlite, none⟩ (.deleteWith [((cteOf false c!"lang" [] (Chain.select ⟨.sqlite, none⟩ (.select [(newField c!"language_id" { name := c!"language", «alias» := c!"l" }), (newField c!"name" { name := c!"language", «alias» := c!"l" })]) [.from (.table c!"" c!"language" c!"l" (fun _ => .none) (fun _ => .nil)), .where [(Call.isNotNull (newField c!"name" { name := c!"language", «alias» := c!"l" })).node]]).node)).node]) [.deleteFrom [(.table c!"" c!"film" c!"f1" (fun _ => .none) (fun _ => .nil))], .where [(Call.exists_ (Chain.select ⟨.sqlite, none⟩ (.selectOne) [.from (.table c!"" c!"film" c!"f2" (fun _ => .none) (fun _ => .nil)), .join .join ((cteOf false c!"lang" [] (Chain.select ⟨.sqlite, none⟩ (.select [(newField c!"language_id" { name := c!"language", «alias» := c!"l" }), (newField c!"name" { name := c!"language", «alias» := c!"l" })]) [.from (.table c!"" c!"language" c!"l" (fun _ => .none) (fun _ => .nil)), .where [(Call.isNotNull (newField c!"name" { name := c!"language", «alias» := c!"l" })).node]]).node)).node [(Call.eq (((cteOf false c!"lang" [] (Chain.select ⟨.sqlite, none⟩ (.select [(newField c!"language_id" { name := c!"language", «alias» := c!"l" }), (newField c!"name" { name := c!"language", «alias» := c!"l" })]) [.from (.table c!"" c!"language" c!"l" (fun _ => .none) (fun _ => .nil)), .where [(Call.isNotNull (newField c!"name" { name := c!"language", «alias» := c!"l" })).node]]).node)).field c!"language_id") (newField c!"language_id" { name := c!"film", «alias» := c!"f2" })).node], .join .join (.table c!"" c!"inventory" c!"i" (fun _ => .none) (fun _ => .nil)) [(Call.eq (newField c!"film_id" { name := c!"inventory", «alias» := c!"i" }) (newField c!"film_id" { name := c!"film", «alias» := c!"f2" })).node], .where [(Call.eq (newField c!"film_id" { name := c!"film", «alias» := c!"f1" }) (newField c!"film_id" { name := c!"film", «alias» := c!"f2" })).node, (Call.in_ (((cteOf false c!"lang" [] (Chain.select ⟨.sqlite, none⟩ (.select [(newField c!"language_id" { name := c!"language", «alias» := c!"l" }), (newField c!"name" { name := c!"language", «alias» := c!"l" })]) [.from (.table c!"" c!"language" c!"l" (fun _ => .none) (fun _ => .nil)), .where [(Call.isNotNull (newField c!"name" { name := c!"language", «alias» := c!"l" })).node]]).node)).field c!"name") (sl [(.scalar (.str c!"English")), (.scalar (.str c!"Italian"))])).node, (Call.isNotNull (newField c!"last_update" { name := c!"inventory", «alias» := c!"i" })).node]]).node).node], .returning [(newField c!"film_id" { name := c!"film", «alias» := c!"f1" })]]).node)
    c!"WITH lang AS (SELECT l.language_id, l.name FROM language AS l WHERE l.name IS NOT NULL) DELETE FROM film AS f1 WHERE EXISTS (SELECT 1 FROM film AS f2 JOIN lang ON lang.language_id = f2.language_id JOIN inventory AS i ON i.film_id = f2.film_id WHERE f1.film_id = f2.film_id AND lang.name IN ($1, $2) AND i.last_update IS NOT NULL) RETURNING f1.film_id" [.val (.str c!"English"), .val (.str c!"Italian")] = true := by decide +kernel
/-- ORDER BY LIMIT OFFSET -/
example : gives .sqlite (sql .other (Chain.delete ⟨.sqlite, none⟩ (.deleteFrom [(.table c!"" c!"actor" c!"a" (fun _ => .none) (fun _ => .nil))]) [.orderBy [(newField c!"actor_id" { name := c!"actor", «alias» := c!"a" })], .limit 0, .offset 10]).node)
    c!"DELETE FROM actor AS a ORDER BY a.actor_id LIMIT $1 OFFSET $2" [0, 10] = true := by decide +kernel

end Conform.Builders
