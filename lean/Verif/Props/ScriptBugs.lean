import Verif.Props.ScriptRead
/-
C40: where the full statement fails.
-/
namespace Ddl
open Spec
open _root_.Spec (reader)

/-- **C40 (full statement, violated on MySQL).** Every text is one statement, yet the script is not read as one statement per command: the
`-- DELIMITER ;;` comment is not followed by a newline when nothing was written before, so it swallows the function. -/
theorem C40_mysql_function_violated :
    ∃ (m : Migration) (out : Str), m.d = .mysql ∧ m.script = .ok out ∧
      (∀ c ∈ m.order, ∃ q, c.sql m.d = .ok q ∧ (reader m.d).Whole (trim q)) ∧
      m.order.length = 2 ∧ ((reader m.d).read out).1.length = 1 :=
  ⟨{ dialect := some .mysql
     createFunctionCmds := [{ function := { sql := "CREATE FUNCTION f() RETURNS INT RETURN 1".toList } }]
     createTableCmds := [{ table := { tableName := "t".toList, columns := [{ columnName := "c".toList, columnType := "INT".toList }] } }] },
   "\n\n-- DELIMITER ;;CREATE FUNCTION f() RETURNS INT RETURN 1; -- ;;\n\n-- DELIMITER ;\n\nCREATE TABLE t (\n    c INT\n);".toList,
   rfl, by decide +kernel, by
    intro c hc
    have : c ∈ [Command.createFunction { function := { sql := "CREATE FUNCTION f() RETURNS INT RETURN 1".toList } },
      Command.createTable { table := { tableName := "t".toList, columns := [{ columnName := "c".toList, columnType := "INT".toList }] } }] := hc
    rcases List.mem_cons.1 this with rfl | h
    · exact ⟨_, rfl, by unfold _root_.Spec.Reader.Whole; decide +kernel⟩
    · rw [List.mem_singleton] at h; subst h
      exact ⟨"CREATE TABLE t (\n    c INT\n)".toList, by decide +kernel, by unfold _root_.Spec.Reader.Whole; decide +kernel⟩,
   by decide +kernel, by decide +kernel⟩

/-- **C40 (full statement, violated on MySQL).** An ignored function leaves a trace: the script differs from that of the migration without it,
and the first line of the next command is swallowed by the trace, so that the table is lost. -/
theorem C40_mysql_ignored_violated :
    ∃ m : Migration, m.order = ({ m with createFunctionCmds := [] } : Migration).order ∧
      m.script ≠ ({ m with createFunctionCmds := [] } : Migration).script ∧
      m.script = .ok "\n\n-- DELIMITER ;;\n\n-- DELIMITER ;CREATE TABLE t (\n    c INT\n);".toList :=
  ⟨{ dialect := some .mysql
     createFunctionCmds := [{ function := { sql := "CREATE FUNCTION f() RETURNS INT RETURN 1".toList }, ignore := true }]
     createTableCmds := [{ table := { tableName := "t".toList, columns := [{ columnName := "c".toList, columnType := "INT".toList }] } }] },
   by decide +kernel, by decide +kernel, by decide +kernel⟩

/-- **C40 (full statement, violated on MySQL).** The SQL of a function that already ends in `;` gets a second terminator: an empty statement. -/
theorem C40_mysql_terminator_violated :
    ∃ (m : Migration) (out : Str), m.script = .ok out ∧ m.order.length = 2 ∧
      ((reader m.d).read out).1 = ["CREATE SCHEMA s".toList, "\n\n-- DELIMITER ;;\n\nCREATE FUNCTION f() RETURNS INT RETURN 1".toList, []] :=
  ⟨{ dialect := some .mysql
     createSchemaCmds := [{ schemaName := "s".toList }]
     createFunctionCmds := [{ function := { sql := "CREATE FUNCTION f() RETURNS INT RETURN 1;".toList } }] },
   "CREATE SCHEMA s;\n\n-- DELIMITER ;;\n\nCREATE FUNCTION f() RETURNS INT RETURN 1;; -- ;;\n\n-- DELIMITER ;".toList,
   by decide +kernel, by decide +kernel, by decide +kernel⟩

/-- **C40 (full statement, violated).** A trigger without SQL makes `WriteSQL` panic (while executing the migration sends the empty statement). -/
theorem C40_blank_violated :
    ∃ m : Migration, m.script = .panic ∧ m.exec (fun _ _ => true) = ⟨[[]], .done⟩ :=
  ⟨{ dialect := some .postgres, createTriggerCmds := [{ trigger := {} }] }, by decide +kernel, by decide +kernel⟩

/-- **C40 (full statement, violated).** A view whose SQL ends in a line comment swallows its own terminator and with it the next command. -/
theorem C40_comment_violated :
    ∃ (m : Migration) (out : Str), m.script = .ok out ∧ m.order.length = 2 ∧ ((reader m.d).read out).1.length = 1 :=
  ⟨{ dialect := some .postgres
     createViewCmds := [{ view := { viewName := "v".toList, sql := "SELECT 1 -- one\n".toList } }]
     dropTableCmds := [{ tableSchemas := [[]], tableNames := ["t".toList] }] },
   "CREATE VIEW v AS SELECT 1 -- one;\n\nDROP TABLE t;".toList, by decide +kernel, by decide +kernel, by decide +kernel⟩

/-- **C40 (full statement, violated).** `WriteSQL` does not look at what the writer says: it returns no error although the text was not
delivered. -/
theorem C40_writer_violated :
    ∃ (m : Migration) (w : Writing) (accepts : List Str → Str → Bool), m.write = .ok w ∧
      delivered accepts [] w.chunks ≠ w.chunks.flatten :=
  ⟨{ dialect := some .postgres, dropTableCmds := [{ tableSchemas := [[]], tableNames := ["t".toList] }] },
   ⟨["DROP TABLE t".toList, ";".toList], true⟩, fun h _ => h = [], by decide +kernel, by decide +kernel⟩

end Ddl
