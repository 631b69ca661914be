import Verif.Model.Node
/-
Concrete queries used to show that hypotheses of the theorems are met.
-/
namespace Sq.Ex

/-- `sq.NewNumberField(name, table)` -/
def col (table name : Str) : Node := .field { tableName := table, name := name } false false []

/-- `field.EqInt(i)`, i.e. `Predicatef("{} = {}", field, i)` -/
def eqInt (f : Node) (i : Int) : Node := .cpred [] "{} = {}" false [f, .scalar (.int i)]

def andp (ps : List Node) : Node := .vpred false [] false false ps
def orp (ps : List Node) : Node := .vpred false [] true false ps

def noHook : Env → HookKind := fun _ => .none
def users : Node := .table [] "users" "u" noHook (fun _ => .nil)

/-- `SELECT u.id FROM users AS u WHERE u.id = 1 AND (u.age = 2 OR u.age = 3) LIMIT 5` -/
def q1 : Node :=
  .select { limit := some 5 } [] [col "u" "id"] [] users []
    (andp [eqInt (col "u" "id") 1, orp [eqInt (col "u" "age") 2, eqInt (col "u" "age") 3]]) [] (andp []) []

/-- `WHERE u.id = Param("id", 1) OR u.parent = Param("id", 1)` with ordinal references. -/
def q2 : Node :=
  .select {} [] [col "u" "id"] [] users []
    (orp [.cpred [] "{} = {}" false [col "u" "id", .param "id" (.scalar (.int 1))],
          .cpred [] "{1} BETWEEN {2} AND {2} + 1" false [col "u" "parent", .scalar (.int 7)],
          .cpred [] "{} = {}" false [col "u" "parent", .param "id" (.scalar (.int 1))]]) [] (andp []) []

/-- Nested formats using the same ordinals. -/
def capture : Node :=
  .field { formats := [("default", "{1} {2}")] } false false
    [.scalar (.int 10), .field { formats := [("default", "f({1})")] } false false [.scalar (.int 20)]]
/-- The inner value alone. -/
def captureInner : Node := .field { formats := [("default", "f({1})")] } false false [.scalar (.int 20)]

end Sq.Ex
