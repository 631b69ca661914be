import Verif.Model.Dialect
import Verif.Spec.Dialect
import Verif.Props.Chain
import Verif.Proof.Seq
import Verif.Model.Examples
/-
C73: a statement is written in one dialect, that of its outermost query or the one given to ToSQL.
-/
namespace Sq.Dial
open Sq Spec.Dial

theorem plainL_length : (ns : List Node) → (plainL ns).length = ns.length
  | [] => rfl
  | _ :: ns => by simp only [plainL, List.length_cons, plainL_length ns]

theorem plain_kind (n : Node) : (plain n).kind = n.kind := by
  cases n <;> simp only [plain, Node.kind, plainL_length]

theorem plain_key (n : Node) : (plain n).key = n.key := by
  cases n <;> simp only [plain, Node.key]

mutual
theorem plain_alias : (n : Node) → (plain n).alias = n.alias
  | .param _ v => by simp only [plain, Node.alias, plain_alias v]
  | .value v _ => by simp only [plain, Node.alias, plain_alias v]
  | .slice .. | .field .. | .cpred .. | .vpred .. | .predCases .. | .simpleCases .. | .window .. | .rowValue .. | .rowValues .. | .assign ..
  | .assigns .. | .fields .. | .table .. | .customTable .. | .join .. | .cte .. | .subquery .. | .vquery .. | .customQuery .. | .select ..
  | .insert .. | .update .. | .delete .. | .nil | .scalar _ | .namedArg .. | .checkedField .. | .literal .. | .ext .. => by
    simp only [plain, Node.alias]
end

mutual
theorem plain_name : (n : Node) → (plain n).name = n.name
  | .param _ v => by simp only [plain, Node.name, plain_name v]
  | .slice .. | .field .. | .value .. | .cpred .. | .vpred .. | .predCases .. | .simpleCases .. | .window .. | .rowValue .. | .rowValues ..
  | .assign .. | .assigns .. | .fields .. | .table .. | .customTable .. | .join .. | .cte .. | .subquery .. | .vquery .. | .customQuery ..
  | .select .. | .insert .. | .update .. | .delete .. | .nil | .scalar _ | .namedArg .. | .checkedField .. | .literal .. | .ext .. => by
    simp only [plain, Node.name]
end

theorem mkPV_plain (n : Node) (h1 : ren (plain n) = ren n) (h2 : hookOf (plain n) = hookOf n) :
    mkPV (plain n) (ren (plain n)) (hookOf (plain n)) = mkPV n (ren n) (hookOf n) := by
  simp only [mkPV, plain_kind, plain_alias, plain_name, plain_key, h1, h2]

mutual
theorem ren_plain : (n : Node) → ren (plain n) = ren n ∧ hookOf (plain n) = hookOf n
  | .nil | .scalar _ | .namedArg _ _ | .checkedField _ _ _ | .literal _ _ | .ext _ _ _ _ => by simp [plain]
  | .slice _ xs | .field _ _ _ xs | .cpred _ _ _ xs | .rowValue xs | .fields xs | .customTable _ xs | .vquery _ _ xs | .customQuery _ _ xs => by
    have h := objs_plain xs
    constructor
    · funext m pn
      simp only [plain, ren, h]
    · funext env
      simp only [plain, hookOf]
  | .vpred _ _ _ _ xs => by
    have h := objs_plain xs
    constructor
    · funext m pn
      simp only [plain, ren, h, plainL_length]
    · funext env
      simp only [plain, hookOf]
  | .param _ v => by
    have h := ren_plain v
    constructor
    · funext m pn
      simp only [plain, ren, mkPV_plain v h.1 h.2]
    · funext env
      simp only [plain, hookOf]
  | .value v _ => by
    have h := ren_plain v
    constructor
    · funext m pn
      simp only [plain, ren, h.1]
    · funext env
      simp only [plain, hookOf]
  | .cte _ v | .subquery _ _ v => by
    have h := ren_plain v
    constructor
    · funext m pn
      simp only [plain, ren, mkPV_plain v h.1 h.2]
    · funext env
      simp only [plain, hookOf]
  | .predCases _ cs fb => by
    have h := ren_plain fb
    have hc := pairs_plain cs
    constructor
    · funext m pn
      simp only [plain, ren, mkPV_plain fb h.1 h.2, hc]
    · funext env
      simp only [plain, hookOf]
  | .simpleCases _ e cs fb => by
    have h := ren_plain fb
    have he := ren_plain e
    have hc := pairs_plain cs
    constructor
    · funext m pn
      simp only [plain, ren, mkPV_plain fb h.1 h.2, mkPV_plain e he.1 he.2, hc]
    · funext env
      simp only [plain, hookOf]
  | .window a b _ => by
    have ha := objs_plain a
    have hb := objs_plain b
    constructor
    · funext m pn
      simp only [plain, ren, ha, hb]
    · funext env
      simp only [plain, hookOf]
  | .rowValues rows => by
    have h := objss_plain rows
    constructor
    · funext m pn
      simp only [plain, ren, h]
    · funext env
      simp only [plain, hookOf]
  | .assign l r => by
    have hl := ren_plain l
    have hr := ren_plain r
    constructor
    · funext m pn
      simp only [plain, ren, mkPV_plain l hl.1 hl.2, mkPV_plain r hr.1 hr.2]
    · funext env
      simp only [plain, hookOf]
  | .join _ l r => by
    have hl := ren_plain l
    have hr := ren_plain r
    constructor
    · funext m pn
      simp only [plain, ren, mkPV_plain l hl.1 hl.2, mkPV_plain r hr.1 hr.2]
    · funext env
      simp only [plain, hookOf, hl.2]
  | .assigns as => by
    have h := pairs_plain as
    constructor
    · funext m pn
      simp only [plain, ren, h]
    · funext env
      simp only [plain, hookOf]
  | .table _ _ _ hk hp => by
    constructor
    · funext m pn
      simp only [plain, ren]
    · funext env
      have h := ren_plain (hp env)
      simp only [plain, hookOf, h.1, plain_kind, plain_alias, plain_name, plain_key]
  | .select q ctes fs don fr js wh gb hv ob => by
    have h1 := objs_plain ctes
    have h2 := objs_plain fs
    have h3 := objs_plain don
    have h4 := ren_plain fr
    have h5 := objs_plain js
    have h6 := ren_plain wh
    have h7 := objs_plain gb
    have h8 := ren_plain hv
    have h9 := objs_plain ob
    constructor
    · funext m pn
      simp only [plain, ren, h1, h2, h3, h5, h7, h9, mkPV_plain _ h4.1 h4.2, mkPV_plain _ h6.1 h6.2, mkPV_plain _ h8.1 h8.2]
      rfl
    · funext env
      simp only [plain, hookOf]
  | .insert q ctes into cols rows sets sel cf cp res rp ret => by
    have h1 := objs_plain ctes
    have h2 := ren_plain into
    have h3 := objs_plain cols
    have h4 := objss_plain rows
    have h5 := pairs_plain sets
    have h6 := ren_plain sel
    have h7 := objs_plain cf
    have h8 := ren_plain cp
    have h9 := pairs_plain res
    have h10 := ren_plain rp
    have h11 := objs_plain ret
    constructor
    · funext m pn
      simp only [plain, ren, h1, h3, h4, h5, h7, h9, h11, mkPV_plain _ h2.1 h2.2, mkPV_plain _ h6.1 h6.2, mkPV_plain _ h8.1 h8.2,
        mkPV_plain _ h10.1 h10.2]
      rfl
    · funext env
      simp only [plain, hookOf]
  | .update q ctes tb fr js as sets wh ob ret => by
    have h1 := objs_plain ctes
    have h2 := ren_plain tb
    have h3 := ren_plain fr
    have h4 := objs_plain js
    have h5 := pairs_plain as
    have h6 := pairs_plain sets
    have h7 := ren_plain wh
    have h8 := objs_plain ob
    have h9 := objs_plain ret
    constructor
    · funext m pn
      simp only [plain, ren, h1, h4, h5, h6, h8, h9, mkPV_plain _ h2.1 h2.2, mkPV_plain _ h3.1 h3.2, mkPV_plain _ h7.1 h7.2]
      rfl
    · funext env
      simp only [plain, hookOf]
  | .delete q ctes frs us js wh ob ret => by
    have h1 := objs_plain ctes
    have h2 := objs_plain frs
    have h3 := ren_plain us
    have h4 := objs_plain js
    have h5 := ren_plain wh
    have h6 := objs_plain ob
    have h7 := objs_plain ret
    constructor
    · funext m pn
      simp only [plain, ren, h1, h2, h4, h6, h7, mkPV_plain _ h3.1 h3.2, mkPV_plain _ h5.1 h5.2]
      rfl
    · funext env
      simp only [plain, hookOf]
theorem objs_plain : (ns : List Node) → objs (plainL ns) = objs ns
  | [] => by simp only [plainL]
  | n :: ns => by
    have h := ren_plain n
    simp only [plainL, objs, mkPV_plain n h.1 h.2, objs_plain ns]
theorem objss_plain : (rs : List (List Node)) → objss (plainLL rs) = objss rs
  | [] => by simp only [plainLL]
  | r :: rs => by simp only [plainLL, objss, objs_plain r, objss_plain rs]
theorem pairs_plain : (ps : List (Node × Node)) → pairs (plainP ps) = pairs ps
  | [] => by simp only [plainP]
  | (a, b) :: ps => by
    have ha := ren_plain a
    have hb := ren_plain b
    simp only [plainP, pairs, mkPV_plain a ha.1 ha.2, mkPV_plain b hb.1 hb.2, pairs_plain ps]
end

/-- C73: two queries that differ only in the dialects their parts were built for are the same query in every dialect: same text, arguments,
parameters and error.  A query embedded in another one (as subquery, CTE, operand, value, hook predicate, at any depth) is written in the dialect of the
statement it is part of. -/
theorem C73_one_dialect (d : Dialect) (n n' : Node) (h : SameButDialects n n') : toSQL d n = toSQL d n' := by
  have : ren n = ren n' := by rw [← (ren_plain n).1, ← (ren_plain n').1]; exact congrArg ren h
  simp only [toSQL, this]

/-- C73: the dialect given to ToSQL is the one used. -/
theorem C73_given (own : Node → Dialect) (d : Dialect) (n : Node) (h : d ≠ .other) : toSQLOf own d n = .ok (toSQL d n) := by
  simp [toSQLOf, h]

/-- The dialect of a builder. -/
inductive BuiltBy (l : Chain.Lang) : Node → Prop
  | select (e s cs) : BuiltBy l (Chain.select ⟨l, e⟩ s cs).node
  | insert (e s cs) : BuiltBy l (Chain.insert ⟨l, e⟩ s cs).node
  | update (e s cs) : BuiltBy l (Chain.update ⟨l, e⟩ s cs).node
  | delete (e s cs) : BuiltBy l (Chain.delete ⟨l, e⟩ s cs).node
  | queryf (fmt vals) : BuiltBy l (langQueryf l fmt vals)

/-- Set operations, of any of the six kinds and nested in any way, over queries of which the first was made by the builder of `l`. -/
inductive LedBy (l : Chain.Lang) : Node → Prop
  | query (n) (h : BuiltBy l n) : LedBy l n
  | union (q qs) (h : LedBy l q) : LedBy l (union (q :: qs))
  | unionAll (q qs) (h : LedBy l q) : LedBy l (unionAll (q :: qs))
  | intersect (q qs) (h : LedBy l q) : LedBy l (intersect (q :: qs))
  | intersectAll (q qs) (h : LedBy l q) : LedBy l (intersectAll (q :: qs))
  | except (q qs) (h : LedBy l q) : LedBy l (except (q :: qs))
  | exceptAll (q qs) (h : LedBy l q) : LedBy l (exceptAll (q :: qs))

theorem select_dialect (b : Chain.Builder) (s : Chain.SelectStart) (cs : List Chain.SelectCall) : (Chain.select b s cs).dialect = b.lang.dialect := by
  have step : ∀ (cs : List Chain.SelectCall) q, (cs.foldl Chain.SelectCall.run q).dialect = q.dialect := by
    intro cs
    induction cs with
    | nil => intro q; rfl
    | cons c cs ih => intro q; rw [List.foldl_cons, ih]; cases c <;> rfl
  rw [Chain.select, step]
  cases s <;> rfl

theorem where_dialect (ps : List Node) (q : Chain.InsertQ) : (Chain.conflictWhere q ps).dialect = q.dialect := by
  unfold Chain.conflictWhere
  induction ps generalizing q with
  | nil => rfl
  | cons p ps ih => rw [List.foldl_cons, ih]

theorem insert_dialect (b : Chain.Builder) (s : Chain.InsertStart) (cs : List Chain.InsertCall) : (Chain.insert b s cs).dialect = b.lang.dialect := by
  have step : ∀ (cs : List Chain.InsertCall) q, (cs.foldl Chain.InsertCall.run q).dialect = q.dialect := by
    intro cs
    induction cs with
    | nil => intro q; rfl
    | cons c cs ih => intro q; rw [List.foldl_cons, ih]; cases c with
      | onConflict _ ps a | onConstraint _ ps a => cases a <;> exact where_dialect ps _
      | _ => rfl
  rw [Chain.insert, step]
  cases s <;> rfl

theorem update_dialect (b : Chain.Builder) (s : Chain.UpdateStart) (cs : List Chain.UpdateCall) : (Chain.update b s cs).dialect = b.lang.dialect := by
  have step : ∀ (cs : List Chain.UpdateCall) q, (cs.foldl Chain.UpdateCall.run q).dialect = q.dialect := by
    intro cs
    induction cs with
    | nil => intro q; rfl
    | cons c cs ih => intro q; rw [List.foldl_cons, ih]; cases c <;> rfl
  rw [Chain.update, step]
  cases s <;> rfl

theorem delete_dialect (b : Chain.Builder) (s : Chain.DeleteStart) (cs : List Chain.DeleteCall) : (Chain.delete b s cs).dialect = b.lang.dialect := by
  have step : ∀ (cs : List Chain.DeleteCall) q, (cs.foldl Chain.DeleteCall.run q).dialect = q.dialect := by
    intro cs
    induction cs with
    | nil => intro q; rfl
    | cons c cs ih => intro q; rw [List.foldl_cons, ih]; cases c <;> rfl
  rw [Chain.delete, step]
  cases s <;> rfl

theorem built_dialect (own : Node → Dialect) (l : Chain.Lang) (n : Node) (h : BuiltBy l n) : getDialect own n = .ok l.dialect ∧ isQuery n = true := by
  cases h with
  | select e s cs => exact ⟨congrArg Res.ok (select_dialect ⟨l, e⟩ s cs), rfl⟩
  | insert e s cs => exact ⟨congrArg Res.ok (insert_dialect ⟨l, e⟩ s cs), rfl⟩
  | update e s cs => exact ⟨congrArg Res.ok (update_dialect ⟨l, e⟩ s cs), rfl⟩
  | delete e s cs => exact ⟨congrArg Res.ok (delete_dialect ⟨l, e⟩ s cs), rfl⟩
  | queryf fmt vals => exact ⟨rfl, rfl⟩

/-- C73: a query made with the builder of a dialect, by any chain of calls, and any set operation whose first query was made with it, is written
in that dialect when ToSQL is given none (and by Fetch and Exec). -/
theorem C73_own (own : Node → Dialect) (l : Chain.Lang) (n : Node) (h : LedBy l n) : toSQLOf own .other n = .ok (toSQL l.dialect n) := by
  have : getDialect own n = .ok l.dialect ∧ isQuery n = true := by
    induction h with
    | query n h => exact built_dialect own l n h
    | union _ _ _ ih | unionAll _ _ _ ih | intersect _ _ _ ih | intersectAll _ _ _ ih | except _ _ _ ih | exceptAll _ _ _ ih => exact ⟨ih.1, rfl⟩
  simp [toSQLOf, this.1, this.2]

/-- C73, together: a statement made with the builder of `l` is the same statement whatever builders its parts were made with. -/
theorem C73_parts (own : Node → Dialect) (l : Chain.Lang) (n n' : Node) (h : LedBy l n) (h' : LedBy l n') (hs : SameButDialects n n') :
    toSQLOf own .other n = toSQLOf own .other n' := by
  rw [C73_own own l n h, C73_own own l n' h', C73_one_dialect _ n n' hs]

/-- C73: without any query there is no dialect to take, and nothing is written; a first query that is nil makes ToSQL, Fetch and Exec
panic when they ask it for its dialect, while the same query with a dialect given is refused with an error. -/
theorem C73_set_operation_edges (own : Node → Dialect) (op : Str) (qs : List Node) :
    (∃ r, toSQLOf own .other (.vquery true op []) = .ok r ∧ r.query = [] ∧ r.status = .ok) ∧
    toSQLOf own .other (.vquery true op (.nil :: qs)) = .panic ∧
    ∀ d, (toSQL d (.vquery true op (.nil :: qs))).status ≠ .ok := by
  refine ⟨⟨_, rfl, rfl, rfl⟩, rfl, fun d => ?_⟩
  intro h
  cases qs with
  | nil => exact absurd h (by simp [toSQL, ren, objs, variadicQueryAppend, mkPV, Node.kind, PV.toObj, W.fail])
  | cons q qs =>
    have h : (variadicQueryAppend { d := d } true op ((objs (.nil :: q :: qs)).map PV.toObj)).st = .ok := h
    simp only [objs, List.map_cons, variadicQueryAppend, sepBy] at h
    have := (seq_ok (seq_ok (seq_ok h).2).1).1
    exact absurd this (by simp [vqOperand, PV.toObj, mkPV, Node.kind, W.fail])

/-- A MySQL statement with a query built for PostgreSQL as its subquery, and the same statement with a query built for SQLite. -/
def mixed (l : Chain.Lang) : Node :=
  (Chain.select ⟨.mysql, none⟩ (.from (.table [] "users".toList [] (fun _ => .none) (fun _ => .nil)))
    [.select [Ex.col "users" "id"],
     .where [.cpred [] "EXISTS ({})".toList false
      [(Chain.select ⟨l, none⟩ (.from (.table [] "or`ders".toList [] (fun _ => .none) (fun _ => .nil))) [.selectOne,
        .where [.cpred [] "{} = {}".toList false [Ex.col "orders" "user_id", .scalar (.int 1)]]]).node]]]).node

example : SameButDialects (mixed .postgres) (mixed .sqlite) ∧ LedBy .mysql (mixed .postgres) ∧ LedBy .mysql (mixed .sqlite) :=
  ⟨rfl, .query _ (.select ..), .query _ (.select ..)⟩

/-- Backticks and question marks throughout. -/
example : String.ofList (toSQL .mysql (mixed .postgres)).query
    = "SELECT users.id FROM users WHERE EXISTS (SELECT 1 FROM `or``ders` WHERE orders.user_id = ?)" := by decide +kernel

/-- The dialect of a union is that of its first query: of a MySQL and a PostgreSQL query, in this order, a MySQL statement. -/
example : LedBy .mysql (union [mixed .sqlite, unionAll [mixed .postgres]]) := .union _ _ (.query _ (.select ..))

end Sq.Dial
