import Verif.Proof.Seq
import Verif.Proof.Names
import Verif.Model.Examples
/-
C21: errors of nested parts and of hooks reach the caller.
-/
namespace Sq

/-- An effect that only instrumented parts perform (no format string can: `forget` lists ordinals, and `!` is not a
number). A part whose effects contain it is a part that was called. -/
def mark : Instr := .forget [['!']]

/-- Success means no failing part was called. -/
def W.Honest (w : W) : Prop := w.st = .ok → mark ∉ w.code

/-- The instrumented parts of the tree: every user-defined part that reports being called also fails; and there is no
window definition in the tree. -/
def FailingParts (d : Dialect) : Node → Prop
  | .window _ _ _ => False
  | .ext _ _ _ act => ∀ m : Mode, m.d = d → mark ∈ (act m).code → (act m).st ≠ .ok
  | _ => True

theorem honest_sites (d : Dialect) : Sites W.Honest d (fun x => x ≠ ['!']) where
  nilName := by simp
  ok := by simp [W.Honest, W.ok]
  wr := by simp [W.Honest, W.wr, mark]
  fail := by simp [W.Honest, W.fail]
  seq := by
    intro a b ha hb
    unfold W.seq
    split
    · rename_i h
      intro hok hm
      simp only [List.mem_append] at hm
      rcases hm with hm | hm
      · exact ha h hm
      · exact hb hok hm
    · exact ha
  forget := by
    intro ns hn hok hm
    simp only [W.emit, mark, List.mem_singleton, Instr.forget.injEq] at hm
    exact hn ['!'] (by rw [← hm]; simp) rfl
  bind := by simp [W.Honest, W.emit, mark]

theorem honest_fmt (fmt : Str) : FmtOk W.Honest (fun x => x ≠ ['!']) fmt := by
  intro s _
  cases s with
  | lit c => trivial
  | unclosed s => trivial
  | trailing => simp [SegOk, W.Honest, W.panic]
  | hole body =>
    refine ⟨?_, by simp [W.Honest, W.panic, W.hang]⟩
    intro h e
    rw [e] at h
    exact absurd h (by decide)

/-- **C21 (partial).** Rendering any tree: if it succeeds, none of its failing parts — wherever they sit: operands,
fields, sub-queries, CTEs, join conditions, values of a format string, predicates injected by tables — was called.
Equivalently, if a part that fails was rendered, the whole rendering fails.  Missing: trees with a window definition,
for which the claim is false (next theorem). -/
theorem C21_failing_part_fails_query_partial (d : Dialect) (n : Node) (h : n.All (FailingParts d)) (m : Mode)
    (hm : m.d = d) (hok : (ren n m []).st = .ok) : mark ∉ (ren n m []).code := by
  refine ren_ind (honest_sites d) n (h.mono ?_) m hm [] (by simp) hok
  intro n hn
  cases n <;> simp only [FailingParts, NodeOk] at hn ⊢
  case namedArg a v =>
    intro m hm
    unfold namedArgAppend
    split
    · simp [W.Honest, W.fail]
    · split
      · simp [W.Honest, W.fail]
      · split <;> simp [W.Honest, W.fail, W.emit, mark]
  case param => intro v; simp [W.Honest, W.emit, mark]
  case field => intro p hp; exact honest_fmt _
  case checkedField => intro p hp; exact honest_fmt _
  case cpred => exact honest_fmt _
  case customTable => exact honest_fmt _
  case customQuery => exact honest_fmt _
  case insert => intro hq p hp e; simp [W.Honest, W.panic]
  case update => intro hq p hp e; simp [W.Honest, W.panic]
  case delete => intro t ht e; simp [W.Honest, W.panic]
  case ext => intro m hm hok hc; exact hn m hm hc hok

/-- A field whose rendering fails, reporting that it was called. -/
def Ex.failing : Node := .ext .field [] [] (fun _ => { code := [mark], st := .err "boom" })

/-- Non-vacuity: a failing operand deep inside a WHERE clause of a sub-query; it is called, and the query fails. -/
def Ex.withFailing : Node :=
  .select {} [] [Ex.col "u" "id"] [] (.subquery none "s" (.select {} [] [Ex.col "u" "id"] [] Ex.users []
    (Ex.andp [Ex.eqInt (Ex.col "u" "id") 1, Ex.orp [Ex.eqInt (Ex.col "u" "age") 2, Ex.failing]]) [] (Ex.andp []) [])) []
    (Ex.andp []) [] (Ex.andp []) []
example : Ex.withFailing.All (FailingParts .postgres) := by
  simp only [Ex.withFailing, Ex.failing, Ex.col, Ex.users, Ex.andp, Ex.orp, Ex.eqInt, Node.All, AllL, FailingParts]
  simp
example : mark ∈ (ren Ex.withFailing { d := .postgres } []).code ∧
    (toSQL .postgres Ex.withFailing).status = .err "boom" := by decide +kernel

/-- **C21 (violated).** A window definition swallows the error of a PARTITION BY field: the query succeeds with the
part missing. -/
theorem C21_window_violated :
    let n : Node := .window [Ex.failing] [] []
    mark ∈ (ren n { d := .postgres } []).code ∧ (toSQL .postgres n).status = .ok ∧
      (toSQL .postgres n).query = "(PARTITION BY )".toList := by
  decide +kernel

/-! ### Failing hooks -/

/-- A failing hook makes the collection fail. -/
theorem collectHooks_ok {env : Env} {ts : List PV} {os : List Obj} (h : collectHooks env ts = .ok os) :
    ∀ t ∈ ts, ∀ e, t.hook env ≠ .err e := by
  induction ts generalizing os with
  | nil => simp
  | cons t ts ih =>
    intro t' ht' e he
    simp only [collectHooks] at h
    rcases List.mem_cons.1 ht' with rfl | ht'
    · rw [he] at h; exact nomatch h
    · split at h
      · exact nomatch h
      · exact ih h t' ht' e he
      · cases hr : collectHooks env ts with
        | ok os' => exact ih hr t' ht' e he
        | err x => rw [hr] at h; exact nomatch h
        | panic => rw [hr] at h; exact nomatch h
        | hang => rw [hr] at h; exact nomatch h

/-- The table (or joined table) `n` has a hook that returns an error in environment `env`. -/
def HookFails : Node → Env → Prop
  | .table _ _ _ hk _, env => ∃ e, hk env = .err e
  | .join _ tbl _, env => HookFails tbl env
  | _, _ => False

theorem hookFails_hookOf : (n : Node) → (env : Env) → HookFails n env → ∃ e, hookOf n env = .err e
  | .table s nm a hk hp, env, h => by
    obtain ⟨e, he⟩ := h
    exact ⟨e, by simp only [hookOf, he]⟩
  | .join jt tbl on, env, h => by
    simp only [hookOf]
    exact hookFails_hookOf tbl env h
  | .nil, _, h | .scalar _, _, h | .slice _ _, _, h | .namedArg _ _, _, h | .param _ _, _, h | .field _ _ _ _, _, h
  | .checkedField _ _ _, _, h | .literal _ _, _, h | .value _ _, _, h | .cpred _ _ _ _, _, h | .vpred _ _ _ _ _, _, h
  | .predCases _ _ _, _, h | .simpleCases _ _ _ _, _, h | .window _ _ _, _, h | .rowValue _, _, h | .rowValues _, _, h
  | .assign _ _, _, h | .assigns _, _, h | .fields _, _, h | .customTable _ _, _, h | .cte _ _, _, h
  | .subquery _ _ _, _, h | .vquery _ _ _, _, h | .customQuery _ _ _, _, h | .select _ _ _ _ _ _ _ _ _ _, _, h
  | .insert _ _ _ _ _ _ _ _ _ _ _ _, _, h | .update _ _ _ _ _ _ _ _ _ _, _, h | .delete _ _ _ _ _ _ _ _, _, h
  | .ext _ _ _ _, _, h => by simp [HookFails] at h

theorem hookFails_hook (n : Node) (env : Env) (h : HookFails n env) : ∃ e, (obj n).hook env = .err e :=
  hookFails_hookOf n env h

/-- **C21, hooks (SELECT).** If the hook of the FROM table or of any joined table fails in the environment in force, the
SELECT fails. -/
theorem C21_select_hook_error (q : SelMeta) (ctes fields don : List Node) (from_ : Node) (joins : List Node)
    (wh : Node) (gb : List Node) (hv : Node) (ob : List Node) (m : Mode) (t : Node) (ht : t = from_ ∨ t ∈ joins)
    (hf : HookFails t (effEnv m.env q.env)) :
    (ren (.select q ctes fields don from_ joins wh gb hv ob) m []).st ≠ .ok := by
  intro hok
  simp only [ren, selectAppend] at hok
  obtain ⟨_, h⟩ := seq_ok hok; obtain ⟨_, h⟩ := seq_ok h; obtain ⟨_, h⟩ := seq_ok h; obtain ⟨_, h⟩ := seq_ok h
  obtain ⟨_, h⟩ := seq_ok h; obtain ⟨_, h⟩ := seq_ok h; obtain ⟨h, _⟩ := seq_ok h
  obtain ⟨os, h, _⟩ := ofRes_ok h
  obtain ⟨e, he⟩ := hookFails_hook t _ hf
  refine collectHooks_ok h (obj t) ?_ e he
  rcases ht with rfl | ht
  · exact List.mem_cons_self
  · rw [objs_eq]; exact List.mem_cons_of_mem _ (List.mem_map_of_mem ht)

/-- **C21, hooks (UPDATE).** -/
theorem C21_update_hook_error (q : ModMeta) (ctes : List Node) (table from_ : Node) (joins : List Node)
    (as sets : List (Node × Node)) (wh : Node) (ob ret : List Node) (m : Mode) (t : Node)
    (ht : t = table ∨ t = from_ ∨ t ∈ joins) (hf : HookFails t (effEnv m.env q.env)) :
    (ren (.update q ctes table from_ joins as sets wh ob ret) m []).st ≠ .ok := by
  intro hok
  simp only [ren, updateAppend] at hok
  obtain ⟨_, _, hok⟩ := ofRes_ok hok
  obtain ⟨_, h⟩ := seq_ok hok; obtain ⟨_, h⟩ := seq_ok h; obtain ⟨_, h⟩ := seq_ok h; obtain ⟨_, h⟩ := seq_ok h
  obtain ⟨_, h⟩ := seq_ok h; obtain ⟨_, h⟩ := seq_ok h; obtain ⟨_, h⟩ := seq_ok h; obtain ⟨_, h⟩ := seq_ok h
  obtain ⟨h, _⟩ := seq_ok h
  obtain ⟨os, h, _⟩ := ofRes_ok h
  obtain ⟨e, he⟩ := hookFails_hook t _ hf
  refine collectHooks_ok h (obj t) ?_ e he
  rcases ht with rfl | rfl | ht
  · exact List.mem_cons_self
  · exact List.mem_cons_of_mem _ List.mem_cons_self
  · rw [objs_eq]; exact List.mem_cons_of_mem _ (List.mem_cons_of_mem _ (List.mem_map_of_mem ht))

/-- **C21, hooks (DELETE).** Tables after FROM. -/
theorem C21_delete_hook_error (q : ModMeta) (ctes froms : List Node) (us : Node) (joins : List Node) (wh : Node)
    (ob ret : List Node) (m : Mode) (t : Node) (ht : t ∈ froms) (hf : HookFails t (effEnv m.env q.env)) :
    (ren (.delete q ctes froms us joins wh ob ret) m []).st ≠ .ok := by
  intro hok
  simp only [ren, deleteAppend] at hok
  obtain ⟨_, h⟩ := seq_ok hok; obtain ⟨_, h⟩ := seq_ok h; obtain ⟨_, h⟩ := seq_ok h; obtain ⟨_, h⟩ := seq_ok h
  obtain ⟨_, h⟩ := seq_ok h; obtain ⟨h, _⟩ := seq_ok h
  obtain ⟨os, h, _⟩ := ofRes_ok h
  obtain ⟨e, he⟩ := hookFails_hook t _ hf
  exact collectHooks_ok h (obj t) (by rw [objs_eq]; exact List.mem_map_of_mem ht) e he

/-- A table whose hook needs an environment: with none it fails. -/
def Ex.guarded : Node :=
  .table [] "accounts" [] (fun env => match env with | none => .err "no tenant" | some _ => .pred)
    (fun _ => Ex.eqInt (Ex.col "accounts" "tenant") 7)
example : HookFails Ex.guarded none ∧ HookFails (.join "JOIN" Ex.guarded (Ex.andp [])) none ∧
    ¬ HookFails Ex.guarded (some 1) := by
  refine ⟨⟨_, rfl⟩, ⟨_, rfl⟩, ?_⟩
  rintro ⟨e, he⟩
  exact nomatch he

end Sq
