import Verif.Spec.Guard
import Verif.Proof.Select
import Verif.Props.Hooks
/-
Tables with policies: what the code does (all policies behind the joins, in WHERE) gives what the policies ask for (only visible records are joined).
-/
namespace Sq.Guarding
open Sq Sq.Spec Sq.Chain Sq.Exprs Sq.Spec.Store Sq.Spec.Where Sq.Spec.Sel Sq.Choosing Sq.Asking
open Sq.Spec.Guard hiding supplied
open Sq.Storing hiding pieces

/-! ### Conditions on other columns -/

theorem test_truth_map (f : κ → κ') (C : Compare) (r : κ' → Scalar) (x : Test κ) : (x.map f).truth C r = x.truth C (fun c => r (f c)) := by
  cases x with
  | cmp op c x => cases x <;> rfl
  | null c => rfl
  | notNull c => rfl
  | among c vs => rfl

mutual
theorem cond_truth_map (f : κ → κ') (C : Compare) (r : κ' → Scalar) : (c : Cond κ) → (c.map f).truth C r = c.truth C (fun c => r (f c))
  | .test n x => by simp only [Cond.map, Cond.truth, test_truth_map]
  | .group false n cs => by simp only [Cond.map, Cond.truth, (truth_mapAll f C r cs).1]
  | .group true n cs => by simp only [Cond.map, Cond.truth, (truth_mapAll f C r cs).2]
theorem truth_mapAll (f : κ → κ') (C : Compare) (r : κ' → Scalar) : (cs : List (Cond κ)) →
    allTrue C r (mapAll f cs) = allTrue C (fun c => r (f c)) cs ∧ oneTrue C r (mapAll f cs) = oneTrue C (fun c => r (f c)) cs
  | [] => ⟨rfl, rfl⟩
  | c :: cs => by
    simp only [mapAll, allTrue, oneTrue, cond_truth_map f C r c, truth_mapAll f C r cs, and_self]
end

theorem isGroup_map (f : κ → κ') (c : Cond κ) : (c.map f).isGroup = c.isGroup := by
  cases c <;> rfl

mutual
theorem fine_map (f : κ → κ') : (c : Cond κ) → (top : Bool) → (c.map f).fine top ↔ c.fine top
  | .test n x, top => by cases x <;> simp [Cond.map, Test.map, Cond.fine]
  | .group o n [], top => by simp [Cond.map, mapAll, Cond.fine]
  | .group o n [c], top => by simp only [Cond.map, mapAll, Cond.fine, isGroup_map, fine_map f c]
  | .group o n (c :: c' :: cs), top => by simp only [Cond.map, mapAll, Cond.fine, fine_map f c, fine_map f c', allFine_map f cs]
theorem allFine_map (f : κ → κ') : (cs : List (Cond κ)) → allFine (mapAll f cs) ↔ allFine cs
  | [] => Iff.rfl
  | c :: cs => by simp only [mapAll, allFine, fine_map f c, allFine_map f cs]
end

theorem test_columns_map (f : κ → κ') (x : Test κ) : (x.map f).columns = x.columns.map f := by
  cases x with
  | cmp op c x => cases x <;> rfl
  | null c => rfl
  | notNull c => rfl
  | among c vs => rfl

mutual
theorem columns_map (f : κ → κ') : (c : Cond κ) → (c.map f).columns = c.columns.map f
  | .test n x => by simp only [Cond.map, Cond.columns, test_columns_map]
  | .group o n cs => by simp only [Cond.map, Cond.columns, columns_mapAll f cs]
theorem columns_mapAll (f : κ → κ') : (cs : List (Cond κ)) → columns (mapAll f cs) = (columns cs).map f
  | [] => rfl
  | c :: cs => by simp only [mapAll, columns, columns_map f c, columns_mapAll f cs, List.map_append]
end

theorem nodes_eq (cs : List (Cond Node)) : nodes cs = cs.map Cond.node := by
  induction cs with
  | nil => rfl
  | cons c cs ih => simp [nodes, ih]
theorem mapAll_eq (f : κ → κ') (cs : List (Cond κ)) : mapAll f cs = cs.map (Cond.map f) := by
  induction cs with
  | nil => rfl
  | cons c cs ih => simp [mapAll, ih]
theorem columns_append (cs ds : List (Cond κ)) : columns (cs ++ ds) = columns cs ++ columns ds := by
  induction cs with
  | nil => rfl
  | cons c cs ih => simp [columns, ih]
theorem allFine_append (cs ds : List (Cond κ)) : allFine (cs ++ ds) ↔ allFine cs ∧ allFine ds := by
  induction cs with
  | nil => simp [allFine]
  | cons c cs ih => simp [allFine, ih, and_assoc]

/-! ### Hiding records before the joins, and behind them -/

/-- What is said of a world depends on these names only. -/
def About (labels : List Str) (G : World → Bool) : Prop := ∀ w v : World, (∀ l ∈ labels, w l = v l) → G w = G v

theorem put_same (w : World) (label : Str) (r : Row) : (w.put label r) label = r := if_pos rfl
theorem put_other (w : World) (label : Str) (r : Row) (l : Str) (h : l ≠ label) : (w.put label r) l = w l := if_neg h
theorem only_same (label : Str) (r : Row) : World.only label r label = r := put_same _ _ _

theorem about_put {labels : List Str} {G : World → Bool} (h : About labels G) (label : Str) (hl : label ∉ labels) (w : World) (r : Row) : G (w.put label r) = G w :=
  h _ _ fun l hm => put_other w label r l fun e => hl (e ▸ hm)

theorem filter_flatMap_of {α β : Type} (ws : List α) (G : α → Bool) (f g : α → List β) (q : β → Bool)
    (h : ∀ w ∈ ws, (f w).filter q = if G w then g w else []) : (ws.filter G).flatMap g = (ws.flatMap f).filter q := by
  induction ws with
  | nil => rfl
  | cons w ws ih =>
    rw [List.flatMap_cons, List.filter_append, ← ih fun w hw => h w (List.mem_cons_of_mem _ hw), h w (List.mem_cons_self ..), List.filter_cons]
    split <;> simp [List.flatMap_cons]

/-- Joining what may be seen, or joining everything and then hiding. -/
theorem joined_hidden (how : How) (label : Str) (rows : List Row) (on : World → Bool) (ws : List World) (labels : List Str) (G : World → Bool) (p : Row → Bool)
    (hG : About labels G) (hl : label ∉ labels) (h1 : how = .left ∨ how = .full → ∀ r, p r = true) (h2 : how = .right ∨ how = .full → ∀ w, G w = true) :
    how.joined label (rows.filter p) on (ws.filter G) = (how.joined label rows on ws).filter fun w => G w && p (w label) := by
  have hm : matching label (rows.filter p) on (ws.filter G) = (matching label rows on ws).filter fun w => G w && p (w label) := by
    refine filter_flatMap_of ws G _ _ _ fun w _ => ?_
    rw [List.filter_filter, List.filter_map]
    cases hg : G w with
    | false =>
      rw [if_neg (by simp), List.map_eq_nil_iff, List.filter_eq_nil_iff]
      intro r _
      simp [about_put hG label hl, hg]
    | true =>
      rw [if_pos rfl, List.filter_map, List.filter_filter]
      congr 1
      refine List.filter_congr fun r _ => ?_
      simp [about_put hG label hl, hg, put_same, Bool.and_comm]
  have hL : (∀ r, p r = true) → unmatchedLeft label (rows.filter p) on (ws.filter G) = (unmatchedLeft label rows on ws).filter fun w => G w && p (w label) := by
    intro hp
    have e : rows.filter p = rows := List.filter_eq_self.2 fun r _ => hp r
    unfold unmatchedLeft
    rw [e, List.filter_map, List.filter_filter, List.filter_filter]
    congr 1
    refine List.filter_congr fun w _ => ?_
    simp [about_put hG label hl, hp, Bool.and_comm]
  have hR : (∀ w, G w = true) → unmatchedRight label (rows.filter p) on (ws.filter G) = (unmatchedRight label rows on ws).filter fun w => G w && p (w label) := by
    intro hg
    have e : ws.filter G = ws := List.filter_eq_self.2 fun w _ => hg w
    unfold unmatchedRight
    rw [e, List.filter_map, List.filter_filter, List.filter_filter]
    congr 1
    refine List.filter_congr fun r _ => ?_
    simp [hg, only_same, Bool.and_comm]
  cases how with
  | inner => exact hm
  | left =>
    simp only [How.joined]
    rw [hm, hL (h1 (.inl rfl)), List.filter_append]
  | right =>
    simp only [How.joined]
    rw [hm, hR (h2 (.inl rfl)), List.filter_append]
  | full =>
    simp only [How.joined]
    rw [hm, hL (h1 (.inr rfl)), hR (h2 (.inr rfl)), List.filter_append, List.filter_append]
  | cross =>
    refine filter_flatMap_of ws G _ _ _ fun w _ => ?_
    rw [List.filter_map]
    cases hg : G w with
    | false =>
      rw [if_neg (by simp), List.map_eq_nil_iff, List.filter_eq_nil_iff]
      intro r _
      simp [about_put hG label hl, hg]
    | true =>
      rw [if_pos rfl]
      congr 1
      refine List.filter_congr fun r _ => ?_
      simp [about_put hG label hl, hg, put_same]

theorem permitted_about (C : Compare) (P : Policy) (env : Env) (ts : List Tab) : About (ts.map Tab.label) (permitted C P env ts) := by
  intro w v h
  unfold permitted
  induction ts with
  | nil => rfl
  | cons t ts ih =>
    rw [List.all_cons, List.all_cons, h _ (List.mem_cons_self ..), ih fun l hl => h l (List.mem_cons_of_mem _ hl)]

theorem permitted_snoc (C : Compare) (P : Policy) (env : Env) (ts : List Tab) (t : Tab) (w : World) :
    permitted C P env (ts ++ [t]) w = (permitted C P env ts w && permits C (P t env) (w t.label)) := by
  simp [permitted, List.all_append]

theorem joins_hidden (C : Compare) (T : Tables) (P : Policy) (env : Env) (l : Lang) (js : List Join) (before : List Tab) (ws : List World)
    (hs : JoinsSound l (before.map Tab.label) js) (hp : Placed P env before js) :
    joinedVisible C T P env js (ws.filter (permitted C P env before)) =
      (joinedAll C T js ws).filter (permitted C P env (before ++ js.map Join.tab)) := by
  induction js generalizing before ws with
  | nil => simp [joinedVisible, joinedAll]
  | cons j js ih =>
    obtain ⟨_, _, hl, _, hs⟩ := hs
    obtain ⟨p1, p2, p3⟩ := hp
    simp only [joinedVisible, joinedAll]
    unfold visible
    rw [joined_hidden j.how j.tab.label _ _ ws _ _ (permits C (P j.tab env)) (permitted_about C P env before) hl
      (fun h r => by rw [p1 h]; rfl)
      (fun h w => by
        rw [permitted, List.all_eq_true]
        intro t ht
        rw [p2 h t ht]
        rfl)]
    have e : (fun w : World => permitted C P env before w && permits C (P j.tab env) (w j.tab.label)) = permitted C P env (before ++ [j.tab]) := by
      funext w
      rw [permitted_snoc]
    rw [e, ih (before ++ [j.tab]) _ (by simpa using hs) p3]
    simp

/-- Conditions that all hold. -/
theorem and3_true_iff (x y : Option Bool) : (and3 x y == some true) = ((x == some true) && (y == some true)) := by
  rcases x with _ | _ | _ <;> rcases y with _ | _ | _ <;> rfl

theorem described_cons (C : Compare) (c : Cond κ) (cs : List (Cond κ)) (r : κ → Scalar) :
    described C (c :: cs) r = ((c.truth C r == some true) && described C cs r) := by
  unfold described
  rw [allTrue, and3_true_iff]

theorem described_append (C : Compare) (cs ds : List (Cond κ)) (r : κ → Scalar) :
    described C (cs ++ ds) r = (described C cs r && described C ds r) := by
  induction cs with
  | nil => simp [described, allTrue]
  | cons c cs ih => rw [List.cons_append, described_cons, described_cons, ih, Bool.and_assoc]

theorem described_group (C : Compare) (cs : List (Cond κ)) (r : κ → Scalar) : described C [.group false false cs] r = described C cs r := by
  rw [described_cons, Cond.truth]
  simp [signed, described, allTrue]

theorem described_supplied (C : Compare) (P : Policy) (env : Env) (ts : List Tab) (w : World) :
    described C (ts.filterMap fun t => (P t env).map (hookCond t)) (Field.value w) = permitted C P env ts w := by
  induction ts with
  | nil => simp [described, allTrue, permitted]
  | cons t ts ih =>
    rw [List.filterMap_cons, show permitted C P env (t :: ts) w = (permits C (P t env) (w t.label) && permitted C P env ts w) from List.all_cons, ← ih]
    cases h : P t env with
    | none => simp [permits]
    | some c =>
      simp only [Option.map_some]
      rw [described_cons]
      congr 1
      unfold hookCond permits
      rw [cond_truth_map]
      rfl

/-- The question with the policies as conditions. -/
def plain (P : Policy) (env : Env) (a : Ask) : Ask :=
  if Guard.supplied P env a = [] then a else { a with conds := Guard.supplied P env a ++ [.group false false a.conds] }

theorem plain_answer (P : Policy) (env : Env) (a : Ask) (C : Compare) (T : Tables) : (plain P env a).answer C T = permittedAnswer C T P env a := by
  have hs : ∀ w, described C (Guard.supplied P env a) (Field.value w) = permitted C P env (a.tab :: a.joins.map Join.tab) w := fun w =>
    described_supplied C P env (a.tab :: a.joins.map Join.tab) w
  unfold plain permittedAnswer
  split
  · next h0 =>
    refine (List.filter_eq_self.2 fun w _ => ?_).symm
    rw [← hs, h0]
    simp [described, allTrue]
  · unfold Ask.answer
    rw [List.filter_filter]
    refine List.filter_congr fun w _ => ?_
    show described C (Guard.supplied P env a ++ [.group false false a.conds]) (Field.value w) = _
    rw [described_append, described_group, hs]

theorem permitted_answer (l : Lang) (P : Policy) (env : Env) (a : Ask) (hj : JoinsSound l [a.tab.label] a.joins) (hp : Placed P env [a.tab] a.joins)
    (C : Compare) (T : Tables) : permittedAnswer C T P env a = Guard.answer C T P env a := by
  have hj := joins_hidden C T P env l a.joins [a.tab] ((T a.tab.schema a.tab.name).map (World.only a.tab.label)) hj hp
  have hv : (visible C T P env a.tab).map (World.only a.tab.label) = ((T a.tab.schema a.tab.name).map (World.only a.tab.label)).filter (permitted C P env [a.tab]) := by
    unfold visible
    rw [List.filter_map]
    congr 1
    refine List.filter_congr fun r _ => ?_
    simp [permitted, only_same]
  unfold Guard.answer permittedAnswer Ask.answer
  rw [hv, hj, List.filter_filter, List.filter_filter]
  refine List.filter_congr fun w _ => ?_
  rw [Bool.and_comm]
  rfl

/-! ### The statement -/

def joinNode (raw : Field → Bool) (P : Policy) (j : Join) : Node :=
  match j.how with
  | .inner => joinTable .join (table raw P j.tab) (nodes (mapAll (Field.node raw) j.on))
  | .left => joinTable .leftJoin (table raw P j.tab) (nodes (mapAll (Field.node raw) j.on))
  | .right => joinTable .rightJoin (table raw P j.tab) (nodes (mapAll (Field.node raw) j.on))
  | .full => joinTable .fullJoin (table raw P j.tab) (nodes (mapAll (Field.node raw) j.on))
  | .cross => Chain.crossJoin (table raw P j.tab)

def askNode (b : Builder) (raw : Field → Bool) (P : Policy) (a : Ask) (fields : List Node) (limit offset : Option Nat) : Node :=
  .select { dialect := b.lang.dialect, env := b.env, distinct := false, limit := limit.map Int.ofNat, offset := offset.map Int.ofNat }
    [] fields [] (table raw P a.tab) (a.joins.map (joinNode raw P)) (and_ (nodes (mapAll (Field.node raw) a.conds))) [] (and_ []) (a.order.map (Sorting.node raw))

theorem joins_run (raw : Field → Bool) (P : Policy) (js : List Join) (q : SelectQ) :
    (js.map (joinCall raw P)).foldl SelectCall.run q = { q with joins := q.joins ++ js.map (joinNode raw P) } := by
  induction js generalizing q with
  | nil => simp
  | cons j js ih =>
    simp only [List.map_cons, List.foldl_cons]
    rw [ih]
    obtain ⟨how, tab, on⟩ := j
    cases how <;> simp [joinCall, SelectCall.run, joinNode]

theorem calls_run (raw : Field → Bool) (P : Policy) (a : Ask) (limit offset : Option Nat) (q : SelectQ) (h1 : q.limit = none) (h2 : q.offset = none) :
    (calls raw P a limit offset).foldl SelectCall.run q =
      { q with joins := q.joins ++ a.joins.map (joinNode raw P), where_ := q.where_ ++ nodes (mapAll (Field.node raw) a.conds),
               orderBy := q.orderBy ++ a.order.map (Sorting.node raw), limit := limit.map Int.ofNat, offset := offset.map Int.ofNat } := by
  unfold calls
  rw [List.foldl_append, List.foldl_append, List.foldl_append, joins_run]
  cases limit <;> cases offset <;> simp [SelectCall.run, h1, h2]

theorem query_node (b : Builder) (raw : Field → Bool) (P : Policy) (a : Ask) (limit offset : Option Nat) :
    query b raw P a limit offset = askNode b raw P a (a.cols.map (Field.node raw)) limit offset := by
  unfold query Chain.select
  rw [List.foldl_cons, calls_run _ _ _ _ _ _ rfl rfl]
  simp [SelectStart.run, SelectCall.run, SelectQ.node, askNode]

theorem fromQuery_node (b : Builder) (raw : Field → Bool) (P : Policy) (a : Ask) (limit offset : Option Nat) :
    Guard.fromQuery b raw P a limit offset = askNode b raw P a [] limit offset := by
  unfold Guard.fromQuery Chain.select
  rw [calls_run _ _ _ _ _ _ rfl rfl]
  simp [SelectStart.run, SelectQ.node, askNode]

/-- A SELECT whose tables supply nothing is the SELECT over tables without hooks. -/
theorem select_unhooked (q : SelMeta) (ctes fields don : List Node) (from_ : Node) (joins : List Node)
    (wh : Node) (gb : List Node) (hv : Node) (ob : List Node) (m : Mode)
    (hok : ∀ t ∈ from_ :: joins, ¬ HookFails t (effEnv m.env q.env)) (hne : supplied (effEnv m.env q.env) (from_ :: joins) = []) :
    ren (.select q ctes fields don from_ joins wh gb hv ob) m [] =
    ren (.select q ctes fields don (unhooked from_) (joins.map unhooked) wh gb hv ob) m [] := by
  have h1 := collect_supplied (effEnv m.env q.env) (from_ :: joins) hok
  have h2 := collect_unhooked (effEnv m.env q.env) (from_ :: joins)
  rw [hne] at h1
  simp only [ren, selectAppend]
  rw [map_unhooked_obj]
  have hf : (mkPV (unhooked from_) (ren (unhooked from_)) (hookOf (unhooked from_))).toObj = (obj from_).toObj :=
    unhooked_obj from_
  have hj : (objs (joins.map unhooked) ≠ []) = (objs joins ≠ []) := by
    rw [objs_eq, objs_eq]; simp
  have e1 : mkPV from_ (ren from_) (hookOf from_) :: objs joins = objs (from_ :: joins) := rfl
  have e2 : mkPV (unhooked from_) (ren (unhooked from_)) (hookOf (unhooked from_)) :: objs (joins.map unhooked) = objs ((from_ :: joins).map unhooked) := rfl
  simp only [hf, hj, e1, e2]
  split <;> simp only [h1, h2] <;> rfl

theorem table_unhooked (raw : Field → Bool) (P : Policy) (t : Tab) : unhooked (table raw P t) = t.node := rfl

theorem join_unhooked (raw : Field → Bool) (P : Policy) (j : Join) : unhooked (joinNode raw P j) = Asking.joinNode raw j := by
  obtain ⟨how, tab, on⟩ := j
  cases how <;> rfl

theorem join_supplies (raw : Field → Bool) (P : Policy) (j : Join) (env : Env) : suppliedBy (joinNode raw P j) env = suppliedBy (table raw P j.tab) env := by
  obtain ⟨how, tab, on⟩ := j
  cases how <;> rfl

theorem table_supplies (raw : Field → Bool) (P : Policy) (t : Tab) (env : Env) :
    suppliedBy (table raw P t) env = ((P t env).map (hookCond t)).map fun c => (c.map (Field.node raw)).node := by
  simp only [table, suppliedBy]
  cases P t env <;> simp

theorem ask_supplies (raw : Field → Bool) (P : Policy) (a : Ask) (env : Env) :
    supplied env (table raw P a.tab :: a.joins.map (joinNode raw P)) = nodes (mapAll (Field.node raw) (Guard.supplied P env a)) := by
  have h : ∀ js : List Join, (js.map (joinNode raw P)).filterMap (suppliedBy · env) =
      ((js.map Join.tab).filterMap fun t => (P t env).map (hookCond t)).map fun c => (c.map (Field.node raw)).node := by
    intro js
    induction js with
    | nil => rfl
    | cons j js ih =>
      rw [List.map_cons, List.filterMap_cons, join_supplies, table_supplies, ih, List.map_cons, List.filterMap_cons]
      cases P j.tab env <;> simp
  rw [nodes_eq, mapAll_eq, List.map_map]
  unfold supplied Guard.supplied
  rw [List.filterMap_cons, List.filterMap_cons, h, table_supplies]
  cases P a.tab env <;> simp [Function.comp_def]

theorem ask_hooks (raw : Field → Bool) (P : Policy) (a : Ask) (env : Env) : ∀ t ∈ table raw P a.tab :: a.joins.map (joinNode raw P), ¬ HookFails t env := by
  have h : ∀ t, ¬ HookFails (table raw P t) env := by
    intro t
    simp only [table, HookFails]
    split <;> simp
  intro n hn
  rcases List.mem_cons.1 hn with rfl | hn
  · exact h _
  · obtain ⟨⟨how, tab, on⟩, _, rfl⟩ := List.mem_map.1 hn
    cases how <;> exact h _

/-- The question over tables with hooks is written as the question with the policies as conditions. -/
theorem ask_plain (b : Builder) (raw : Field → Bool) (P : Policy) (a : Ask) (fields : List Node) (limit offset : Option Nat) (d : Dialect) :
    toSQL d (askNode b raw P a fields limit offset) = toSQL d (Asking.askNode b raw (plain P b.env a) fields limit offset) := by
  have hr : ren (askNode b raw P a fields limit offset) { d := d } [] = ren (Asking.askNode b raw (plain P b.env a) fields limit offset) { d := d } [] := by
    unfold askNode
    have hs := ask_supplies raw P a b.env
    unfold plain
    split
    · next h0 =>
      rw [h0] at hs
      have hs0 : supplied (effEnv none b.env) (table raw P a.tab :: a.joins.map (joinNode raw P)) = [] := hs
      rw [select_unhooked _ _ _ _ _ _ _ _ _ _ _ (ask_hooks raw P a _) hs0, table_unhooked, List.map_map, show unhooked ∘ joinNode raw P = Asking.joinNode raw from funext (join_unhooked raw P)]
      rfl
    · next h0 =>
      have hne : supplied (effEnv none b.env) (table raw P a.tab :: a.joins.map (joinNode raw P)) ≠ [] := by
        show supplied b.env _ ≠ []
        rw [hs, nodes_eq, mapAll_eq]
        simpa using h0
      rw [C19_select_filtered_partial _ _ _ _ _ _ _ _ _ _ _ (by simp) (ask_hooks raw P a _) hne, table_unhooked, List.map_map,
        show unhooked ∘ joinNode raw P = Asking.joinNode raw from funext (join_unhooked raw P)]
      have e : andOf (supplied (effEnv none b.env) (table raw P a.tab :: a.joins.map (joinNode raw P)) ++ [and_ (nodes (mapAll (Field.node raw) a.conds))]) =
          and_ (nodes (mapAll (Field.node raw) (Guard.supplied P b.env a ++ [.group false false a.conds]))) := by
        show andOf (supplied b.env _ ++ _) = _
        rw [hs, nodes_eq, nodes_eq, nodes_eq, mapAll_eq, mapAll_eq, mapAll_eq, List.map_append, List.map_append]
        simp only [List.map_cons, List.map_nil, Cond.map, Cond.node, nodes_eq, mapAll_eq]
        rfl
      rw [e]
      rfl
  unfold toSQL
  rw [hr]

/-- That question makes sense. -/
theorem plain_body (l : Lang) (P : Policy) (env : Env) (a : Ask) (h : Body l P env a) : (plain P env a).Body l := by
  have hc := h.conds
  unfold plain
  split
  · next h0 =>
    rw [if_pos h0] at hc
    exact ⟨h.tab, h.joins, hc, h.order⟩
  · next h0 =>
    rw [if_neg h0] at hc
    refine ⟨h.tab, h.joins, .inr ⟨?_, ?_⟩, h.order⟩
    · have hall : allFine (Guard.supplied P env a ++ [.group false false a.conds]) := by
        rw [allFine_append]
        refine ⟨?_, hc.1, trivial⟩
        unfold Guard.supplied
        have hp := h.policies
        generalize a.tab :: a.joins.map Join.tab = ts at hp
        induction ts with
        | nil => trivial
        | cons t ts ih =>
          have ih := ih fun t ht => hp t (List.mem_cons_of_mem _ ht)
          have ht := hp t (List.mem_cons_self ..)
          rw [List.filterMap_cons]
          cases e : P t env with
          | none => exact ih
          | some c => exact ⟨(fine_map _ _ _).2 (ht c e).1, ih⟩
      obtain ⟨x, xs, e⟩ := List.exists_cons_of_ne_nil h0
      show (Cond.group false false (Guard.supplied P env a ++ [.group false false a.conds])).fine true
      rw [e] at hall ⊢
      cases xs with
      | nil => exact ⟨fun _ => rfl, hall.1, hall.2.1, hall.2.2⟩
      | cons y ys => exact ⟨fun _ => rfl, hall.1, hall.2.1, hall.2.2⟩
    · intro c hc'
      change c ∈ columns (Guard.supplied P env a ++ [.group false false a.conds]) at hc'
      rw [columns_append, List.mem_append] at hc'
      rcases hc' with hc' | hc'
      · have hnm : ∀ t ∈ a.tab :: a.joins.map Join.tab, t.name ≠ [] ∧ t.label ∈ a.labels := by
          intro t ht
          rcases List.mem_cons.1 ht with rfl | ht
          · exact ⟨h.tab.some, List.mem_cons_self ..⟩
          · obtain ⟨j, hj, rfl⟩ := List.mem_map.1 ht
            refine ⟨?_, List.mem_cons_of_mem _ (List.mem_map_of_mem hj)⟩
            have hjs := h.joins
            generalize [a.tab.label] = ls at hjs
            generalize a.joins = js at hjs hj
            induction js generalizing ls with
            | nil => exact (List.not_mem_nil hj).elim
            | cons k js ih =>
              rcases List.mem_cons.1 hj with rfl | hj
              · exact hjs.2.1.some
              · exact ih _ hjs.2.2.2.2 hj
        have hp := h.policies
        unfold Guard.supplied at hc'
        generalize a.tab :: a.joins.map Join.tab = ts at hp hc' hnm
        induction ts with
        | nil => exact (List.not_mem_nil hc').elim
        | cons t ts ih =>
          have ih := fun h => ih (fun t ht => hp t (List.mem_cons_of_mem _ ht)) h fun t ht => hnm t (List.mem_cons_of_mem _ ht)
          rw [List.filterMap_cons] at hc'
          cases e : P t env with
          | none =>
            rw [e] at hc'
            exact ih hc'
          | some k =>
            rw [e] at hc'
            rcases List.mem_append.1 (show c ∈ (hookCond t k).columns ++ columns _ from hc') with hc' | hc'
            · rw [hookCond, columns_map] at hc'
              obtain ⟨x, hx, rfl⟩ := List.mem_map.1 hc'
              exact ⟨(hnm t (List.mem_cons_self ..)).1, (hnm t (List.mem_cons_self ..)).2, (hp t (List.mem_cons_self ..) k e).2 x hx⟩
            · exact ih hc'
      · simp only [columns, Cond.columns, List.append_nil] at hc'
        exact hc.2 c hc'

theorem plain_cols (P : Policy) (env : Env) (a : Ask) : (plain P env a).cols = a.cols := by
  unfold plain
  split <;> rfl
theorem plain_order (P : Policy) (env : Env) (a : Ask) : (plain P env a).order = a.order := by
  unfold plain
  split <;> rfl
theorem plain_labels (P : Policy) (env : Env) (a : Ask) : (plain P env a).labels = a.labels := by
  unfold plain
  split <;> rfl

theorem plain_sound (l : Lang) (P : Policy) (env : Env) (a : Ask) (h : Sound l P env a) : (plain P env a).Sound l :=
  { plain_body l P env a h.toBody with
    some := by rw [plain_cols]; exact h.some
    cols := by rw [plain_cols, plain_labels]; exact h.cols }

/-! ### DELETE -/

mutual
theorem cond_map_map (f : κ → κ') (g : κ' → κ'') : (c : Cond κ) → (c.map f).map g = c.map (fun x => g (f x))
  | .test n x => by
    simp only [Cond.map]
    congr 1
    cases x with
    | cmp op c x => cases x <;> rfl
    | null c => rfl
    | notNull c => rfl
    | among c vs => rfl
  | .group o n cs => by simp only [Cond.map, mapAll_mapAll f g cs]
theorem mapAll_mapAll (f : κ → κ') (g : κ' → κ'') : (cs : List (Cond κ)) → mapAll g (mapAll f cs) = mapAll (fun x => g (f x)) cs
  | [] => rfl
  | c :: cs => by simp only [mapAll, cond_map_map f g c, mapAll_mapAll f g cs]
end

/-- The conditions with the policy. -/
def withPolicy (p : Option (Cond Str)) (cs : List (Cond Str)) : List (Cond Str) :=
  match p with
  | none => cs
  | some c => [c, .group false false cs]

theorem described_policy (C : Compare) (p : Option (Cond Str)) (cs : List (Cond Str)) (r : Row) :
    described C (withPolicy p cs) r = (permits C p r && described C cs r) := by
  cases p with
  | none => simp [withPolicy, permits]
  | some c => rw [withPolicy, described_cons, described_group]; rfl

theorem delete_unhooked (q : ModMeta) (ctes froms : List Node) (us : Node) (joins : List Node) (wh : Node)
    (ob ret : List Node) (m : Mode) (hok : ∀ t ∈ froms, ¬ HookFails t (effEnv m.env q.env))
    (hne : supplied (effEnv m.env q.env) froms = []) :
    ren (.delete q ctes froms us joins wh ob ret) m [] = ren (.delete q ctes (froms.map unhooked) us joins wh ob ret) m [] := by
  have h1 := collect_supplied (effEnv m.env q.env) froms hok
  have h2 := collect_unhooked (effEnv m.env q.env) froms
  rw [hne] at h1
  simp only [ren, deleteAppend]
  rw [h1, h2]
  simp only [W.ofRes]
  cases froms with
  | nil => rfl
  | cons f fs =>
    have hf : ∀ n : Node, (mkPV (unhooked n) (ren (unhooked n)) (hookOf (unhooked n))).toObj = (obj n).toObj := unhooked_obj
    have hl : ∀ (g : Obj → W), (objs ((f :: fs).map unhooked)).map (fun t : PV => g t.toObj) = (objs (f :: fs)).map (fun t : PV => g t.toObj) := by
      intro g
      have := congrArg (List.map g) (map_unhooked_obj (f :: fs))
      rw [List.map_map, List.map_map] at this
      exact this
    have hl := hl (fun t => if t.kind.isNil then W.panic else .wr (if t.alias = [] then t.name else t.alias))
    simp only [List.map_cons, objs] at hl ⊢
    rw [hl]
    simp only [hf]
    rfl

/-- DELETE from a table with a hook is written as DELETE with the policy as a condition. -/
theorem delete_plain (b : Builder) (raw : Field → Bool) (P : Policy) (t : Tab) (cs : List (Cond Str)) (d : Dialect) :
    toSQL d (Guard.deleteQuery b raw P t cs) = toSQL d (deleteWhere b t (fun c => raw ⟨t, c⟩) (withPolicy (P t b.env) cs)) := by
  have hr : ren (Guard.deleteQuery b raw P t cs) { d := d } [] = ren (deleteWhere b t (fun c => raw ⟨t, c⟩) (withPolicy (P t b.env) cs)) { d := d } [] := by
    have hok : ∀ env, ∀ x ∈ [table raw P t], ¬ HookFails x env := by
      intro env x hx
      rw [List.mem_singleton.1 hx]
      simp only [table, HookFails]
      split <;> simp
    have hs := table_supplies raw P t b.env
    have hn : Guard.deleteQuery b raw P t cs = .delete { dialect := b.lang.dialect, env := b.env } [] [table raw P t] .nil []
        (and_ (nodes (mapAll (t.field fun c => raw ⟨t, c⟩) cs))) [] [] := by
      simp [Guard.deleteQuery, Chain.delete, DeleteCall.run, DeleteStart.run, DeleteQ.node]
    have hn' : ∀ cs', deleteWhere b t (fun c => raw ⟨t, c⟩) cs' = .delete { dialect := b.lang.dialect, env := b.env } [] [t.node] .nil []
        (and_ (nodes (mapAll (t.field fun c => raw ⟨t, c⟩) cs'))) [] [] := by
      intro cs'
      simp [deleteWhere, Chain.delete, DeleteCall.run, DeleteStart.run, DeleteQ.node]
    rw [hn, hn']
    cases hp : P t b.env with
    | none =>
      rw [hp] at hs
      have : supplied (effEnv none b.env) [table raw P t] = [] := by
        show supplied b.env [table raw P t] = []
        unfold supplied
        rw [List.filterMap_cons, hs]
        rfl
      rw [delete_unhooked _ _ _ _ _ _ _ _ _ (hok _) this]
      rfl
    | some c =>
      rw [hp] at hs
      have : supplied (effEnv none b.env) [table raw P t] = [((hookCond t c).map (Field.node raw)).node] := by
        show supplied b.env [table raw P t] = _
        unfold supplied
        rw [List.filterMap_cons, hs]
        rfl
      rw [C20_delete_filtered_partial _ _ _ _ _ _ _ _ _ (hok _) (by rw [this]; simp), this]
      unfold hookCond
      rw [cond_map_map]
      rfl
  unfold toSQL
  rw [hr]

end Sq.Guarding
