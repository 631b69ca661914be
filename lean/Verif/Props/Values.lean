import Verif.Props.Builder
/-
C71: conditions (`And`, `Or`, `Append`, `Not`), CASE expressions (`CaseWhen`, `Case`, `When`, `Else`, `As`) and windows (`PartitionBy`,
`OrderBy`, `Frame`) are values.

`Spec.Building.run` (Spec/Builder.lean) runs a program on immutable lists; a call only adds a new value.  The model (Model/Builder.lean)
runs it on a heap of arrays shared between the values.
-/
namespace Sq.Building.Values
open Spec.Building
variable {α : Type}

/-- What a program may do without restriction: start queries and expressions, and call methods that set a part, or replace a whole list,
of the value they return: `Not`, `Else`, `As`, `PartitionBy`, `OrderBy` and `Frame` of a window, `Limit`, ...; but not `Append`, `When` or
anything else that adds to a list.  Lists are given by their elements (not `xs...`). -/
def Sets : Step α → Prop
  | .start _ s => match s with
    | .with _ (.list _) | .from _ | .select (.list _) | .selectOne _ | .selectDistinct _ (.list _) | .insertInto _ | .insertIgnoreInto _ _
    | .update _ | .deleteFrom _ (.list _) | .and (.list _) | .or _ (.list _) | .caseWhen _ | .case _ | .partitionBy (.list _) | .orderBy (.list _) => True
    | _ => False
  | .call _ m => match m with
    | .not _ | .else_ _ | .alias_ _ | .partitionBy (.list _) | .windowOrderBy (.list _) | .frame _ => True
    | .selectOne _ | .selectDistinct _ (.list _) | .distinctOn (.list _) | .from _ | .limit _ | .offset _ | .insertInto _ | .columns (.list _)
    | .valuesx _ | .asRow _ | .asColumns (.list _) | .selectQuery _ | .onDuplicateKeyUpdate (.list _) | .update _ | .setx _ | .using _ => True
    | _ => False
  | _ => False

theorem sets_step (t : Nat) (T : Tracking α) (s : Step α) (h : Sets s) : (T.step t s).isSome := by
  cases s with
  | start d s =>
    simp only [Tracking.step, Option.isSome_map]
    cases s with
    | «with» k a => cases a <;> first | rfl | exact h.elim
    | select a => cases a <;> first | rfl | exact h.elim
    | selectDistinct b a => cases a <;> first | rfl | exact h.elim
    | deleteFrom b a => cases a <;> first | exact h.elim | (simp only [Start.effects]; split <;> rfl)
    | and a => cases a <;> first | rfl | exact h.elim
    | or b a => cases a <;> first | rfl | exact h.elim
    | partitionBy a => cases a <;> first | rfl | exact h.elim
    | orderBy a => cases a <;> first | rfl | exact h.elim
    | caseWhen a => rfl
    | _ => rfl
  | call i m =>
    simp only [Tracking.step]
    split
    · rfl
    · simp only [Option.isSome_map]
      cases m with
      | partitionBy a => cases a <;> first | rfl | exact h.elim
      | windowOrderBy a => cases a <;> first | rfl | exact h.elim
      | selectDistinct b a => cases a <;> first | rfl | exact h.elim
      | distinctOn a => cases a <;> first | rfl | exact h.elim
      | columns a => cases a <;> first | rfl | exact h.elim
      | asColumns a => cases a <;> first | rfl | exact h.elim
      | onDuplicateKeyUpdate a => cases a <;> first | rfl | exact h.elim
      | _ => first | rfl | exact h.elim
  | _ => exact h.elim

theorem sets_careful (steps : List (Step α)) (h : ∀ s ∈ steps, Sets s) : Careful steps := by
  suffices ∀ (t : Nat) (T : Tracking α), (track t T steps).isSome from this 0 {}
  induction steps with
  | nil => intro t T; rfl
  | cons s ss ih =>
    intro t T
    obtain ⟨T', hT⟩ := Option.isSome_iff_exists.mp (sets_step t T s (h s List.mem_cons_self))
    simp only [track, hT, Option.bind_some]
    exact ih (fun s hs => h s (List.mem_cons_of_mem _ hs)) _ _

/-- However often, and in whatever order, values are derived from each other by the calls that set or replace a part, at the end each
of them is what the chain of calls that built it says. -/
theorem C71_setters [Inhabited α] (grow : Nat → Nat → Nat) (steps : List (Step α)) (h : ∀ s ∈ steps, Sets s) :
    (runSteps grow steps).queries.map (Query.contents (runSteps grow steps).heap) = (Spec.Building.run steps).queries :=
  C27_careful_partial grow steps (sets_careful steps h)

/-- With `Append` and `When` too, if no two of the calls add to the result of the same call. -/
theorem C71_careful_partial [Inhabited α] (grow : Nat → Nat → Nat) (steps : List (Step α)) (h : Careful steps) :
    (runSteps grow steps).queries.map (Query.contents (runSteps grow steps).heap) = (Spec.Building.run steps).queries :=
  C27_careful_partial grow steps h

/-- `And(ps...)` with listed arguments has no room: any number of conditions may be derived from it by one `Append` each. -/
theorem C71_append_once [Inhabited α] (grow : Nat → Nat → Nat) (d : Dialect) (ps : List α) (qs : List (List α)) :
    (runSteps grow (.start d (.and (.list ps)) :: qs.map fun q => .call 0 (.append q))).queries.map
      (Query.contents (runSteps grow (.start d (.and (.list ps)) :: qs.map fun q => .call 0 (.append q))).heap) =
    (Spec.Building.run (.start d (.and (.list ps)) :: qs.map fun q => .call 0 (.append q))).queries := by
  apply C27_careful_partial
  show (track 0 {} _).isSome = true
  suffices ∀ (qs : List (List α)) (t : Nat) (T : Tracking α), (∃ x, T.queries[0]? = some x ∧ x.origin .predicates = none) →
      (track t T (qs.map fun q => Step.call 0 (.append q))).isSome by
    simp only [track, Tracking.step, Start.effects, Tracked.edits, Tracked.edit, Option.bind_some, Option.map_some]
    refine this qs 1 _ ⟨_, rfl, rfl⟩
  intro qs
  induction qs with
  | nil => intros; rfl
  | cons q qs ih =>
    intro t T ⟨x, hx, ho⟩
    have e : ∃ r, x.append t T.used .predicates q = some r := by
      simp only [Tracked.append, ho]
      split <;> exact ⟨_, rfl⟩
    obtain ⟨r, hr⟩ := e
    simp only [List.map_cons, track, Tracking.step, hx, Method.effects, Tracked.edits, Tracked.edit, hr, Option.bind_some, Option.map_some]
    refine ih _ _ ⟨x, ?_, ho⟩
    have hlt := (List.getElem?_eq_some_iff.mp hx).1
    simp only [Tracking.query]
    rw [List.getElem?_append_left hlt, hx]

/-- `Not` on any value of any program changes no array; applied twice it gives the value back. -/
theorem C71_not_twice [Inhabited α] (grow : Nat → Nat → Nat) (st : State α) (i : Nat) (q : Query α) (t : α) (hq : st.queries[i]? = some q)
    (hb : q.slots .negative = none ∨ q.slots .negative = some t) :
    ∃ q', Step.run grow (Step.run grow st (.call i (.not t))) (.call st.queries.length (.not t)) = { st with queries := st.queries ++ [q', q] } ∧
      (q'.slots .negative).isSome = !(q.slots .negative).isSome ∧ q'.slices = q.slices ∧ ∀ f, f ≠ .negative → q'.slots f = q.slots f := by
  have e1 : Step.run grow st (.call i (.not t)) = { st with queries := st.queries ++ [q.flipSlot .negative t] } := by
    simp [Step.run, hq, State.derive, runEffects, Method.effects, Effect.run]
  have e2 : (q.flipSlot .negative t).flipSlot .negative t = q := by
    cases q with | mk k d sl so =>
    simp only [Query.flipSlot, Query.mk.injEq, true_and]
    funext f
    by_cases hf : f = .negative
    · subst hf
      rcases hb with h | h <;> (simp only at h; simp [h])
    · simp [hf]
  refine ⟨q.flipSlot .negative t, ?_, ?_, rfl, fun f hf => by simp [Query.flipSlot, hf]⟩
  · rw [e1]
    simp [Step.run, State.derive, runEffects, Method.effects, Effect.run, e2]
  · simp only [Query.flipSlot]
    cases q.slots .negative <;> rfl

/-! A condition, a CASE expression and two windows, each used twice. -/

def sharing : List (Step String) := [
  .start .postgres (.and (.list ["a", "b"])),            -- 0
  .call 0 (.not "true"),                                  -- 1
  .call 1 (.not "true"),                                  -- 2
  .start .postgres (.or "true" (.list ["a"])),            -- 3
  .start .postgres (.caseWhen "a: 1"),                    -- 4
  .call 4 (.else_ "2"),                                   -- 5
  .call 4 (.else_ "3"),                                   -- 6
  .call 5 (.alias_ "x"),                                  -- 7
  .start .postgres (.partitionBy (.list ["p"])),          -- 8
  .call 8 (.windowOrderBy (.list ["o"])),                 -- 9
  .call 9 (.partitionBy (.list ["q", "r"])),              -- 10
  .call 9 (.frame "ROWS UNBOUNDED PRECEDING")]            -- 11

example : ∀ s ∈ sharing, Sets s := by simp [sharing, Sets]
example : ((runSteps double sharing).queries.map fun q => ((q.slots .negative).isSome, q.slots .fallback, q.slots .frame)) =
    [(false, none, none), (true, none, none), (false, none, none), (false, none, none), (false, none, none), (false, some "2", none),
     (false, some "3", none), (false, some "2", none), (false, none, none), (false, none, none), (false, none, none),
     (false, none, some "ROWS UNBOUNDED PRECEDING")] ∧
    ((runSteps double sharing).queries.map fun q => (runSteps double sharing).heap.read (q.slices .partitionBy)) =
    [[], [], [], [], [], [], [], [], ["p"], ["p"], ["q", "r"], ["p"]] := by decide +kernel

/-- CASE expressions are not values: with three WHENs there is room for a fourth (the capacity goes 1, 2, 4), and of two expressions
derived from it by `When` the first is changed by the second. -/
theorem C71_when_violated [Inhabited α] (grow : Nat → Nat → Nat) (h1 : grow 0 1 = 1) (h2 : grow 1 2 = 2) (h4 : grow 2 3 = 4) (dia : Dialect) (a b c d e : α) :
    let steps : List (Step α) := [.start dia (.caseWhen a), .call 0 (.when b), .call 1 (.when c), .call 2 (.when d), .call 2 (.when e)]
    ((runSteps grow (steps.take 4)).queries[3]?.map fun q => (runSteps grow (steps.take 4)).heap.read (q.slices .cases)) = some [a, b, c, d] ∧
    ((runSteps grow steps).queries[3]?.map fun q => (runSteps grow steps).heap.read (q.slices .cases)) = some [a, b, c, e] ∧
    ((Spec.Building.run steps).queries[3]?.map fun v => v.clauses .cases) = some [a, b, c, d] := by
  refine ⟨?_, ?_, ?_⟩
  · simp [runSteps, Step.run, State.derive, runEffects, Start.effects, Method.effects, Effect.run, Start.kind, emptyQuery, nilSlice,
      Heap.append, Heap.arr, Heap.read, Query.setSlice, h1, h2, h4]
  · simp [runSteps, Step.run, State.derive, runEffects, Start.effects, Method.effects, Effect.run, Start.kind, emptyQuery, nilSlice,
      Heap.append, Heap.arr, Heap.read, Query.setSlice, h1, h2, h4]
  · rfl

/-- The same for `Append`: `And(a).Append(b).Append(c)` has room for a fourth condition. -/
theorem C71_append_violated [Inhabited α] (grow : Nat → Nat → Nat) (h2 : grow 1 2 = 2) (h4 : grow 2 3 = 4) (dia : Dialect) (a b c d e : α) :
    let steps : List (Step α) := [.start dia (.and (.list [a])), .call 0 (.append [b]), .call 1 (.append [c]), .call 2 (.append [d]), .call 2 (.append [e])]
    ((runSteps grow (steps.take 4)).queries[3]?.map fun q => (runSteps grow (steps.take 4)).heap.read (q.slices .predicates)) = some [a, b, c, d] ∧
    ((runSteps grow steps).queries[3]?.map fun q => (runSteps grow steps).heap.read (q.slices .predicates)) = some [a, b, c, e] ∧
    ((Spec.Building.run steps).queries[3]?.map fun v => v.clauses .predicates) = some [a, b, c, d] := by
  refine ⟨?_, ?_, ?_⟩
  · simp [runSteps, Step.run, State.derive, runEffects, Start.effects, Method.effects, Effect.run, Start.kind, emptyQuery, nilSlice,
      Heap.append, Heap.arr, Heap.read, Heap.fresh, Query.setSlice, h2, h4]
  · simp [runSteps, Step.run, State.derive, runEffects, Start.effects, Method.effects, Effect.run, Start.kind, emptyQuery, nilSlice,
      Heap.append, Heap.arr, Heap.read, Heap.fresh, Query.setSlice, h2, h4]
  · rfl

example : double 0 1 = 1 ∧ double 1 2 = 2 ∧ double 2 3 = 4 := by decide

end Sq.Building.Values
