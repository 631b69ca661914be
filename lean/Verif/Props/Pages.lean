import Verif.Props.Guard
import Verif.Props.Distinct
import Verif.Props.Sub
import Verif.Props.Group
/-
Paging (C84, C86, C87, C88, C89): page after page is everything, each once, and in order.
-/
namespace Sq.Paging
open Sq Sq.Spec Sq.Chain Sq.Exprs Sq.Spec.Store Sq.Spec.Where Sq.Spec.Sel Sq.Asking
open Sq.Storing hiding pieces
open Sq.Sending Sq.Fetching.Spec Sq.Spec.Send

variable {Ctx V : Type}

theorem pages_fetched {α β : Type} (l : Lang) (fetched : Option Nat → Option Nat → List β) (all : List α) (f : α → β)
    (h : ∀ limit offset, Allowed l limit offset → fetched limit offset = (page limit offset all).map f) (n k : Nat) (hk : (fetched none none).length ≤ k * n) :
    ((List.range k).flatMap fun i => fetched (some n) (some (i * n))) = fetched none none := by
  have e0 : fetched none none = all.map f := h none none (fun e => absurd rfl e)
  have e : (List.range k).flatMap (fun i => fetched (some n) (some (i * n))) = (List.range k).flatMap fun i => (page (some n) (some (i * n)) all).map f := by
    congr 1
    funext i
    exact h (some n) (some (i * n)) (fun _ => .inl (by simp))
  rw [e, e0, ← List.map_flatMap, pages_all, List.take_of_length_le]
  rw [e0, List.length_map] at hk
  exact hk

/-- **C84 (partial), paging.** Fetching page after page of `n` records through tables with policies, until they are all there, gives what is fetched without paging:
no page shows a record that is not seen without paging.  Missing: as in `C84_reads_partial`. -/
theorem C84_pages_partial (D : Database) (T : D.State → Tables) (C : Compare) (O : Order) (b : Builder) (arrange : D.State → Core → List World)
    (hD : Sel.Understands D T C O b.lang arrange) (raw : Field → Bool) (P : Guard.Policy) (a : Ask) (h : Guard.Sound b.lang P b.env a)
    (s : D.State) (source : Logging.LogSource) (hs : source.Usable) (o : Outside V) (ctx : Ctx) (zero : Fetching.Kind → V)
    (conv : Fetching.Kind → Scalar → Option V) (get : Fetching.Kind → Scalar → V) (kind : Field → Fetching.Kind)
    (hconv : ∀ w ∈ Guard.permittedAnswer C (T s) P b.env a, ∀ c ∈ a.cols, conv (kind c) (c.value w) = some (get (kind c) (c.value w))) (n k : Nat) :
    let fetched := fun limit offset => (fetch o (D.conn source s Ctx) (Guard.fromQuery b raw P a limit offset) zero conv (readsFields raw kind a.cols) ctx []).trace
    (fetched none none).length ≤ k * n → ((List.range k).flatMap fun i => fetched (some n) (some (i * n))) = fetched none none := by
  intro fetched hk
  obtain ⟨all, _, _, h3⟩ := Guarding.C84_fetched_partial D T C O b arrange hD raw P a h s source hs o ctx zero conv get kind hconv
  exact pages_fetched b.lang fetched all _ (fun limit offset hal => (h3 limit offset hal).2.2) n k hk

/-- **C86 (partial), paging.** Fetching page after page of `n` records from CTEs, until they are all there, gives what is fetched without paging.
Missing: as in `C86_reads_partial`. -/
theorem C86_pages_partial (D : Database) (T : D.State → Tables) (C : Compare) (O : Order) (b : Builder) (arrange : Tables → Core → List World)
    (hD : Cte.Understands D T C O b.lang arrange) (raw : Field → Bool) (gs : List Cte.Given) (hne : gs ≠ []) (hg : Cte.Sound b.lang [] gs) (a : Ask) (h : a.Sound b.lang)
    (hh : ∀ c ∈ Cte.fieldsOf a, Cte.HasColumn gs c)
    (s : D.State) (source : Logging.LogSource) (hs : source.Usable) (o : Outside V) (ctx : Ctx) (zero : Fetching.Kind → V)
    (conv : Fetching.Kind → Scalar → Option V) (get : Fetching.Kind → Scalar → V) (kind : Field → Fetching.Kind)
    (hconv : ∀ T', Cte.Answered C O (T s) gs T' → ∀ w ∈ a.answer C T', ∀ c ∈ a.cols, conv (kind c) (c.value w) = some (get (kind c) (c.value w))) (n k : Nat) :
    let fetched := fun limit offset =>
      (fetch o (D.conn source s Ctx) (Cte.fromQuery b raw gs a limit offset) zero conv (Cte.readsFields raw (Cte.made b raw [] gs) kind a.cols) ctx []).trace
    (fetched none none).length ≤ k * n → ((List.range k).flatMap fun i => fetched (some n) (some (i * n))) = fetched none none := by
  intro fetched hk
  obtain ⟨_, _, all, _, _, h3⟩ := Shared.C86_fetched_partial D T C O b arrange hD raw gs hne hg a h hh s source hs o ctx zero conv get kind hconv
  exact pages_fetched b.lang fetched all _ (fun limit offset hal => (h3 limit offset hal).2.2) n k hk

/-- **C87 (partial), paging.** As `C86_pages_partial`, of SELECT DISTINCT and DISTINCT ON: no combination is there twice or missing because it is on another page.
Missing: as in `C87_reads_partial`. -/
theorem C87_pages_partial (D : Database) (T : D.State → Tables) (C : Compare) (O : Order) (same : Scalar → Scalar → Bool) (b : Builder)
    (arrange : D.State → Option (List Sel.Col) → Core → List World) (hD : Dist.Understands D T C O same b.lang arrange)
    (raw : Field → Bool) (a : Ask) (on : Option (List Field)) (h : Dist.Sound b.lang a on)
    (s : D.State) (source : Logging.LogSource) (hs : source.Usable) (o : Outside V) (ctx : Ctx) (zero : Fetching.Kind → V)
    (conv : Fetching.Kind → Scalar → Option V) (get : Fetching.Kind → Scalar → V) (kind : Field → Fetching.Kind)
    (hconv : ∀ w ∈ a.answer C (T s), ∀ c ∈ a.cols, conv (kind c) (c.value w) = some (get (kind c) (c.value w))) (n k : Nat) :
    let fetched := fun limit offset => (fetch o (D.conn source s Ctx) (Dist.fromQuery b raw a on limit offset) zero conv (readsFields raw kind a.cols) ctx []).trace
    (fetched none none).length ≤ k * n → ((List.range k).flatMap fun i => fetched (some n) (some (i * n))) = fetched none none := by
  intro fetched hk
  obtain ⟨all, _, _, h3⟩ := Different.C87_fetched_partial D T C O same b arrange hD raw a on h s source hs o ctx zero conv get kind hconv
  exact pages_fetched b.lang fetched all _ (fun limit offset hal => (h3 limit offset hal).2.2) n k hk

/-- **C88 (partial), paging.** As `C86_pages_partial`, of subqueries.  Missing: as in `C88_reads_partial`. -/
theorem C88_pages_partial (D : Database) (T : D.State → Tables) (C : Compare) (O : Order) (b : Builder) (arrange : Tables → Core → List World)
    (hD : Sub.Understands D T C O b.lang arrange) (raw : Field → Bool) (gs : List Cte.Given) (a : Ask) (h : Sub.Sound b.lang gs a)
    (s : D.State) (source : Logging.LogSource) (hs : source.Usable) (o : Outside V) (ctx : Ctx) (zero : Fetching.Kind → V)
    (conv : Fetching.Kind → Scalar → Option V) (get : Fetching.Kind → Scalar → V) (kind : Field → Fetching.Kind)
    (hconv : ∀ T', Sub.Answered C O (T s) (Sub.used gs a) T' → ∀ w ∈ a.answer C T', ∀ c ∈ a.cols, conv (kind c) (c.value w) = some (get (kind c) (c.value w)))
    (n k : Nat) :
    let fetched := fun limit offset =>
      (fetch o (D.conn source s Ctx) (Sub.fromQuery b raw gs a limit offset) zero conv (Sub.readsFields b raw gs kind a.cols) ctx []).trace
    (fetched none none).length ≤ k * n → ((List.range k).flatMap fun i => fetched (some n) (some (i * n))) = fetched none none := by
  intro fetched hk
  obtain ⟨_, _, all, _, _, h3⟩ := Nested.C88_fetched_partial D T C O b arrange hD raw gs a h s source hs o ctx zero conv get kind hconv
  exact pages_fetched b.lang fetched all _ (fun limit offset hal => (h3 limit offset hal).2.2) n k hk

/-- **C89 (partial), paging.** As `C86_pages_partial`, of groups.  Missing: as in `C89_reads_partial`. -/
theorem C89_pages_partial (D : Database) (T : D.State → Tables) (C : Compare) (O : Order) (same : Scalar → Scalar → Bool) (A : Group.Aggregates) (b : Builder)
    (arrange : D.State → List Sel.Col → List (Group.Ranked Sel.Col) → Core → List (List World)) (hD : Group.Understands D T C O same A b.lang arrange)
    (raw : Field → Bool) (a : Ask) (G : Group.Grouping) (h : Group.Sound b.lang a G)
    (s : D.State) (source : Logging.LogSource) (hs : source.Usable) (o : Outside V) (ctx : Ctx) (zero : Fetching.Kind → V)
    (conv : Fetching.Kind → Scalar → Option V) (get : Fetching.Kind → Scalar → V) (kind : Group.Item Field → Fetching.Kind)
    (hconv : ∀ gs, Group.Answers C O same A (T s) a G gs → ∀ g ∈ gs, ∀ i ∈ G.items,
      conv (kind i) (i.value A Field.value g) = some (get (kind i) (i.value A Field.value g))) (n k : Nat) :
    let fetched := fun limit offset => (fetch o (D.conn source s Ctx) (Group.fromQuery b raw a G limit offset) zero conv (Group.readsItems raw kind G.items) ctx []).trace
    (fetched none none).length ≤ k * n → ((List.range k).flatMap fun i => fetched (some n) (some (i * n))) = fetched none none := by
  intro fetched hk
  obtain ⟨gs, _, h3⟩ := Grouped.C89_fetched_partial D T C O same A b arrange hD raw a G h s source hs o ctx zero conv get kind hconv
  exact pages_fetched b.lang fetched gs _ (fun limit offset hal => (h3 limit offset hal).2.2) n k hk

open Grouped in
example : (List.range 2).flatMap (fun i => fetchedG perUser totals (some 2) (some (i * 2))) = fetchedG perUser totals none none ∧
    (fetchedG perUser totals none none).length = 3 := by decide +kernel

end Sq.Paging
