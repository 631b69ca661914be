import Verif.Model.Chain
import Verif.Spec.Chain
import Verif.Model.Examples
/-
C61: a chain of builder calls means the query with the clauses asked for.
-/
namespace Sq.Chains
open Sq.Chain Spec.Chain

theorem all_snoc {α β : Type} (f : α → List β) (cs : List α) (c : α) : all f (cs ++ [c]) = all f cs ++ f c := by
  simp [all]

theorem last_snoc {α β : Type} (f : α → Option β) (cs : List α) (c : α) :
    last f (cs ++ [c]) = match f c with | some x => some x | none => last f cs := by
  unfold last
  cases h : f c <;> simp [List.filterMap_append, h]

theorem listing_also {α : Type} (ss : List (Say α)) (xs : List α) : listing (ss ++ [.also xs]) = listing ss ++ xs := by
  unfold listing
  simp [List.filterMap_append]

theorem listing_instead {α : Type} (ss : List (Say α)) (xs : List α) : listing (ss ++ [.instead xs]) = xs := by
  unfold listing
  simp [List.filterMap_append]

theorem select_step (b : Builder) (q : SelectQ) (pre : List SelectCall) (c : SelectCall) (h : q.node = selectAsked b pre) :
    (c.run q).node = selectAsked b (pre ++ [c]) := by
  unfold SelectQ.node selectAsked at h
  injection h with h1 h2 h3 h4 h5 h6 h7 h8 h9 h10
  injection h1 with d e di li of
  unfold and_ conj at h7 h9
  injection h7 with _ _ _ _ h7
  injection h9 with _ _ _ _ h9
  cases c <;> simp only [SelectCall.run, SelectQ.node, selectAsked, all_snoc, last_snoc, List.filterMap_append, List.filterMap_cons,
    List.filterMap_nil, listing_also, listing_instead, List.append_nil, List.any_append, List.any_cons, List.any_nil, Bool.or_false,
    and_, conj, d, e, di, li, of, h2, h3, h4, h5, h6, h7, h8, h9, h10, Option.getD_some, Bool.or_true]
  all_goals (first | rfl | (rename_i k t ps; cases k <;> rfl) | skip)

theorem select_chain (b : Builder) (cs : List SelectCall) : ∀ (q : SelectQ) (pre : List SelectCall), q.node = selectAsked b pre →
    (cs.foldl SelectCall.run q).node = selectAsked b (pre ++ cs) := by
  induction cs with
  | nil => intro q pre h; simpa using h
  | cons c cs ih =>
    intro q pre h
    have := ih (c.run q) (pre ++ [c]) (select_step b q pre c h)
    simpa using this


/-- **C61** SELECT: a chain of calls is the query whose clauses are what the calls ask for. -/
theorem C61_select (b : Builder) (s : SelectStart) (cs : List SelectCall) :
    (select b s cs).node = selectAsked b (opening s :: cs) := by
  have h0 : s.run b = (opening s).run { dialect := b.lang.dialect, env := b.env } := by cases s <;> rfl
  unfold select
  rw [h0]
  exact select_chain b (opening s :: cs) _ [] rfl

/-! ### UPDATE -/

theorem update_step (b : Builder) (q : UpdateQ) (pre : List UpdateCall) (c : UpdateCall) (h : q.node = updateAsked b pre)
    (hm : q.mapper = last (fun | .setx m => some m | _ => none) pre) :
    (c.run q).node = updateAsked b (pre ++ [c]) ∧ (c.run q).mapper = last (fun | .setx m => some m | _ => none) (pre ++ [c]) := by
  unfold UpdateQ.node updateAsked at h
  injection h with h1 h2 h3 h4 h5 h6 h7 h8 h9 h10
  injection h1 with d e _ _ li of
  unfold and_ conj at h8
  injection h8 with _ _ _ _ h8
  cases c <;> simp only [UpdateCall.run, UpdateQ.node, updateAsked, all_snoc, last_snoc, List.append_nil,
    and_, conj, d, e, li, of, h2, h3, h4, h5, h6, hm, h8, h9, h10, Option.getD_some, and_true]
  all_goals (first | rfl | (refine ⟨?_, ?_⟩ <;> rfl) | (rename_i k t ps; cases k <;> rfl))

theorem update_chain (b : Builder) (cs : List UpdateCall) : ∀ (q : UpdateQ) (pre : List UpdateCall), q.node = updateAsked b pre →
    q.mapper = last (fun | .setx m => some m | _ => none) pre → (cs.foldl UpdateCall.run q).node = updateAsked b (pre ++ cs) := by
  induction cs with
  | nil => intro q pre h _; simpa using h
  | cons c cs ih =>
    intro q pre h hm
    have hs := update_step b q pre c h hm
    have := ih (c.run q) (pre ++ [c]) hs.1 hs.2
    simpa using this

/-- **C61** UPDATE. -/
theorem C61_update (b : Builder) (s : UpdateStart) (cs : List UpdateCall) :
    (update b s cs).node = updateAsked b (openingUpdate s :: cs) := by
  have h0 : s.run b = (openingUpdate s).run { dialect := b.lang.dialect, env := b.env } := by cases s <;> rfl
  unfold update
  rw [h0]
  exact update_chain b (openingUpdate s :: cs) _ [] rfl rfl

/-! ### DELETE -/

theorem one_left {α : Type} (p : α → Bool) (xs : List α) (x : α) (h : ((xs ++ [x]).filter p).length ≤ 1) :
    (xs.filter p).length ≤ 1 ∧ (p x = true → xs.filter p = []) := by
  rw [List.filter_append, List.length_append] at h
  refine ⟨by omega, fun hp => ?_⟩
  simp only [List.filter_cons, hp, if_true, List.filter_nil, List.length_cons, List.length_nil] at h
  exact List.length_eq_zero_iff.1 (by omega)

theorem all_none {α β : Type} (p : α → Bool) (f : α → List β) (hf : ∀ x, p x = false → f x = []) (xs : List α) (h : xs.filter p = []) :
    all f xs = [] := by
  unfold all
  refine List.flatMap_eq_nil_iff.2 fun x hx => hf x ?_
  have := List.filter_eq_nil_iff.1 h x hx
  simpa using this

theorem delete_step (b : Builder) (q : DeleteQ) (pre : List DeleteCall) (c : DeleteCall) (h : q.node = deleteAsked b pre)
    (ho : OneOrder (pre ++ [c])) : (c.run q).node = deleteAsked b (pre ++ [c]) := by
  unfold DeleteQ.node deleteAsked at h
  injection h with h1 h2 h3 h4 h5 h6 h7 h8
  injection h1 with d e _ _ li of
  unfold and_ conj at h6
  injection h6 with _ _ _ _ h6
  have h7' : orderCall c = true → q.orderBy = [] := fun hp => by
    rw [h7]; exact all_none orderCall _ (by intro x hx; cases x <;> first | rfl | cases hx) pre ((one_left orderCall pre c ho).2 hp)
  cases c <;> simp only [DeleteCall.run, DeleteQ.node, deleteAsked, all_snoc, last_snoc, List.append_nil,
    and_, conj, d, e, li, of, h2, h3, h4, h5, h6, h7, h8, Option.getD_some]
  all_goals (first | rfl | (rename_i k t ps; cases k <;> rfl) | skip)
  rw [← h7, h7' rfl]; rfl

theorem delete_chain (b : Builder) (cs : List DeleteCall) : ∀ (q : DeleteQ) (pre : List DeleteCall), q.node = deleteAsked b pre →
    OneOrder (pre ++ cs) → (cs.foldl DeleteCall.run q).node = deleteAsked b (pre ++ cs) := by
  induction cs with
  | nil => intro q pre h _; simpa using h
  | cons c cs ih =>
    intro q pre h ho
    have ho' : OneOrder (pre ++ [c]) := by
      unfold OneOrder at ho ⊢
      rw [show pre ++ c :: cs = (pre ++ [c]) ++ cs by simp, List.filter_append, List.length_append] at ho
      omega
    have := ih (c.run q) (pre ++ [c]) (delete_step b q pre c h ho') (by simpa using ho)
    simpa using this

/-- **C61** DELETE, as long as `OrderBy` is called at most once (see `C61_delete_order_violated`). -/
theorem C61_delete_partial (b : Builder) (s : DeleteStart) (cs : List DeleteCall) (ho : OneOrder cs) :
    (delete b s cs).node = deleteAsked b (openingDelete s :: cs) := by
  have h0 : s.run b = (openingDelete s).run { dialect := b.lang.dialect, env := b.env } := by cases s <;> rfl
  unfold delete
  rw [h0]
  refine delete_chain b (openingDelete s :: cs) _ [] rfl ?_
  unfold OneOrder at ho ⊢
  cases s <;> simpa [openingDelete, orderCall] using ho

/-! ### INSERT -/

/-- What is last said about ON CONFLICT. -/
def said (cs : List InsertCall) : Option ((List Node ⊕ Str) × List Node × Action) :=
  last (fun | .onConflict fs ps a => some (Sum.inl fs, ps, a) | .onConstraint n ps a => some (Sum.inr n, ps, a) | _ => none) cs

theorem said_snoc (cs : List InsertCall) (c : InsertCall) : said (cs ++ [c]) =
    match c with
    | .onConflict fs ps a => some (Sum.inl fs, ps, a)
    | .onConstraint n ps a => some (Sum.inr n, ps, a)
    | _ => said cs := by
  unfold said
  rw [last_snoc]
  cases c <;> rfl

theorem said_none {cs : List InsertCall} (h : cs.filter conflictCall = []) : said cs = none := by
  unfold said last
  rw [List.getLast?_eq_none_iff, List.filterMap_eq_nil_iff]
  intro c hc
  have := List.filter_eq_nil_iff.1 h c hc
  cases c <;> first | rfl | exact absurd rfl this

/-- The state of an INSERT after some calls. -/
structure InsertInv (b : Builder) (s : InsertStart) (cs : List InsertCall) (q : InsertQ) : Prop where
  dialect : q.dialect = b.lang.dialect
  env : q.env = b.env
  mapper : q.mapper = last (fun | .valuesx m => some m | _ => none) cs
  ignore : q.ignore = openingIgnore s
  rowAlias : q.rowAlias = (last (fun | .asRow a => some a | _ => none) cs).getD []
  columnAliases : q.columnAliases = (last (fun | .asColumns as => some as | _ => none) cs).getD []
  constraint : q.conflictConstraint = match said cs with | some (.inr n, _, _) => n | _ => []
  doNothing : q.doNothing = match said cs with | some (_, _, .doNothing) => true | _ => false
  ctes : q.ctes = openingCtes s ++ all (fun | .with cs => cs | _ => []) cs
  into : q.into = (last (fun | .insertInto t => some t | _ => none) cs).getD (openingInto s)
  columns : q.columns = (last (fun | .columns fs => some fs | _ => none) cs).getD []
  rows : q.rows = all (fun | .values row => [row] | _ => []) cs
  select : q.selectQuery = (last (fun | .select q => some q.node | _ => none) cs).getD .nil
  fields : q.conflictFields = match said cs with | some (.inl fs, _, _) => fs | _ => []
  pred : q.conflictPredicate = match said cs with | some (_, ps, _) => ps.getLast?.getD .nil | _ => .nil
  resolution : q.resolution = match said cs with
    | some (_, _, .doUpdateSet as) => as
    | _ => (last (fun | .onDuplicateKeyUpdate as => some as | _ => none) cs).getD []
  where_ : q.resolutionWhere = all (fun | .where ps => ps | _ => []) cs
  returning : q.returning = all (fun | .returning fs => fs | _ => []) cs

theorem conflictWhere_eq (q : InsertQ) (ps : List Node) :
    conflictWhere q ps = { q with conflictPredicate := ps.getLast?.getD q.conflictPredicate } := by
  induction ps generalizing q with
  | nil => rfl
  | cons p ps ih =>
    have : conflictWhere q (p :: ps) = conflictWhere { q with conflictPredicate := p } ps := rfl
    rw [this, ih]
    cases ps with
    | nil => rfl
    | cons p' ps => simp [List.getLast?_eq_some_getLast]

theorem insert_step (b : Builder) (s : InsertStart) (q : InsertQ) (pre : List InsertCall) (c : InsertCall) (i : InsertInv b s pre q)
    (ho : ∀ c' ∈ pre ++ [c], InsertCall.offered b.lang c' = true) (h1 : OneConflict (pre ++ [c])) :
    InsertInv b s (pre ++ [c]) (c.run q) := by
  have hn : conflictCall c = true → said pre = none := fun hp => said_none ((one_left conflictCall pre c h1).2 hp)
  have hd : (∃ as, c = .onDuplicateKeyUpdate as) → said pre = none := by
    rintro ⟨as, rfl⟩
    refine said_none (List.filter_eq_nil_iff.2 fun c' hc' hp => ?_)
    have hl := ho (.onDuplicateKeyUpdate as) (by simp)
    have hc := ho c' (by simp [hc'])
    have hl' : b.lang = .mysql := by simpa [InsertCall.offered] using hl
    rw [hl'] at hc
    cases c' <;> simp_all [InsertCall.offered, conflictCall]
  obtain ⟨i1, i2, i3, i4, i5, i6, i7, i8, i9, i10, i11, i12, i13, i14, i15, i16, i17, i18⟩ := i
  cases c with
  | onConflict fs ps a =>
    have hs := hn rfl
    rw [hs] at i7 i8 i14 i15 i16
    cases a <;> (constructor <;> simp only [InsertCall.run, Action.run, conflictWhere_eq, all_snoc, last_snoc, said_snoc, List.append_nil, *])
  | onConstraint n ps a =>
    have hs := hn rfl
    rw [hs] at i7 i8 i14 i15 i16
    cases a <;> (constructor <;> simp only [InsertCall.run, Action.run, conflictWhere_eq, all_snoc, last_snoc, said_snoc, List.append_nil, *])
  | onDuplicateKeyUpdate as =>
    have hs := hd ⟨_, rfl⟩
    rw [hs] at i7 i8 i14 i15 i16
    constructor <;> simp only [InsertCall.run, all_snoc, last_snoc, said_snoc, List.append_nil, Option.getD_some, *]
  | _ => constructor <;> simp only [InsertCall.run, all_snoc, last_snoc, said_snoc, List.append_nil, List.append_assoc, Option.getD_some, *]

theorem insert_chain (b : Builder) (s : InsertStart) (cs : List InsertCall) : ∀ (q : InsertQ) (pre : List InsertCall), InsertInv b s pre q →
    (∀ c ∈ pre ++ cs, InsertCall.offered b.lang c = true) → OneConflict (pre ++ cs) → InsertInv b s (pre ++ cs) (cs.foldl InsertCall.run q) := by
  induction cs with
  | nil => intro q pre h _ _; simpa using h
  | cons c cs ih =>
    intro q pre h ho h1
    have e : pre ++ c :: cs = (pre ++ [c]) ++ cs := by simp
    rw [e] at ho h1 ⊢
    refine ih (c.run q) (pre ++ [c]) (insert_step b s q pre c h (fun c' hc' => ho c' (List.mem_append_left _ hc')) ?_) ho h1
    unfold OneConflict at h1 ⊢
    rw [List.filter_append, List.length_append] at h1
    omega

/-- **C61** INSERT, with the methods the builder has and at most one ON CONFLICT (see `C61_conflict_violated`). -/
theorem C61_insert_partial (b : Builder) (s : InsertStart) (cs : List InsertCall)
    (ho : ∀ c ∈ cs, InsertCall.offered b.lang c = true) (h1 : OneConflict cs) :
    (insert b s cs).node = insertAsked b s cs := by
  have i0 : InsertInv b s [] (s.run b) := by cases s <;> constructor <;> first | rfl | simp [InsertStart.run, all, openingCtes]
  have i := insert_chain b s cs (s.run b) [] i0 (by simpa using ho) (by simpa using h1)
  rw [List.nil_append] at i
  obtain ⟨i1, i2, i3, i4, i5, i6, i7, i8, i9, i10, i11, i12, i13, i14, i15, i16, i17, i18⟩ := i
  change (List.foldl InsertCall.run (s.run b) cs).node = _
  unfold InsertQ.node insertAsked
  rw [i1, i2, i3, i4, i5, i6, i7, i8, i9, i10, i11, i12, i13, i14, i15, i16, i17, i18]
  rfl

/-! ### The order of the calls -/

theorem filterMap_filter_of {α β : Type} (p : α → Bool) (f : α → Option β) (hf : ∀ x, p x = false → f x = none) (cs : List α) :
    (cs.filter p).filterMap f = cs.filterMap f := by
  induction cs with
  | nil => rfl
  | cons c cs ih => cases hp : p c <;> simp [List.filterMap_cons, hp, ih, hf c]

theorem flatMap_filter_of {α β : Type} (p : α → Bool) (f : α → List β) (hf : ∀ x, p x = false → f x = []) (cs : List α) :
    (cs.filter p).flatMap f = cs.flatMap f := by
  induction cs with
  | nil => rfl
  | cons c cs ih => cases hp : p c <;> simp [hp, ih, hf c]

theorem any_filter_of {α : Type} (p f : α → Bool) (hf : ∀ x, p x = false → f x = false) (cs : List α) :
    (cs.filter p).any f = cs.any f := by
  induction cs with
  | nil => rfl
  | cons c cs ih => cases hp : p c <;> simp [hp, ih, hf c]

variable {α β C : Type} [DecidableEq C] {clause : α → C} {cs cs' : List α}

theorem same_all (h : SameByClause clause cs cs') (c : C) (f : α → List β) (hf : ∀ x, clause x ≠ c → f x = []) :
    all f cs = all f cs' := by
  unfold all
  rw [← flatMap_filter_of (clause · = c) f (by simpa using hf) cs, ← flatMap_filter_of (clause · = c) f (by simpa using hf) cs', h c]

theorem same_filterMap (h : SameByClause clause cs cs') (c : C) (f : α → Option β) (hf : ∀ x, clause x ≠ c → f x = none) :
    cs.filterMap f = cs'.filterMap f := by
  rw [← filterMap_filter_of (clause · = c) f (by simpa using hf) cs, ← filterMap_filter_of (clause · = c) f (by simpa using hf) cs', h c]

theorem same_last (h : SameByClause clause cs cs') (c : C) (f : α → Option β) (hf : ∀ x, clause x ≠ c → f x = none) :
    last f cs = last f cs' := by
  unfold last; rw [same_filterMap h c f hf]

theorem same_any (h : SameByClause clause cs cs') (c : C) (f : α → Bool) (hf : ∀ x, clause x ≠ c → f x = false) :
    cs.any f = cs'.any f := by
  rw [← any_filter_of (clause · = c) f (by simpa using hf) cs, ← any_filter_of (clause · = c) f (by simpa using hf) cs', h c]

/-- A function that is only about one clause. -/
macro "about" : tactic => `(tactic| (intro x hx; cases x <;> first | rfl | exact absurd rfl hx))

theorem selectAsked_same (b : Builder) (cs cs' : List SelectCall) (h : SameByClause selectClause cs cs') :
    selectAsked b cs = selectAsked b cs' := by
  unfold selectAsked
  rw [same_any h .list _ (by about), same_last h .limit _ (by about), same_last h .offset _ (by about),
    same_all h .with _ (by about), same_filterMap h .list (β := Say Node) _ (by about), same_last h .distinctOn _ (by about),
    same_last h .from _ (by about), same_all h .joins _ (by about), same_all h .where _ (by about), same_all h .groupBy _ (by about),
    same_all h .having _ (by about), same_all h .orderBy _ (by about)]

/-- **C61** The order of the calls does not matter, only the order of the calls for the same clause: the query is the same, and so are its
SQL, its arguments and its errors in every dialect. -/
theorem C61_select_order (b : Builder) (s s' : SelectStart) (cs cs' : List SelectCall)
    (h : SameByClause selectClause (opening s :: cs) (opening s' :: cs')) (d : Dialect) :
    toSQL d (select b s cs).node = toSQL d (select b s' cs').node := by
  rw [C61_select, C61_select, selectAsked_same b _ _ h]

theorem C61_update_order (b : Builder) (s s' : UpdateStart) (cs cs' : List UpdateCall)
    (h : SameByClause updateClause (openingUpdate s :: cs) (openingUpdate s' :: cs')) (d : Dialect) :
    toSQL d (update b s cs).node = toSQL d (update b s' cs').node := by
  rw [C61_update, C61_update]
  congr 1
  unfold updateAsked
  rw [same_last h .mapper _ (by about), same_last h .limit _ (by about), same_last h .offset _ (by about),
    same_all h .with _ (by about), same_last h .table _ (by about), same_last h .from _ (by about), same_all h .joins _ (by about),
    same_all h .set _ (by about), same_all h .where _ (by about), same_all h .orderBy _ (by about), same_all h .returning _ (by about)]

theorem C61_delete_order_partial (b : Builder) (s s' : DeleteStart) (cs cs' : List DeleteCall)
    (h : SameByClause deleteClause (openingDelete s :: cs) (openingDelete s' :: cs')) (ho : OneOrder cs) (d : Dialect) :
    toSQL d (delete b s cs).node = toSQL d (delete b s' cs').node := by
  have ho' : OneOrder cs' := by
    have e : ∀ (s : DeleteStart) cs, cs.filter orderCall = (openingDelete s :: cs).filter (deleteClause · = .orderBy) := by
      intro s cs
      have : ∀ x : DeleteCall, orderCall x = decide (deleteClause x = .orderBy) := by intro x; cases x <;> rfl
      rw [List.filter_cons_of_neg (by cases s <;> simp [openingDelete, deleteClause])]
      exact List.filter_congr fun x _ => this x
    unfold OneOrder at ho ⊢
    rw [e s' cs', ← h .orderBy, ← e s cs]
    exact ho
  rw [C61_delete_partial b s cs ho, C61_delete_partial b s' cs' ho']
  congr 1
  unfold deleteAsked
  rw [same_last h .limit _ (by about), same_last h .offset _ (by about),
    same_all h .with _ (by about), same_last h .tables _ (by about), same_last h .using _ (by about), same_all h .joins _ (by about),
    same_all h .where _ (by about), same_all h .orderBy _ (by about), same_all h .returning _ (by about)]

theorem C61_insert_order_partial (b : Builder) (s : InsertStart) (cs cs' : List InsertCall) (h : SameByClause insertClause cs cs')
    (hf : ∀ c ∈ cs, InsertCall.offered b.lang c = true) (h1 : OneConflict cs) (d : Dialect) :
    toSQL d (insert b s cs).node = toSQL d (insert b s cs').node := by
  have hf' : ∀ c ∈ cs', InsertCall.offered b.lang c = true := by
    intro c hc
    have : c ∈ cs'.filter (insertClause · = insertClause c) := List.mem_filter.2 ⟨hc, by simp⟩
    rw [← h] at this
    exact hf c (List.mem_filter.1 this).1
  have h1' : OneConflict cs' := by
    have e : ∀ cs : List InsertCall, cs.filter conflictCall = cs.filter (insertClause · = .conflict) := by
      intro cs
      refine List.filter_congr fun x _ => ?_
      cases x <;> rfl
    unfold OneConflict at h1 ⊢
    rw [e cs', ← h .conflict, ← e cs]
    exact h1
  rw [C61_insert_partial b s cs hf h1, C61_insert_partial b s cs' hf' h1']
  congr 1
  unfold insertAsked
  rw [same_last h .mapper _ (by about), same_last h .conflict _ (by about), same_last h .rowAlias _ (by about),
    same_last h .columnAliases _ (by about), same_all h .with _ (by about), same_last h .table _ (by about),
    same_last h .columns _ (by about), same_all h .values _ (by about), same_last h .select _ (by about),
    same_last h .duplicate _ (by about), same_all h .where _ (by about), same_all h .returning _ (by about)]

/-! ### Dialect and environment -/

/-- **C61** Fetch, Exec and `ToSQL("", q)` render a chain in the dialect of the builder it was started with, with the builder's
environment. -/
theorem C61_own_dialect (b : Builder) :
    (∀ s cs, ownSQL (select b s cs).node = toSQL b.lang.dialect (selectAsked b (opening s :: cs))) ∧
    (∀ s cs, ownSQL (update b s cs).node = toSQL b.lang.dialect (updateAsked b (openingUpdate s :: cs))) ∧
    (∀ s cs, OneOrder cs → ownSQL (delete b s cs).node = toSQL b.lang.dialect (deleteAsked b (openingDelete s :: cs))) ∧
    (∀ s cs, (∀ c ∈ cs, InsertCall.offered b.lang c = true) → OneConflict cs →
      ownSQL (insert b s cs).node = toSQL b.lang.dialect (insertAsked b s cs)) := by
  refine ⟨fun s cs => ?_, fun s cs => ?_, fun s cs h => ?_, fun s cs h h' => ?_⟩
  · rw [ownSQL, C61_select]; rfl
  · rw [ownSQL, C61_update]; rfl
  · rw [ownSQL, C61_delete_partial b s cs h]; rfl
  · rw [ownSQL, C61_insert_partial b s cs h h']; rfl

/-! ### Examples and counterexamples -/

def tbl (n : Str) : Node := .table [] n [] Ex.noHook (fun _ => .nil)
def lit (s : Str) : Node := .literal s []

/-- Two ways to write the same query. -/
theorem C61_applies : SameByClause selectClause
      (opening (.from (tbl "users")) :: [.select [lit "id"], .orderBy [lit "name"], .where [Ex.eqInt (lit "id") 1], .select [lit "name"],
        .join .leftJoin (tbl "posts") [Ex.eqInt (lit "x") 2], .limit 3, .limit 4])
      (opening (.select [lit "id"]) :: [.limit 3, .where [Ex.eqInt (lit "id") 1], .join .leftJoin (tbl "posts") [Ex.eqInt (lit "x") 2],
        .select [lit "name"], .from (tbl "users"), .limit 4, .orderBy [lit "name"]]) ∧
    (ownSQL (select ⟨.postgres, none⟩ (.from (tbl "users")) [.select [lit "id"], .orderBy [lit "name"], .where [Ex.eqInt (lit "id") 1],
      .select [lit "name"], .join .leftJoin (tbl "posts") [Ex.eqInt (lit "x") 2], .limit 3, .limit 4]).node).query =
      "SELECT id, name FROM users LEFT JOIN posts ON x = $1 WHERE id = $2 ORDER BY name LIMIT $3".toList := by
  refine ⟨?_, by decide +kernel⟩
  intro c
  cases c <;> rfl

/-- A conflict clause on Postgres: the hypotheses of the INSERT theorem hold. -/
theorem C61_applies_insert :
    (∀ c ∈ [InsertCall.values [.scalar (.int 1)], .onConflict [lit "id"] [] (.doUpdateSet [(lit "a", .scalar (.int 2))]), .returning [lit "id"]],
      InsertCall.offered .postgres c = true) ∧
    OneConflict [InsertCall.values [.scalar (.int 1)], .onConflict [lit "id"] [] (.doUpdateSet [(lit "a", .scalar (.int 2))]), .returning [lit "id"]] ∧
    (ownSQL (insert ⟨.postgres, none⟩ (.insertInto (tbl "t"))
      [.values [.scalar (.int 1)], .onConflict [lit "id"] [] (.doUpdateSet [(lit "a", .scalar (.int 2))]), .returning [lit "id"]]).node).query =
      "INSERT INTO t VALUES ($1) ON CONFLICT (id) DO UPDATE SET a = $2 RETURNING id".toList := by
  refine ⟨?_, ?_, by decide +kernel⟩
  · intro c hc
    simp only [List.mem_cons, List.not_mem_nil, or_false] at hc
    rcases hc with rfl | rfl | rfl <;> rfl
  · unfold OneConflict; exact Nat.le_refl 1

/-- `OrderBy` of a DELETE forgets what was said before, unlike that of a SELECT or an UPDATE. -/
theorem C61_delete_order_violated :
    let cs : List DeleteCall := [.orderBy [lit "a"], .orderBy [lit "b"], .limit 1]
    (ownSQL (delete ⟨.mysql, none⟩ (.deleteFrom [tbl "t"]) cs).node).query = "DELETE FROM t ORDER BY b LIMIT ?".toList ∧
    (toSQL .mysql (deleteAsked ⟨.mysql, none⟩ (openingDelete (.deleteFrom [tbl "t"]) :: cs))).query =
      "DELETE FROM t ORDER BY a, b LIMIT ?".toList ∧
    (ownSQL (update ⟨.mysql, none⟩ (.update (tbl "t"))
      [.set [(lit "c", .scalar (.int 1))], .orderBy [lit "a"], .orderBy [lit "b"], .limit 1]).node).query =
      "UPDATE t SET c = ? ORDER BY a, b LIMIT ?".toList := by
  decide +kernel

/-- After `OnConflict(...).DoNothing()` a later `OnConflict(...).DoUpdateSet(...)` has no effect, and after `OnConflictOnConstraint` a
later `OnConflict(fields)` has none. -/
theorem C61_conflict_violated :
    let cs : List InsertCall := [.values [.scalar (.int 1)], .onConflict [lit "id"] [] .doNothing,
      .onConflict [lit "id"] [] (.doUpdateSet [(lit "a", .scalar (.int 2))])]
    let cs' : List InsertCall := [.values [.scalar (.int 1)], .onConstraint "pk" [] .doNothing, .onConflict [lit "id"] [] .doNothing]
    (ownSQL (insert ⟨.postgres, none⟩ (.insertInto (tbl "t")) cs).node).query = "INSERT INTO t VALUES ($1) ON CONFLICT (id) DO NOTHING".toList ∧
    (toSQL .postgres (insertAsked ⟨.postgres, none⟩ (.insertInto (tbl "t")) cs)).query =
      "INSERT INTO t VALUES ($1) ON CONFLICT (id) DO UPDATE SET a = $2".toList ∧
    (ownSQL (insert ⟨.postgres, none⟩ (.insertInto (tbl "t")) cs').node).query =
      "INSERT INTO t VALUES ($1) ON CONFLICT ON CONSTRAINT pk DO NOTHING".toList ∧
    (toSQL .postgres (insertAsked ⟨.postgres, none⟩ (.insertInto (tbl "t")) cs')).query =
      "INSERT INTO t VALUES ($1) ON CONFLICT (id) DO NOTHING".toList := by
  decide +kernel

end Sq.Chains
