import Verif.Spec.Calls
import Verif.Props.View
import Verif.Model.Examples
import Verif.Props.Declared
/-
C74: the `DDL` method of a table declares what its calls say.
-/
namespace Ddl.CallProofs
open Ddl Ddl.ViewSpec Ddl.CallSpec
open Ddl.Views (format_iff text_iff nil_iff)
open Sq (Node)

theorem names_iff (fs : List Node) (cs : List Str) : columnNames fs = .ok cs ↔ Names fs cs := by
  rw [Ddl.Views.columnNames_iff, Names, and_comm]

theorem mapRes_iff {α β : Type} {f : α → Res β} {P : α → β → Prop} (h : ∀ a b, f a = .ok b ↔ P a b) (as : List α) (bs : List β) :
    mapRes f as = .ok bs ↔ AllSay P as bs := by
  induction as generalizing bs with
  | nil =>
    rw [mapRes]
    exact ⟨fun h => by cases h; exact .nil, fun h => by cases h; rfl⟩
  | cons a as ih =>
    rw [mapRes]
    constructor
    · intro h'
      obtain ⟨b, hb, h'⟩ := (Res.bind_eq_ok _ _ _).1 h'
      obtain ⟨r, hr, rfl⟩ := map_eq_ok h'
      exact .cons ((h a b).1 hb) ((ih r).1 hr)
    · rintro (_ | ⟨h1, h2⟩)
      rw [(h _ _).2 h1, Res.bind_ok, (ih _).2 h2]
      rfl

theorem map_iff {α β : Type} (r : Res α) (f : α → β) (b : β) : r.map f = .ok b ↔ ∃ a, r = .ok a ∧ f a = b :=
  ⟨fun h => (by obtain ⟨a, h1, h2⟩ := map_eq_ok h; exact ⟨a, h1, h2⟩), fun ⟨a, h1, h2⟩ => by rw [h1, ← h2]; rfl⟩

theorem stands_iff (k : Ctx) (bare : Bool) (f : Node) (p : Str × Str) :
    columnOrExpr k.opq k.d k.table bare f = .ok p ↔ Stands k (if bare then id else brackets) f p := by
  unfold columnOrExpr
  split
  · exact ⟨fun h => (by cases h), fun h => by
      cases h with
      | column _ _ h => exact absurd rfl h
      | expression _ _ _ h => exact absurd rfl h⟩
  next s a => exact ⟨fun h => (by cases h; exact .literal s a), fun h => by
      cases h with
      | literal => rfl
      | column _ h => exact absurd rfl (h s a)
      | expression _ _ h => exact absurd rfl (h s a)⟩
  next h1 h2 =>
    have h2' : ∀ s a, f ≠ .literal s a := fun s a h => h2 s a h
    by_cases hn : f.name = []
    · rw [if_neg (by simpa using hn), map_iff]
      constructor
      · rintro ⟨e, he, rfl⟩
        have := Stands.expression (k := k) (around := if bare then id else brackets) f e h2' h1 hn ((text_iff k.opq k.inside f e).1 he)
        cases bare <;> exact this
      · intro h
        cases h with
        | literal s a => exact absurd rfl (h2' s a)
        | column _ _ _ h => exact absurd hn h
        | expression _ e _ _ _ he =>
          refine ⟨e, (text_iff k.opq k.inside f e).2 he, ?_⟩
          cases bare <;> rfl
    · rw [if_pos hn]
      exact ⟨fun h => (by cases h; exact .column f h2' h1 hn), fun h => by
        cases h with
        | literal s a => exact absurd rfl (h2' s a)
        | column => rfl
        | expression _ _ _ _ h => exact absurd h hn⟩

theorem elements_iff (k : Ctx) (bare : Bool) (fs : List Node) (ce : List Str × List Str) :
    columnsAndExprs k.opq k.d k.table bare fs = .ok ce ↔
      ∃ es, AllSay (Stands k (if bare then id else brackets)) fs es ∧ ce = (es.map Prod.fst, es.map Prod.snd) := by
  induction fs generalizing ce with
  | nil =>
    rw [columnsAndExprs]
    exact ⟨fun h => by cases h; exact ⟨[], .nil, rfl⟩, fun ⟨es, h, e⟩ => by cases h; rw [e]; rfl⟩
  | cons f fs ih =>
    rw [columnsAndExprs]
    constructor
    · intro h
      obtain ⟨p, hp, h⟩ := (Res.bind_eq_ok _ _ _).1 h
      obtain ⟨r, hr, rfl⟩ := map_eq_ok h
      obtain ⟨es, h1, rfl⟩ := (ih r).1 hr
      exact ⟨p :: es, .cons ((stands_iff k bare f p).1 hp) h1, rfl⟩
    · rintro ⟨es, h, rfl⟩
      cases h with
      | cons h1 h2 =>
        rw [(stands_iff k bare _ _).2 h1, Res.bind_ok, (ih _).2 ⟨_, h2, rfl⟩]
        rfl

theorem plainDefault_cases (num : Str → Bool) (d : Dialect) (fmt : Str) :
    ((d = .postgres ∨ constant num fmt) ∧ plainDefault num d fmt = fmt) ∨
    (¬ (d = .postgres ∨ constant num fmt) ∧ plainDefault num d fmt = brackets fmt) := by
  have hw : (["TRUE", "FALSE", "CURRENT_DATE", "CURRENT_TIME", "CURRENT_TIMESTAMP"].any fun w => eqFold fmt w.toList) = true ↔
      fmt.map Char.toLower ∈ ["true", "false", "current_date", "current_time", "current_timestamp"].map String.toList := by
    simp only [List.any_cons, List.any_nil, Bool.or_false, Bool.or_eq_true, eqFold, beq_iff_eq, List.map_cons, List.map_nil, List.mem_cons,
      List.not_mem_nil, or_false]
    rw [show "TRUE".toList.map Char.toLower = "true".toList from by decide +kernel,
      show "FALSE".toList.map Char.toLower = "false".toList from by decide +kernel,
      show "CURRENT_DATE".toList.map Char.toLower = "current_date".toList from by decide +kernel,
      show "CURRENT_TIME".toList.map Char.toLower = "current_time".toList from by decide +kernel,
      show "CURRENT_TIMESTAMP".toList.map Char.toLower = "current_timestamp".toList from by decide +kernel]
  unfold plainDefault constant
  rw [← hw]
  split
  next h => exact .inl ⟨.inr (.inl h), rfl⟩
  next h1 =>
    split
    next h => exact .inl ⟨.inr (.inr (.inr h)), rfl⟩
    next h2 =>
      split
      next h => exact .inl ⟨.inr (.inr (.inl h)), rfl⟩
      next h3 =>
        split
        next h => exact .inl ⟨.inl h, rfl⟩
        next h4 => exact .inr ⟨by rintro (h | h | h | h) <;> contradiction, rfl⟩

theorem default_iff (k : Ctx) (fmt : Str) (vals : List Node) (e : Str) :
    defaultText k.opq k.num k.d k.table fmt vals = .ok e ↔ DefaultSays k fmt vals e := by
  unfold defaultText DefaultSays
  by_cases hv : vals = []
  · rw [if_pos hv]
    rcases plainDefault_cases k.num k.d fmt with ⟨h1, h2⟩ | ⟨h1, h2⟩
    · rw [h2]
      constructor
      · intro h; cases h; exact .inl ⟨hv, h1, rfl⟩
      · rintro (⟨-, -, rfl⟩ | ⟨-, h, -⟩ | ⟨h, -⟩)
        · rfl
        · exact absurd h1 h
        · exact absurd hv h
    · rw [h2]
      constructor
      · intro h; cases h; exact .inr (.inl ⟨hv, h1, rfl⟩)
      · rintro (⟨-, h, -⟩ | ⟨-, -, rfl⟩ | ⟨h, -⟩)
        · exact absurd h h1
        · rfl
        · exact absurd hv h
  · rw [if_neg hv, map_iff]
    constructor
    · rintro ⟨x, hx, rfl⟩
      exact .inr (.inr ⟨hv, x, (format_iff ..).1 hx, rfl⟩)
    · rintro (⟨h, -⟩ | ⟨h, -⟩ | ⟨-, x, hx, rfl⟩)
      · exact absurd h hv
      · exact absurd h hv
      · exact ⟨x, (format_iff ..).2 hx, rfl⟩

theorem col_iff (k : Ctx) (c : TColCall) (op : ColOp) : c.op k.opq k.num k.d k.table = .ok op ↔ ColSays k c op := by
  cases c <;> unfold TColCall.op <;> dsimp only
  case generated fmt vals =>
    rw [map_iff]
    exact ⟨fun ⟨e, h, h'⟩ => h' ▸ .generated ((format_iff ..).1 h), fun h => by cases h with | generated h => exact ⟨_, (format_iff ..).2 h, rfl⟩⟩
  case default fmt vals =>
    rw [map_iff]
    exact ⟨fun ⟨e, h, h'⟩ => h' ▸ .default ((default_iff ..).1 h), fun h => by cases h with | default h => exact ⟨_, (default_iff ..).2 h, rfl⟩⟩
  all_goals exact ⟨fun h => (by cases h; constructor), fun h => by cases h; rfl⟩

theorem cons_iff (k : Ctx) (c : TConsCall) (op : ConsOp) : c.op k.opq k.d k.table = .ok op ↔ ConsSays k c op := by
  cases c <;> unfold TConsCall.op <;> dsimp only
  case «where» fmt vals =>
    rw [map_iff]
    exact ⟨fun ⟨e, h, h'⟩ => h' ▸ .where ((format_iff ..).1 h), fun h => by cases h with | «where» h => exact ⟨_, (format_iff ..).2 h, rfl⟩⟩
  case references t fields =>
    by_cases h1 : t.kind.isNil = true
    · rw [if_pos h1]
      exact ⟨fun h => (by cases h), fun h => by cases h with | references h => exact absurd ((nil_iff t).1 h1) h⟩
    · rw [if_neg h1]
      by_cases h2 : t.name = []
      · rw [if_pos h2]
        exact ⟨fun h => (by cases h), fun h => by cases h with | references _ h => exact absurd h2 h⟩
      · rw [if_neg h2, map_iff]
        exact ⟨fun ⟨e, h, h'⟩ => h' ▸ .references (fun h => h1 ((nil_iff t).2 h)) h2 ((names_iff ..).1 h),
          fun h => by cases h with | references _ _ h => exact ⟨_, (names_iff ..).2 h, rfl⟩⟩
  all_goals exact ⟨fun h => (by cases h; constructor), fun h => by cases h; rfl⟩

theorem idx_iff (k : Ctx) (c : TIdxCall) (op : IdxOp) : c.op k.opq k.d k.table = .ok op ↔ IdxSays k c op := by
  cases c <;> unfold TIdxCall.op <;> dsimp only
  case «where» fmt vals =>
    rw [map_iff]
    exact ⟨fun ⟨e, h, h'⟩ => h' ▸ .where ((format_iff ..).1 h), fun h => by cases h with | «where» h => exact ⟨_, (format_iff ..).2 h, rfl⟩⟩
  case «include» fields =>
    rw [map_iff]
    exact ⟨fun ⟨e, h, h'⟩ => h' ▸ .include ((names_iff ..).1 h), fun h => by cases h with | «include» h => exact ⟨_, (names_iff ..).2 h, rfl⟩⟩
  all_goals exact ⟨fun h => (by cases h; constructor), fun h => by cases h; rfl⟩

/-- **C74, one call.** A call in a `DDL` method is accepted exactly if its arguments stand for names and texts, and it is then the call with
those names and texts. -/
theorem C74_call (k : Ctx) (c : TCall) (op : TOp) : c.op k.opq k.num k.d k.table = .ok op ↔ Says k c op := by
  cases c <;> unfold TCall.op <;> dsimp only
  case ignore => exact ⟨fun h => (by cases h; constructor), fun h => by cases h; rfl⟩
  case virtualTable => exact ⟨fun h => (by cases h; constructor), fun h => by cases h; rfl⟩
  case column f cs =>
    by_cases h1 : f.kind.isNil = true
    · rw [if_pos h1]
      exact ⟨fun h => (by cases h), fun h => by cases h with | column h => exact absurd ((nil_iff f).1 h1) h⟩
    · rw [if_neg h1]
      by_cases h2 : f.name = []
      · rw [if_pos h2]
        exact ⟨fun h => (by cases h), fun h => by cases h with | column _ h => exact absurd h2 h⟩
      · rw [if_neg h2, map_iff]
        exact ⟨fun ⟨e, h, h'⟩ => h' ▸ .column (fun h => h1 ((nil_iff f).2 h)) h2 ((mapRes_iff (col_iff k) ..).1 h),
          fun h => by cases h with | column _ _ h => exact ⟨_, (mapRes_iff (col_iff k) ..).2 h, rfl⟩⟩
  case check name fmt vals cs =>
    rw [Res.bind_eq_ok]
    constructor
    · rintro ⟨e, he, h⟩
      obtain ⟨ops, h1, rfl⟩ := (map_iff _ _ _).1 h
      exact .check ((format_iff ..).1 he) ((mapRes_iff (cons_iff k) ..).1 h1)
    · intro h
      cases h with
      | check he h1 => exact ⟨_, (format_iff ..).2 he, (map_iff _ _ _).2 ⟨_, (mapRes_iff (cons_iff k) ..).2 h1, rfl⟩⟩
  case key kind name fields cs =>
    rw [Res.bind_eq_ok]
    constructor
    · rintro ⟨cols, hc, h⟩
      obtain ⟨ops, h1, rfl⟩ := (map_iff _ _ _).1 h
      have a := (names_iff ..).1 hc
      have b := (mapRes_iff (cons_iff k) ..).1 h1
      cases kind
      · exact .unique a b
      · exact .primaryKey a b
      · exact .foreignKey a b
    · intro h
      cases h with
      | unique a b => exact ⟨_, (names_iff ..).2 a, (map_iff _ _ _).2 ⟨_, (mapRes_iff (cons_iff k) ..).2 b, rfl⟩⟩
      | primaryKey a b => exact ⟨_, (names_iff ..).2 a, (map_iff _ _ _).2 ⟨_, (mapRes_iff (cons_iff k) ..).2 b, rfl⟩⟩
      | foreignKey a b => exact ⟨_, (names_iff ..).2 a, (map_iff _ _ _).2 ⟨_, (mapRes_iff (cons_iff k) ..).2 b, rfl⟩⟩
  case exclude name type xs cs =>
    have hname : (if name = none then (columnNames (xs.map Prod.fst)).map fun _ => () else .ok ()) = .ok () ↔
        (name = none → ∀ x ∈ xs, x.1 ≠ .nil ∧ x.1.name ≠ []) := by
      by_cases hn : name = none
      · rw [if_pos hn, map_iff]
        constructor
        · rintro ⟨cols, hc, -⟩ - x hx
          exact ((names_iff ..).1 hc).2 x.1 (List.mem_map_of_mem hx)
        · intro h
          refine ⟨_, (names_iff ..).2 ⟨rfl, ?_⟩, rfl⟩
          rintro f hf
          obtain ⟨x, hx, rfl⟩ := List.mem_map.1 hf
          exact h hn x hx
      · rw [if_neg hn]
        exact ⟨fun _ h => absurd h hn, fun _ => rfl⟩
    rw [Res.bind_eq_ok]
    constructor
    · rintro ⟨⟨⟩, h0, h⟩
      by_cases hd : k.d = .postgres
      · rw [if_neg (by simpa using hd)] at h
        obtain ⟨ce, h2, h⟩ := (Res.bind_eq_ok _ _ _).1 h
        obtain ⟨ops, h1, rfl⟩ := (map_iff _ _ _).1 h
        obtain ⟨es, h3, rfl⟩ := (elements_iff k true ..).1 h2
        exact .exclude hd (hname.1 h0) h3 ((mapRes_iff (cons_iff k) ..).1 h1)
      · rw [if_pos hd] at h
        cases h
    · intro h
      cases h with
      | exclude hd h0 h3 h1 =>
        refine ⟨(), hname.2 h0, ?_⟩
        rw [if_neg (by simpa using hd), (elements_iff k true ..).2 ⟨_, h3, rfl⟩, Res.bind_ok]
        exact (map_iff _ _ _).2 ⟨_, (mapRes_iff (cons_iff k) ..).2 h1, rfl⟩
  case index name fields cs =>
    rw [Res.bind_eq_ok]
    constructor
    · rintro ⟨ce, h2, h⟩
      obtain ⟨ops, h1, rfl⟩ := (map_iff _ _ _).1 h
      obtain ⟨es, h3, rfl⟩ := (elements_iff k false ..).1 h2
      exact .index h3 ((mapRes_iff (idx_iff k) ..).1 h1)
    · intro h
      cases h with
      | index h3 h1 =>
        exact ⟨_, (elements_iff k false ..).2 ⟨_, h3, rfl⟩, (map_iff _ _ _).2 ⟨_, (mapRes_iff (idx_iff k) ..).2 h1, rfl⟩⟩
  case trigger fmt vals =>
    rw [Res.bind_eq_ok]
    constructor
    · rintro ⟨sql, h1, h⟩
      obtain ⟨trg, h2, rfl⟩ := (map_iff _ _ _).1 h
      exact .trigger ((format_iff ..).1 h1) h2
    · intro h
      cases h with
      | trigger h1 h2 => exact ⟨_, (format_iff ..).2 h1, (map_iff _ _ _).2 ⟨_, h2, rfl⟩⟩

theorem calls_eq (k : Ctx) {cs : List TCall} {ops : List TOp} (h : AllSay (Says k) cs ops) : ∀ t,
    foldRes (TCall.run k.opq k.num k.d k.table) t cs = foldRes (TOp.run k.d) t ops := by
  induction h with
  | nil => intro t; rfl
  | @cons c op cs ops h _ ih =>
    intro t
    have e : TCall.run k.opq k.num k.d k.table t c = op.run k.d t := by
      unfold TCall.run
      rw [(C74_call k c op).2 h, Res.bind_ok]
    rw [foldRes, foldRes, e]
    exact congrArg _ (funext fun t => ih t)

theorem calls_ok (k : Ctx) : ∀ (cs : List TCall) (t t' : Table),
    foldRes (TCall.run k.opq k.num k.d k.table) t cs = .ok t' → ∃ ops, AllSay (Says k) cs ops := by
  intro cs
  induction cs with
  | nil => intro t t' _; exact ⟨[], .nil⟩
  | cons c cs ih =>
    intro t t' h
    rw [foldRes] at h
    obtain ⟨t1, h1, h⟩ := (Res.bind_eq_ok _ _ _).1 h
    obtain ⟨op, h2, -⟩ := (Res.bind_eq_ok _ _ _).1 h1
    obtain ⟨ops, h3⟩ := ih _ _ h
    exact ⟨op :: ops, .cons ((C74_call k c op).1 h2) h3⟩

/-- **C74, a table.** Loading a table is loading the table whose `DDL` method makes the calls that its calls say. -/
theorem C74_load (k : Ctx) (src : TableSource) (ops : List TOp) (ht : k.table = src.name) (h : AllSay (Says k) (src.ddl k.d) ops) (t : Table) :
    t.loadSource k.opq k.num k.d src = t.load k.num k.d (src.saying ops) := by
  unfold Table.loadSource Table.load TableSource.saying
  dsimp only
  rw [← ht]
  simp only [calls_eq k h]
  rfl

/-- **C74, failures.** A table one of whose calls says nothing is not loaded — unless its tags say that it is not for the dialect, in which case
its `DDL` method does not matter. -/
theorem C74_refused (k : Ctx) (src : TableSource) (ht : k.table = src.name) (t t' : Table) (h : t.loadSource k.opq k.num k.d src = .ok t')
    (hn : ¬ ∃ ops, AllSay (Says k) (src.ddl k.d) ops) : t'.ignore = true ∧ ∀ ops, t.load k.num k.d (src.saying ops) = .ok t' := by
  unfold Table.loadSource at h
  unfold Table.load TableSource.saying
  by_cases h0 : src.name = []
  · rw [if_pos h0] at h; cases h
  rw [if_neg h0] at h
  simp only [if_neg h0]
  dsimp only at h
  cases hf : loadFields k.num k.d { t with tableSchema := src.schema, tableName := src.name } src.fields with
  | ok r =>
    rw [hf] at h
    simp only [Res.bind] at h ⊢
    by_cases hr : r.2 = true
    · rw [if_pos hr] at h
      cases h
      refine ⟨?_, fun _ => ?_⟩
      · rw [show r = (r.1, true) from Prod.ext rfl hr] at hf
        exact Ddl.Declared.loadFields_stop _ _ _ hf
      · rw [if_pos hr]
    · rw [if_neg hr] at h
      exfalso
      apply hn
      split at h
      · cases h
      next he =>
        obtain ⟨t1, h1, -⟩ := map_eq_ok h
        rw [← ht] at h1
        exact calls_ok k _ _ _ h1
  | err e => rw [hf] at h; cases h
  | panic => rw [hf] at h; cases h
  | hang => rw [hf] at h; cases h

theorem allSay_mem {α β : Type} {P : α → β → Prop} {as : List α} {bs : List β} (h : AllSay P as bs) : ∀ b ∈ bs, ∃ a ∈ as, P a b := by
  induction h with
  | nil => intro b hb; cases hb
  | cons h _ ih =>
    intro b hb
    rcases List.mem_cons.1 hb with rfl | hb
    · exact ⟨_, by simp, h⟩
    · obtain ⟨a, ha, h'⟩ := ih b hb
      exact ⟨a, by simp [ha], h'⟩

theorem checkTrigger_ok {t r : Trigger} (h : checkTrigger t = .ok r) : r.sql = t.sql ∧ (t.sql ≠ [] → r.triggerName ≠ []) := by
  unfold checkTrigger at h
  split at h
  · cases h
  next hn => cases h; exact ⟨rfl, fun hs e => hn ⟨hs, .inl e⟩⟩

theorem populateTrigger_named {d : Dialect} {t r : Trigger} (h : populateTrigger d t = .ok r) : t.sql ≠ [] → r.triggerName ≠ [] := by
  unfold populateTrigger at h
  obtain ⟨r1, -, h⟩ := (Res.bind_eq_ok _ _ _).1 h
  split at h
  · exact (checkTrigger_ok h).2
  · dsimp only at h
    split at h
    · exact (checkTrigger_ok h).2
    · obtain ⟨r3, -, h⟩ := (Res.bind_eq_ok _ _ _).1 h
      split at h
      · exact (checkTrigger_ok h).2
      · split at h
        · exact (checkTrigger_ok h).2
        · exact (checkTrigger_ok h).2

theorem says_named (k : Ctx) {c : TCall} {op : TOp} (h : Says k c op) (hs : Simple k c) : op.Named ∧ Ddl.Declared.NoConfig op := by
  have cons : ∀ {cs ops}, AllSay (ConsSays k) cs ops → (∀ f, TConsCall.config f ∉ cs) → ∀ f, ConsOp.config f ∉ ops := by
    intro cs ops ha hn f hf
    obtain ⟨c, hc, h⟩ := allSay_mem ha _ hf
    cases h
    exact hn f hc
  cases h with
  | ignore => exact ⟨trivial, trivial⟩
  | virtualTable => exact ⟨trivial, trivial⟩
  | column h1 h2 ha =>
    refine ⟨trivial, fun f hf => ?_⟩
    obtain ⟨c, hc, h⟩ := allSay_mem ha _ hf
    cases h
    exact hs f hc
  | check _ ha => exact ⟨⟨by decide, fun e => hs.1 (by cases e; rfl)⟩, cons ha hs.2⟩
  | unique _ ha => exact ⟨⟨by decide, hs.1⟩, cons ha hs.2⟩
  | primaryKey _ ha => exact ⟨⟨by decide, hs.1⟩, cons ha hs.2⟩
  | foreignKey _ ha => exact ⟨⟨by decide, hs.1⟩, cons ha hs.2⟩
  | exclude _ _ _ ha => exact ⟨trivial, cons ha hs⟩
  | index _ ha =>
    refine ⟨trivial, fun f hf => ?_⟩
    obtain ⟨c, hc, h⟩ := allSay_mem ha _ hf
    cases h
    exact hs f hc
  | trigger hf ht => exact ⟨populateTrigger_named ht (hs _ hf), trivial⟩

open Ddl.Declared in
/-- **C74 with C59.** A table struct whose tags declare every column, constraint and index once, and whose `DDL` method makes any sequence of
calls (no `Config`, no empty names): it loads exactly if all calls say something and none of what they say is refused, and then its columns,
constraints, indexes, triggers, virtual table module and arguments are those the tags and what the calls say stand for. -/
theorem C74_table_partial (k : Ctx) (src : TableSource) (fs : List Field) (ht : k.table = src.name) (hn : src.name ≠ [])
    (hf : Each Field.Is fs src.fields) (hs : ∀ c ∈ src.ddl k.d, Simple k c) (once : Once k.num ⟨k.d, src.schema, src.name⟩ fs)
    (hi : fs.any (Field.ignored k.d) = false) :
    (∀ t, ({ tableSchema := src.schema, tableName := src.name } : Table).loadSource k.opq k.num k.d src = .ok t → ∃ ops p,
      AllSay (Says k) (src.ddl k.d) ops ∧
      calls ⟨k.d, src.schema, src.name⟩ ops (tagParts k.num ⟨k.d, src.schema, src.name⟩ fs) = some p ∧
      t.tableSchema = src.schema ∧ t.tableName = src.name ∧ partsOf t = finished p) ∧
    (∀ ops p, AllSay (Says k) (src.ddl k.d) ops →
      calls ⟨k.d, src.schema, src.name⟩ ops (tagParts k.num ⟨k.d, src.schema, src.name⟩ fs) = some p →
      ∃ t, ({ tableSchema := src.schema, tableName := src.name } : Table).loadSource k.opq k.num k.d src = .ok t) := by
  have key : ∀ ops, AllSay (Says k) (src.ddl k.d) ops → _ := fun ops ha =>
    C59_table_partial k.num k.d (src.saying ops) fs hn hf (fun op hop => by
      obtain ⟨c, hc, h⟩ := allSay_mem ha op hop
      exact says_named k h (hs c hc)) once hi
  constructor
  · intro t h
    by_cases he : ∃ ops, AllSay (Says k) (src.ddl k.d) ops
    · obtain ⟨ops, ha⟩ := he
      have h59 := key ops ha
      rw [C74_load k src ops ht ha] at h
      change match calls ⟨k.d, src.schema, src.name⟩ ops (tagParts k.num ⟨k.d, src.schema, src.name⟩ fs) with
        | some p => ∃ t, ({ tableSchema := src.schema, tableName := src.name } : Table).load k.num k.d (src.saying ops) = .ok t ∧
            t.tableSchema = src.schema ∧ t.tableName = src.name ∧ partsOf t = finished p
        | none => ∃ e, ({ tableSchema := src.schema, tableName := src.name } : Table).load k.num k.d (src.saying ops) = .err e at h59
      cases hcs : calls ⟨k.d, src.schema, src.name⟩ ops (tagParts k.num ⟨k.d, src.schema, src.name⟩ fs) with
      | none =>
        rw [hcs] at h59
        obtain ⟨e, he⟩ := h59
        rw [he] at h
        cases h
      | some p =>
        rw [hcs] at h59
        obtain ⟨t', h1, h2⟩ := h59
        rw [h1] at h
        cases h
        exact ⟨ops, p, ha, hcs, h2⟩
    · exfalso
      obtain ⟨hig, hall⟩ := C74_refused k src ht _ _ h he
      have h59 := C59_table_partial k.num k.d (src.saying []) fs hn hf (fun op hop => by cases hop) once hi
      obtain ⟨t', h1, -, -, h2⟩ := h59
      have e : t' = t := by
        have := h1.symm.trans (hall [])
        cases this; rfl
      subst e
      have := congrArg Parts.ignore h2
      rw [show (partsOf t').ignore = true from hig] at this
      cases this
  · intro ops p ha hcs
    have h59 := key ops ha
    rw [show calls ⟨k.d, (src.saying ops).schema, (src.saying ops).name⟩ ((src.saying ops).ddl k.d)
      (tagParts k.num ⟨k.d, (src.saying ops).schema, (src.saying ops).name⟩ fs) = some p from hcs] at h59
    obtain ⟨t, h1, -⟩ := h59
    exact ⟨t, (C74_load k src ops ht ha _).trans h1⟩

/-- **C74, a whole database.** `WithTables` is `WithTables` of the tables that make the calls that their calls say. -/
theorem C74_database (opq : Nat → Sq.Val) (num : Str → Bool) (d : Dialect) (srcs : List TableSource) (ops : TableSource → List TOp)
    (h : ∀ src ∈ srcs, AllSay (Says ⟨opq, num, d, src.name⟩) (src.ddl d) (ops src)) (db : DatabaseMetadata) :
    withSources opq num d srcs db = withTables num d (srcs.map fun src => src.saying (ops src)) db := by
  induction srcs generalizing db with
  | nil => rfl
  | cons src srcs ih =>
    have e : db.loadSource opq num d src = db.loadTable num d (src.saying (ops src)) := by
      unfold DatabaseMetadata.loadSource DatabaseMetadata.loadTable
      by_cases h0 : src.name = []
      · rw [if_pos h0, if_pos (show (src.saying (ops src)).name = [] from h0)]
      · rw [if_neg h0, if_neg (show ¬ (src.saying (ops src)).name = [] from h0)]
        refine congrArg (db.putSchema src.schema) (funext fun s => ?_)
        refine congrArg (s.putTable src.name _) (funext fun t => ?_)
        exact C74_load ⟨opq, num, d, src.name⟩ src (ops src) rfl (h src (by simp)) t
    unfold withSources withTables
    rw [List.map_cons, foldRes, foldRes, e]
    exact congrArg _ (funext fun db => ih (fun s hs => h s (by simp [hs])) db)

/-! ### Examples -/

def exOpq : Nat → Sq.Val := fun _ => .nil

def exField (name : String) : Node := .field { tableName := "film".toList, name := name.toList } false false []

/-- A table without tags, with one call of each kind. -/
def exSource : TableSource where
  name := "film".toList
  fields := [.column "id".toList "BIGINT".toList [], .column "title".toList "TEXT".toList [], .column "year".toList "INT".toList []]
  ddl _ := [
    .column (exField "title") [.default "CONCAT({}, {})".toList [exField "year", .scalar (.str "x".toList)], .notNull],
    .column (exField "year") [.default "1 + 1".toList []],
    .key .primaryKey none [exField "id"] [],
    .key .foreignKey (some "fk".toList) [exField "year"]
      [.references (.table "cal".toList "years".toList [] Sq.Ex.noHook (fun _ => .nil)) [exField "id"], .onUpdate "CASCADE".toList, .initiallyDeferred],
    .check "chk".toList "{} > {}".toList [exField "year", .scalar (.int 1900)] [],
    .exclude (some "exc".toList) "GIST".toList [(exField "id", "=".toList), (.field { formats := [("default".toList, "LOWER({})".toList)] } false false [exField "title"], "&&".toList)]
      [.where "{} IS NULL".toList [exField "year"]],
    .index none [exField "title", .field { formats := [("default".toList, "LOWER({})".toList)] } false false [exField "title"]] [.unique, .include [exField "year"]],
    .trigger "CREATE TRIGGER trg BEFORE UPDATE ON {} EXECUTE FUNCTION f({})".toList
      [.table [] "film".toList [] Sq.Ex.noHook (fun _ => .nil), .scalar (.int 3)]]

set_option synthInstance.maxHeartbeats 200000 in
set_option synthInstance.maxSize 1024 in
/-- What the table is on PostgreSQL: columns with their defaults, constraints, indexes, triggers. -/
theorem exSource_loads :
    (({ tableName := "film".toList } : Table).loadSource exOpq (fun _ => false) .postgres exSource).map (fun t =>
      (t.columns.map fun c => (c.columnName, c.columnDefault, c.isNotNull), t.constraints, t.indexes, t.triggers)) =
    .ok ([("id".toList, [], false), ("title".toList, "CONCAT(year, 'x')".toList, true), ("year".toList, "1 + 1".toList, false)],
      [{ tableName := "film".toList, constraintName := "film_id_pkey".toList, constraintType := .primaryKey, columns := ["id".toList] },
       { tableName := "film".toList, constraintName := "fk".toList, constraintType := .foreignKey, columns := ["year".toList],
         referencesTable := "years".toList, referencesColumns := ["id".toList], updateRule := "CASCADE".toList, isDeferrable := true,
         isInitiallyDeferred := true },
       { tableName := "film".toList, constraintName := "chk".toList, constraintType := .check, checkExpr := "year > 1900".toList },
       { tableName := "film".toList, constraintName := "exc".toList, constraintType := .exclude, columns := ["id".toList, []],
         exprs := [[], "LOWER(title)".toList], exclusionOperators := ["=".toList, "&&".toList], exclusionIndexType := "GIST".toList,
         predicate := "year IS NULL".toList }],
      [{ tableName := "film".toList, indexName := "film_title__idx".toList, columns := ["title".toList, []], exprs := [[], "(LOWER(title))".toList],
         isUnique := true, includeColumns := ["year".toList] }],
      [{ tableName := "film".toList, triggerName := "trg".toList,
         sql := "CREATE TRIGGER trg BEFORE UPDATE ON film EXECUTE FUNCTION f(3)".toList }]) := by
  decide +kernel

/-- On SQLite, where it has no exclusion constraint, the default that is no constant gets brackets. -/
example : (({ tableName := "film".toList } : Table).loadSource exOpq (fun _ => false) .sqlite { exSource with ddl := fun d => (exSource.ddl d).take 2 }).map
    (fun t => t.columns.map fun c => c.columnDefault) = .ok [[], "(CONCAT(year, 'x'))".toList, "(1 + 1)".toList] := by
  decide +kernel

/-- The calls of the example are `Simple`, and its loading means that all of them say something. -/
example : ∃ ops, AllSay (Says ⟨exOpq, fun _ => false, .postgres, "film".toList⟩) (exSource.ddl .postgres) ops := by
  obtain ⟨t, h, -⟩ := map_eq_ok exSource_loads
  by_cases he : ∃ ops, AllSay (Says ⟨exOpq, fun _ => false, .postgres, "film".toList⟩) (exSource.ddl .postgres) ops
  · exact he
  · have h' := exSource_loads
    rw [h] at h'
    have hig := (C74_refused ⟨exOpq, fun _ => false, .postgres, "film".toList⟩ exSource rfl _ _ h he).2 []
    have e : (({ tableName := "film".toList } : Table).load (fun _ => false) .postgres (exSource.saying [])).map (fun t => t.constraints) = .ok [] := by
      decide +kernel
    rw [hig] at e
    have e1 : t.constraints = [] := by simpa [Res.map] using e
    have e2 := congrArg (fun r => match r with | .ok p => p.2.1 | _ => []) h'
    dsimp only [Res.map] at e2
    rw [e1] at e2
    cases e2

open Ddl.Declared in
/-- The hypotheses of `C74_table_partial` are met: the table has the parts that its calls say. -/
example : ∃ t ops p, ({ tableName := "film".toList } : Table).loadSource exOpq (fun _ => false) .postgres exSource = .ok t ∧
    AllSay (Says ⟨exOpq, fun _ => false, .postgres, "film".toList⟩) (exSource.ddl .postgres) ops ∧ partsOf t = finished p := by
  obtain ⟨t, h, -⟩ := map_eq_ok exSource_loads
  have w : WrittenTag [] [] := .inl ⟨[], rfl, (by intro p hp; cases hp), rfl⟩
  have hs : ∀ c ∈ exSource.ddl .postgres, Simple ⟨exOpq, fun _ => false, .postgres, "film".toList⟩ c := by
    intro c hc
    simp only [exSource, List.mem_cons, List.not_mem_nil, or_false] at hc
    rcases hc with rfl | rfl | rfl | rfl | rfl | rfl | rfl | rfl
    · intro f hf; simp at hf
    · intro f hf; simp at hf
    · exact ⟨by simp, by simp⟩
    · exact ⟨by decide, by simp⟩
    · exact ⟨by decide, by simp⟩
    · intro f hf; simp at hf
    · intro f hf; simp at hf
    · intro sql hsql
      have h1 := (format_iff exOpq .postgres [] _ _ sql).2 hsql
      have h2 : formatted exOpq .postgres [] "CREATE TRIGGER trg BEFORE UPDATE ON {} EXECUTE FUNCTION f({})".toList
          [.table [] "film".toList [] Sq.Ex.noHook (fun _ => .nil), .scalar (.int 3)] =
          .ok "CREATE TRIGGER trg BEFORE UPDATE ON film EXECUTE FUNCTION f(3)".toList := by decide +kernel
      have h3 := h2.symm.trans h1
      cases h3
      decide +kernel
  obtain ⟨ops, p, h1, -, -, -, h2⟩ := (C74_table_partial ⟨exOpq, fun _ => false, .postgres, "film".toList⟩ exSource
    [.column "id".toList "BIGINT".toList [], .column "title".toList "TEXT".toList [], .column "year".toList "INT".toList []]
    rfl (by decide) ⟨⟨rfl, rfl, [], w, trivial⟩, ⟨rfl, rfl, [], w, trivial⟩, ⟨rfl, rfl, [], w, trivial⟩, trivial⟩ hs
    ⟨by decide +kernel, by decide +kernel, by decide +kernel, by decide +kernel, by intro x hx; cases hx⟩ (by decide +kernel)).1 t h
  exact ⟨t, ops, p, h, h1, h2⟩

/-- **C74, a gap.** `Exclude` refuses a field that is an expression (it makes the name of the constraint of the names of the fields), although
`NameExclude` takes it. -/
theorem C74_exclude_violated (opq : Nat → Sq.Val) (num : Str → Bool) (table type op : Str) (cs : List TConsCall) (f : Node) (hn : f.name = []) :
    ¬ ∃ o, Says ⟨opq, num, .postgres, table⟩ (.exclude none type [(f, op)] cs) o := by
  rintro ⟨o, h⟩
  cases h with
  | exclude _ h => exact (h rfl (f, op) (by simp)).2 hn

/-- **C74, a gap.** A reference keeps the name of the referenced table but not its schema: references to tables of the same name in different
schemas say the same. -/
theorem C74_references_violated (k : Ctx) (name : Str) (hn : name ≠ []) (fields : List Node) (s1 s2 : Str) (o : ConsOp) :
    ConsSays k (.references (.table s1 name [] Sq.Ex.noHook (fun _ => .nil)) fields) o ↔
    ConsSays k (.references (.table s2 name [] Sq.Ex.noHook (fun _ => .nil)) fields) o := by
  constructor
  · intro h; cases h with | references _ _ h => exact .references (by simp) hn h
  · intro h; cases h with | references _ _ h => exact .references (by simp) hn h

/-- **C74, a gap.** An expression that begins and ends with a string literal is taken for a literal, and is not put in brackets where
the dialect wants brackets around expressions. -/
theorem C74_default_violated (opq : Nat → Sq.Val) (num : Str → Bool) (table : Str) :
    ColSays ⟨opq, num, .sqlite, table⟩ (.default "'a' || 'b'".toList []) (.default "'a' || 'b'".toList) :=
  .default (.inl ⟨rfl, .inr (.inl (by decide +kernel)), rfl⟩)

end Ddl.CallProofs
