import Verif.Spec.Offered
import Verif.Props.Renders
import Verif.Props.Chain
import Verif.Props.FormatValues
/-
C62, continued: formats, and chains of builder calls.
-/
namespace Sq.Renders
open Sq Sq.Spec Sq.Exprs Sq.Chain

/-! ### Formats -/

theorem st_name (n : Node) (m : Mode) (pn : Str) : (ren n m pn).st = (ren n m []).st := by
  cases n <;> simp only [ren] <;> rfl

theorem seqAll_iff (ws : List W) : (seqAll ws).st = .ok ↔ ∀ w ∈ ws, w.st = .ok := by
  induction ws with
  | nil => simp [seqAll, W.ok]
  | cons w ws ih => simp [seqAll, seq_iff, ih]

theorem format_iff (m : Mode) (ts : List TPart) (hw : WellFormed ts) (vals : List Node) :
    (bprintf m (write ts) ((objs vals).map PV.toObj)).st = .ok ↔ FormatRenders m ts vals := by
  have hm := plan_map (fun v : Node => (obj v).toObj) Node.key Obj.key (fun v => rfl) vals 0 ts
  rw [← objs_toObj] at hm
  have hr := C13_references m ((objs vals).map PV.toObj) ts hw
  unfold FormatRenders
  cases hp : plan Node.key vals 0 ts with
  | none =>
    rw [hp] at hm
    simp [hr.2 hm]
  | some steps =>
    rw [hp] at hm
    rw [hr.1 _ hm, seq_iff, seqAll_iff]
    simp only [List.mem_map, Option.some.injEq, exists_eq_left']
    constructor
    · rintro ⟨h, -⟩ v nm hv
      have := h _ ⟨_, ⟨.value v nm, hv, rfl⟩, rfl⟩
      exact (st_name v m nm).symm.trans this
    · intro h
      refine ⟨?_, rfl⟩
      rintro w ⟨s, ⟨t, ht, rfl⟩, rfl⟩
      cases t with
      | text c => rfl
      | value v nm => exact (st_name v m nm).trans (h v nm ht)

/-- **C62, formats.** A predicate written with a format renders exactly if every reference has a value and the values referred to render. -/
theorem C62_predicate (m : Mode) (a : Str) (neg : Bool) (ts : List TPart) (hw : WellFormed ts) (vals : List Node) :
    (renderAt m (.cpred a (write ts) neg vals)).status = .ok ↔ FormatRenders { m with meth := .std } ts vals := by
  show (ren (.cpred a (write ts) neg vals) m []).st = .ok ↔ _
  rw [ren]
  unfold customPredAppend
  rw [seq_iff, format_iff _ ts hw]
  exact and_iff_right (by cases neg <;> rfl)

/-- **C62, formats.** The same for tables and queries written with a format. -/
theorem C62_custom (m : Mode) (d : Dialect) (ts : List TPart) (hw : WellFormed ts) (vals : List Node) :
    ((renderAt m (.customTable (write ts) vals)).status = .ok ↔ FormatRenders { d := m.d, env := m.env } ts vals) ∧
    ((renderAt m (.customQuery d (write ts) vals)).status = .ok ↔ FormatRenders { d := m.d, env := m.env } ts vals) := by
  constructor
  · show (ren (.customTable (write ts) vals) m []).st = .ok ↔ _
    rw [ren]
    exact format_iff _ ts hw vals
  · show (ren (.customQuery d (write ts) vals) m []).st = .ok ↔ _
    rw [ren]
    exact format_iff _ ts hw vals

/-- **C62, columns.** A column renders unless it carries an error; the field of a CTE or subquery must exist, and a subquery needs an alias on
PostgreSQL and MySQL. -/
theorem C62_column (m : Mode) (fi : FInfo) (hf : fi.formats = []) (raw neg : Bool) (vals : List Node) (sub : Bool) (avail : List Str) :
    ((renderAt m (.field fi raw neg vals)).status = .ok ↔ fi.err = none) ∧
    ((renderAt m (.checkedField sub avail fi)).status = .ok ↔
      fi.err = none ∧ fi.name ∈ avail ∧ (sub = true → fi.tableAlias = [] → m.d ≠ .postgres ∧ m.d ≠ .mysql)) := by
  have hi : ∀ m : Mode, ∀ vs, (fieldInfoAppend m fi vs).st = .ok ↔ fi.err = none := by
    intro m vs
    unfold fieldInfoAppend
    cases he : fi.err with
    | some e => simp [W.fail]
    | none => simp [hf, seq_iff, W.wr]
  constructor
  · show (ren (.field fi raw neg vals) m []).st = .ok ↔ _
    rw [ren, seq_iff, hi]
    exact and_iff_right (by cases neg <;> rfl)
  · show (ren (.checkedField sub avail fi) m []).st = .ok ↔ _
    rw [ren]
    unfold checkedFieldAppend
    have hd : m.std.d = m.d := rfl
    rw [hd]
    split
    · rename_i h
      simp only [W.fail, reduceCtorEq, false_iff]
      rintro ⟨-, -, h3⟩
      obtain ⟨h4, h5⟩ := h3 h.1 h.2.1
      rcases h.2.2 with h | h
      · exact h4 h
      · exact h5 h
    · rename_i h
      split
      · rename_i hn
        simp [W.fail, hn]
      · rename_i hn
        rw [hi]
        constructor
        · intro he
          refine ⟨he, Classical.not_not.1 hn, fun hs ha => ?_⟩
          constructor <;> intro hd <;> exact h ⟨hs, ha, by simp [hd]⟩
        · exact fun h => h.1

/-- **C62, parameters.** A named parameter needs a name, and its value must render if it is an expression or a list. -/
theorem C62_parameter (m : Mode) (name : Str) (v : Node) :
    (renderAt m (.param name v)).status = .ok ↔
      name ≠ [] ∧ (v.kind.isAppender = true ∨ (∃ i, v.kind = .slice i) → (renderAt { d := m.d, ex := m.ex } v).status = .ok) := by
  show (ren (.param name v) m []).st = .ok ↔ _
  rw [ren]
  unfold paramAppend
  have hk : (mkPV v (ren v) (hookOf v)).toObj.kind = v.kind := rfl
  rw [hk]
  split
  · rename_i h; simp [W.fail, h]
  · rename_i h
    split
    · rename_i ha
      simp only [h, ne_eq, not_false_eq_true, true_and, ha, true_or, true_imp_iff]
      exact Iff.rfl
    · rename_i ha
      split
      · rename_i i hs
        simp only [h, ne_eq, not_false_eq_true, true_and]
        rw [imp_iff_right (.inr ⟨i, hs⟩)]
        exact Iff.rfl
      · rename_i hs
        simp only [W.emit, true_iff]
        refine ⟨h, ?_⟩
        rintro (h1 | ⟨i, h1⟩)
        · exact absurd h1 ha
        · exact absurd h1 (hs i)

/-! ### Chains of builder calls -/

theorem fold_inv {Q C : Type} (run : Q → C → Q) (I : Q → Prop) (ok : C → Prop) (h : ∀ q c, ok c → I q → I (run q c)) :
    ∀ (cs : List C) (q : Q), (∀ c ∈ cs, ok c) → I q → I (cs.foldl run q)
  | [], _, _, hq => hq
  | c :: cs, q, hc, hq =>
    fold_inv run I ok h cs (run q c) (fun d hd => hc d (List.mem_cons_of_mem _ hd)) (h q c (hc c (List.mem_cons_self ..)) hq)

theorem own_status (n : Node) : (ownSQL n).status = (renderAt { d := queryDialect n } n).status := rfl

/-- What only the methods of the dialect can have put into a SELECT. -/
structure SelectInv (b : Builder) (q : SelectQ) : Prop where
  dialect : q.dialect = b.lang.dialect
  env : q.env = b.env
  on : q.distinctOn ≠ [] → b.lang = .postgres

theorem select_inv (b : Builder) (s : SelectStart) (cs : List SelectCall) (ho : ∀ c ∈ cs, SelectCall.offered b.lang c = true) :
    SelectInv b (select b s cs) := by
  refine fold_inv SelectCall.run (SelectInv b) (fun c => SelectCall.offered b.lang c = true) ?_ cs _ ho ?_
  · intro q c hc hq
    cases c <;> first | exact ⟨hq.1, hq.2, hq.3⟩ | skip
    rename_i fs
    exact ⟨hq.1, hq.2, fun _ => by simpa [SelectCall.offered] using hc⟩
  · cases s <;> exact ⟨rfl, rfl, fun h => absurd rfl h⟩

/-- **C62, builders.** Whatever methods of its builder a SELECT was made with, it renders in its own dialect exactly if it is complete and its
parts render. -/
theorem C62_select (b : Builder) (s : SelectStart) (cs : List SelectCall) (ho : ∀ c ∈ cs, SelectCall.offered b.lang c = true) :
    ∃ ps, construct { d := b.lang.dialect } (select b s cs).node = some ps ∧
      ((ownSQL (select b s cs).node).status = .ok ↔ SelectComplete (select b s cs) ∧ PartsRender ps) := by
  have hi := select_inv b s cs ho
  generalize select b s cs = q at hi ⊢
  have hc : ∃ ps, construct { d := b.lang.dialect } q.node = some ps := by
    unfold SelectQ.node and_
    cases hw : q.where_ <;> exact ⟨_, rfl⟩
  obtain ⟨ps, hps⟩ := hc
  refine ⟨ps, hps, ?_⟩
  have hd : queryDialect q.node = b.lang.dialect := hi.dialect
  rw [own_status, hd, C62_renders _ _ ps hps]
  refine and_congr ?_ Iff.rfl
  unfold SelectQ.node Needs
  have he : effEnv ({ d := b.lang.dialect } : Mode).env q.env = q.env := rfl
  constructor
  · rintro ⟨h1, h2, h3, h4⟩
    refine ⟨h1, fun h => ?_, h3, h4⟩
    by_cases ho : q.distinctOn = []
    · exact ho
    · have := (h2 ho).2
      simp [h] at this
  · rintro ⟨h1, h2, h3, h4⟩
    refine ⟨h1, fun h => ⟨by rw [hi.on h]; rfl, ?_⟩, h3, h4⟩
    cases hq : q.distinct with
    | false => rfl
    | true => exact absurd (h2 hq) h

structure InsertInv (b : Builder) (q : InsertQ) : Prop where
  dialect : q.dialect = b.lang.dialect
  ignore : q.ignore = true → b.lang = .mysql
  rowAlias : q.rowAlias ≠ [] → b.lang = .mysql
  constraint : q.conflictConstraint ≠ [] → b.lang = .postgres
  returning : q.returning ≠ [] → b.lang ≠ .mysql

theorem insert_inv (b : Builder) (s : InsertStart) (cs : List InsertCall) (hs : InsertStart.offered b.lang s = true)
    (ho : ∀ c ∈ cs, InsertCall.offered b.lang c = true) : InsertInv b (insert b s cs) := by
  refine fold_inv InsertCall.run (InsertInv b) (fun c => InsertCall.offered b.lang c = true) ?_ cs _ ho ?_
  · intro q c hc hq
    obtain ⟨h1, h2, h3, h4, h5⟩ := hq
    cases c <;> first | exact ⟨h1, h2, h3, h4, h5⟩ | skip
    · exact ⟨h1, h2, fun _ => by simpa [InsertCall.offered] using hc, h4, h5⟩
    · rename_i fs ps a
      simp only [InsertCall.run, Chains.conflictWhere_eq]
      cases a <;> exact ⟨h1, h2, h3, h4, h5⟩
    · rename_i fs ps a
      simp only [InsertCall.run, Chains.conflictWhere_eq]
      have : b.lang = .postgres := by simpa [InsertCall.offered] using hc
      cases a <;> exact ⟨h1, h2, h3, fun _ => this, h5⟩
    · exact ⟨h1, h2, h3, h4, fun _ => by simpa [InsertCall.offered] using hc⟩
  · cases s
    · exact ⟨rfl, (by intro h; cases h), fun h => absurd rfl h, fun h => absurd rfl h, fun h => absurd rfl h⟩
    · exact ⟨rfl, (by intro h; cases h), fun h => absurd rfl h, fun h => absurd rfl h, fun h => absurd rfl h⟩
    · exact ⟨rfl, fun _ => by simpa [InsertStart.offered] using hs, fun h => absurd rfl h, fun h => absurd rfl h, fun h => absurd rfl h⟩

theorem dialect_mysql (l : Lang) : l.dialect = .mysql ↔ l = .mysql := by cases l <;> simp [Lang.dialect]
theorem dialect_postgres (l : Lang) : l.dialect = .postgres ↔ l = .postgres := by cases l <;> simp [Lang.dialect]
theorem dialect_sqlite (l : Lang) : l.dialect = .sqlite ↔ l = .sqlite := by cases l <;> simp [Lang.dialect]

theorem mapper_works (m : Option Mapper) : MapperWorks m.isSome (m.bind Mapper.err) ((m.map Mapper.sets).getD []) ↔
    ∀ x, m = some x → x.err = none ∧ ∀ s ∈ x.sets, s.1 ≠ .nil := by
  cases m with
  | none => simp [MapperWorks]
  | some m => simp [MapperWorks]

/-- **C62, builders.** The same for INSERT; an alias of the table is the one thing MySQL's builder accepts and MySQL does not. -/
theorem C62_insert (b : Builder) (s : InsertStart) (cs : List InsertCall) (hs : InsertStart.offered b.lang s = true)
    (ho : ∀ c ∈ cs, InsertCall.offered b.lang c = true) :
    ∃ ps, construct { d := b.lang.dialect } (insert b s cs).node = some ps ∧
      ((ownSQL (insert b s cs).node).status = .ok ↔ InsertComplete b.lang (insert b s cs) ∧ PartsRender ps) := by
  have hi := insert_inv b s cs hs ho
  generalize insert b s cs = q at hi ⊢
  refine ⟨_, rfl, ?_⟩
  have hd : queryDialect q.node = b.lang.dialect := hi.dialect
  rw [own_status, hd, C62_renders _ _ _ rfl]
  refine and_congr ?_ Iff.rfl
  unfold InsertQ.node Needs
  have hdata : ∀ im : InsMeta, im.hasMapper = q.mapper.isSome → ((insertData im q.columns q.rows ((q.mapper.map Mapper.sets).getD [])).2 ≠ [] ↔
      match q.mapper with | some m => (columnInsert Node.name m.sets).2 ≠ [] | none => q.rows ≠ []) := by
    intro im him
    unfold insertData
    rw [him]
    cases q.mapper <;> simp
  constructor
  · rintro ⟨h1, -, h3, h4, -, h6, -, -⟩
    rw [hdata _ rfl] at h6
    refine ⟨(mapper_works _).1 h1, h3, fun h => ?_, h6⟩
    by_cases ha : q.into.alias = []
    · exact ha
    · exact absurd ((dialect_mysql _).2 h) (h4 ha)
  · rintro ⟨h1, h2, h3, h4⟩
    refine ⟨(mapper_works _).2 h1, fun h => (dialect_mysql _).2 (hi.ignore h), h2, fun h hm => h (h3 ((dialect_mysql _).1 hm)),
      fun _ h => (dialect_mysql _).2 (hi.rowAlias h), ?_, fun h hs => ?_, fun h => ?_⟩
    · rw [hdata _ rfl]; exact h4
    · have h5 := hi.constraint h
      have h6 := (dialect_sqlite _).1 hs
      rw [h5] at h6; cases h6
    · have h5 := hi.returning h
      show b.lang.dialect = _ ∨ b.lang.dialect = _
      cases hl : b.lang <;> simp [hl, Lang.dialect] at h5 ⊢

structure UpdateInv (b : Builder) (q : UpdateQ) : Prop where
  dialect : q.dialect = b.lang.dialect
  from_ : q.fromTable ≠ .nil → b.lang ≠ .mysql
  order : q.orderBy ≠ [] → b.lang ≠ .postgres
  limit : q.limit ≠ none → b.lang ≠ .postgres
  offset : q.offset ≠ none → b.lang = .sqlite
  returning : q.returning ≠ [] → b.lang = .postgres

theorem update_inv (b : Builder) (s : UpdateStart) (cs : List UpdateCall)
    (ho : ∀ c ∈ cs, UpdateCall.offered b.lang c = true) : UpdateInv b (update b s cs) := by
  refine fold_inv UpdateCall.run (UpdateInv b) (fun c => UpdateCall.offered b.lang c = true) ?_ cs _ ho ?_
  · intro q c hc hq
    obtain ⟨h1, h2, h3, h4, h5, h6⟩ := hq
    cases c <;> first | exact ⟨h1, h2, h3, h4, h5, h6⟩ | skip
    · exact ⟨h1, fun _ => by simpa [UpdateCall.offered] using hc, h3, h4, h5, h6⟩
    · exact ⟨h1, h2, fun _ => by simpa [UpdateCall.offered] using hc, h4, h5, h6⟩
    · exact ⟨h1, h2, h3, fun _ => by simpa [UpdateCall.offered] using hc, h5, h6⟩
    · exact ⟨h1, h2, h3, h4, fun _ => by simpa [UpdateCall.offered] using hc, h6⟩
    · exact ⟨h1, h2, h3, h4, h5, fun _ => by simpa [UpdateCall.offered] using hc⟩
  · cases s <;>
      exact ⟨rfl, fun h => absurd rfl h, fun h => absurd rfl h, fun h => absurd rfl h, fun h => absurd rfl h, fun h => absurd rfl h⟩

/-- **C62, builders.** UPDATE. -/
theorem C62_update (b : Builder) (s : UpdateStart) (cs : List UpdateCall) (ho : ∀ c ∈ cs, UpdateCall.offered b.lang c = true) :
    ∃ ps, construct { d := b.lang.dialect } (update b s cs).node = some ps ∧
      ((ownSQL (update b s cs).node).status = .ok ↔ UpdateComplete b.lang (update b s cs) ∧ PartsRender ps) := by
  have hi := update_inv b s cs ho
  generalize update b s cs = q at hi ⊢
  refine ⟨_, rfl, ?_⟩
  have hd : queryDialect q.node = b.lang.dialect := hi.dialect
  rw [own_status, hd, C62_renders _ _ _ rfl]
  refine and_congr ?_ Iff.rfl
  unfold UpdateQ.node Needs
  have hdata : (if q.mapper.isSome = true then (q.mapper.map Mapper.sets).getD [] else q.assignments) ≠ [] ↔
      match q.mapper with | some m => m.sets ≠ [] | none => q.assignments ≠ [] := by
    cases q.mapper <;> simp
  constructor
  · rintro ⟨h1, h2, h3, -, h5, h6, -, -⟩
    rw [hdata] at h3
    refine ⟨(mapper_works _).1 h1, h2, h3, fun h => (h5 h).imp id (dialect_mysql _).1, h6⟩
  · rintro ⟨h1, h2, h3, h4, h5⟩
    refine ⟨(mapper_works _).2 h1, h2, ?_, fun h hm => hi.from_ h ((dialect_mysql _).1 hm), fun h => (h4 h).imp id (dialect_mysql _).2, h5,
      ⟨fun h => ?_, fun h => (dialect_sqlite _).2 (hi.offset h)⟩, fun h => .inl ((dialect_postgres _).2 (hi.returning h))⟩
    · rw [hdata]; exact h3
    · have h6 : b.lang ≠ .postgres := h.elim hi.order hi.limit
      show b.lang.dialect = _ ∨ b.lang.dialect = _
      cases hl : b.lang <;> simp [hl, Lang.dialect] at h6 ⊢

structure DeleteInv (b : Builder) (q : DeleteQ) : Prop where
  dialect : q.dialect = b.lang.dialect
  using_ : q.usingTable ≠ .nil → b.lang ≠ .sqlite
  joins : q.joins ≠ [] → b.lang ≠ .sqlite
  order : q.orderBy ≠ [] → b.lang ≠ .postgres
  limit : q.limit ≠ none → b.lang ≠ .postgres
  offset : q.offset ≠ none → b.lang = .sqlite
  returning : q.returning ≠ [] → b.lang ≠ .mysql

theorem delete_inv (b : Builder) (s : DeleteStart) (cs : List DeleteCall)
    (ho : ∀ c ∈ cs, DeleteCall.offered b.lang c = true) : DeleteInv b (delete b s cs) := by
  refine fold_inv DeleteCall.run (DeleteInv b) (fun c => DeleteCall.offered b.lang c = true) ?_ cs _ ho ?_
  · intro q c hc hq
    obtain ⟨h1, h2, h3, h4, h5, h6, h7⟩ := hq
    cases c <;> first | exact ⟨h1, h2, h3, h4, h5, h6, h7⟩ | skip
    · exact ⟨h1, fun _ => by simpa [DeleteCall.offered] using hc, h3, h4, h5, h6, h7⟩
    · exact ⟨h1, h2, fun _ => by simpa [DeleteCall.offered] using hc, h4, h5, h6, h7⟩
    · exact ⟨h1, h2, fun _ => by simpa [DeleteCall.offered] using hc, h4, h5, h6, h7⟩
    · exact ⟨h1, h2, h3, fun _ => by simpa [DeleteCall.offered] using hc, h5, h6, h7⟩
    · exact ⟨h1, h2, h3, h4, fun _ => by simpa [DeleteCall.offered] using hc, h6, h7⟩
    · exact ⟨h1, h2, h3, h4, h5, fun _ => by simpa [DeleteCall.offered] using hc, h7⟩
    · exact ⟨h1, h2, h3, h4, h5, h6, fun _ => by simpa [DeleteCall.offered] using hc⟩
  · cases s <;>
      exact ⟨rfl, fun h => absurd rfl h, fun h => absurd rfl h, fun h => absurd rfl h, fun h => absurd rfl h, fun h => absurd rfl h,
        fun h => absurd rfl h⟩

/-- **C62, builders.** DELETE.  Of several tables only the first is written, unless all are named with USING on MySQL (see
`C55_delete_tables_violated`). -/
theorem C62_delete (b : Builder) (s : DeleteStart) (cs : List DeleteCall) (ho : ∀ c ∈ cs, DeleteCall.offered b.lang c = true) :
    ((ownSQL (delete b s cs).node).status = .ok ↔
      DeleteComplete b.lang (delete b s cs) ∧ PartsRender (deletePartsOf b.lang (delete b s cs))) ∧
    ((delete b s cs).froms.length = 1 ∨ b.lang = .mysql ∧ (delete b s cs).usingTable ≠ .nil →
      construct { d := b.lang.dialect } (delete b s cs).node = some (deletePartsOf b.lang (delete b s cs))) := by
  have hi := delete_inv b s cs ho
  generalize delete b s cs = q at hi ⊢
  have he : ∀ e : Env, effEnv none e = e := by intro e; cases e <;> rfl
  refine ⟨?_, ?_⟩
  · have hd : queryDialect q.node = b.lang.dialect := hi.dialect
    rw [own_status, hd]
    unfold DeleteQ.node deletePartsOf
    rw [C62_delete_tables, he]
    refine and_congr ?_ Iff.rfl
    constructor
    · rintro ⟨h1, -, h4, h5, -, h7, -⟩
      obtain ⟨f, fs, e, h, k⟩ := h1
      exact ⟨⟨f, fs, e, h, fun x y => k x ((dialect_mysql _).2 y)⟩, fun h => (h4 h).2, h5, h7⟩
    · rintro ⟨h1, h3, h4, h5⟩
      obtain ⟨f, fs, e, h, k⟩ := h1
      refine ⟨⟨f, fs, e, h, fun x y => k x ((dialect_mysql _).1 y)⟩, fun h hm => hi.using_ h ((dialect_sqlite _).1 hm),
        fun h => ⟨fun hm => hi.joins h ((dialect_sqlite _).1 hm), h3 h⟩, h4,
        ⟨fun h => ?_, fun h => (dialect_sqlite _).2 (hi.offset h)⟩, h5, fun h => ?_⟩
      · have h6 : b.lang ≠ .postgres := h.elim hi.order hi.limit
        show b.lang.dialect = _ ∨ b.lang.dialect = _
        cases hl : b.lang <;> simp [hl, Lang.dialect] at h6 ⊢
      · have h6 := hi.returning h
        show b.lang.dialect = _ ∨ b.lang.dialect = _
        cases hl : b.lang <;> simp [hl, Lang.dialect] at h6 ⊢
  · intro ht
    unfold DeleteQ.node deletePartsOf
    simp only [construct]
    rw [if_neg, he]
    rintro ⟨h1, h2⟩
    rcases ht with ht | ⟨h3, h4⟩
    · exact h1 ht
    · rcases h2 with h2 | h2
      · exact h2 ((dialect_mysql _).2 h3)
      · have : (obj q.usingTable).toObj.kind.isNil = true := (nil_kind _).2 h2
        exact h4 ((isNil_iff _).1 this)

/-! ### Examples -/

open Sq.Chains (tbl lit)

/-- Offered calls that make complete queries, and what is reported when something is missing. -/
theorem C62_applies :
    let cs : List SelectCall := [.select [lit "id"], .join .rightJoin (tbl "posts") [Ex.eqInt (lit "x") 2], .where [Ex.eqInt (lit "id") 1]]
    (∀ c ∈ cs, SelectCall.offered .postgres c = true) ∧
    (ownSQL (select ⟨.postgres, none⟩ (.from (tbl "users")) cs).node).status = .ok ∧
    -- nothing to join
    (ownSQL (select ⟨.postgres, none⟩ (.select [lit "id"]) cs).node).status ≠ .ok ∧
    -- a join that SQLite does not have
    (renderAt { d := .sqlite } (.join "RIGHT JOIN" (tbl "posts") (and_ [Ex.eqInt (lit "x") 2]))).status ≠ .ok ∧
    (renderAt { d := .mysql } (.join "RIGHT JOIN" (tbl "posts") (and_ [Ex.eqInt (lit "x") 2]))).status = .ok ∧
    -- complete, but a part does not render
    SelectComplete (select ⟨.postgres, none⟩ (.from (tbl "users")) [.select [Ex.failing]]) ∧
    (ownSQL (select ⟨.postgres, none⟩ (.from (tbl "users")) [.select [Ex.failing]]).node).status ≠ .ok := by
  refine ⟨?_, by decide +kernel, by decide +kernel, by decide +kernel, by decide +kernel, ⟨?_, ?_, ?_, ?_⟩, by decide +kernel⟩
  · intro c hc
    simp only [List.mem_cons, List.not_mem_nil, or_false] at hc
    rcases hc with rfl | rfl | rfl <;> rfl
  · simp [select, SelectStart.run, SelectCall.run]
  · intro h; simp [select, SelectStart.run, SelectCall.run] at h
  · intro h; simp [select, SelectStart.run, SelectCall.run] at h
  · intro t ht
    simp only [select, SelectStart.run, SelectCall.run, List.foldl_cons, List.foldl_nil, List.mem_cons, List.not_mem_nil, or_false] at ht
    subst ht
    rintro ⟨e, he⟩
    cases he

/-- INSERT, UPDATE and DELETE: the hypotheses of the theorems hold, and the queries render. -/
theorem C62_applies_changes :
    let i : List InsertCall := [.columns [lit "a"], .values [.scalar (.int 1)], .onConflict [lit "a"] [] .doNothing, .returning [lit "a"]]
    let u : List UpdateCall := [.set [(lit "a", .scalar (.int 1))], .join .fullJoin (tbl "o") [Ex.eqInt (lit "x") 2], .orderBy [lit "a"], .limit 3]
    let d : List DeleteCall := [.using (tbl "a"), .join .join (tbl "b") [Ex.eqInt (lit "x") 2]]
    ((∀ c ∈ i, InsertCall.offered .sqlite c = true) ∧ (ownSQL (insert ⟨.sqlite, none⟩ (.insertInto (tbl "t")) i).node).status = .ok) ∧
    ((∀ c ∈ u, UpdateCall.offered .mysql c = true) ∧ (ownSQL (update ⟨.mysql, none⟩ (.update (tbl "t")) u).node).status = .ok) ∧
    ((∀ c ∈ d, DeleteCall.offered .mysql c = true) ∧ (delete ⟨.mysql, none⟩ (.deleteFrom [tbl "a", tbl "b"]) d).usingTable ≠ .nil ∧
      (ownSQL (delete ⟨.mysql, none⟩ (.deleteFrom [tbl "a", tbl "b"]) d).node).status = .ok) := by
  refine ⟨⟨?_, by decide +kernel⟩, ⟨?_, by decide +kernel⟩, ?_, by simp [delete, DeleteStart.run, DeleteCall.run, tbl], by decide +kernel⟩
  · intro c hc
    simp only [List.mem_cons, List.not_mem_nil, or_false] at hc
    rcases hc with rfl | rfl | rfl | rfl <;> rfl
  · intro c hc
    simp only [List.mem_cons, List.not_mem_nil, or_false] at hc
    rcases hc with rfl | rfl | rfl | rfl <;> rfl
  · intro c hc
    simp only [List.mem_cons, List.not_mem_nil, or_false] at hc
    rcases hc with rfl | rfl <;> rfl

/-- The one thing MySQL's builder accepts and MySQL does not: an alias of the table of an INSERT. -/
theorem C62_insert_alias :
    let t := Node.table [] "users" "u" Ex.noHook (fun _ => .nil)
    let cs : List InsertCall := [.columns [lit "a"], .values [.scalar (.int 1)]]
    (∀ c ∈ cs, InsertCall.offered .mysql c = true) ∧
    (ownSQL (insert ⟨.mysql, none⟩ (.insertInto t) cs).node).status ≠ .ok ∧
    (ownSQL (insert ⟨.postgres, none⟩ (.insertInto t) cs).node).status = .ok := by
  refine ⟨?_, by decide +kernel, by decide +kernel⟩
  intro c hc
  simp only [List.mem_cons, List.not_mem_nil, or_false] at hc
  rcases hc with rfl | rfl <;> rfl

end Sq.Renders
