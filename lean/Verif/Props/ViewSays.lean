import Verif.Props.View
import Verif.Proof.Introspect
/-
C64: the indexes and triggers of views declared in Go, and the views of a database.
-/
namespace Ddl.Views
open Ddl Ddl.ViewSpec
open Ddl.Spec (find active view? table? MetaOk)
open Sq (Node)

/-! ### Indexes -/

theorem option_keeps (opq : Nat → Sq.Val) (v : View) (name : Str) (op : VIdxOp) (hc : ∀ f, op ≠ .config f) (x y : Index)
    (h : op.run opq v name x = .ok y) :
    y.tableSchema = x.tableSchema ∧ y.tableName = x.tableName ∧ y.columns = x.columns ∧ y.exprs = x.exprs ∧ y.indexName = x.indexName ∧
    (y.isUnique = true ↔ x.isUnique = true ∨ op = .unique) ∧ ((∀ t, op ≠ .using t) → y.indexType = x.indexType) ∧
    ((∀ f vs, op ≠ .where f vs) → y.predicate = x.predicate) ∧ ((∀ fs, op ≠ .include fs) → y.includeColumns = x.includeColumns) := by
  cases op with
  | unique => cases h; simp
  | «using» t => cases h; simp
  | config f => exact absurd rfl (hc f)
  | «where» fmt vals => obtain ⟨e, -, rfl⟩ := map_eq_ok h; simp
  | «include» fields => obtain ⟨e, -, rfl⟩ := map_eq_ok h; simp

theorem options_keep (opq : Nat → Sq.Val) (v : View) (name : Str) (ops : List VIdxOp) (hc : NoConfig ops) (x y : Index)
    (h : foldRes (VIdxOp.run opq v name) x ops = .ok y) :
    y.tableSchema = x.tableSchema ∧ y.tableName = x.tableName ∧ y.columns = x.columns ∧ y.exprs = x.exprs ∧ y.indexName = x.indexName ∧
    (y.isUnique = true ↔ x.isUnique = true ∨ .unique ∈ ops) ∧ ((∀ t, .using t ∉ ops) → y.indexType = x.indexType) ∧
    ((∀ f vs, .where f vs ∉ ops) → y.predicate = x.predicate) ∧ ((∀ fs, .include fs ∉ ops) → y.includeColumns = x.includeColumns) := by
  induction ops generalizing x with
  | nil => cases h; simp
  | cons o ops ih =>
    rw [foldRes] at h
    obtain ⟨z, hz, h⟩ := (Res.bind_eq_ok _ _ _).1 h
    obtain ⟨a1, a2, a3, a4, a5, a6, a7, a8, a9⟩ := option_keeps opq v name o (fun f e => hc f (by simp [e])) x z hz
    obtain ⟨b1, b2, b3, b4, b5, b6, b7, b8, b9⟩ := ih (fun f hf => hc f (List.mem_cons_of_mem _ hf)) z h
    refine ⟨b1.trans a1, b2.trans a2, b3.trans a3, b4.trans a4, b5.trans a5, ?_, ?_, ?_, ?_⟩
    · rw [b6, a6, List.mem_cons, or_assoc, eq_comm (a := o)]
    · intro hm
      rw [b7 fun t ht => hm t (List.mem_cons_of_mem _ ht), a7 fun t ht => hm t (by simp [ht])]
    · intro hm
      rw [b8 fun f t ht => hm f t (List.mem_cons_of_mem _ ht), a8 fun f t ht => hm f t (by simp [ht])]
    · intro hm
      rw [b9 fun t ht => hm t (List.mem_cons_of_mem _ ht), a9 fun t ht => hm t (by simp [ht])]

theorem foldRes_append {σ α : Type} (f : σ → α → Res σ) (xs ys : List α) (s s' : σ) :
    foldRes f s (xs ++ ys) = .ok s' ↔ ∃ w, foldRes f s xs = .ok w ∧ foldRes f w ys = .ok s' := by
  induction xs generalizing s with
  | nil => simp [foldRes]
  | cons x xs ih =>
    rw [List.cons_append, foldRes, foldRes]
    constructor
    · intro h
      obtain ⟨a, ha, h⟩ := (Res.bind_eq_ok _ _ _).1 h
      obtain ⟨w, h1, h2⟩ := (ih a).1 h
      exact ⟨w, by rw [ha, Res.bind_ok, h1], h2⟩
    · rintro ⟨w, h1, h2⟩
      obtain ⟨a, ha, h1⟩ := (Res.bind_eq_ok _ _ _).1 h1
      rw [ha, Res.bind_ok, ih]
      exact ⟨w, h1, h2⟩

theorem elements_zip (es : List (Str × Str)) : (es.map Prod.fst).zip (es.map Prod.snd) = es := by
  induction es with
  | nil => rfl
  | cons p es ih => simp [ih]

/-- A new index is what the call and the methods called on its result say. -/
theorem index_says (opq : Nat → Sq.Val) (v : View) (name : Option Str) (fields : List Node) (es : List (Str × Str)) (ops : List VIdxOp)
    (hc : NoConfig ops) (he : Elements opq v.viewName fields es) (x : Index)
    (h : foldRes (VIdxOp.run opq v (indexNamed v name es)) (over v es { indexName := indexNamed v name es }) ops = .ok x) :
    IndexSays opq v.viewSchema v.viewName name fields ops x := by
  obtain ⟨b1, b2, b3, b4, b5, b6, b7, b8, b9⟩ := options_keep opq v _ ops hc _ x h
  have split : ∀ pre o post, ops = pre ++ o :: post → ∃ z w, VIdxOp.run opq v (indexNamed v name es) z o = .ok w ∧
      foldRes (VIdxOp.run opq v (indexNamed v name es)) w post = .ok x := by
    intro pre o post e
    rw [e, foldRes_append] at h
    obtain ⟨z, -, h⟩ := h
    rw [foldRes] at h
    obtain ⟨w, hw, h⟩ := (Res.bind_eq_ok _ _ _).1 h
    exact ⟨z, w, hw, h⟩
  have hpost : ∀ pre o post, ops = pre ++ o :: post → NoConfig post := fun pre o post e f hf => hc f (by simp [e, hf])
  refine ⟨b1, b2, ⟨?_, ?_⟩, ?_, ?_, ⟨b7, ?_⟩, ⟨b8, ?_⟩, ⟨b9, ?_⟩⟩
  · rw [b3, b4]; simp [over]
  · rw [b3, b4]; show Elements opq v.viewName fields ((es.map Prod.fst).zip (es.map Prod.snd)); rw [elements_zip]; exact he
  · rw [b5, b3]; rfl
  · rw [b6]; simp [over]
  · intro pre t post e hp
    obtain ⟨z, w, h1, h2⟩ := split pre _ post e
    rw [(options_keep opq v _ post (hpost _ _ _ e) _ x h2).2.2.2.2.2.2.1 hp]
    cases h1; rfl
  · intro pre f vs post e hp
    obtain ⟨z, w, h1, h2⟩ := split pre _ post e
    rw [(options_keep opq v _ post (hpost _ _ _ e) _ x h2).2.2.2.2.2.2.2.1 hp]
    obtain ⟨s, hs, rfl⟩ := map_eq_ok h1
    exact (format_iff ..).1 hs
  · intro pre fs post e hp
    obtain ⟨z, w, h1, h2⟩ := split pre _ post e
    rw [(options_keep opq v _ post (hpost _ _ _ e) _ x h2).2.2.2.2.2.2.2.2 hp]
    obtain ⟨s, hs, rfl⟩ := map_eq_ok h1
    exact ((columnNames_iff ..).1 hs).2

/-! ### In order -/

/-- Calls that each add one element, if its key is new. -/
theorem adds {α κ : Type} (opq : Nat → Sq.Val) (ext : Sq.Deriving.Ext) (want : List Str) (schema view : Str) (proj : View → List α) (key : α → κ)
    (Says : VOp → α → Prop) (p : VOp → Bool) (ok : VOp → Prop) (says : ∀ op x, Says op x → p op = true)
    (other : ∀ op v v', op.run opq ext .postgres want v = .ok v' → p op = false → proj v' = proj v)
    (adds : ∀ op v v', op.run opq ext .postgres want v = .ok v' → p op = true → v.viewSchema = schema → v.viewName = view → ok op →
      (∀ x y, Says op x → y ∈ proj v → key y ≠ key x) → ∃ x, Says op x ∧ proj v' = proj v ++ [x])
    (ops : List VOp) (hok : ∀ op ∈ ops, p op = true → ok op)
    (hd : (ops.filter p).Pairwise fun a b => ∀ x y, Says a x → Says b y → key x ≠ key y)
    (v v' : View) (h1 : v.viewSchema = schema) (h2 : v.viewName = view)
    (h3 : ∀ op ∈ ops, ∀ x y, Says op x → y ∈ proj v → key y ≠ key x)
    (h : foldRes (VOp.run opq ext .postgres want) v ops = .ok v') :
    ∃ xs, proj v' = proj v ++ xs ∧ AllSay Says (ops.filter p) xs := by
  induction ops generalizing v with
  | nil => cases h; exact ⟨[], by simp, .nil⟩
  | cons o ops ih =>
    rw [foldRes] at h
    obtain ⟨w, hw, h⟩ := (Res.bind_eq_ok _ _ _).1 h
    have hk := run_keeps opq ext _ want o v w hw
    cases hp : p o with
    | false =>
      rw [List.filter_cons_of_neg (by simp [hp])] at hd ⊢
      have e := other o v w hw hp
      obtain ⟨xs, e1, e2⟩ := ih (fun a ha => hok a (List.mem_cons_of_mem _ ha)) hd w (hk.1.trans h1) (hk.2.1.trans h2)
        (fun a ha => by rw [e]; exact h3 a (List.mem_cons_of_mem _ ha)) h
      exact ⟨xs, by rw [e1, e], e2⟩
    | true =>
      rw [List.filter_cons_of_pos hp, List.pairwise_cons] at hd
      rw [List.filter_cons_of_pos hp]
      obtain ⟨x, s, e⟩ := adds o v w hw hp h1 h2 (hok o (by simp) hp) (h3 o (by simp))
      have h3' : ∀ op ∈ ops, ∀ x y, Says op x → y ∈ proj w → key y ≠ key x := by
        intro a ha y z hy hz
        rw [e] at hz
        rcases List.mem_append.1 hz with hz | hz
        · exact h3 a (List.mem_cons_of_mem _ ha) y z hy hz
        · rw [List.mem_singleton.1 hz]
          exact hd.1 a (List.mem_filter.2 ⟨ha, says a y hy⟩) x y s hy
      obtain ⟨xs, e1, e2⟩ := ih (fun a ha => hok a (List.mem_cons_of_mem _ ha)) hd.2 w (hk.1.trans h1) (hk.2.1.trans h2) h3' h
      exact ⟨x :: xs, by rw [e1, e]; simp, .cons s e2⟩

/-- **C64, indexes.** On PostgreSQL a view that is declared for the first time has exactly the indexes its calls of `Index` and `NameIndex`
declare, in order, each over the columns and expressions given and with the options asked for — if their names differ, and unless `Config`
changes them. -/
theorem C64_indexes (opq : Nat → Sq.Val) (ext : Sq.Deriving.Ext) (decl : ViewDecl) (v v' : View) (hv : v.indexes = [])
    (h : v.load opq ext .postgres decl = .ok v')
    (hc : ∀ name fields ops, .index name fields ops ∈ decl.ddl .postgres → NoConfig ops)
    (hd : ((decl.ddl .postgres).filter VOp.isIndex).Pairwise fun a b => ∀ x y, IndexOf opq decl.schema decl.name a x →
      IndexOf opq decl.schema decl.name b y → x.indexName ≠ y.indexName) :
    AllSay (IndexOf opq decl.schema decl.name) ((decl.ddl .postgres).filter VOp.isIndex) v'.indexes := by
  obtain ⟨-, -, hf⟩ := (load_eq ..).1 h
  obtain ⟨xs, e1, e2⟩ := adds opq ext decl.columns decl.schema decl.name View.indexes Index.indexName (IndexOf opq decl.schema decl.name)
    VOp.isIndex (fun op => ∀ name fields ops, op = .index name fields ops → NoConfig ops)
    (by rintro op x ⟨_, _, _, rfl, -⟩; rfl)
    (fun op v v' hr hp => ((run_keeps _ _ _ _ _ _ _ hr).2.2.2.2.2.2.1 hp).1)
    (by
      intro op v v' hr hp h1 h2 hok hk
      cases op with
      | index name fields ops =>
        obtain ⟨-, es, he, -, hx⟩ := index_ok opq ext decl.columns v v' name fields ops hr
        have hno := hok _ _ _ rfl
        have hall : ∃ x, foldRes (VIdxOp.run opq v (indexNamed v name es)) (over v es { indexName := indexNamed v name es }) ops = .ok x := by
          rw [options_ok_iff]
          rcases hx with ⟨_, x, _, hx, _⟩ | ⟨x, _, hx, _⟩
          · exact (options_ok_iff ..).1 ⟨x, hx⟩
          · exact (options_ok_iff ..).1 ⟨x, hx⟩
        obtain ⟨x, hx'⟩ := hall
        have hs := index_says opq v name fields es ops hno he x hx'
        rw [h1, h2] at hs
        have hs' : IndexOf opq decl.schema decl.name (.index name fields ops) x := ⟨_, _, _, rfl, hs⟩
        have hn : x.indexName = indexNamed v name es := (options_keep opq v _ ops hno _ x hx').2.2.2.2.1
        rcases hx with ⟨n, _, hcp, _, _⟩ | ⟨y, _, hy, rfl⟩
        · exfalso
          obtain ⟨-, -, y, hy, hyk, -⟩ := get_of_lookup hcp
          exact hk x y hs' (List.mem_of_getElem? hy) (by rw [hn]; exact hyk)
        · rw [hx'] at hy
          cases hy
          exact ⟨x, hs', rfl⟩
      | _ => simp [VOp.isIndex] at hp)
    (decl.ddl .postgres) (fun op hm _ name fields ops e => hc name fields ops (e ▸ hm)) hd _ v' rfl rfl
    (fun op _ x y _ hy => by rw [show View.indexes _ = [] from hv] at hy; cases hy) hf
  rw [show View.indexes { v with viewSchema := decl.schema, viewName := decl.name } = [] from hv] at e1
  rw [e1]; exact e2

/-- **C64, triggers.** On PostgreSQL a view that is declared for the first time has exactly the triggers its calls of `Trigger` declare, in
order, if they are different triggers. -/
theorem C64_triggers (opq : Nat → Sq.Val) (ext : Sq.Deriving.Ext) (decl : ViewDecl) (v v' : View) (hv : v.triggers = [])
    (h : v.load opq ext .postgres decl = .ok v')
    (hd : ((decl.ddl .postgres).filter VOp.isTrigger).Pairwise fun a b => ∀ x y, TriggerOf opq a x → TriggerOf opq b y →
      (x.tableSchema, x.tableName, x.triggerName) ≠ (y.tableSchema, y.tableName, y.triggerName)) :
    AllSay (TriggerOf opq) ((decl.ddl .postgres).filter VOp.isTrigger) v'.triggers := by
  obtain ⟨-, -, hf⟩ := (load_eq ..).1 h
  obtain ⟨xs, e1, e2⟩ := adds opq ext decl.columns decl.schema decl.name View.triggers (fun t => (t.tableSchema, t.tableName, t.triggerName))
    (TriggerOf opq) VOp.isTrigger (fun _ => True)
    (by rintro op x ⟨_, _, _, rfl, -⟩; rfl)
    (fun op v v' hr hp => ((run_keeps _ _ _ _ _ _ _ hr).2.2.2.2.2.2.2.1 hp).1)
    (by
      intro op v v' hr hp h1 h2 _ hk
      cases op with
      | trigger fmt vals =>
        obtain ⟨sql, t, hs, ht, he⟩ := trigger_ok opq ext decl.columns v v' fmt vals hr
        have hs' : TriggerOf opq (.trigger fmt vals) t := ⟨_, _, sql, rfl, hs, ht⟩
        refine ⟨t, hs', ?_⟩
        split at he
        next n hcp =>
          exfalso
          obtain ⟨-, -, y, hy, hyk, -⟩ := get_of_lookup hcp
          rw [List.getElem?_map] at hy
          cases hg : v.triggers[n]? with
          | none => rw [hg] at hy; cases hy
          | some z =>
            rw [hg] at hy
            cases hy
            exact hk t z hs' (List.mem_of_getElem? hg) hyk
        · rw [he]; rfl
      | _ => simp [VOp.isTrigger] at hp)
    (decl.ddl .postgres) (fun _ _ _ => trivial) hd _ v' rfl rfl
    (fun op _ x y _ hy => by rw [show View.triggers _ = [] from hv] at hy; cases hy) hf
  rw [show View.triggers { v with viewSchema := decl.schema, viewName := decl.name } = [] from hv] at e1
  rw [e1]; exact e2

/-! ### The views of a database -/

/-- The view a step works on. -/
def viewOrNew (s : Schema) (n : Str) (new : View) : View := (find s.views n).getD new

theorem putView_ok {s s' : Schema} (h : SchInv s) {n : Str} (hn : n ≠ []) {new : View} {f : View → Res View}
    (hp : s.putView n new f = .ok s') :
    ∃ t', f (viewOrNew s n new) = .ok t' ∧ (t'.viewName = n → SchInv s' ∧ s'.schemaName = s.schemaName ∧ s'.ignore = s.ignore ∧
      s'.tables = s.tables ∧ ∀ k, find s'.views k = if k = n then unlessIgnored t' else find s.views k) := by
  unfold Schema.putView at hp
  cases hc : s.cachedViewPosition n with
  | some p =>
    rw [hc] at hp
    obtain ⟨t', ht', rfl⟩ := map_eq_ok hp
    obtain ⟨hb, hg, x, hx, hk, hi⟩ := get_of_lookup hc
    have hfx : find s.views n = some x := by
      have hm : x ∈ active s.views := mem_active.2 ⟨List.mem_iff_getElem?.2 ⟨p, hx⟩, hi⟩
      have := find_eq_some h.views.ok.unique hm
      rw [hk] at this; exact this
    refine ⟨t', ?_, fun i2 => ⟨⟨h.tables, h.views.set hb hg i2⟩, rfl, rfl, rfl, fun k => h.views.find_set hc i2 k⟩⟩
    unfold viewOrNew; rw [hfx]; rw [hx] at ht'; exact ht'
  | none =>
    rw [hc] at hp
    obtain ⟨t', ht', rfl⟩ := map_eq_ok hp
    have hfx : find s.views n = none := by
      have := lookup_find h.views.ok n
      rw [show (cachedPosition s.views s.viewCache n).1 = none from hc] at this
      exact this.symm
    refine ⟨t', ?_, fun i2 => ⟨⟨h.tables, h.views.append ?_ ?_⟩, rfl, rfl, rfl, fun k => ?_⟩⟩
    · unfold viewOrNew; rw [hfx]; exact ht'
    · show decide (t'.viewName = []) = false
      rw [i2]; simpa using hn
    · show (cachedPosition s.views s.viewCache t'.viewName).1 = none
      rw [i2]; exact hc
    · refine (h.views.find_append (y := t') ?_ k).trans ?_
      · show (cachedPosition s.views s.viewCache t'.viewName).1 = none
        rw [i2]; exact hc
      · rw [show Entry.key t' = n from i2]

/-- The view a declaration starts from. -/
def freshView (decl : ViewDecl) : View := { viewSchema := decl.schema, viewName := decl.name }

theorem loadView_ok {opq : Nat → Sq.Val} {ext : Sq.Deriving.Ext} {dia : Dialect} {d d' : DatabaseMetadata} (h : DbInv d) {decl : ViewDecl}
    (hl : d.loadView opq ext dia decl = .ok d') :
    DbInv d' ∧ (∀ s n, table? d' s n = table? d s n) ∧
    ∃ v', ((view? d decl.schema decl.name).getD (freshView decl)).load opq ext dia decl = .ok v' ∧
      ∀ s n, view? d' s n = if s = decl.schema ∧ n = decl.name then unlessIgnored v' else view? d s n := by
  unfold DatabaseMetadata.loadView at hl
  split at hl
  · cases hl
  · rename_i hne
    obtain ⟨s', hs', hs2⟩ := putSchema_ok h hl
    obtain ⟨hi, hname, hign⟩ := schemaOrNew_inv h decl.schema
    obtain ⟨t', ht', ht2⟩ := putView_ok hi hne hs'
    have heq : viewOrNew (schemaOrNew d decl.schema) decl.name { viewSchema := decl.schema, viewName := decl.name } =
        (view? d decl.schema decl.name).getD (freshView decl) := by
      unfold viewOrNew schemaOrNew view?
      cases find d.schemas decl.schema <;> rfl
    rw [heq] at ht'
    obtain ⟨-, hn', -⟩ := C64_declares opq ext dia _ t' decl ht'
    obtain ⟨j1, j2, j3, j5, j4⟩ := ht2 hn'
    obtain ⟨k1, k2⟩ := hs2 j1 (j2.trans hname) (j3.trans hign)
    refine ⟨k1, ?_, t', ht', ?_⟩
    · intro s n
      unfold table?
      rw [k2]
      by_cases hs : s = decl.schema
      · subst hs
        rw [if_pos rfl, Option.bind_some, j5]
        unfold schemaOrNew
        cases find d.schemas decl.schema <;> rfl
      · rw [if_neg hs]
    · intro s n
      unfold view?
      rw [k2]
      by_cases hs : s = decl.schema
      · subst hs
        rw [if_pos rfl, Option.bind_some, j4]
        by_cases hnn : n = decl.name
        · rw [if_pos hnn, if_pos ⟨rfl, hnn⟩]
        · rw [if_neg hnn, if_neg (fun hh => hnn hh.2)]
          unfold schemaOrNew
          cases find d.schemas decl.schema <;> rfl
      · rw [if_neg hs, if_neg (fun hh => hs hh.1)]

theorem withViews_cons {opq : Nat → Sq.Val} {ext : Sq.Deriving.Ext} {dia : Dialect} {x : ViewDecl} {decls : List ViewDecl}
    {d d' : DatabaseMetadata} (hl : withViews opq ext dia (x :: decls) d = .ok d') :
    ∃ d1, d.loadView opq ext dia x = .ok d1 ∧ withViews opq ext dia decls d1 = .ok d' := by
  unfold withViews at hl
  rw [foldRes] at hl
  exact (Res.bind_eq_ok _ _ _).1 hl

/-- Declaring views touches no table, and no view that is not declared. -/
theorem withViews_other {opq : Nat → Sq.Val} {ext : Sq.Deriving.Ext} {dia : Dialect} (decls : List ViewDecl) {d d' : DatabaseMetadata}
    (h : DbInv d) (hl : withViews opq ext dia decls d = .ok d') :
    DbInv d' ∧ (∀ s n, table? d' s n = table? d s n) ∧
    ∀ s n, (∀ x ∈ decls, ¬ (s = x.schema ∧ n = x.name)) → view? d' s n = view? d s n := by
  induction decls generalizing d with
  | nil => cases hl; exact ⟨h, fun _ _ => rfl, fun _ _ _ => rfl⟩
  | cons x decls ih =>
    obtain ⟨d1, h1, h2⟩ := withViews_cons hl
    obtain ⟨i1, i2, v', -, i3⟩ := loadView_ok h h1
    obtain ⟨j1, j2, j3⟩ := ih i1 h2
    refine ⟨j1, fun s n => (j2 s n).trans (i2 s n), fun s n hn => ?_⟩
    rw [j3 s n fun y hy => hn y (List.mem_cons_of_mem _ hy), i3, if_neg (hn x (by simp))]

/-- **C46, views.** Adding declared views to a well-formed database leaves it well-formed, and its tables as they are. -/
theorem C46_with_views (opq : Nat → Sq.Val) (ext : Sq.Deriving.Ext) (dia : Dialect) (decls : List ViewDecl) (d d' : DatabaseMetadata)
    (h : DbInv d) (ht : TablesInv d) (hl : withViews opq ext dia decls d = .ok d') :
    MetaOk d' ∧ ∀ s n, table? d' s n = table? d s n := by
  obtain ⟨h1, h2, -⟩ := withViews_other decls h hl
  exact ⟨h1.ok (fun s n t hf => (ht s n t (by rw [← h2]; exact hf)).ok) fun _ s n t hf => (ht s n t (by rw [← h2]; exact hf)).constraints.ok, h2⟩

/-- **C64, database.** After declaring views that differ in schema or name, each is in the database as its declaration makes it, and no other
view has changed. -/
theorem C64_database (opq : Nat → Sq.Val) (ext : Sq.Deriving.Ext) (dia : Dialect) (decls : List ViewDecl) (d d' : DatabaseMetadata)
    (h : DbInv d) (hd : decls.Pairwise fun x y => ¬ (x.schema = y.schema ∧ x.name = y.name)) (hl : withViews opq ext dia decls d = .ok d') :
    (∀ x ∈ decls, ∃ v, ((view? d x.schema x.name).getD (freshView x)).load opq ext dia x = .ok v ∧ view? d' x.schema x.name = some v) ∧
    ∀ s n, (∀ x ∈ decls, ¬ (s = x.schema ∧ n = x.name)) → view? d' s n = view? d s n := by
  refine ⟨?_, (withViews_other decls h hl).2.2⟩
  intro x hx
  induction decls generalizing d with
  | nil => cases hx
  | cons y decls ih =>
    rw [List.pairwise_cons] at hd
    obtain ⟨d1, h1, h2⟩ := withViews_cons hl
    obtain ⟨i1, i2, v', i4, i3⟩ := loadView_ok h h1
    rcases List.mem_cons.1 hx with rfl | hx
    · refine ⟨v', i4, ?_⟩
      rw [(withViews_other decls i1 h2).2.2 _ _ hd.1, i3, if_pos ⟨rfl, rfl⟩]
      have hig := (C64_declares _ _ _ _ _ _ i4).2.2.2.2.2.1
      unfold unlessIgnored
      rw [if_neg]
      show ¬ v'.ignore = true
      rw [hig]
      cases hv : view? d x.schema x.name with
      | none => simp [freshView]
      | some w =>
        unfold view? at hv
        cases hs : find d.schemas x.schema with
        | none => rw [hs] at hv; cases hv
        | some sc =>
          rw [hs] at hv
          have := (find_some hv).1
          rw [mem_active] at this
          rw [Option.getD_some, show w.ignore = false from this.2]
          simp
    · obtain ⟨v, h3, h4⟩ := ih d1 i1 hd.2 h2 hx
      refine ⟨v, ?_, h4⟩
      rw [i3, if_neg] at h3
      · exact h3
      · rintro ⟨a, b⟩; exact hd.1 x hx ⟨a.symm, b.symm⟩

/-! ### Concrete cases -/

/-- `SELECT u.id, COUNT(*) AS n FROM users AS u WHERE u.age = 18` -/
def exQuery : Node :=
  .select {} [] [Sq.Ex.col "u" "id", .literal "COUNT(*)" "n"] [] Sq.Ex.users [] (Sq.Ex.andp [Sq.Ex.eqInt (Sq.Ex.col "u" "age") 18]) [] (Sq.Ex.andp []) []

/-- A materialized view with two indexes and a trigger. -/
def exDecl : ViewDecl where
  schema := "app".toList
  name := "report".toList
  fields := [none, some "n".toList, some "id".toList]
  ddl _ := [.isMaterialized, .setQuery exQuery,
    .index none [Sq.Ex.col "report" "id"] [.unique, .using "btree".toList, .where "{} = {}".toList [Sq.Ex.col "report" "n", .scalar (.int 1)]],
    .index (some "by_lower".toList) [.literal "lower(id)" "",
      .field { formats := [("default", "{1} + {2}")] } false false [Sq.Ex.col "report" "n", .scalar (.int 1)]]
      [.include [Sq.Ex.col "report" "n"]],
    .trigger "CREATE TRIGGER refresh INSTEAD OF UPDATE ON app.report FOR EACH ROW EXECUTE FUNCTION f({})".toList [.scalar (.int 3)]]

def exView : View :=
  (({ viewSchema := "app".toList, viewName := "report".toList, isMaterialized := true,
      sql := "SELECT u.id, COUNT(*) AS n FROM users AS u WHERE u.age = 18".toList } : View).appendIndex
    { tableSchema := "app".toList, tableName := "report".toList, indexName := "report_id_idx".toList, columns := ["id".toList], exprs := [[]],
      isUnique := true, indexType := "BTREE".toList, predicate := "n = 1".toList }).appendIndex
    { tableSchema := "app".toList, tableName := "report".toList, indexName := "by_lower".toList, columns := [[], []],
      exprs := ["lower(id)".toList, "(n + 1)".toList], includeColumns := ["n".toList] } |>.appendTrigger
    { tableSchema := "app".toList, tableName := "report".toList, triggerName := "refresh".toList,
      sql := "CREATE TRIGGER refresh INSTEAD OF UPDATE ON app.report FOR EACH ROW EXECUTE FUNCTION f(3)".toList }

theorem exDecl_load : (freshView exDecl).load (fun _ => .nil) (fun _ => .panic) .postgres exDecl = .ok exView := by
  decide +kernel

/-- The hypotheses of `C64_indexes` are met: the two indexes have different names, and there is no `Config`. -/
example : AllSay (IndexOf (fun _ => .nil) "app".toList "report".toList) ((exDecl.ddl .postgres).filter VOp.isIndex) exView.indexes := by
  refine C64_indexes _ (fun _ => .panic) exDecl (freshView exDecl) exView rfl exDecl_load ?_ ?_
  · intro name fields ops hm f hf
    simp only [exDecl, List.mem_cons, reduceCtorEq, VOp.index.injEq, false_or, or_false, List.not_mem_nil] at hm
    rcases hm with ⟨-, -, rfl⟩ | ⟨-, -, rfl⟩ <;> simp at hf
  · show List.Pairwise _ [_, _]
    rw [List.pairwise_cons]
    refine ⟨?_, List.pairwise_singleton ..⟩
    intro b hb x y hx hy
    rw [List.mem_singleton] at hb
    subst hb
    obtain ⟨n1, f1, o1, e1, s1⟩ := hx
    obtain ⟨n2, f2, o2, e2, s2⟩ := hy
    cases e1; cases e2
    rw [s2.name, s1.name]
    have hcol : x.columns = ["id".toList] := by
      obtain ⟨hl, he⟩ := s1.elements
      match hc : x.columns, hx : x.exprs with
      | [], _ => rw [hc] at he; simp [Elements] at he
      | _ :: _, [] => rw [hc, hx] at hl; simp at hl
      | c :: c2 :: cs, [e] => rw [hc, hx] at hl; simp at hl
      | c :: c2 :: cs, e :: e2 :: es => rw [hc, hx] at he; simp [Elements] at he
      | [c], e :: e2 :: es => rw [hc, hx] at hl; simp at hl
      | [c], [e] =>
        rw [hc, hx] at he
        rcases he.1 with ⟨s, a, h, -⟩ | ⟨-, -, -, h⟩ | ⟨-, -, h, -⟩
        · cases h
        · rw [(Prod.mk.inj h).1]; rfl
        · cases h
    rw [hcol]
    show generateName NameKind.index exDecl.name ["id".toList] ≠ "by_lower".toList
    decide +kernel

/-- The hypotheses of `C64_triggers` are met. -/
example : AllSay (TriggerOf fun _ => .nil) ((exDecl.ddl .postgres).filter VOp.isTrigger) exView.triggers :=
  C64_triggers _ (fun _ => .panic) exDecl (freshView exDecl) exView rfl exDecl_load (List.pairwise_singleton ..)

/-- **C64, a view without a query.** `SetQuery` can be left out: the declaration is accepted and the command that creates the view ends
after `AS`, which no database accepts. -/
theorem C64_no_query_violated : ∃ (decl : ViewDecl) (v : View), (∀ opq ext, (freshView decl).load opq ext .postgres decl = .ok v) ∧
    (CreateViewCommand.mk false false v false).sql .postgres = .ok "CREATE VIEW report AS ".toList :=
  ⟨{ name := "report".toList, fields := [some "n".toList], ddl := fun _ => [] }, { viewName := "report".toList }, fun _ _ => rfl, by decide +kernel⟩

/-- **C64, triggers of other tables.** `Trigger` does not test that the trigger is one of this view (the method of tables does). -/
theorem C64_trigger_elsewhere_violated : ∃ (decl : ViewDecl) (v : View) (t : Trigger),
    (freshView decl).load (fun _ => .nil) (fun _ => .panic) .postgres decl = .ok v ∧ t ∈ v.triggers ∧ t.tableName ≠ decl.name :=
  ⟨{ name := "report".toList, fields := [], ddl := fun _ => [.trigger "CREATE TRIGGER trg AFTER UPDATE ON users EXECUTE FUNCTION f()".toList []] },
    ({ viewName := "report".toList } : View).appendTrigger { tableName := "users".toList, triggerName := "trg".toList, sql := "CREATE TRIGGER trg AFTER UPDATE ON users EXECUTE FUNCTION f()".toList },
    { tableName := "users".toList, triggerName := "trg".toList, sql := "CREATE TRIGGER trg AFTER UPDATE ON users EXECUTE FUNCTION f()".toList },
    by decide +kernel, by simp [View.appendTrigger], by decide⟩

/-- **C64, statements that are no SELECT.** A `DELETE … RETURNING` is accepted as the query of a view. -/
theorem C64_delete_violated : ∃ (decl : ViewDecl) (v : View),
    (freshView decl).load (fun _ => .nil) (fun _ => .panic) .postgres decl = .ok v ∧
    v.sql = "DELETE FROM users AS u WHERE u.id = 1 RETURNING u.id".toList :=
  ⟨{ name := "report".toList, fields := [some "id".toList],
     ddl := fun _ => [.setQuery (.delete { dialect := .postgres } [] [Sq.Ex.users] .nil [] (Sq.Ex.andp [Sq.Ex.eqInt (Sq.Ex.col "u" "id") 1]) [] [Sq.Ex.col "u" "id"])] },
    { viewName := "report".toList, sql := "DELETE FROM users AS u WHERE u.id = 1 RETURNING u.id".toList }, by decide +kernel, rfl⟩

/-- **C64, two columns of the same name.** Columns are compared by name and number only: the same name twice is accepted, in the struct and
in the query, though no database accepts such a view. -/
theorem C64_duplicate_violated : ∃ (decl : ViewDecl) (v : View),
    (freshView decl).load (fun _ => .nil) (fun _ => .panic) .postgres decl = .ok v ∧ ¬ decl.columns.Nodup ∧
    v.sql = "SELECT u.id, v.id FROM users AS u".toList :=
  ⟨{ name := "report".toList, fields := [some "id".toList, some "id".toList],
     ddl := fun _ => [.setQuery (.select {} [] [Sq.Ex.col "u" "id", Sq.Ex.col "v" "id"] [] Sq.Ex.users [] (Sq.Ex.andp []) [] (Sq.Ex.andp []) [])] },
    { viewName := "report".toList, sql := "SELECT u.id, v.id FROM users AS u".toList }, by decide +kernel, by decide, rfl⟩

end Ddl.Views
