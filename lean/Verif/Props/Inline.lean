import Verif.Props.Literal
import Verif.Spec.Inline
import Verif.Props.Sprintf
import Verif.Props.Binding
import Verif.Props.ViewSays
/-
C65: a rendered query with its arguments put in.
-/
namespace Sq.Inline
open Sq.SqlText

/-- The value of an argument, as the code sees it. -/
abbrev lit (d : Dialect) (opq : Nat → Val) (a : Arg) : Option Str := literal d (Ddl.valOf opq a)

theorem interpolate_text (d : Dialect) (l : Val → Option Str) (args : List Val) (k : Nat) (js is : List Item)
    (h : ∀ j ∈ js, Item.isText j = true) : interpolate d l args k (js ++ is) = (interpolate d l args k is).map (write d js ++ ·) := by
  induction js with
  | nil => simp [write]
  | cons j js ih =>
    have hj := h j (by simp)
    have ih := ih fun x hx => h x (List.mem_cons_of_mem _ hx)
    cases j with
    | ph => cases hj
    | text s =>
      rw [List.cons_append, interpolate, ih]
      cases interpolate d l args k is <;> simp [write]
      nofun
    | quoted q b =>
      rw [List.cons_append, interpolate, ih]
      cases interpolate d l args k is <;> simp [write]
      nofun

theorem resolve_texts (args : List Arg) (k : Nat) (ts : List Str) (ps : List Piece) :
    Spec.resolve args k (ts.map .text ++ ps) = ts.map .sql ++ Spec.resolve args k ps := by
  induction ts with
  | nil => rfl
  | cons t ts ih => simp only [List.map_cons, List.cons_append, Spec.resolve, ih]

theorem written_texts (l : Arg → Option Str) (ts : List Str) (ps : List Spec.RPiece) :
    written l (ts.map .sql ++ ps) = (written l ps).map (ts.flatten ++ ·) := by
  induction ts with
  | nil => simp
  | cons t ts ih => simp only [List.map_cons, List.cons_append, written, ih]; cases written l ps <;> simp

/-- Names that differ: the first and the last are the same. -/
theorem byName_eq (opq : Nat → Val) (hopq : ∀ i x v, opq i ≠ .named x v) (args : List Arg) (h : NamesDiffer args) (x : Str) :
    (args.map (Ddl.valOf opq)).reverse.find? (isNamed x) = (Spec.byName args x).map (Ddl.valOf opq) := by
  induction args with
  | nil => rfl
  | cons a args ih =>
    have ih := ih fun i j y u v hi hj => by
      have := h (i + 1) (j + 1) y u v (by simpa using hi) (by simpa using hj)
      omega
    rw [List.map_cons, List.reverse_cons, List.find?_append, ih]
    cases a with
    | val v =>
      rw [show Spec.byName (.val v :: args) x = Spec.byName args x from rfl]
      cases v <;> simp [Ddl.valOf, Ddl.valOf.scalar, isNamed] <;> (
        rename_i i
        cases hv : opq i <;> simp
        exact absurd hv (hopq _ _ _))
    | slice i =>
      rw [show Spec.byName (.slice i :: args) x = Spec.byName args x from rfl]
      simp only [Ddl.valOf]
      have : isNamed x (opq i) = false := by
        cases hv : opq i <;> try rfl
        exact absurd hv (hopq _ _ _)
      simp [this]
    | named y u =>
      by_cases hy : y = x
      · subst hy
        have : Spec.byName args y = none := by
          unfold Spec.byName
          rw [List.find?_eq_none]
          intro b hb hm
          obtain ⟨i, hi⟩ := List.mem_iff_getElem?.1 hb
          cases b with
          | named z w =>
            simp only [decide_eq_true_eq] at hm
            subst hm
            have := h 0 (i + 1) z u w rfl (by simpa using hi)
            omega
          | _ => simp at hm
        rw [this]
        simp [Ddl.valOf, isNamed, Spec.byName]
      · simp [Ddl.valOf, isNamed, Spec.byName, hy]

theorem written_pick (l : Arg → Option Str) (o : Option Arg) (ps : List Spec.RPiece) :
    written l (Spec.pick o :: ps) = o.bind fun a => (l a).bind fun t => (written l ps).map (t ++ ·) := by
  cases o <;> rfl

theorem interpolate_reads (d : Dialect) (opq : Nat → Val) (hopq : ∀ i x v, opq i ≠ .named x v) (args : List Arg) (hn : NamesDiffer args)
    (ps : List Piece) (is : List Item) (h : Reads d ps is) (k : Nat) :
    interpolate d (literal d) (args.map (Ddl.valOf opq)) k is = written (lit d opq) (Spec.resolve args k ps) := by
  induction h generalizing k with
  | nil => rfl
  | text ts js h1 h2 _ ih => rw [interpolate_text _ _ _ _ _ _ h2, ih k, resolve_texts, written_texts, h1]
  | @ph p i ps is hp _ ih =>
    cases p with
    | text => cases hp
    | ph n =>
      cases hp
      rw [interpolate, SqlText.resolve, Spec.resolve, written_pick, bump, ih k]
      by_cases h0 : n = 0
      · simp [h0]
      · rw [if_neg h0, if_neg h0, List.getElem?_map]
        cases args[n - 1]? <;> rfl
      · nofun
    | anon =>
      cases hp
      rw [interpolate, SqlText.resolve, Spec.resolve, written_pick, bump, ih (k + 1), List.getElem?_map]
      cases args[k]? <;> rfl
    | ref x =>
      cases hp
      rw [interpolate, SqlText.resolve, Spec.resolve, written_pick, bump, ih k, byName_eq opq hopq args hn]
      · cases Spec.byName args x <;> rfl
      · nofun

theorem bufString_reads (d : Dialect) (ps : List Piece) (is : List Item) (h : Reads d ps is) : bufString d ps = write d is := by
  induction h with
  | nil => rfl
  | text ts js h1 h2 _ ih =>
    unfold bufString write at *
    rw [List.map_append, List.flatten_append, List.flatMap_append, ih, ← h1]
    simp [Piece.str, Function.comp_def]
  | @ph p i ps is hp _ ih =>
    have : Piece.str d p = i.write d := by
      cases p with
      | text => cases hp
      | ph n => cases hp; cases d <;> simp [Piece.str, Item.write, Nat.repr, toString]
      | anon => cases hp; rfl
      | ref x => cases hp; cases d <;> simp [Piece.str, Item.write]
    unfold bufString write at *
    rw [List.map_cons, List.flatten_cons, List.flatMap_cons, ih, this]


/-- The arguments put in. -/
theorem sprintf_reads (d : Dialect) (opq : Nat → Val) (hopq : ∀ i x v, opq i ≠ .named x v) (args : List Arg) (hn : NamesDiffer args)
    (h0 : args ≠ []) (ps : List Piece) (c : Char) (t : Str) (is : List Item) (h : Reads d ps (.text (c :: t) :: is))
    (hok : ItemsOk d (.text (c :: t) :: is)) :
    Res.toOption' (sprintf d (bufString d ps) (args.map (Ddl.valOf opq))) = written (lit d opq) (Spec.resolve args 0 ps) := by
  rw [bufString_reads d ps _ h, C14_sprintf_partial d _ c t is (by simpa using h0) hok, interpolate_reads d opq hopq args hn ps _ h]

/-- Without arguments there are no placeholders. -/
theorem no_placeholders (d : Dialect) (is : List Instr) : (exec d is {}).args = [] → ∀ p ∈ (exec d is {}).out, ∃ t, p = .text t := by
  have : (exec d is {}).args = [] → (∀ p ∈ (exec d is {}).out, ∃ t, p = .text t) ∧ ∀ x, (exec d is {}).params x = [] := by
    refine exec_ind (P := fun s : St => s.args = [] → (∀ p ∈ s.out, ∃ t, p = .text t) ∧ ∀ x, s.params x = []) ?_ is {}
      (fun _ => ⟨fun _ h => (by cases h), fun _ => rfl⟩)
    intro i s hs h
    cases i with
    | text t =>
      obtain ⟨h1, h2⟩ := hs h
      refine ⟨fun p hp => ?_, h2⟩
      rcases List.mem_append.1 hp with hp | hp
      · exact h1 p hp
      · exact ⟨t, List.mem_singleton.1 hp⟩
    | forget ns =>
      obtain ⟨h1, h2⟩ := hs h
      exact ⟨h1, fun x => by simp [exec1, Params.erase, h2]⟩
    | bind pn v =>
      simp only [exec1] at h ⊢
      split at h
      · split at h
        next hk =>
          have := (hs h).2 pn
          simp [this] at hk
        · simp at h
      · simp at h
    | named x v =>
      simp only [exec1] at h ⊢
      split at h
      next hk =>
        have := (hs (by simpa using h)).2 x
        simp [this] at hk
      · simp at h
    | param x v =>
      simp only [exec1] at h ⊢
      split at h
      · split at h
        next hk =>
          have := (hs (by simpa using h)).2 x
          simp [this] at hk
        · simp at h
      · simp at h
  exact fun h => (this h).1


/-- **C65.** Let any query or expression be rendered in any dialect, and let its text be readable (every quote closed, no stray placeholder
character outside quotes, placeholders followed by punctuation) and begin with ordinary text.  The text with the arguments put in (as it
is logged, and stored as the text of views, defaults and predicates) is the rendered query with each placeholder replaced by the literal of
the value bound to it, everything else unchanged; it fails exactly if some bound value has no literal. -/
theorem C65_inlined_partial (n : Node) (m : Mode) (opq : Nat → Val) (hopq : ∀ i x v, opq i ≠ .named x v)
    (hst : (ren n m []).st = .ok) (hn : NamesDiffer (renderFrom n m [] {}).args)
    (hr : (renderFrom n m [] {}).args ≠ [] → ∃ c t is, Reads m.d (renderFrom n m [] {}).out (.text (c :: t) :: is) ∧
      ItemsOk m.d (.text (c :: t) :: is)) :
    Res.toOption' (Ddl.inlined opq m.d (ren n m [])) =
      written (lit m.d opq) (Spec.resolve (renderFrom n m [] {}).args 0 (renderFrom n m [] {}).out) := by
  have e : Ddl.inlined opq m.d (ren n m []) =
      sprintf m.d (bufString m.d (renderFrom n m [] {}).out) ((renderFrom n m [] {}).args.map (Ddl.valOf opq)) := by
    unfold Ddl.inlined
    rw [hst]; rfl
  rw [e]
  by_cases h0 : (renderFrom n m [] {}).args = []
  · have ht := no_placeholders m.d (ren n m []).code h0
    rw [h0]
    change Res.toOption' (.ok (bufString m.d (exec m.d (ren n m []).code {}).out)) = written _ (Spec.resolve [] 0 (exec m.d (ren n m []).code {}).out)
    generalize (exec m.d (ren n m []).code {}).out = ps at ht
    induction ps with
    | nil => rfl
    | cons p ps ih =>
      obtain ⟨t, rfl⟩ := ht p (by simp)
      rw [Spec.resolve, written, ← ih fun q hq => ht q (List.mem_cons_of_mem _ hq)]
      simp [Res.toOption', bufString, Piece.str]
  · obtain ⟨c, t, is, h1, h2⟩ := hr h0
    exact sprintf_reads m.d opq hopq _ hn h0 _ c t is h1 h2


/-- **C65, the literals.** What is put in for a bound value, named or not, is a literal of the dialect that means this value, followed by whatever follows
it.  Missing: strings with adjacent quotes (see C02), values of other types. -/
theorem C65_literals_partial (d : Dialect) (opq : Nat → Val) (a : Arg) (s : Scalar) (ha : a = .val s ∨ ∃ x, a = .named x s) (hp : Plain s)
    (hq : ∀ t, s = .str t → ¬ _root_.Spec.InnerPair '\'' t) :
    ∃ t, lit d opq a = some t ∧ ∀ rest, Apart rest → ∃ l, readLiteral d (t ++ rest) = some (l, rest) ∧ Means s l := by
  have scal : ∃ t, sprint d false (Ddl.valOf.scalar opq s) = .ok t := by
    obtain ⟨h1, h2, h3, h4, -, h6, -⟩ := C16_scalars_render d
    cases s with
    | nil => exact h1
    | bool b => exact h2 b
    | int i => exact h6 i
    | str s => exact h4 s
    | bytes s => exact h3 _
    | «opaque» i => exact hp.elim
  have means : ∀ l, denotes (Ddl.valOf.scalar opq s) l → Means s l := by
    intro l h
    cases s with
    | nil => cases l <;> first | exact h | cases h
    | bool b => cases l <;> first | exact h | cases h
    | int i => cases l <;> first | exact h | cases h
    | str s => cases l <;> first | exact h | cases h
    | bytes s =>
      cases l with
      | bytes b =>
        simp only [Ddl.valOf.scalar, denotes] at h
        subst h
        simp only [Means, List.map_map]
        conv => rhs; rw [← List.map_id s]
        apply List.map_congr_left
        intro c hc
        have := hp c hc
        simp only [Function.comp_apply, Fin.ofNat, id_eq]
        rw [Nat.mod_eq_of_lt this]
        exact Char.ofNat_toNat c
      | _ => cases h
    | «opaque» i => exact hp.elim
  obtain ⟨t, ht⟩ := scal
  have key : ∀ rest, Apart rest → ∃ l, readLiteral d (t ++ rest) = some (l, rest) ∧ Means s l := by
    intro rest hr
    obtain ⟨l, h1, h2⟩ := C16_denotes_partial d _ t rest ht (by cases s <;> first | trivial | exact hp.elim) hr
      (by cases s <;> first | trivial | exact hq _ rfl | exact hp.elim) (by intro _; cases s <;> first | rfl | exact hp.elim)
    exact ⟨l, h1, means l h2⟩
  rcases ha with rfl | ⟨x, rfl⟩
  · exact ⟨t, by simp [lit, literal, Ddl.valOf, ht, Res.toOption'], key⟩
  · exact ⟨t, by simp [lit, literal, Ddl.valOf, ht, sprint, Res.toOption'], key⟩

/-- Non-vacuity: a named string, on MySQL. -/
example (opq : Nat → Val) : lit .mysql opq (.named "x".toList (.str "O'Brien".toList)) = some "'O''Brien'".toList := rfl

/-- Non-vacuity: `SELECT u.id FROM users AS u WHERE u.id = 1 AND (u.age = 2 OR u.age = 3) LIMIT 5`, on Postgres, meets the hypotheses, and
what the theorem gives for it. -/
example (opq : Nat → Val) : (ren Ex.q1 { d := .postgres } []).st = .ok ∧ NamesDiffer (renderFrom Ex.q1 { d := .postgres } [] {}).args ∧
    (∃ c t is, Reads .postgres (renderFrom Ex.q1 { d := .postgres } [] {}).out (.text (c :: t) :: is) ∧
      ItemsOk .postgres (.text (c :: t) :: is)) ∧
    written (lit .postgres opq) (Spec.resolve (renderFrom Ex.q1 { d := .postgres } [] {}).args 0 (renderFrom Ex.q1 { d := .postgres } [] {}).out) =
      some "SELECT u.id FROM users AS u WHERE u.id = 1 AND (u.age = 2 OR u.age = 3) LIMIT 5".toList := by
  have ha : (renderFrom Ex.q1 { d := .postgres } [] {}).args = [.val (.int 1), .val (.int 2), .val (.int 3), .val (.int 5)] := by
    decide +kernel
  have ho : (renderFrom Ex.q1 { d := .postgres } [] {}).out =
      (["SELECT ", "u.id", "", " FROM ", "users", " AS u", " WHERE ", "u.id", "", " ", "=", " "] : List Str).map .text ++ .ph 1 ::
      ((([" AND ", "(", "u.age", "", " ", "=", " "] : List Str).map .text) ++ .ph 2 ::
      ((([" OR ", "u.age", "", " ", "=", " "] : List Str).map .text) ++ .ph 3 ::
      ((([")", " ", "L", "I", "M", "I", "T", " "] : List Str).map .text) ++ [.ph 4]))) := by decide +kernel
  refine ⟨by decide +kernel, ?_, ?_, ?_⟩
  · rw [ha]
    intro i j x a b h
    match i with
    | 0 | 1 | 2 | 3 => cases h
    | i + 4 => simp at h
  · rw [ho]
    refine ⟨'S', "ELECT u.id FROM users AS u WHERE u.id = ".toList, [.ph '$' (.ord 1), .text " AND (u.age = ", .ph '$' (.ord 2), .text " OR u.age = ",
      .ph '$' (.ord 3), .text ") LIMIT ", .ph '$' (.ord 4)], ?_, ?_⟩
    · refine .text _ [_] (by decide +kernel) (by simp [Item.isText]) (.ph rfl ?_)
      refine .text _ [.text " AND (u.age = "] (by decide +kernel) (by simp [Item.isText]) (.ph rfl ?_)
      refine .text _ [.text " OR u.age = "] (by decide +kernel) (by simp [Item.isText]) (.ph rfl ?_)
      exact .text _ [.text ") LIMIT "] (by decide +kernel) (by simp [Item.isText]) (.ph rfl .nil)
    · simp [ItemsOk, Item.Ok, Follows, write, Item.write, PhOk, opens, sigil, close, separator]
  · rw [ha, ho]
    rfl

/-- **C65 (violated).** A predicate written with a format that starts with a value keeps its placeholder: `Predicatef("{} < u.age", 5)`
becomes the text `$1 < u.age`, in which nothing says what `$1` is. -/
theorem C65_first_value_violated (opq : Nat → Val) :
    Ddl.inlined opq .postgres (ren (.cpred [] "{} < {}" false [.scalar (.int 5), Ex.col "u" "age"]) { d := .postgres } []) =
      .ok "$1 < u.age".toList := by rfl

/-- **C65 (violated).** A predicate that starts with a quoted identifier and has a value cannot be written at all. -/
theorem C65_first_quote_violated (opq : Nat → Val) :
    Ddl.inlined opq .postgres (ren (.cpred [] "{} > {}" false [Ex.col "" "the age", .scalar (.int 5)]) { d := .postgres } []) =
      .err "unclosed string or identifier" := by rfl

end Sq.Inline
