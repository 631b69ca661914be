import Verif.Spec.Lexical
import Verif.Proof.Tree
import Verif.Props.Format
/-
The renderer writes text that reads: proofs by triples "from a position in A, what is written leads to a position in B".
-/
namespace Sq.Lexical
open Sq.SqlText (opens sigil separator close NameOk)

variable {d : Dialect}

theorem walk_append (s : At) (a b : List Tok) : walk d s (a ++ b) = (walk d s a).bind fun s' => walk d s' b := by
  induction a generalizing s with
  | nil => rfl
  | cons t ts ih =>
    rw [List.cons_append, walk, walk]
    cases step d s t with
    | none => rfl
    | some s' => exact ih s'

theorem effects_append (a b : List Instr) : effects (a ++ b) = effects a ++ effects b := by
  induction a with
  | nil => rfl
  | cons i is ih => cases i <;> simp [effects, ih]

/-- A position just after a quote is after one that the dialect has. -/
def At.fine (d : Dialect) : At → Prop
  | .inside q | .closed q => opens d q
  | _ => True

theorem step_fine {s s' : At} {t : Tok} (h : s.fine d) (he : step d s t = some s') : s'.fine d := by
  have hfree : ∀ c, free d c = some s' → s'.fine d := by
    intro c hc
    unfold free at hc
    split at hc
    · cases hc; assumption
    · split at hc
      · cases hc
      · cases hc; trivial
  cases s <;> cases t <;> simp only [step] at he
  · exact hfree _ he
  · cases he; trivial
  · split at he <;> · cases he; exact h
  · cases he
  · split at he
    · cases he; exact h
    · exact hfree _ he
  · cases he; trivial
  · split at he
    · cases he; trivial
    · cases he
  · cases he

theorem walk_fine (ts : List Tok) {s s' : At} (h : s.fine d) (he : walk d s ts = some s') : s'.fine d := by
  induction ts generalizing s with
  | nil => cases he; exact h
  | cons t ts ih =>
    rw [walk] at he
    cases h1 : step d s t with
    | none => rw [h1] at he; cases he
    | some x => rw [h1] at he; exact ih (step_fine h h1) he

def O (s : At) : Prop := s = .plain
def E (d : Dialect) (s : At) : Prop := s.ended = true ∧ s.fine d

theorem O_E {s : At} (h : O s) : E d s := by rw [h]; exact ⟨rfl, trivial⟩

/-- From every position in `A` the effects of `w` can be read, ending outside quotes, and in `B` unless `w` fails. -/
def T (d : Dialect) (A : At → Prop) (w : W) (B : At → Prop) : Prop :=
  ∀ s, A s → ∃ s', walk d s (effects w.code) = some s' ∧ E d s' ∧ (w.st = .ok → B s')

variable {A B C : At → Prop} {a b w : W}

theorem T.seq (ha : T d A a B) (hb : T d B b C) : T d A (a ⨟ b) C := by
  intro s hs
  obtain ⟨s1, h1, e1, p1⟩ := ha s hs
  unfold W.seq
  split
  · rename_i hok
    obtain ⟨s2, h2, e2, p2⟩ := hb s1 (p1 hok)
    exact ⟨s2, by rw [effects_append, walk_append, h1]; exact h2, e2, p2⟩
  · rename_i hno
    exact ⟨s1, h1, e1, fun h => absurd h (by intro h'; exact hno h')⟩

theorem T.post (h : T d A w O) : T d A w (E d) := fun s hs => by
  obtain ⟨s', h1, h2, h3⟩ := h s hs
  exact ⟨s', h1, h2, fun _ => h2⟩
theorem T.pre (h : T d (E d) w B) : T d O w B := fun s hs => h s (O_E hs)
theorem T.ends (h : T d A w B) : T d A w (E d) := fun s hs => by
  obtain ⟨s', h1, h2, h3⟩ := h s hs
  exact ⟨s', h1, h2, fun _ => h2⟩

theorem T.ok (h : ∀ s, A s → E d s) : T d A .ok A := fun s hs => ⟨s, rfl, h s hs, fun _ => hs⟩
theorem T.fail (h : ∀ s, A s → E d s) (e : Str) : T d A (.fail e) B := fun s hs => ⟨s, rfl, h s hs, fun hh => by cases hh⟩
theorem T.panic (h : ∀ s, A s → E d s) : T d A .panic B := fun s hs => ⟨s, rfl, h s hs, fun hh => by cases hh⟩
theorem T.hang (h : ∀ s, A s → E d s) : T d A .hang B := fun s hs => ⟨s, rfl, h s hs, fun hh => by cases hh⟩

theorem T.when (h : ∀ s, A s → E d s) (c : Bool) (hw : T d A w A) : T d A (.when c w) A := by
  unfold W.when
  split
  · exact hw
  · exact T.ok h

theorem T.ofRes {α : Type} (h : ∀ s, A s → E d s) (r : Res α) (f : α → W) (hf : ∀ x, r = .ok x → T d A (f x) B) : T d A (.ofRes r f) B := by
  cases r with
  | ok x => exact hf x rfl
  | err e => exact T.fail h e
  | panic => exact T.panic h
  | hang => exact T.hang h

theorem T.ignoreErr (h : T d A w (E d)) : T d A w.ignoreErr (E d) := by
  intro s hs
  obtain ⟨s', h1, h2, h3⟩ := h s hs
  unfold W.ignoreErr
  split <;> exact ⟨s', h1, h2, fun _ => h2⟩

theorem oo : ∀ s, O s → E d s := fun _ => O_E
theorem ee : ∀ s, E d s → E d s := fun _ => id

/-! ### Characters -/

/-- Ordinary in every dialect. -/
def calm (c : Char) : Bool :=
  c ≠ '\'' && c ≠ '"' && c ≠ '`' && c ≠ '[' && c ≠ '?' && c ≠ '$' && c ≠ ':' && c ≠ '@'

theorem calm_spec {c : Char} (h : calm c = true) : ¬ opens d c ∧ ¬ sigil d c := by
  unfold calm at h
  simp only [Bool.and_eq_true, decide_eq_true_eq] at h
  obtain ⟨⟨⟨⟨⟨⟨⟨h1, h2⟩, h3⟩, h4⟩, h5⟩, h6⟩, h7⟩, h8⟩ := h
  constructor
  · unfold opens; simp [h1, h2, h3, h4]
  · unfold sigil; cases d <;> simp [h5, h6, h7, h8]

theorem free_calm {c : Char} (h : calm c = true) : free d c = some .plain := by
  unfold free
  rw [if_neg (calm_spec (d := d) h).1, if_neg (calm_spec (d := d) h).2]

theorem walk_calm (s : Str) (h : s.all calm = true) : walk d .plain (s.map .ch) = some .plain := by
  induction s with
  | nil => rfl
  | cons c cs ih =>
    rw [List.all_cons, Bool.and_eq_true] at h
    rw [List.map_cons, walk]
    simp only [step, free_calm h.1, Option.bind_some]
    exact ih h.2

theorem separator_notclose {c : Char} (h : separator c) : ¬ opens d c ∧ ∀ q, opens d q → c ≠ close q := by
  unfold separator at h
  simp only [List.mem_cons, List.not_mem_nil, or_false] at h
  constructor
  · unfold opens
    rcases h with rfl | rfl | rfl | rfl | rfl | rfl | rfl | rfl | rfl | rfl | rfl | rfl | rfl | rfl | rfl | rfl <;> simp
  · intro q hq
    unfold opens at hq
    unfold close
    rcases hq with rfl | rfl | ⟨rfl, -⟩ | ⟨rfl, -⟩ <;>
    rcases h with rfl | rfl | rfl | rfl | rfl | rfl | rfl | rfl | rfl | rfl | rfl | rfl | rfl | rfl | rfl | rfl <;> decide

/-! ### Written text -/

theorem effects_wr (s : Str) : effects (W.wr s).code = s.map .ch := by simp [W.wr, effects]

theorem T.wr_append {s t : Str} (h1 : T d A (.wr s) B) (h2 : T d B (.wr t) C) : T d A (.wr (s ++ t)) C := by
  intro x hx
  obtain ⟨y, e1, e2, e3⟩ := h1 x hx
  obtain ⟨z, f1, f2, f3⟩ := h2 y (e3 rfl)
  refine ⟨z, ?_, f2, fun _ => f3 rfl⟩
  rw [effects_wr] at *
  rw [List.map_append, walk_append, e1]
  exact f1

/-- Ordinary text. -/
theorem wr_calm (s : Str) (h : s.all calm = true) : T d O (.wr s) O := by
  rintro x rfl
  exact ⟨.plain, by rw [effects_wr]; exact walk_calm s h, ⟨rfl, trivial⟩, fun _ => rfl⟩

/-- Punctuation or white space that starts no placeholder in any dialect. -/
def gap (c : Char) : Bool := decide (separator c) && calm c

theorem step_gap {c : Char} {x : At} (hs : separator c) (hg : ¬ sigil d c) (hx : E d x) : step d x (.ch c) = some .plain := by
  have hf : free d c = some .plain := by
    unfold free
    rw [if_neg (separator_notclose hs).1, if_neg hg]
  cases x with
  | plain => exact hf
  | inside q => cases hx.1
  | closed q => rw [step, if_neg ((separator_notclose (d := d) hs).2 q hx.2)]; exact hf
  | after => rw [step, if_pos ⟨hs, hg⟩]

/-- Text after anything: it starts with punctuation or white space. -/
theorem wr_gap (c : Char) (s : Str) (hc : gap c = true) (h : s.all calm = true) : T d (E d) (.wr (c :: s)) O := by
  intro x hx
  unfold gap at hc
  rw [Bool.and_eq_true, decide_eq_true_eq] at hc
  refine ⟨.plain, ?_, ⟨rfl, trivial⟩, fun _ => rfl⟩
  rw [effects_wr, List.map_cons, walk, step_gap hc.1 (calm_spec hc.2).2 hx]
  exact walk_calm s h

theorem wr_nil (h : ∀ s, A s → E d s) : T d A (.wr []) A := fun s hs => ⟨s, rfl, h s hs, fun _ => hs⟩

theorem reading_T (w : W) (h : Reading d (effects w.code)) : T d O w (E d) := by
  rintro x rfl
  obtain ⟨s, h1, h2⟩ := h
  have := walk_fine _ (s := .plain) trivial h1
  exact ⟨s, h1, ⟨h2, this⟩, fun _ => ⟨h2, this⟩⟩

theorem wr_raw {s : Str} (h : Raw d s) : T d O (.wr s) (E d) := reading_T _ (by rw [effects_wr]; exact h)

/-! ### Quoted names -/

theorem walk_escape (q : Char) (s : Str) : walk d (.inside q) ((escapeQuote (close q) s).map .ch) = some (.inside q) := by
  have one : ∀ (c : Char) (l : List Tok), c ≠ close q → walk d (.inside q) (.ch c :: l) = walk d (.inside q) l := by
    intro c l hc
    rw [walk, step, if_neg hc]; rfl
  have two : ∀ l : List Tok, walk d (.inside q) (.ch (close q) :: .ch (close q) :: l) = walk d (.inside q) l := by
    intro l
    rw [walk, step, if_pos rfl, Option.bind_some, walk, step, if_pos rfl]; rfl
  have nil : walk d (.inside q) [] = some (.inside q) := rfl
  fun_induction escapeQuote (close q) s <;> simp_all only [List.map_cons, List.map_nil, one, two, ne_eq, not_false_eq_true]

theorem walk_quote (q : Char) (s : Str) (h : opens d q) :
    walk d .plain ((q :: escapeQuote (close q) s ++ [close q]).map .ch) = some (.closed q) := by
  rw [List.cons_append, List.map_cons, walk]
  simp only [step, free, if_pos h, Option.bind_some]
  rw [List.map_append, walk_append, walk_escape]
  simp [walk, step]

theorem calm_plainChar {c : Char} (h : plainChar c = true) : calm c = true := by
  unfold plainChar at h
  unfold calm
  simp only [Bool.and_eq_true, decide_eq_true_eq, Bool.or_eq_true] at h ⊢
  refine ⟨⟨⟨⟨⟨⟨⟨?_, ?_⟩, ?_⟩, ?_⟩, ?_⟩, ?_⟩, ?_⟩, ?_⟩ <;> rintro rfl <;> revert h <;> decide

theorem walk_quoteIdentifier (x : Str) : walk d .plain ((quoteIdentifier d x).map .ch) = some .plain ∨
    ∃ q, opens d q ∧ walk d .plain ((quoteIdentifier d x).map .ch) = some (.closed q) := by
  unfold quoteIdentifier
  split
  · right
    cases d <;> refine ⟨_, ?_, walk_quote (q := _) x ?_⟩ <;> simp [opens]
  · rename_i h
    left
    refine walk_calm _ ?_
    cases x with
    | nil => rfl
    | cons c cs =>
      simp only [needsQuoting, Bool.or_eq_true, Bool.not_eq_true', not_or, Bool.not_eq_false] at h
      rw [List.all_cons, Bool.and_eq_true]
      refine ⟨calm_plainChar h.1.2, List.all_eq_true.2 fun y hy => calm_plainChar (List.all_eq_true.1 h.2 y hy)⟩

theorem raw_quoteIdentifier (x : Str) : Raw d (quoteIdentifier d x) := by
  rcases walk_quoteIdentifier (d := d) x with h | ⟨q, -, h⟩
  · exact ⟨_, h, rfl⟩
  · exact ⟨_, h, rfl⟩

/-! ### Format strings -/

/-- The value's rendering reads, in dialect `d`. -/
def Reads (d : Dialect) (o : Obj) : Prop := Good (fun w => T d O w (E d)) d (fun _ => True) o

theorem Reads.act {o : Obj} (h : Reads d o) (m : Mode) (hm : m.d = d) (pn : Str) : T d O (o.act m pn) (E d) := h m pn hm fun _ => trivial

theorem applyNameonly_false (o : Obj) (m : Mode) (pn : Str) : applyNameonly false o m pn = o.act m pn := by
  simp [applyNameonly]

/-- Where a format may be when the template is at `s`: after a value, anywhere outside quotes. -/
def pos (d : Dialect) (s x : At) : Prop := if s = .after then E d x else x = s

theorem pos_after {x : At} (h : E d x) : pos d .after x := by unfold pos; rw [if_pos rfl]; exact h
theorem pos_self {s x : At} (hs : s ≠ .after) (h : pos d s x) : x = s := by unfold pos at h; rwa [if_neg hs] at h

theorem printSegs_reads (m : Mode) (hm : m.d = d) (vals : List Obj) (hv : ∀ o ∈ vals, Reads d o) (ts : List Spec.TPart)
    (hw : Spec.WellFormed ts) (s e : At) (hf : s.fine d) (he : walkT d s ts = some e) (hend : e.ended = true) (i : Nat) (ords : List Str) (x : At)
    (hx : pos d s x) :
    ∃ y, walk d x (effects (printSegs m vals i ords (ts.map partSeg)).code) = some y ∧ E d y := by
  induction ts generalizing s i ords x with
  | nil =>
    have hse : s = e := by injection he
    refine ⟨x, rfl, ?_⟩
    by_cases hs : s = .after
    · unfold pos at hx; rwa [if_pos hs] at hx
    · rw [pos_self hs hx]; exact ⟨hse ▸ hend, hf⟩
  | cons t ts ih =>
    have hw' : Spec.WellFormed ts := fun nm h => hw nm (List.mem_cons_of_mem _ h)
    -- what is left after a value
    have value : ∀ (v : Obj) (pn : Str) (i : Nat) (ords : List Str), v ∈ vals → s = .plain → walkT d .after ts = some e →
        ∃ y, walk d x (effects (v.act m pn ⨟ printSegs m vals i ords (ts.map partSeg)).code) = some y ∧ E d y := by
      intro v pn i ords hvm hs hr
      subst hs
      have hxp : x = .plain := pos_self (by simp) hx
      obtain ⟨y, h1, h2, -⟩ := (hv v hvm).act m hm pn x hxp
      unfold W.seq
      split
      · obtain ⟨z, h3, h4⟩ := ih hw' .after trivial hr i ords y (pos_after h2)
        exact ⟨z, by rw [effects_append, walk_append, h1]; exact h3, h4⟩
      · exact ⟨y, h1, h2⟩
    have failed : ∀ msg : Str, s = .plain → ∃ y, walk d x (effects (W.fail msg).code) = some y ∧ E d y := by
      intro msg hs
      subst hs
      exact ⟨x, rfl, by rw [pos_self (by simp) hx]; exact ⟨rfl, trivial⟩⟩
    cases t with
    | text c =>
      rw [walkT] at he
      cases hst : step d s (.ch c) with
      | none => rw [hst] at he; cases he
      | some s1 =>
        rw [hst] at he
        have hx1 : step d x (.ch c) = some s1 ∧ s1 ≠ .after := by
          by_cases hs : s = .after
          · subst hs
            unfold pos at hx
            rw [if_pos rfl] at hx
            rw [step] at hst
            split at hst
            · rename_i hc
              cases hst
              exact ⟨step_gap hc.1 hc.2 hx, by simp⟩
            · cases hst
          · rw [pos_self hs hx]
            refine ⟨hst, ?_⟩
            intro h
            subst h
            cases s <;> simp only [step, free] at hst
            · split at hst
              · cases hst
              · split at hst <;> cases hst
            · split at hst <;> cases hst
            · split at hst
              · cases hst
              · split at hst
                · cases hst
                · split at hst <;> cases hst
            · exact hs rfl
        obtain ⟨y, h1, h2⟩ := ih hw' s1 (step_fine hf hst) he i ords s1 (by unfold pos; rw [if_neg hx1.2])
        refine ⟨y, ?_, h2⟩
        rw [List.map_cons]
        show walk d x (effects (W.wr [c] ⨟ printSegs m vals i ords (ts.map partSeg)).code) = some y
        unfold W.seq
        show walk d x (effects ([.text [c]] ++ (printSegs m vals i ords (ts.map partSeg)).code)) = some y
        rw [effects_append, walk_append]
        show (walk d x [.ch c]).bind _ = _
        rw [walk, hx1.1]
        exact h1
    | next =>
      have he : (if s = .plain then walkT d .after ts else none) = some e := he
      split at he
      · rename_i hs
        rw [List.map_cons]
        simp only [partSeg, printSegs, splitColon, W.ofRes, List.any_nil, applyNameonly_false, if_true]
        split
        · exact failed _ hs
        · rename_i v hv'
          exact value v _ _ _ (List.mem_of_getElem? hv') hs he
      · cases he
    | ref nm =>
      have hnm := hw nm (by simp)
      have he : (if s = .plain then walkT d .after ts else none) = some e := he
      split at he
      · rename_i hs
        rw [List.map_cons]
        simp only [partSeg, printSegs, splitColon_none nm hnm.2.2.2, W.ofRes, List.any_nil, applyNameonly_false, hnm.1, if_false]
        split
        · split
          · exact failed _ hs
          · split
            · exact failed _ hs
            · rename_i v hv'
              exact value v _ _ _ (List.mem_of_getElem? hv') hs he
        · split
          · exact failed _ hs
          · rename_i v hv'
            exact value v _ _ _ (lookupName_mem vals nm v hv').1 hs he
      · cases he

/-- A format printed after something. -/
theorem bprintf_reads_after (m : Mode) (hm : m.d = d) (ts : List Spec.TPart) (hw : Spec.WellFormed ts) (vals : List Obj)
    (hv : ∀ o ∈ vals, Reads d o) (e : At) (he : walkT d .after ts = some e) (hend : e.ended = true) :
    T d (E d) (bprintf m (Spec.write ts) vals) (E d) := by
  intro x hx
  unfold bprintf
  rw [parse_write ts hw]
  obtain ⟨y, h1, h2⟩ := printSegs_reads m hm vals hv ts hw .after e trivial he hend 0 [] x (pos_after hx)
  exact ⟨y, h1, h2, fun _ => h2⟩

theorem bprintf_reads (m : Mode) (hm : m.d = d) (fmt : Str) (vals : List Obj) (hv : ∀ o ∈ vals, Reads d o) (hf : Format d fmt) :
    T d O (bprintf m fmt vals) (E d) := by
  obtain ⟨ts, hw, rfl, e, he, hend⟩ := hf
  rintro x rfl
  unfold bprintf
  rw [parse_write ts hw]
  obtain ⟨y, h1, h2⟩ := printSegs_reads m hm vals hv ts hw .plain e trivial he hend 0 [] .plain (by unfold pos; rw [if_neg (by simp)])
  exact ⟨y, h1, h2, fun _ => h2⟩

/-! ### Combinators -/

theorem sepBy_reads (sep : Str) (hs : T d (E d) (.wr sep) O) (ws : List W) (h : ∀ w ∈ ws, T d O w (E d)) : T d O (sepBy sep ws) (E d) := by
  induction ws with
  | nil => exact (T.ok oo).post
  | cons w ws ih =>
    cases ws with
    | nil => exact h w (by simp)
    | cons w' ws => exact (h w (by simp)).seq (hs.seq (ih fun x hx => h x (List.mem_cons_of_mem _ hx)))

theorem seqAll_reads (ws : List W) (h : ∀ w ∈ ws, T d (E d) w (E d)) : T d (E d) (seqAll ws) (E d) := by
  induction ws with
  | nil => exact T.ok ee
  | cons w ws ih => exact (h w (by simp)).seq (ih fun x hx => h x (List.mem_cons_of_mem _ hx))

theorem comma : T d (E d) (.wr ", ") O := wr_gap _ _ (by decide) (by decide)
theorem space : T d (E d) (.wr " ") O := wr_gap _ _ (by decide) (by decide)

theorem quoted (x : Str) : T d O (.wr (quoteIdentifier d x)) (E d) := wr_raw (raw_quoteIdentifier x)

/-- A qualified name. -/
theorem qualified (x y : Str) : T d O (.wr (quoteIdentifier d x ++ ".".toList ++ quoteIdentifier d y)) (E d) := by
  have hx : ∃ s, walk d .plain ((quoteIdentifier d x ++ ".".toList).map .ch) = some .plain ∧ s = At.plain := by
    refine ⟨_, ?_, rfl⟩
    rw [List.map_append, walk_append]
    rcases walk_quoteIdentifier (d := d) x with h | ⟨q, hq, h⟩
    · rw [h]; exact walk_calm _ (by decide)
    · rw [h, Option.bind_some]
      have hne : '.' ≠ close q := by
        unfold opens at hq
        unfold close
        rcases hq with rfl | rfl | ⟨rfl, -⟩ | ⟨rfl, -⟩ <;> decide
      show walk d (.closed q) [.ch '.'] = some .plain
      rw [walk, step, if_neg hne, free_calm (by decide)]
      rfl
  obtain ⟨_, hx, -⟩ := hx
  obtain ⟨s, h1, h2⟩ := raw_quoteIdentifier (d := d) y
  refine wr_raw ⟨s, ?_, h2⟩
  rw [List.map_append, walk_append, hx]
  exact h1

theorem chooseFormat_mem {formats : List (Str × Str)} {f : Str} (hcf : chooseFormat d formats = some f) : ∃ p ∈ formats, p.2 = f := by
  have aux : ∀ (l : List (Str × Str)) (r : Option Str) (k : Str) (v : Str),
      l.foldl (fun r p => if p.1 = k then some p.2 else r) r = some v → r = some v ∨ ∃ p ∈ l, p.2 = v := by
    intro l
    induction l with
    | nil => intro r k v h; exact Or.inl h
    | cons a l ihl =>
      intro r k v h
      simp only [List.foldl_cons] at h
      rcases ihl _ _ _ h with h | ⟨p, hp, hv⟩
      · split at h
        · right; simp at h; exact ⟨a, by simp, h⟩
        · exact Or.inl h
      · right; exact ⟨p, by simp [hp], hv⟩
  unfold chooseFormat at hcf
  simp only at hcf
  split at hcf
  · simp at hcf
  · rename_i dflt hd1
    split at hcf
    · rename_i f2 hd2
      simp at hcf; subst hcf
      rcases aux _ _ _ _ hd2 with h | h
      · simp at h
      · exact h
    · simp at hcf; subst hcf
      rcases aux _ _ _ _ hd1 with h | h
      · simp at h
      · exact h

theorem emit_ph (i : Instr) (h : effects [i] = [.ph]) : T d O (.emit i) (E d) := by
  rintro x rfl
  exact ⟨.after, by rw [show (W.emit i).code = [i] from rfl, h]; rfl, ⟨rfl, trivial⟩, fun _ => ⟨rfl, trivial⟩⟩

/-! ### The renderer -/

theorem explodeSlice_reads (m : Mode) (hm : m.d = d) (os : List Obj) (h : ∀ o ∈ os, Reads d o) : T d O (explodeSlice m os) (E d) := by
  refine sepBy_reads _ comma _ fun w hw => ?_
  obtain ⟨o, ho, rfl⟩ := List.mem_map.1 hw
  unfold explodeElem
  split
  · exact (h o ho).act _ (by exact hm) _
  · exact emit_ph _ rfl

theorem namedArg_reads (m : Mode) (n : Str) (v : Scalar) : T d O (namedArgAppend m n v) (E d) := by
  unfold namedArgAppend
  split
  · exact T.fail oo _
  split
  · exact T.fail oo _
  split
  · exact T.fail oo _
  · exact emit_ph _ rfl

theorem param_reads (m : Mode) (hm : m.d = d) (n : Str) (v : Obj) (hv : Reads d v) : T d O (paramAppend m n v) (E d) := by
  unfold paramAppend
  split
  · exact T.fail oo _
  split
  · exact hv.act _ (by exact hm) _
  · split
    · exact hv.act _ (by exact hm) _
    · exact emit_ph _ rfl

theorem raw_columnName (m : Mode) (hm : m.d = d) (fi : FInfo) : T d O (.wr (columnName m fi)) (E d) := by
  unfold columnName
  dsimp only
  rw [hm]
  generalize (if fi.tableAlias = [] then fi.tableName else fi.tableAlias) = q
  split
  · exact quoted _
  · exact qualified _ _

theorem wr_suffix (fi : FInfo) : T d (E d) (.wr (fieldSuffix d fi)) (E d) := by
  unfold fieldSuffix
  refine (T.wr_append (B := E d) (T.wr_append (B := E d) ?_ ?_) ?_)
  · split
    · exact wr_nil ee
    · refine T.wr_append (wr_gap _ _ (by decide) (by decide)) ?_
      split
      · rename_i h
        subst h
        exact wr_raw ⟨_, walk_quote '"' _ (by simp [opens]), rfl⟩
      · exact quoted _
  · split
    · exact wr_nil ee
    · exact (wr_gap _ _ (by decide) (by decide)).post
    · exact (wr_gap _ _ (by decide) (by decide)).post
  · split
    · exact wr_nil ee
    · exact (wr_gap _ _ (by decide) (by decide)).post
    · exact (wr_gap _ _ (by decide) (by decide)).post

theorem fieldInfo_reads (m : Mode) (hm : m.d = d) (fi : FInfo) (vals : List Obj) (hv : ∀ o ∈ vals, Reads d o)
    (hf : ∀ p ∈ fi.formats, Format d p.2) : T d O (fieldInfoAppend m fi vals) (E d) := by
  unfold fieldInfoAppend
  split
  · exact T.fail oo _
  · refine T.seq (B := E d) ?_ (by rw [hm]; exact wr_suffix fi)
    split
    · split
      · exact T.fail oo _
      · rename_i f hc
        obtain ⟨p, hp, rfl⟩ := chooseFormat_mem hc
        exact bprintf_reads m hm _ _ hv (hf p hp)
    · exact raw_columnName m hm fi

theorem fields_reads (m : Mode) (hm : m.d = d) (fs : List Obj) (h : ∀ o ∈ fs, Reads d o) : T d O (fieldsAppend m fs) (E d) := by
  refine sepBy_reads _ comma _ fun w hw => ?_
  obtain ⟨o, ho, rfl⟩ := List.mem_map.1 hw
  exact (h o ho).act _ (by exact hm) _

theorem asAlias_reads (x : Str) : T d (E d) (asAlias d x) (E d) := by
  unfold asAlias
  split
  · exact T.ok ee
  · exact T.wr_append (wr_gap _ _ (by decide) (by decide)) (quoted _)

theorem aliasFields_reads (m : Mode) (hm : m.d = d) (fs : List Obj) (h : ∀ o ∈ fs, Reads d o) : T d O (aliasFieldsAppend m fs) (E d) := by
  refine sepBy_reads _ comma _ fun w hw => ?_
  obtain ⟨o, ho, rfl⟩ := List.mem_map.1 hw
  unfold aliasField
  split
  · exact (h o ho).act _ (by exact hm) _
  · rw [hm]
    exact ((h o ho).act _ (by exact hm) _).seq (asAlias_reads _)

theorem not_reads (c : Bool) : T d O (.when c (.wr "NOT ")) O := T.when oo _ (wr_calm _ (by decide))
theorem open_reads (c : Bool) : T d O (.when c (.wr "(")) O := T.when oo _ (wr_calm _ (by decide))
theorem shut_reads (c : Bool) : T d (E d) (.when c (.wr ")")) (E d) := T.when ee _ (wr_gap _ _ (by decide) (by decide)).post
theorem shut : T d (E d) (.wr ")") (E d) := (wr_gap _ _ (by decide) (by decide)).post

theorem customPred_reads (m : Mode) (hm : m.d = d) (neg : Bool) (fmt : Str) (vals : List Obj) (hv : ∀ o ∈ vals, Reads d o) (hf : Format d fmt) :
    T d O (customPredAppend m neg fmt vals) (E d) := (not_reads neg).seq (bprintf_reads m hm fmt vals hv hf)

theorem operand_reads (m : Mode) (hm : m.d = d) (o : Obj) (h : Reads d o) : T d O (operand m o) (E d) := by
  unfold operand
  split
  · exact T.fail oo _
  · exact h.act _ (by exact hm) _

theorem variadic_reads (m : Mode) (hm : m.d = d) (top isOr neg : Bool) (ps : List Obj) (h : ∀ o ∈ ps, Reads d o) :
    T d O (variadicAppend m top isOr neg ps) (E d) := by
  have sep : T d (E d) (.wr (if isOr then " OR " else " AND ")) O := by
    split <;> exact wr_gap _ _ (by decide) (by decide)
  unfold variadicAppend
  split
  · exact (T.ok oo).post
  · rename_i p
    refine (not_reads neg).seq ?_
    split
    · exact T.fail oo _
    · exact (open_reads _).seq (((h p (by simp)).act _ (by exact hm) _).seq (shut_reads _))
    · exact (h p (by simp)).act _ (by exact hm) _
  · refine (not_reads neg).seq ((open_reads _).seq (T.seq (B := E d) (sepBy_reads _ sep _ fun w hw => ?_) (shut_reads _)))
    obtain ⟨o, ho, rfl⟩ := List.mem_map.1 hw
    exact operand_reads m hm o (h o ho)

theorem caseArm_reads (m : Mode) (hm : m.d = d) (p : Obj × Obj) (h : Reads d p.1 ∧ Reads d p.2) : T d (E d) (caseArm m p) (E d) :=
  (wr_gap _ _ (by decide) (by decide)).seq ((h.1.act _ (by exact hm) _).seq ((wr_gap _ _ (by decide) (by decide)).seq (h.2.act _ (by exact hm) _)))

theorem elseEnd_reads (m : Mode) (hm : m.d = d) (fb : Obj) (h : Reads d fb) : T d (E d) (elseEnd m fb) (E d) :=
  (T.when ee _ ((wr_gap _ _ (by decide) (by decide)).seq (h.act _ (by exact hm) _))).seq (wr_gap _ _ (by decide) (by decide)).post

theorem predCases_reads (m : Mode) (hm : m.d = d) (cs : List (Obj × Obj)) (fb : Obj) (h : ∀ p ∈ cs, Reads d p.1 ∧ Reads d p.2) (hf : Reads d fb) :
    T d O (predCasesAppend m cs fb) (E d) := by
  refine (wr_calm _ (by decide)).post.seq (T.seq (B := E d) ?_ (T.seq (B := E d) (seqAll_reads _ fun w hw => ?_) (elseEnd_reads m hm fb hf)))
  · split
    · exact T.fail ee _
    · exact T.ok ee
  · obtain ⟨p, hp, rfl⟩ := List.mem_map.1 hw
    exact caseArm_reads m hm p (h p hp)

theorem simpleCases_reads (m : Mode) (hm : m.d = d) (e : Obj) (cs : List (Obj × Obj)) (fb : Obj) (he : Reads d e) (h : ∀ p ∈ cs, Reads d p.1 ∧ Reads d p.2)
    (hf : Reads d fb) : T d O (simpleCasesAppend m e cs fb) (E d) := by
  refine (wr_calm _ (by decide)).seq (T.seq (B := O) ?_ ((he.act _ (by exact hm) _).seq (T.seq (B := E d) (seqAll_reads _ fun w hw => ?_) (elseEnd_reads m hm fb hf))))
  · split
    · exact T.fail oo _
    · exact T.ok oo
  · obtain ⟨p, hp, rfl⟩ := List.mem_map.1 hw
    exact caseArm_reads m hm p (h p hp)

theorem rowValue_reads (m : Mode) (hm : m.d = d) (vs : List Obj) (h : ∀ o ∈ vs, Reads d o) : T d O (rowValueAppend m vs) (E d) :=
  (wr_calm _ (by decide)).seq ((fields_reads m hm vs h).seq shut)

theorem rowValues_reads (m : Mode) (hm : m.d = d) (rows : List (List Obj)) (h : ∀ r ∈ rows, ∀ o ∈ r, Reads d o) : T d O (rowValuesAppend m rows) (E d) := by
  refine sepBy_reads _ comma _ fun w hw => ?_
  obtain ⟨r, hr, rfl⟩ := List.mem_map.1 hw
  exact rowValue_reads _ (by exact hm) r (h r hr)

theorem assign_reads (m : Mode) (hm : m.d = d) (l r : Obj) (hl : Reads d l) (hr : Reads d r) : T d O (assignAppend m l r) (E d) := by
  refine (hl.act _ (by exact hm) _).seq ((wr_gap _ _ (by decide) (by decide)).seq ?_)
  split
  · exact (wr_calm _ (by decide)).seq ((hr.act _ (by exact hm) _).seq shut)
  · exact hr.act _ (by exact hm) _

theorem assigns_reads (m : Mode) (hm : m.d = d) (as : List (Obj × Obj)) (h : ∀ p ∈ as, Reads d p.1 ∧ Reads d p.2) : T d O (assignsAppend m as) (E d) := by
  refine sepBy_reads _ comma _ fun w hw => ?_
  obtain ⟨p, hp, rfl⟩ := List.mem_map.1 hw
  exact assign_reads _ (by exact hm) _ _ (h p hp).1 (h p hp).2

theorem table_reads (m : Mode) (hm : m.d = d) (schema name : Str) : T d O (tableAppend m schema name) (E d) := by
  unfold tableAppend
  rw [hm]
  split
  · exact quoted _
  · exact qualified _ _

theorem on_reads (m : Mode) (hm : m.d = d) (kw : Str) (hk : T d (E d) (.wr kw) O) (p : Obj) (h : Reads d p) (c : Bool) (meth : Meth) :
    T d (E d) (.when c (.wr kw ⨟ p.act { m with meth := meth } [])) (E d) :=
  T.when ee _ (hk.seq (h.act _ (by exact hm) _))

theorem window_reads (m : Mode) (hm : m.d = d) (part order : List Obj) (frame : Str) (hf : Raw d frame) (h1 : ∀ o ∈ part, Reads d o)
    (h2 : ∀ o ∈ order, Reads d o) : T d O (windowAppend m part order frame) (E d) := by
  have f1 : T d O (fieldsAppend (m.call none []) part).ignoreErr (E d) := T.ignoreErr (fields_reads _ (by exact hm) part h1)
  have f2 : T d O (fieldsAppend (m.call none []) order).ignoreErr (E d) := T.ignoreErr (fields_reads _ (by exact hm) order h2)
  have hx : T d O (.when (part ≠ []) (.wr "PARTITION BY " ⨟ (fieldsAppend (m.call none []) part).ignoreErr)) (if part = [] then O else E d) := by
    by_cases hp : part = []
    · simp only [hp, W.when, ne_eq, not_true_eq_false, decide_false, if_true]; exact T.ok oo
    · simp only [hp, W.when, ne_eq, not_false_eq_true, decide_true, if_true, if_false]; exact (wr_calm _ (by decide)).seq f1
  have hy : T d (if part = [] then O else E d) (.when (order ≠ []) (.when (part ≠ []) (.wr " ") ⨟ .wr "ORDER BY " ⨟
      (fieldsAppend (m.call none []) order).ignoreErr)) (if part = [] ∧ order = [] then O else E d) := by
    by_cases hp : part = [] <;> by_cases ho : order = [] <;>
      simp only [hp, ho, W.when, ne_eq, not_true_eq_false, not_false_eq_true, decide_false, decide_true, if_true, if_false, and_self, and_false,
        false_and, and_true]
    · exact T.ok oo
    · exact (T.ok oo).seq ((wr_calm _ (by decide)).seq f2)
    · exact T.ok ee
    · exact space.seq ((wr_calm _ (by decide)).seq f2)
  have hz : T d (if part = [] ∧ order = [] then O else E d) (.when (frame ≠ []) (.when (part ≠ [] || order ≠ []) (.wr " ") ⨟ .wr frame)) (E d) := by
    by_cases hfr : frame = []
    · simp only [hfr, W.when, ne_eq, not_true_eq_false, decide_false, if_false]
      split
      · exact (T.ok oo).post
      · exact T.ok ee
    · by_cases hpo : part = [] ∧ order = []
      · simp only [hfr, hpo.1, hpo.2, W.when, ne_eq, not_true_eq_false, not_false_eq_true, decide_false, decide_true, if_true, Bool.or_self, and_self]
        exact (T.ok oo).seq (wr_raw hf)
      · have : (decide (part ≠ []) || decide (order ≠ [])) = true := by
          simp only [Bool.or_eq_true, decide_eq_true_eq]
          by_cases hp : part = []
          · exact Or.inr fun ho => hpo ⟨hp, ho⟩
          · exact Or.inl hp
        simp only [this, hpo, W.when, hfr, ne_eq, not_false_eq_true, decide_true, if_true, if_false]
        exact space.seq (wr_raw hf)
  exact (wr_calm _ (by decide)).seq (hx.seq (hy.seq (hz.seq shut)))

theorem join_reads (m : Mode) (hm : m.d = d) (jt : Str) (tbl on : Obj) (hj : Raw d jt) (h1 : Reads d tbl) (h2 : Reads d on) :
    T d O (joinAppend m jt tbl on) (E d) := by
  unfold joinAppend
  have hj' : Raw d (if jt = [] then "JOIN".toList else jt) := by
    split
    · exact ⟨.plain, walk_calm _ (by decide), rfl⟩
    · exact hj
  generalize (if jt = [] then "JOIN".toList else jt) = j at hj'
  dsimp only
  split
  · exact T.fail oo _
  split
  · exact T.fail oo _
  · refine T.seq (T.wr_append (wr_raw hj') space) (T.seq (B := E d) ?_ (T.seq (B := E d) (by rw [hm]; exact asAlias_reads _) ?_))
    · split
      · exact T.fail oo _
      · exact h1.act _ (by exact hm) _
    · exact T.when ee _ ((wr_gap _ _ (by decide) (by decide)).seq (h2.act _ (by exact hm) _))

theorem joins_reads (m : Mode) (hm : m.d = d) (js : List Obj) (h : ∀ o ∈ js, Reads d o) : T d O (joinsAppend m js) (E d) := by
  refine sepBy_reads _ space _ fun w hw => ?_
  obtain ⟨o, ho, rfl⟩ := List.mem_map.1 hw
  exact (h o ho).act _ (by exact hm) _

theorem wr_joinStr (xs : List Str) (h : ∀ x ∈ xs, Raw d x) : T d O (.wr (joinStr ", " xs)) (E d) := by
  induction xs with
  | nil => exact (wr_nil oo).post
  | cons x xs ih =>
    cases xs with
    | nil => exact wr_raw (h x (by simp))
    | cons y ys => exact ((wr_raw (h x (by simp))).wr_append comma).wr_append (ih fun z hz => h z (List.mem_cons_of_mem _ hz))

theorem parens_joinStr (xs : List Str) (h : ∀ x ∈ xs, Raw d x) : T d (E d) (.wr (" (".toList ++ joinStr ", " xs ++ ")".toList)) (E d) :=
  ((wr_gap _ _ (by decide) (by decide)).wr_append (wr_joinStr xs h)).wr_append shut

theorem cteRef_reads (c : CteMeta) (h : Raw d c.name) : T d O (cteRefAppend c) (E d) := by
  unfold cteRefAppend
  split
  · exact T.fail oo _
  split
  · exact T.fail oo _
  · exact wr_raw h

theorem cteDef_reads (m : Mode) (hm : m.d = d) (c : CteMeta) (q : Obj) (h : Raw d c.name) (hn : ∀ x ∈ c.fieldNames, Raw d x) (hq : Reads d q) :
    T d O (cteDefAppend m c q) (E d) := by
  unfold cteDefAppend
  split
  · exact T.fail oo _
  split
  · exact T.fail oo _
  · refine T.seq (wr_raw h) (T.seq (B := E d) (T.when ee _ (parens_joinStr _ hn)) (T.seq (B := O) (wr_gap _ _ (by decide) (by decide)) (T.seq (B := O) ?_
      (T.seq (B := O) (wr_calm _ (by decide)) (T.seq (B := E d) ?_ shut)))))
    · split
      · exact wr_calm _ (by decide)
      · exact wr_calm _ (by decide)
      · exact T.ok oo
    · split
      · exact T.fail oo _
      · exact hq.act _ (by exact hm) _
      · exact hq.act _ (by exact hm) _

theorem ctes_reads (m : Mode) (hm : m.d = d) (cs : List Obj) (h : ∀ o ∈ cs, Reads d o) : T d O (ctesAppend m cs) O := by
  refine T.seq (B := O) ?_ (T.seq (B := E d) (sepBy_reads _ comma _ fun w hw => ?_) space)
  · split <;> exact wr_calm _ (by decide)
  · obtain ⟨o, ho, rfl⟩ := List.mem_map.1 hw
    exact (h o ho).act _ (by exact hm) _

theorem subquery_reads (m : Mode) (hm : m.d = d) (st : Option Str) (a : Str) (q : Obj) (h : Reads d q) : T d O (subqueryAppend m st a q) (E d) := by
  unfold subqueryAppend
  split
  · exact T.fail oo _
  · refine T.seq (B := O) (wr_calm _ (by decide)) ((h.act _ (by exact hm) _).seq (shut.seq ?_))
    split
    · exact T.fail ee _
    · exact T.ok ee

theorem checkedField_reads (m : Mode) (hm : m.d = d) (sub : Bool) (avail : List Str) (fi : FInfo) (hf : ∀ p ∈ fi.formats, Format d p.2) :
    T d O (checkedFieldAppend m sub avail fi) (E d) := by
  unfold checkedFieldAppend
  split
  · exact T.fail oo _
  split
  · exact T.fail oo _
  · exact fieldInfo_reads _ (by exact hm) fi [] (by simp) hf

theorem variadicQuery_reads (m : Mode) (hm : m.d = d) (top : Bool) (op : Str) (qs : List Obj) (ho : Raw d op) (h : ∀ o ∈ qs, Reads d o) :
    T d O (variadicQueryAppend m top op qs) (E d) := by
  have ho' : Raw d (if op = [] then "UNION".toList else op) := by
    split
    · exact ⟨.plain, walk_calm _ (by decide), rfl⟩
    · exact ho
  unfold variadicQueryAppend
  generalize (if op = [] then "UNION".toList else op) = o at ho'
  dsimp only
  split
  · exact (T.ok oo).post
  · rename_i q
    split
    · exact T.fail oo _
    · exact (h q (by simp)).act _ (by exact hm) _
    · exact (h q (by simp)).act _ (by exact hm) _
  · refine (open_reads _).seq (T.seq (B := E d) (sepBy_reads _ ?_ _ fun w hw => ?_) (shut_reads _))
    · exact (space.wr_append (wr_raw ho')).wr_append space
    · obtain ⟨q, hq, rfl⟩ := List.mem_map.1 hw
      unfold vqOperand
      split
      · exact T.fail oo _
      · exact (h q hq).act _ (by exact hm) _
      · exact (h q hq).act _ (by exact hm) _

theorem limit_reads (m : Mode) (hm : m.d = d) (kw : Str) (hk : kw = "LIMIT" ∨ kw = "OFFSET") (n : Option Int) : T d (E d) (limitAppend m kw n) (E d) := by
  unfold limitAppend
  split
  · exact T.ok ee
  · rename_i i
    have key : ∀ vals : List Obj, (∀ o ∈ vals, Reads d o) → T d (E d) (bprintf m (' ' :: kw ++ " {}".toList) vals) (E d) := by
      intro vals hv
      rcases hk with rfl | rfl
      · exact bprintf_reads_after m hm (" LIMIT ".toList.map .text ++ [.next]) (by intro nm hnm; simp at hnm) _ hv .after (by cases d <;> decide) rfl
      · exact bprintf_reads_after m hm (" OFFSET ".toList.map .text ++ [.next]) (by intro nm hnm; simp at hnm) _ hv .after (by cases d <;> decide) rfl
    refine key _ ?_
    intro o ho
    rw [List.mem_singleton] at ho
    subst ho
    intro m pn _ _
    exact emit_ph _ rfl

theorem predClause_reads (m : Mode) (hm : m.d = d) (kw : Str) (hk : T d (E d) (.wr kw) O) (p : Obj) (h : Reads d p) :
    T d (E d) (predClause m kw p) (E d) := T.when ee _ (hk.seq (h.act _ (by exact hm) _))

theorem where_kw : T d (E d) (.wr " WHERE ") O := wr_gap _ _ (by decide) (by decide)

theorem whereWithHooks_reads (m : Mode) (hm : m.d = d) (hooks : List Obj) (own : Obj) (h : Reads d own) (hh : ∀ o ∈ hooks, Reads d o) :
    T d (E d) (whereWithHooks m hooks own) (E d) := by
  unfold whereWithHooks
  split
  · refine where_kw.seq (variadic_reads m hm _ _ _ _ ?_)
    intro o ho
    rcases List.mem_append.1 ho with ho | ho
    · exact hh o ho
    · rw [List.mem_singleton] at ho; subst ho; exact h
  · exact predClause_reads m hm _ where_kw _ h

theorem tableRef_reads (m : Mode) (hm : m.d = d) (t : Obj) (h : Reads d t) : T d O (tableRef m t) (E d) := by
  unfold tableRef
  rw [hm]
  exact (h.act _ (by exact hm) _).seq (asAlias_reads _)

theorem truePred_reads : Reads d truePred := by
  intro m pn hm _
  refine customPred_reads m.std (by exact hm) false _ [] (by simp) ⟨"TRUE".toList.map .text, by intro nm hnm; simp at hnm, by decide, ?_⟩
  exact ⟨.plain, by cases d <;> decide, rfl⟩

theorem hooks_reads (env : Env) (ts : List PV) (f : List Obj → W) (hh : ∀ t ∈ ts, GoodHook (fun w => T d O w (E d)) d (fun _ => True) t.hook)
    (hf : ∀ os, (∀ o ∈ os, Reads d o) → T d (E d) (f os) (E d)) : T d (E d) (W.ofRes (collectHooks env ts) f) (E d) :=
  T.ofRes ee _ _ fun os hos => hf os (collectHooks_good env ts os hh hos)

theorem clause_reads (kw : Str) (hk : T d (E d) (.wr kw) O) (fs : List Obj) (w : W) (h : T d O w (E d)) : T d (E d) (clause kw fs w) (E d) :=
  T.when ee _ (hk.seq h)

abbrev HookReads (d : Dialect) (h : Env → HookRes) : Prop := GoodHook (fun w => T d O w (E d)) d (fun _ => True) h

theorem select_reads (m : Mode) (hm : m.d = d) (q : SelMeta) (ctes fields don : List Obj) (fr : PV) (js : List PV) (wh : Obj) (gb : List Obj)
    (hv : Obj) (ob : List Obj) (h1 : ∀ o ∈ ctes, Reads d o) (h2 : ∀ o ∈ fields, Reads d o) (h3 : ∀ o ∈ don, Reads d o)
    (h4 : Reads d fr.toObj ∧ HookReads d fr.hook) (h5 : ∀ t ∈ js, Reads d t.toObj ∧ HookReads d t.hook) (h6 : Reads d wh)
    (h7 : ∀ o ∈ gb, Reads d o) (h8 : Reads d hv) (h9 : ∀ o ∈ ob, Reads d o) : T d O (selectAppend m q ctes fields don fr js wh gb hv ob) (E d) := by
  unfold selectAppend
  simp only
  refine T.seq (B := O) (T.when oo _ (ctes_reads _ (by exact hm) _ h1)) (T.seq (B := O) (wr_calm _ (by decide)) (T.seq (B := O) ?_ (T.seq (B := E d) ?_
    (T.seq (B := E d) (T.when ee _ ((wr_gap _ _ (by decide) (by decide)).seq (tableRef_reads _ (by exact hm) _ h4.1))) (T.seq (B := E d)
    (T.when ee _ (T.seq (B := O) ?_ (joins_reads _ (by exact hm) _ ?_))) (T.seq (B := E d) ?_ (T.seq (B := E d)
    (clause_reads _ (wr_gap _ _ (by decide) (by decide)) _ _ (fields_reads _ (by exact hm) _ h7)) (T.seq (B := E d)
    (predClause_reads _ (by exact hm) _ (wr_gap _ _ (by decide) (by decide)) _ h8) (T.seq (B := E d)
    (clause_reads _ (wr_gap _ _ (by decide) (by decide)) _ _ (fields_reads _ (by exact hm) _ h9)) (T.seq (B := E d)
    (limit_reads _ (by exact hm) _ (Or.inl rfl) _) (limit_reads _ (by exact hm) _ (Or.inr rfl) _)))))))))))
  · split
    · split
      · exact T.fail oo _
      split
      · exact T.fail oo _
      · exact (wr_calm _ (by decide)).seq ((fields_reads _ (by exact hm) _ h3).seq (wr_gap _ _ (by decide) (by decide)))
    · exact T.when oo _ (wr_calm _ (by decide))
  · split
    · exact T.fail oo _
    · exact aliasFields_reads _ (by exact hm) _ h2
  · split
    · exact T.fail ee _
    · exact space
  · intro o ho
    obtain ⟨t, ht, rfl⟩ := List.mem_map.1 ho
    exact (h5 t ht).1
  · refine hooks_reads _ _ _ ?_ ?_
    · intro t ht
      rcases List.mem_cons.1 ht with rfl | ht
      · exact h4.2
      · exact (h5 t ht).2
    · intro os hos
      refine whereWithHooks_reads _ (by exact hm) _ _ ?_ hos
      split
      · exact withTrue_good _ h6
      · exact h6

theorem conflict_reads (m : Mode) (hm : m.d = d) (ex : List Str) (q : InsMeta) (cf : List Obj) (cp : Obj)
    (res : List (Obj × Obj)) (rp : Obj) (hc : Raw d q.conflictConstraint) (h1 : ∀ o ∈ cf, Reads d o) (h2 : Reads d cp)
    (h3 : ∀ p ∈ res, Reads d p.1 ∧ Reads d p.2) (h4 : Reads d rp) : T d (E d) (insertConflict m ex q cf cp res rp) (E d) := by
  have main : T d (E d) (if q.conflictConstraint = [] ∧ cf = [] ∧ q.doNothing = false then W.ok
    else
      .wr " ON CONFLICT" ⨟
      (if q.conflictConstraint ≠ [] then
        if m.d ≠ .postgres then .fail "ON CONFLICT ON CONSTRAINT not supported"
        else .wr (" ON CONSTRAINT ".toList ++ q.conflictConstraint)
       else .when (cf ≠ [])
        (.wr " (" ⨟ fieldsAppend { m with ex := ex } cf ⨟ .wr ")" ⨟
         .when (!cp.kind.isNil)
           (.wr " WHERE " ⨟ cp.act { m with ex := ex, meth := .top true } []))) ⨟
      (if res = [] ∨ q.doNothing = true then .wr " DO NOTHING"
       else
        .wr " DO UPDATE SET " ⨟ assignsAppend { m with ex := ex } res ⨟
        predClause m " WHERE " rp)) (E d) := by
    split
    · exact T.ok ee
    · refine T.seq (B := E d) (wr_gap _ _ (by decide) (by decide)).post (T.seq (B := E d) ?_ ?_)
      · split
        · split
          · exact T.fail ee _
          · exact (wr_gap _ _ (by decide) (by decide)).wr_append (wr_raw hc)
        · exact T.when ee _ (T.seq (B := O) (wr_gap _ _ (by decide) (by decide)) ((fields_reads _ (by exact hm) _ h1).seq (shut.seq
            (T.when ee _ (where_kw.seq (h2.act _ (by exact hm) _))))))
      · split
        · exact (wr_gap _ _ (by decide) (by decide)).post
        · exact T.seq (B := O) (wr_gap _ _ (by decide) (by decide)) ((assigns_reads _ (by exact hm) _ h3).seq (predClause_reads _ hm _ where_kw _ h4))
  unfold insertConflict
  split
  · rename_i hd; exact hd ▸ main
  · rename_i hd; exact hd ▸ main
  · exact T.when ee _ (T.seq (B := O) (wr_gap _ _ (by decide) (by decide)) (assigns_reads _ (by exact hm) _ h3))
  · exact T.ok ee

theorem returning_reads (m : Mode) (hm : m.d = d) (fs : List Obj) (h : ∀ o ∈ fs, Reads d o) : T d (E d) (returningAppend m fs) (E d) := by
  refine T.when ee _ ?_
  split
  · exact T.fail ee _
  · exact T.seq (B := O) (wr_gap _ _ (by decide) (by decide)) (aliasFields_reads _ hm _ h)

theorem insert_reads (m : Mode) (hm : m.d = d) (q : InsMeta) (ctes : List Obj) (into : Obj)
    (columns : List Obj) (rows : List (List Obj)) (sets : List (Obj × Obj)) (sel : Obj) (cf : List Obj) (cp : Obj)
    (res : List (Obj × Obj)) (rp : Obj) (ret : List Obj)
    (hc : Raw d q.conflictConstraint) (hra : Raw d q.rowAlias) (hca : ∀ x ∈ q.columnAliases, Raw d x)
    (h1 : ∀ o ∈ ctes, Reads d o) (h2 : Reads d into) (h3 : ∀ o ∈ columns, Reads d o)
    (h4 : ∀ r ∈ rows, ∀ o ∈ r, Reads d o) (h5 : ∀ p ∈ sets, Reads d p.1 ∧ Reads d p.2)
    (h6 : Reads d sel) (h7 : ∀ o ∈ cf, Reads d o) (h8 : Reads d cp)
    (h9 : ∀ p ∈ res, Reads d p.1 ∧ Reads d p.2) (h10 : Reads d rp) (h11 : ∀ o ∈ ret, Reads d o) :
    T d O (insertAppend m q ctes into columns rows sets sel cf cp res rp ret) (E d) := by
  unfold insertAppend
  simp only
  refine T.ofRes oo _ _ ?_
  rintro ⟨cols, rws⟩ hcr
  have hcr' : (∀ o ∈ cols, Reads d o) ∧ (∀ r ∈ rws, ∀ o ∈ r, Reads d o) := by
    unfold insertColumnsRows at hcr
    split at hcr
    · split at hcr
      · simp at hcr
      · split at hcr
        · simp at hcr
        · simp at hcr
          have hmem := columnInsert_mem (fun o : Obj => o.name) sets
          rw [hcr] at hmem
          refine ⟨?_, ?_⟩
          · intro o ho
            obtain ⟨p, hp, rfl⟩ := hmem.1 o ho
            exact (h5 p hp).1
          · intro r hr o ho
            obtain ⟨p, hp, rfl⟩ := hmem.2 r hr o ho
            exact (h5 p hp).2
    · simp at hcr
      obtain ⟨rfl, rfl⟩ := hcr
      exact ⟨h3, h4⟩
  simp only
  refine T.seq (B := O) (T.when oo _ (ctes_reads _ (by exact hm) _ h1)) (T.seq (B := O) ?_ (T.seq (B := E d) ?_ (T.seq (B := E d) ?_ (T.seq (B := E d)
    (T.when ee _ (T.seq (B := O) (wr_gap _ _ (by decide) (by decide)) ((fields_reads _ (by exact hm) _ hcr'.1).seq shut))) (T.seq (B := E d) ?_
    (T.seq (B := E d) (conflict_reads _ (by exact hm) _ _ _ _ _ _ hc h7 h8 h9 h10) (returning_reads _ (by exact hm) _ h11)))))))
  · split
    · split
      · exact T.fail oo _
      · exact wr_calm _ (by decide)
    · exact wr_calm _ (by decide)
  · split
    · exact T.fail oo _
    · exact h2.act _ (by exact hm) _
  · split
    · split
      · exact T.fail ee _
      · rw [hm]; exact (wr_gap _ _ (by decide) (by decide)).wr_append (quoted _)
    · exact T.ok ee
  · split
    · refine T.seq (B := O) (wr_gap _ _ (by decide) (by decide)) (T.seq (B := E d) (rowValues_reads _ (by exact hm) _ hcr'.2) (T.when ee _ ?_))
      split
      · exact T.fail ee _
      · exact T.seq (B := E d) ((wr_gap _ _ (by decide) (by decide)).wr_append (wr_raw hra)) (T.when ee _ (parens_joinStr _ hca))
    · split
      · exact space.seq (h6.act _ (by exact hm) _)
      · exact T.fail ee _

theorem update_reads (m : Mode) (hm : m.d = d) (q : ModMeta) (ctes : List Obj) (table from_ : PV) (joins : List PV)
    (assigns sets : List (Obj × Obj)) (wh : Obj) (ob ret : List Obj)
    (h1 : ∀ o ∈ ctes, Reads d o) (h2 : Reads d table.toObj) (h3 : Reads d from_.toObj) (h4 : ∀ j ∈ joins, Reads d j.toObj)
    (h5 : ∀ p ∈ assigns, Reads d p.1 ∧ Reads d p.2) (h6 : ∀ p ∈ sets, Reads d p.1 ∧ Reads d p.2)
    (h7 : Reads d wh) (h8 : ∀ o ∈ ob, Reads d o) (h9 : ∀ o ∈ ret, Reads d o) :
    T d O (updateAppend m q ctes table from_ joins assigns sets wh ob ret) (E d) := by
  unfold updateAppend
  simp only
  refine T.ofRes oo _ _ ?_
  intro as has
  have has' : ∀ p ∈ as, Reads d p.1 ∧ Reads d p.2 := by
    unfold updateAssignments at has
    split at has
    · split at has
      · simp at has
      · split at has
        · simp at has
        · simp at has; subst has; rw [columnUpdate_eq]; exact h6
    · simp at has; subst has; exact h5
  refine T.seq (B := O) (T.when oo _ (ctes_reads _ (by exact hm) _ h1)) (T.seq (B := O) (wr_calm _ (by decide)) (T.seq (B := E d) ?_ (T.seq (B := E d) ?_
    (T.seq (B := E d) (T.when ee _ (T.seq (B := O) (wr_gap _ _ (by decide) (by decide)) (assigns_reads _ (by exact hm) _ has'))) (T.seq (B := E d)
    (T.when ee _ ?_) (T.seq (B := E d) (T.when ee _ (T.seq (B := O) ?_ (joins_reads _ (by exact hm) _ ?_))) (T.seq (B := E d)
    (T.when ee _ (T.seq (B := O) (wr_gap _ _ (by decide) (by decide)) (assigns_reads _ (by exact hm) _ has'))) (T.seq (B := E d)
    (T.ofRes ee _ _ fun _ _ => T.ok ee) (T.seq (B := E d) (predClause_reads _ (by exact hm) _ where_kw _ h7) (T.seq (B := E d) (T.when ee _ ?_)
    (T.seq (B := E d) (T.when ee _ ?_) (T.seq (B := E d) (T.when ee _ ?_) (returning_reads _ (by exact hm) _ h9)))))))))))))
  · split
    · exact T.fail oo _
    · exact tableRef_reads _ (by exact hm) _ h2
  · split
    · exact T.fail ee _
    · exact T.ok ee
  · split
    · exact T.fail ee _
    · exact T.seq (B := O) (wr_gap _ _ (by decide) (by decide)) (tableRef_reads _ (by exact hm) _ h3)
  · split
    · exact T.fail ee _
    · exact space
  · intro o ho
    obtain ⟨t, ht, rfl⟩ := List.mem_map.1 ho
    exact h4 t ht
  · split
    · exact T.fail ee _
    · exact T.seq (B := O) (wr_gap _ _ (by decide) (by decide)) (fields_reads _ (by exact hm) _ h8)
  · split
    · exact T.fail ee _
    · exact limit_reads _ (by exact hm) _ (Or.inl rfl) _
  · split
    · exact T.fail ee _
    · exact limit_reads _ (by exact hm) _ (Or.inr rfl) _

theorem delete_reads (m : Mode) (hm : m.d = d) (q : ModMeta) (ctes : List Obj) (froms : List PV) (using_ : Obj) (joins : List Obj)
    (wh : Obj) (ob ret : List Obj) (hraw : d = .mysql → ∀ t ∈ froms, Raw d t.alias ∧ Raw d t.name)
    (h1 : ∀ o ∈ ctes, Reads d o) (h2 : ∀ t ∈ froms, Reads d t.toObj ∧ HookReads d t.hook) (h3 : Reads d using_) (h4 : ∀ o ∈ joins, Reads d o)
    (h5 : Reads d wh) (h6 : ∀ o ∈ ob, Reads d o) (h7 : ∀ o ∈ ret, Reads d o) :
    T d O (deleteAppend m q ctes froms using_ joins wh ob ret) (E d) := by
  unfold deleteAppend
  simp only
  refine T.seq (B := O) (T.when oo _ (ctes_reads _ (by exact hm) _ h1)) (T.seq (B := O) (wr_calm _ (by decide)) (T.seq (B := E d) ?_ (T.seq (B := E d)
    (T.when ee _ ?_) (T.seq (B := E d) (T.when ee _ ?_) (T.seq (B := E d) ?_ (T.seq (B := E d) (T.when ee _ ?_) (T.seq (B := E d) (T.when ee _ ?_)
    (T.seq (B := E d) (T.when ee _ ?_) (returning_reads _ (by exact hm) _ h7)))))))))
  · split
    · exact T.fail oo _
    · rename_i f rest
      split
      · rename_i hmy
        refine sepBy_reads _ comma _ fun w hw => ?_
        obtain ⟨t, ht, rfl⟩ := List.mem_map.1 hw
        split
        · exact T.panic oo
        · have hd : d = .mysql := hm ▸ hmy.2
          split
          · exact wr_raw (hraw hd t ht).2
          · exact wr_raw (hraw hd t ht).1
      split
      · exact T.fail oo _
      · exact tableRef_reads _ (by exact hm) _ (h2 f (by simp)).1
  · split
    · exact T.fail ee _
    · exact T.seq (B := O) (wr_gap _ _ (by decide) (by decide)) (tableRef_reads _ (by exact hm) _ h3)
  · split
    · exact T.fail ee _
    split
    · exact T.fail ee _
    · exact space.seq (joins_reads _ (by exact hm) _ h4)
  · refine hooks_reads _ _ _ (fun t ht => (h2 t ht).2) ?_
    intro os hos
    exact whereWithHooks_reads _ (by exact hm) _ _ h5 hos
  · split
    · exact T.fail ee _
    split
    · exact T.fail ee _
    · exact T.seq (B := O) (wr_gap _ _ (by decide) (by decide)) (fields_reads _ (by exact hm) _ h6)
  · split
    · exact T.fail ee _
    split
    · exact T.fail ee _
    · exact limit_reads _ (by exact hm) _ (Or.inl rfl) _
  · split
    · exact T.fail ee _
    · exact limit_reads _ (by exact hm) _ (Or.inr rfl) _

/-! ### Whole trees -/

/-- What is rendered reads. -/
abbrev L (d : Dialect) (w : W) : Prop := T d O w (E d)

mutual
theorem lexNode : (n : Node) → n.All (Tame d) → GoodNode (L d) d (fun _ => True) n
  | .nil, h => ⟨fun m pn hm hp => by simpa [obj, mkPV, ren] using emit_ph _ rfl, by simpa [obj, mkPV, hookOf] using goodHook_none⟩
  | .scalar a, h => ⟨fun m pn hm hp => by simpa [obj, mkPV, ren] using emit_ph _ rfl, by simpa [obj, mkPV, hookOf] using goodHook_none⟩
  | .slice id xs, h => by
    simp only [Node.All] at h
    have i := lexNodes xs h.2
    exact ⟨fun m pn hm hp => by simpa [obj, mkPV, ren] using explodeSlice_reads m hm _ i.objs, by simpa [obj, mkPV, hookOf] using goodHook_none⟩
  | .namedArg n v, h => by
    simp only [Node.All, Tame] at h
    exact ⟨fun m pn hm hp => by simpa [obj, mkPV, ren] using namedArg_reads m n v, by simpa [obj, mkPV, hookOf] using goodHook_none⟩
  | .param n v, h => by
    simp only [Node.All, Tame] at h
    have i := lexNode v h.2
    refine ⟨fun m pn hm hp => ?_, by simpa [obj, mkPV, hookOf] using goodHook_none⟩
    simp only [obj, mkPV, ren]
    exact param_reads m hm n _ i.1
  | .field fi raw neg vals, h => by
    simp only [Node.All, Tame] at h
    have i := lexNodes vals h.2
    refine ⟨fun m pn hm hp => ?_, by simpa [obj, mkPV, hookOf] using goodHook_none⟩
    simp only [obj, mkPV, ren]
    refine (not_reads _).seq (fieldInfo_reads _ ?_ _ _ i.objs h.1)
    split <;> exact hm
  | .checkedField sub avail fi, h => by
    simp only [Node.All, Tame] at h
    refine ⟨fun m pn hm hp => ?_, by simpa [obj, mkPV, hookOf] using goodHook_none⟩
    simp only [obj, mkPV, ren]
    exact checkedField_reads _ (by exact hm) _ _ _ h
  | .literal s a, h => ⟨fun m pn hm hp => by simpa [obj, mkPV, ren] using wr_raw (by simpa [Node.All, Tame] using h), by simpa [obj, mkPV, hookOf] using goodHook_none⟩
  | .value v a, h => by
    simp only [Node.All, Tame] at h
    have i := lexNode v h.2
    refine ⟨fun m pn hm hp => ?_, by simpa [obj, mkPV, hookOf] using goodHook_none⟩
    simp only [obj, mkPV, ren]
    exact i.1 _ _ hm (fun _ => trivial)
  | .cpred a fmt neg vals, h => by
    simp only [Node.All, Tame] at h
    have i := lexNodes vals h.2
    refine ⟨fun m pn hm hp => ?_, by simpa [obj, mkPV, hookOf] using goodHook_none⟩
    simp only [obj, mkPV, ren]
    exact customPred_reads _ (by exact hm) _ _ _ i.objs h.1
  | .vpred top a isOr neg ps, h => by
    simp only [Node.All, Tame] at h
    have i := lexNodes ps h.2
    refine ⟨fun m pn hm hp => ?_, by simpa [obj, mkPV, hookOf] using goodHook_none⟩
    simp only [obj, mkPV, ren]
    split
    · refine variadic_reads _ hm _ _ _ _ ?_
      intro o ho; simp at ho; subst ho; exact truePred_reads
    · exact variadic_reads _ hm _ _ _ _ i.objs
  | .predCases a cs fb, h => by
    simp only [Node.All, Tame] at h
    have i1 := lexPairsN cs h.2.1
    have i2 := lexNode fb h.2.2
    refine ⟨fun m pn hm hp => ?_, by simpa [obj, mkPV, hookOf] using goodHook_none⟩
    simp only [obj, mkPV, ren]
    exact predCases_reads _ (by exact hm) _ _ (goodPairs i1) i2.1
  | .simpleCases a e cs fb, h => by
    simp only [Node.All, Tame] at h
    have i0 := lexNode e h.2.1
    have i1 := lexPairsN cs h.2.2.1
    have i2 := lexNode fb h.2.2.2
    refine ⟨fun m pn hm hp => ?_, by simpa [obj, mkPV, hookOf] using goodHook_none⟩
    simp only [obj, mkPV, ren]
    exact simpleCases_reads _ (by exact hm) _ _ _ i0.1 (goodPairs i1) i2.1
  | .window part order frame, h => by
    simp only [Node.All, Tame] at h
    have i1 := lexNodes part h.2.1
    have i2 := lexNodes order h.2.2
    refine ⟨fun m pn hm hp => ?_, by simpa [obj, mkPV, hookOf] using goodHook_none⟩
    simp only [obj, mkPV, ren]
    exact window_reads _ (by exact hm) _ _ _ h.1 i1.objs i2.objs
  | .rowValue vs, h => by
    simp only [Node.All, Tame] at h
    have i := lexNodes vs h.2
    refine ⟨fun m pn hm hp => ?_, by simpa [obj, mkPV, hookOf] using goodHook_none⟩
    simp only [obj, mkPV, ren]
    exact rowValue_reads _ (by exact hm) _ i.objs
  | .rowValues rows, h => by
    simp only [Node.All, Tame] at h
    have i := lexNodess rows h.2
    refine ⟨fun m pn hm hp => ?_, by simpa [obj, mkPV, hookOf] using goodHook_none⟩
    simp only [obj, mkPV, ren]
    exact rowValues_reads _ (by exact hm) _ (goodRows i)
  | .assign l r, h => by
    simp only [Node.All, Tame] at h
    have i1 := lexNode l h.2.1
    have i2 := lexNode r h.2.2
    refine ⟨fun m pn hm hp => ?_, by simpa [obj, mkPV, hookOf] using goodHook_none⟩
    simp only [obj, mkPV, ren]
    exact assign_reads _ (by exact hm) _ _ i1.1 i2.1
  | .assigns as, h => by
    simp only [Node.All, Tame] at h
    have i := lexPairsN as h.2
    refine ⟨fun m pn hm hp => ?_, by simpa [obj, mkPV, hookOf] using goodHook_none⟩
    simp only [obj, mkPV, ren]
    exact assigns_reads _ (by exact hm) _ (goodPairs i)
  | .fields fs, h => by
    simp only [Node.All, Tame] at h
    have i := lexNodes fs h.2
    refine ⟨fun m pn hm hp => ?_, by simpa [obj, mkPV, hookOf] using goodHook_none⟩
    simp only [obj, mkPV, ren]
    exact fields_reads _ (by exact hm) _ i.objs
  | .table s n a hk hp, h => by
    simp only [Node.All, Tame] at h
    have i : ∀ env, GoodNode (L d) d (fun _ => True) (hp env) := fun env => lexNode (hp env) (h.2 env)
    refine ⟨fun m pn hm hp => ?_, ?_⟩
    · simp only [obj, mkPV, ren]
      exact table_reads _ hm _ _
    · intro env o ho
      simp only [obj, mkPV, hookOf] at ho
      split at ho
      · simp at ho
      · simp at ho
      · simp at ho; subst ho
        exact (i env).1
  | .customTable fmt vals, h => by
    simp only [Node.All, Tame] at h
    have i := lexNodes vals h.2
    refine ⟨fun m pn hm hp => ?_, by simpa [obj, mkPV, hookOf] using goodHook_none⟩
    simp only [obj, mkPV, ren]
    exact bprintf_reads _ (by exact hm) _ _ i.objs h.1
  | .join jt t o, h => by
    simp only [Node.All, Tame] at h
    have i1 := lexNode t h.2.1
    have i2 := lexNode o h.2.2
    refine ⟨fun m pn hm hp => ?_, ?_⟩
    · simp only [obj, mkPV, ren]
      exact join_reads _ (by exact hm) _ _ _ h.1 i1.1 i2.1
    · intro env o ho
      simp only [obj, mkPV, hookOf] at ho
      exact i1.2 env o ho
  | .cte c q, h => by
    simp only [Node.All, Tame] at h
    have i := lexNode q h.2
    refine ⟨fun m pn hm hp => ?_, by simpa [obj, mkPV, hookOf] using goodHook_none⟩
    simp only [obj, mkPV, ren]
    split
    · exact cteDef_reads _ (by exact hm) _ _ h.1.1 h.1.2 i.1
    · exact cteRef_reads _ h.1.1
  | .subquery st a q, h => by
    simp only [Node.All, Tame] at h
    have i := lexNode q h.2
    refine ⟨fun m pn hm hp => ?_, by simpa [obj, mkPV, hookOf] using goodHook_none⟩
    simp only [obj, mkPV, ren]
    exact subquery_reads _ (by exact hm) _ _ _ i.1
  | .vquery t o qs, h => by
    simp only [Node.All, Tame] at h
    have i := lexNodes qs h.2
    refine ⟨fun m pn hm hp => ?_, by simpa [obj, mkPV, hookOf] using goodHook_none⟩
    simp only [obj, mkPV, ren]
    exact variadicQuery_reads _ (by exact hm) _ _ _ h.1 i.objs
  | .customQuery dd fmt vals, h => by
    simp only [Node.All, Tame] at h
    have i := lexNodes vals h.2
    refine ⟨fun m pn hm hp => ?_, by simpa [obj, mkPV, hookOf] using goodHook_none⟩
    simp only [obj, mkPV, ren]
    exact bprintf_reads _ (by exact hm) _ _ i.objs h.1
  | .select q ctes fs don fr js wh gb hv ob, h => by
    simp only [Node.All, Tame] at h
    obtain ⟨_, h1, h2, h3, h4, h5, h6, h7, h8, h9⟩ := h
    have i1 := lexNodes ctes h1
    have i2 := lexNodes fs h2
    have i3 := lexNodes don h3
    have i4 := lexNode fr h4
    have i5 := lexNodes js h5
    have i6 := lexNode wh h6
    have i7 := lexNodes gb h7
    have i8 := lexNode hv h8
    have i9 := lexNodes ob h9
    refine ⟨fun m pn hm hp => ?_, by simpa [obj, mkPV, hookOf] using goodHook_none⟩
    simp only [obj, mkPV, ren]
    exact select_reads _ (by exact hm) _ _ _ _ _ _ _ _ _ _ i1.objs i2.objs i3.objs i4 i5.pvs i6.1 i7.objs i8.1 i9.objs
  | .insert q ctes into cols rows sets sel cf cp res rp ret, h => by
    simp only [Node.All, Tame] at h
    obtain ⟨h0, h1, h2, h3, h4, h5, h6, h7, h8, h9, h10, h11⟩ := h
    have i1 := lexNodes ctes h1
    have i2 := lexNode into h2
    have i3 := lexNodes cols h3
    have i4 := lexNodess rows h4
    have i5 := lexPairsN sets h5
    have i6 := lexNode sel h6
    have i7 := lexNodes cf h7
    have i8 := lexNode cp h8
    have i9 := lexPairsN res h9
    have i10 := lexNode rp h10
    have i11 := lexNodes ret h11
    refine ⟨fun m pn hm hp => ?_, by simpa [obj, mkPV, hookOf] using goodHook_none⟩
    simp only [obj, mkPV, ren]
    exact insert_reads _ (by exact hm) _ _ _ _ _ _ _ _ _ _ _ _ h0.1 h0.2.1 h0.2.2 i1.objs i2.1 i3.objs (goodRows i4) (goodPairs i5)
      i6.1 i7.objs i8.1 (goodPairs i9) i10.1 i11.objs 
  | .update q ctes tb fr js as sets wh ob ret, h => by
    simp only [Node.All, Tame] at h
    obtain ⟨h0, h1, h2, h3, h4, h5, h6, h7, h8, h9⟩ := h
    have i1 := lexNodes ctes h1
    have i2 := lexNode tb h2
    have i3 := lexNode fr h3
    have i4 := lexNodes js h4
    have i5 := lexPairsN as h5
    have i6 := lexPairsN sets h6
    have i7 := lexNode wh h7
    have i8 := lexNodes ob h8
    have i9 := lexNodes ret h9
    refine ⟨fun m pn hm hp => ?_, by simpa [obj, mkPV, hookOf] using goodHook_none⟩
    simp only [obj, mkPV, ren]
    exact update_reads _ (by exact hm) _ _ _ _ _ _ _ _ _ _ i1.objs i2.1 i3.1 (fun j hj => (i4.pvs j hj).1)
      (goodPairs i5) (goodPairs i6) i7.1 i8.objs i9.objs 
  | .delete q ctes frs us js wh ob ret, h => by
    simp only [Node.All, Tame] at h
    obtain ⟨h0, h1, h2, h3, h4, h5, h6, h7⟩ := h
    have i1 := lexNodes ctes h1
    have i2 := lexNodes frs h2
    have i3 := lexNode us h3
    have i4 := lexNodes js h4
    have i5 := lexNode wh h5
    have i6 := lexNodes ob h6
    have i7 := lexNodes ret h7
    refine ⟨fun m pn hm hp => ?_, by simpa [obj, mkPV, hookOf] using goodHook_none⟩
    simp only [obj, mkPV, ren]
    refine delete_reads _ (by exact hm) _ _ _ _ _ _ _ _ ?_ i1.objs i2.pvs i3.1 i4.objs i5.1 i6.objs i7.objs
    intro hd t ht
    simp only [objs_eq, List.mem_map] at ht
    obtain ⟨n, hn', rfl⟩ := ht
    exact h0 hd n hn'
  | .ext k a n act, h => by
    simp only [Node.All, Tame] at h
    refine ⟨fun m pn hm hp => ?_, by simpa [obj, mkPV, hookOf] using goodHook_none⟩
    simp only [obj, mkPV, ren]
    exact reading_T _ (h m.std hm).1

theorem lexNodes : (ns : List Node) → AllL (Tame d) ns → GoodNodes (L d) d (fun _ => True) ns
  | [], _ => by intro n hn; simp at hn
  | n :: ns, h => by
    simp only [AllL] at h
    have i1 := lexNode n h.1
    have i2 := lexNodes ns h.2
    intro x hx
    rcases List.mem_cons.1 hx with rfl | hx
    · exact i1
    · exact i2 x hx

theorem lexNodess : (rs : List (List Node)) → AllLL (Tame d) rs → ∀ r ∈ rs, GoodNodes (L d) d (fun _ => True) r
  | [], _ => by intro n hn; simp at hn
  | r :: rs, h => by
    simp only [AllLL] at h
    have i1 := lexNodes r h.1
    have i2 := lexNodess rs h.2
    intro x hx
    rcases List.mem_cons.1 hx with rfl | hx
    · exact i1
    · exact i2 x hx

theorem lexPairsN : (ps : List (Node × Node)) → AllP (Tame d) ps →
    ∀ p ∈ ps, GoodNode (L d) d (fun _ => True) p.1 ∧ GoodNode (L d) d (fun _ => True) p.2
  | [], _ => by intro n hn; simp at hn
  | (a, b) :: ps, h => by
    simp only [AllP] at h
    have i1 := lexNode a h.1
    have i2 := lexNode b h.2.1
    have i3 := lexPairsN ps h.2.2
    intro x hx
    rcases List.mem_cons.1 hx with rfl | hx
    · exact ⟨i1, i2⟩
    · exact i3 x hx
end


theorem ren_reads (n : Node) (h : n.All (Tame d)) (m : Mode) (hm : m.d = d) (pn : Str) : T d O (ren n m pn) (E d) :=
  (lexNode n h).1 m pn hm fun _ => trivial

end Sq.Lexical
