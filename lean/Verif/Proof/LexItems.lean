import Verif.Proof.Lexical
import Verif.Spec.Inline
/-
From a walk over what is written to the items of the text.
-/
namespace Sq.Lexical
open Sq.SqlText (opens sigil separator close NameOk Item ItemsOk Follows PhOk write double)

variable {d : Dialect}

/-! ### What is written, as effects -/

theorem pieces_append (a b : List Piece) : pieces (a ++ b) = pieces a ++ pieces b := by
  induction a with
  | nil => rfl
  | cons p ps ih => cases p <;> simp [pieces, ih]

theorem pieces_exec1 (i : Instr) (s : St) : pieces (exec1 d i s).out = pieces s.out ++ effects [i] := by
  cases i with
  | text t => simp [exec1, pieces_append, pieces, effects]
  | bind pn v =>
    simp only [exec1]
    split
    · split <;> simp [pieces_append, pieces, effects]
    · simp [pieces_append, pieces, effects]
  | named nm v =>
    simp only [exec1]
    split <;> simp [pieces_append, pieces, effects]
  | param nm v =>
    simp only [exec1]
    split
    · split <;> simp [pieces_append, pieces, effects]
    · simp [pieces_append, pieces, effects]
  | forget ns => simp [exec1, effects]

theorem pieces_exec (is : List Instr) (s : St) : pieces (exec d is s).out = pieces s.out ++ effects is := by
  induction is generalizing s with
  | nil => simp [exec, effects]
  | cons i is ih =>
    have : exec d (i :: is) s = exec d is (exec1 d i s) := rfl
    rw [this, ih, pieces_exec1, show i :: is = [i] ++ is from rfl, effects_append, List.append_assoc]

/-- The placeholders that can be written. -/
def PieceOk (d : Dialect) : Piece → Prop
  | .ph n => n < 2 ^ 63 ∧ numbered d = true
  | .anon => numbered d = false
  | .ref x => NamedOk d x
  | .text _ => True

theorem piece_placeholder {p : Piece} (h : PieceOk d p) (hp : ∀ t, p ≠ .text t) :
    ∃ sg r, Inline.placeholder d p = some (.ph sg r) ∧ PhOk d sg r := by
  cases p with
  | text t => exact absurd rfl (hp t)
  | ph n => exact ⟨_, _, rfl, h.1, by have := h.2; cases d <;> simp_all [numbered]⟩
  | anon => exact ⟨_, _, rfl, rfl, by rintro rfl; simp [PieceOk, numbered] at h⟩
  | ref x => exact ⟨_, _, rfl, h.2, by rcases h.1 with rfl | rfl <;> simp⟩

/-! ### Quoted text -/

theorem inside_splits (q : Char) (n : Nat) : ∀ (s : Str), s.length ≤ n → ∀ s' : At, walk d (.inside q) (s.map .ch) = some s' → s'.ended = true →
    ∃ body r, s = double (close q) body ++ [close q] ++ r ∧ r.head? ≠ some (close q) ∧ walk d (.closed q) (r.map .ch) = some s' ∧ r.length < s.length := by
  induction n with
  | zero =>
    intro s hs s' h he
    cases s with
    | nil => cases h; cases he
    | cons c cs => simp at hs
  | succ n ih =>
    intro s hs s' h he
    cases s with
    | nil => cases h; cases he
    | cons c cs =>
      simp only [List.length_cons, Nat.add_le_add_iff_right] at hs
      rw [List.map_cons, walk, step, Option.bind_some] at h
      split at h
      · rename_i hc
        cases cs with
        | nil => exact ⟨[], [], by rw [hc]; rfl, by simp, h, by simp⟩
        | cons c' cs =>
          by_cases hc' : c' = close q
          · have h' : walk d (.inside q) (cs.map .ch) = some s' := by
              rw [List.map_cons, walk, step, if_pos hc'] at h; exact h
            obtain ⟨body, r, e1, e2, e3, e4⟩ := ih cs (by simp at hs; omega) s' h' he
            refine ⟨close q :: body, r, ?_, e2, e3, by simp; omega⟩
            rw [hc, hc', e1]; simp [double]
          · exact ⟨[], c' :: cs, by rw [hc]; rfl, by simpa using hc', h, by simp⟩
      · rename_i hc
        obtain ⟨body, r, e1, e2, e3, e4⟩ := ih cs hs s' h he
        refine ⟨c :: body, r, ?_, e2, e3, by simp; omega⟩
        rw [e1]; simp [double, hc]

/-- After a quote that is really closed: as in ordinary text. -/
theorem closed_plain {q : Char} {r : Str} {s' : At} (hr : r.head? ≠ some (close q)) (h : walk d (.closed q) (r.map .ch) = some s') (he : s'.ended = true) :
    ∃ s'', walk d .plain (r.map .ch) = some s'' ∧ s''.ended = true := by
  cases r with
  | nil => exact ⟨.plain, rfl, rfl⟩
  | cons c cs =>
    refine ⟨s', ?_, he⟩
    rw [List.map_cons, walk, step, if_neg (by simpa using hr)] at h
    exact h

/-! ### A run of text -/

/-- The items are well-formed and separated from what follows them. -/
def OkThen (d : Dialect) : List Item → Str → Prop
  | [], _ => True
  | i :: is, rest => i.Ok d ∧ Follows d i (write d is ++ rest) ∧ OkThen d is rest

theorem okThen_append (js is : List Item) (h : OkThen d js (write d is)) (hi : ItemsOk d is) : ItemsOk d (js ++ is) := by
  induction js with
  | nil => exact hi
  | cons j js ih =>
    refine ⟨h.1, ?_, ih h.2.2⟩
    show Follows d j (write d (js ++ is))
    rw [show write d (js ++ is) = write d js ++ write d is from by simp [write]]
    exact h.2.1

/-- What is not a closing quote. -/
def NoCloser (d : Dialect) (rest : Str) : Prop := ∀ c, rest.head? = some c → ∀ q, opens d q → c ≠ close q

def Nonempty' : Item → Prop
  | .text s => s ≠ []
  | _ => True

theorem run_items (n : Nat) : ∀ (s : Str), s.length ≤ n → ∀ s' : At, walk d .plain (s.map .ch) = some s' → s'.ended = true →
    ∃ js, write d js = s ∧ (∀ j ∈ js, Inline.Item.isText j = true) ∧ (∀ j ∈ js, Nonempty' j) ∧ ∀ rest, NoCloser d rest → OkThen d js rest := by
  induction n with
  | zero =>
    intro s hs s' h he
    cases s with
    | nil => exact ⟨[], rfl, by simp, by simp, fun _ _ => trivial⟩
    | cons c cs => simp at hs
  | succ n ih =>
    intro s hs s' h he
    cases s with
    | nil => exact ⟨[], rfl, by simp, by simp, fun _ _ => trivial⟩
    | cons c cs =>
      simp only [List.length_cons, Nat.add_le_add_iff_right] at hs
      rw [List.map_cons, walk, step, free] at h
      split at h
      · rename_i ho
        obtain ⟨body, r, e1, e2, e3, e4⟩ := inside_splits c _ cs (Nat.le_refl _) s' h he
        obtain ⟨s'', e5, e6⟩ := closed_plain e2 e3 he
        obtain ⟨js, f1, f2, f3, f4⟩ := ih r (by omega) s'' e5 e6
        refine ⟨.quoted c body :: js, ?_, ?_, ?_, ?_⟩
        · simp only [write, List.flatMap_cons, Item.write] at f1 ⊢
          rw [f1, e1]; simp
        · intro j hj
          rcases List.mem_cons.1 hj with rfl | hj
          · rfl
          · exact f2 j hj
        · intro j hj
          rcases List.mem_cons.1 hj with rfl | hj
          · trivial
          · exact f3 j hj
        · intro rest hrest
          refine ⟨ho, ?_, f4 rest hrest⟩
          show (write d js ++ rest).head? ≠ some (close c)
          rw [f1]
          cases r with
          | nil => exact fun hh => hrest _ hh c ho rfl
          | cons a as => simpa using e2
      · rename_i ho
        split at h
        · cases h
        · rename_i hsg
          obtain ⟨js, f1, f2, f3, f4⟩ := ih cs hs s' h he
          refine ⟨.text [c] :: js, ?_, ?_, ?_, ?_⟩
          · simp only [write, List.flatMap_cons, Item.write] at f1 ⊢
            rw [f1]; rfl
          · intro j hj
            rcases List.mem_cons.1 hj with rfl | hj
            · rfl
            · exact f2 j hj
          · intro j hj
            rcases List.mem_cons.1 hj with rfl | hj
            · exact List.cons_ne_nil _ _
            · exact f3 j hj
          · intro rest hrest
            refine ⟨?_, trivial, f4 rest hrest⟩
            intro x hx
            rw [List.mem_singleton] at hx
            subst hx
            exact ⟨ho, hsg⟩

/-- What follows a placeholder. -/
def Sep (d : Dialect) (s : At) (t : Str) : Prop := s = .after → ∀ c, t.head? = some c → separator c ∧ ¬ sigil d c

theorem walk_after_plain {s : Str} {s' : At} (h : walk d .after (s.map .ch) = some s') :
    Sep d .after s ∧ (s = [] ∨ walk d .plain (s.map .ch) = some s') := by
  cases s with
  | nil => exact ⟨fun _ c hc => by simp at hc, Or.inl rfl⟩
  | cons c cs =>
    rw [List.map_cons, walk, step] at h
    split at h
    · rename_i hc
      refine ⟨fun _ x hx => by simp at hx; exact hx ▸ hc, Or.inr ?_⟩
      rw [List.map_cons, walk, step, free, if_neg (separator_notclose hc.1).1, if_neg hc.2]
      exact h
    · cases h

theorem ph_head {sg : Char} {r : SqlText.Ref} (hp : PhOk d sg r) (rest : Str) : ∃ t, Item.write d (.ph sg r) ++ rest = sg :: t := by
  cases r <;> exact ⟨_, rfl⟩

theorem ph_sigil {sg : Char} {r : SqlText.Ref} (hp : PhOk d sg r) : sg = '?' ∨ sg = '$' ∨ sg = ':' ∨ sg = '@' := by
  cases r with
  | anon => exact Or.inl hp.1
  | ord n => have := hp.2; cases d <;> simp_all
  | name x => have := hp.2; cases d <;> simp_all <;> grind

theorem items (e : At) (he : e.ended = true) : ∀ (ps : List Piece), (∀ p ∈ ps, PieceOk d p) → ∀ (ts : List Str) (s : At), s = .plain ∨ s = .after →
    walk d s (ts.flatten.map .ch ++ pieces ps) = some e →
    ∃ is, Inline.Reads d (ts.map .text ++ ps) is ∧ ItemsOk d is ∧ (∀ i ∈ is, Nonempty' i) ∧ Sep d s (write d is) := by
  -- a run of text, and what comes after it
  have run : ∀ (ts : List Str) (s s' : At), s = .plain ∨ s = .after → walk d s (ts.flatten.map .ch) = some s' → s'.ended = true →
      ∃ js, write d js = ts.flatten ∧ (∀ j ∈ js, Inline.Item.isText j = true) ∧ (∀ j ∈ js, Nonempty' j) ∧ (∀ rest, NoCloser d rest → OkThen d js rest) ∧
        Sep d s ts.flatten := by
    intro ts s s' hs h hend
    rcases hs with rfl | rfl
    · obtain ⟨js, h1, h2, h3, h4⟩ := run_items _ _ (Nat.le_refl _) s' h hend
      exact ⟨js, h1, h2, h3, h4, fun hh => by cases hh⟩
    · obtain ⟨h1, h2 | h2⟩ := walk_after_plain h
      · exact ⟨[], h2 ▸ rfl, by simp, by simp, fun _ _ => trivial, h1⟩
      · obtain ⟨js, e1, e2, e3, e4⟩ := run_items _ _ (Nat.le_refl _) s' h2 hend
        exact ⟨js, e1, e2, e3, e4, h1⟩
  intro ps
  induction ps with
  | nil =>
    intro _ ts s hs h
    rw [pieces, List.append_nil] at h
    obtain ⟨js, h1, h2, h3, h4, h5⟩ := run ts s e hs h he
    refine ⟨js ++ [], .text ts js h1.symm h2 .nil, ?_, ?_, ?_⟩
    · exact okThen_append js [] (h4 _ (by intro c hc; simp [write] at hc)) trivial
    · simpa using h3
    · rw [List.append_nil, h1]; exact h5
  | cons p ps ih =>
    intro hok ts s hs h
    have ih := ih fun x hx => hok x (List.mem_cons_of_mem _ hx)
    by_cases ht : ∃ t, p = .text t
    · obtain ⟨t, rfl⟩ := ht
      have h' : walk d s ((ts ++ [t]).flatten.map .ch ++ pieces ps) = some e := by
        rw [pieces] at h
        simpa using h
      obtain ⟨is, h1, h2⟩ := ih (ts ++ [t]) s hs h'
      exact ⟨is, by simpa using h1, h2⟩
    · have hp : pieces (p :: ps) = .ph :: pieces ps := by
        cases p with
        | text t => exact absurd ⟨t, rfl⟩ ht
        | _ => rfl
      rw [hp, walk_append] at h
      cases hw : walk d s (ts.flatten.map .ch) with
      | none => rw [hw] at h; cases h
      | some s' =>
        rw [hw, Option.bind_some, walk] at h
        have hs' : s'.ended = true ∧ step d s' .ph = some .after := by
          cases s' <;> simp [step, At.ended] at h ⊢
        rw [hs'.2, Option.bind_some] at h
        obtain ⟨js, h1, h2, h3, h4, h5⟩ := run ts s s' hs hw hs'.1
        obtain ⟨is, i1, i2, i3, i4⟩ := ih [] .after (Or.inr rfl) h
        obtain ⟨sg, r, p1, p2⟩ := piece_placeholder (hok p (by simp)) fun t e => ht ⟨t, e⟩
        have hsg := ph_sigil p2
        obtain ⟨t, hd⟩ := ph_head p2 (write d is)
        have hwr : write d (.ph sg r :: is) = sg :: t := by rw [← hd]; rfl
        refine ⟨js ++ (.ph sg r :: is), .text ts js h1.symm h2 (.ph p1 i1), ?_, ?_, ?_⟩
        · refine okThen_append js _ (h4 _ ?_) ⟨p2, Or.inr (i4 rfl), i2⟩
          intro c hc q hq
          rw [hwr, List.head?_cons, Option.some.injEq] at hc
          subst hc
          unfold opens at hq
          unfold close
          rcases hq with rfl | rfl | ⟨rfl, -⟩ | ⟨rfl, -⟩ <;> rcases hsg with rfl | rfl | rfl | rfl <;> decide
        · intro j hj
          rcases List.mem_append.1 hj with hj | hj
          · exact h3 j hj
          · rcases List.mem_cons.1 hj with rfl | hj
            · trivial
            · exact i3 j hj
        · intro hafter
          -- a placeholder directly after a placeholder is not read, so the run is not empty
          rw [show write d (js ++ (.ph sg r :: is)) = write d js ++ write d (.ph sg r :: is) from by simp [write], h1]
          cases hfl : ts.flatten with
          | nil =>
            rw [hfl] at hw
            cases hw
            rw [hafter] at hs'
            cases hs'.2
          | cons c cs =>
            intro x hx
            exact h5 hafter x (by rw [hfl]; simpa using hx)

end Sq.Lexical
