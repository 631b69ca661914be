import Verif.Proof.Pool
import Verif.Spec.Pool
/-
C67: concurrent calls do not disturb one another.
-/
namespace Sq.Conc
open Prog

section triples
variable {T R S : Type} {valid : Str → T → Prop}

/-- The objects outside `S` are as before (there may be new ones). -/
def Frame (S : List Nat) (o o' : List Own) : Prop := o.length ≤ o'.length ∧ ∀ h, h < o.length → h ∉ S → o'[h]? = o[h]?

theorem Frame.refl (S : List Nat) (o : List Own) : Frame S o o := ⟨Nat.le_refl _, fun _ _ _ => rfl⟩

theorem Frame.trans {S : List Nat} {o o' o'' : List Own} (h1 : Frame S o o') (h2 : Frame S o' o'') : Frame S o o'' :=
  ⟨Nat.le_trans h1.1 h2.1, fun h hl hs => (h2.2 h (Nat.lt_of_lt_of_le hl h1.1) hs).trans (h1.2 h hl hs)⟩

theorem Frame.weaken {S S' : List Nat} {o o' : List Own} (h : Frame S o o') (hs : ∀ x ∈ S, x ∈ S') : Frame S' o o' :=
  ⟨h.1, fun x hl hx => h.2 x hl fun hh => hx (hs x hh)⟩

theorem Frame.set {S : List Nat} {o : List Own} {h : Nat} (hs : h ∈ S) (v : Own) : Frame S o (o.set h v) :=
  ⟨by simp, fun x _ hx => List.getElem?_set_ne (by rintro rfl; exact hx hs)⟩

theorem Frame.push (S : List Nat) (o : List Own) (x : Own) : Frame S o (o ++ [x]) :=
  ⟨by simp, fun h hl _ => List.getElem?_append_left hl⟩

/-- Objects obtained on the way do not count. -/
theorem Frame.drop {S S' : List Nat} {o o1 o' : List Own} (h1 : Frame S' o o1) (h2 : Frame S o1 o') (hs : ∀ x ∈ S, x ∈ S' ∨ o.length ≤ x) : Frame S' o o' :=
  ⟨Nat.le_trans h1.1 h2.1, fun h hl hx => (h2.2 h (Nat.lt_of_lt_of_le hl h1.1) fun hh => (hs h hh).elim hx (by omega)).trans (h1.2 h hl hx)⟩

theorem lt_of_cell {o : List Own} {h : Nat} {x : Own} (hh : o[h]? = some x) : h < o.length := (List.getElem?_eq_some_iff.1 hh).1

theorem Frame.keep {S : List Nat} {o o' : List Own} (h : Frame S o o') {x : Nat} {v : Own} (hv : o[x]? = some v) (hx : x ∉ S) : o'[x]? = some v := by
  rw [h.2 x (lt_of_cell hv) hx]; exact hv

theorem set_cell {o : List Own} {h : Nat} {x : Own} (hh : o[h]? = some x) (v : Own) : (o.set h v)[h]? = some v := by
  simp [lt_of_cell hh]

theorem set_other {o : List Own} {h h' : Nat} {x v : Own} (hh : o[h']? = some x) (hne : h ≠ h') : (o.set h v)[h']? = some x := by
  rw [List.getElem?_set_ne hne]; exact hh

/-- The program returns `r` and leaves all objects that existed before as they are. -/
def Computes (valid : Str → T → Prop) (m : Prog T R) (r : R) : Prop :=
  ∀ (o : List Own) (post : R → List Own → Lk → Prop), (∀ o', Frame [] o o' → post r o' .free) → wp valid post m o .free

/-- The same for code that works on a buffer `b`, which may have any contents afterwards. -/
def UsesBuf (valid : Str → T → Prop) (body : Nat → Prog T R) (r : R) : Prop :=
  ∀ (o : List Own) (b : Nat) (post : R → List Own → Lk → Prop), o[b]? = some (some (some .buf, {})) →
    (∀ o' c, Frame [b] o o' → o'[b]? = some (some (some .buf, c)) → post r o' .free) → wp valid post (body b) o .free

theorem computes_ret (r : R) : Computes valid (.ret r) r := fun o _ h => h o (.refl _ o)

theorem computes_bind {m : Prog T R} {r : R} {g : R → Prog T S} {r' : S} (h1 : Computes valid m r) (h2 : Computes valid (g r) r') :
    Computes valid (m.bind g) r' := fun o post h =>
  wp_bind g m o .free (h1 o _ fun o1 h3 => h2 o1 post fun o2 h4 => h o2 (h3.trans h4))

theorem wp_of_computes {m : Prog T R} {r : R} (hm : Computes valid m r) {g : R → Prog T S} {o : List Own} {post : S → List Own → Lk → Prop}
    (h : ∀ o', Frame [] o o' → wp valid post (g r) o' .free) : wp valid post (m.bind g) o .free :=
  wp_bind g m o .free (hm o _ h)

theorem wp_write {h : Nat} {s : Str} {k : Prog T R} {o : List Own} {l : Lk} {post : R → List Own → Lk → Prop} {p : Option Pool} {c : Cell}
    (hc : o[h]? = some (some (p, c))) (hk : wp valid post k (o.set h (some (p, { c with text := c.text ++ s }))) l) : wp valid post (write h s k) o l :=
  ⟨p, c, hc, hk⟩

theorem wp_reset {h : Nat} {k : Prog T R} {o : List Own} {l : Lk} {post : R → List Own → Lk → Prop} {p : Option Pool} {c : Cell}
    (hc : o[h]? = some (some (p, c))) (hk : wp valid post k (o.set h (some (p, {}))) l) : wp valid post (reset h k) o l :=
  ⟨p, c, hc, hk⟩

/-- `withBuf`: the buffer goes back to the pool empty, whatever the body did with it. -/
theorem computes_withBuf {body : Nat → Prog T R} {r : R} (hb : UsesBuf valid body r) : Computes valid (withBuf body) r := by
  intro o post h
  show wp valid post ((body o.length).bind _) (o ++ [some (some .buf, ({} : Cell))]) .free
  refine wp_bind _ _ _ _ (hb _ _ _ (by simp) fun o' c hf hc => wp_reset hc ?_)
  refine ⟨set_cell hc _, ?_⟩
  refine h _ ⟨?_, fun x hx _ => ?_⟩
  · have := hf.1; simp at this ⊢; omega
  · have h1 := hf.2 x (by simp; omega) (by simp; omega)
    rw [List.getElem?_set_ne (by omega), List.getElem?_set_ne (by omega), h1, List.getElem?_append_left hx]

/-! ### The functions -/

theorem escapeLoop_wp (q : Char) (s : Str) : ∀ {o : List Own} {b : Nat} {p : Option Pool} {c : Cell} {l : Lk} {post : Unit → List Own → Lk → Prop},
    o[b]? = some (some (p, c)) → post () (o.set b (some (p, { c with text := c.text ++ escapeQuote q s }))) l → wp valid post (escapeLoop b q s) o l := by
  induction s using escapeQuote.induct q with
  | case1 =>
    intro o b p c l post hc h
    have : o.set b (some (p, { c with text := c.text ++ escapeQuote q [] })) = o := by
      rw [escapeQuote, List.append_nil]
      exact List.ext_getElem? fun i => by
        rw [List.getElem?_set]
        split
        · subst_vars; rw [if_pos (lt_of_cell hc)]; exact hc.symm
        · rfl
    rw [this] at h
    exact h
  | _ =>
    intro o b p c l post hc h
    simp only [escapeQuote, escapeLoop, *, if_true, if_false] at h ⊢
    first
      | exact wp_write hc h
      | (refine wp_write hc ?_
         rename_i ih
         refine ih (set_cell hc _) ?_
         simpa [escapeQuote] using h)

theorem escapeQuote_none {q : Char} {s : Str} (h : q ∉ s) : escapeQuote q s = s := by
  induction s using escapeQuote.induct q <;> simp_all [escapeQuote]

theorem readText_wp {o : List Own} {b : Nat} {p : Option Pool} {c : Cell} {l : Lk} {post : Str → List Own → Lk → Prop}
    (hc : o[b]? = some (some (p, c))) (h : post c.text o l) : wp valid post (.read b fun c => .ret c.text) o l := ⟨p, c, hc, h⟩

theorem escapeQuote_computes (q : Char) (s : Str) : Computes (T := T) valid (escapeQuoteP q s) (escapeQuote q s) := by
  unfold escapeQuoteP
  split
  · refine computes_withBuf fun o b post hc h => wp_bind _ _ _ _ (escapeLoop_wp q s hc (readText_wp (set_cell hc _) ?_))
    exact h _ _ (Frame.set (by simp) _) (set_cell hc _)
  next hq =>
    rw [escapeQuote_none hq]
    exact computes_ret s

theorem quoteIdentifier_computes (d : Dialect) (s : Str) : Computes (T := T) valid (quoteIdentifierP d s) (quoteIdentifier d s) := by
  unfold quoteIdentifierP quoteIdentifier
  split
  · cases d <;> exact computes_bind (escapeQuote_computes _ s) (computes_ret _)
  · exact computes_ret s

theorem printLoop_wp (ss : List Str) : ∀ {o : List Own} {b : Nat} {p : Option Pool} {c : Cell} {post : Unit → List Own → Lk → Prop},
    o[b]? = some (some (p, c)) → (∀ o', Frame [b] o o' → o'[b]? = some (some (p, { c with text := c.text ++ Ddl.printList ss })) → post () o' .free) →
    wp valid post (printLoop b ss) o .free := by
  induction ss using Ddl.printList.induct with
  | case1 =>
    intro o b p c post hc h
    exact h o (.refl _ o) (by simpa [Ddl.printList] using hc)
  | case2 s =>
    intro o b p c post hc h
    refine wp_of_computes (escapeQuote_computes _ s) fun o1 hf => ?_
    have hc1 := hf.keep hc (by simp)
    exact wp_write hc1 (h _ ((hf.weaken (by simp)).trans (Frame.set (by simp) _)) (by simpa [Ddl.printList] using set_cell hc1 _))
  | case3 s t rest ih =>
    intro o b p c post hc h
    refine wp_of_computes (escapeQuote_computes _ s) fun o1 hf => ?_
    have hc1 := hf.keep hc (by simp)
    refine wp_write hc1 (wp_write (set_cell hc1 _) (ih (set_cell (set_cell hc1 _) _) fun o2 hf2 hc2 => h o2 ?_ ?_))
    · exact (hf.weaken (by simp)).trans ((Frame.set (by simp) _).trans ((Frame.set (by simp) _).trans hf2))
    · simpa [Ddl.printList] using hc2

theorem printList_computes (ss : List Str) : Computes (T := T) valid (printListP ss) (Ddl.printList ss) :=
  computes_withBuf fun o b post hc h => wp_bind _ _ _ _ (printLoop_wp ss hc fun o1 hf hc1 => readText_wp hc1 (h _ _ hf hc1))

theorem generateName_computes (k : Ddl.NameKind) (t : Str) (cs : List Str) : Computes (T := T) valid (generateNameP k t cs) (Ddl.generateName k t cs) := by
  refine computes_withBuf fun o b post hc h => wp_write hc (wp_write (set_cell hc _) ⟨_, _, set_cell (set_cell hc _) _, ?_⟩)
  have hf : Frame [b] o ((o.set b (some (some Pool.buf, { text := [] ++ Ddl.underscored t }))).set b
      (some (some Pool.buf, { text := [] ++ Ddl.underscored t ++ cs.flatMap fun c => "_".toList ++ Ddl.underscored c }))) :=
    (Frame.set (by simp) _).trans (Frame.set (by simp) _)
  have := h _ _ hf (set_cell (set_cell hc _) _)
  simp only [List.nil_append, Ddl.generateName] at this ⊢
  split
  next hx => rw [if_pos hx] at this; exact this
  next hx => rw [if_neg hx] at this; exact this

theorem escapes_wp (es : List (Char × Str)) {k : Prog T R} {o : List Own} {post : R → List Own → Lk → Prop}
    (h : ∀ o', Frame [] o o' → wp valid post k o' .free) : wp valid post (escapes es k) o .free := by
  induction es generalizing o with
  | nil => exact h o (.refl _ o)
  | cons e es ih => exact wp_of_computes (escapeQuote_computes e.1 e.2) fun o1 hf => ih fun o2 hf2 => h o2 (hf.trans hf2)

theorem sprintf_computes (n : Inner) (d : Dialect) (q : Str) (as : List Val) : Computes (T := T) valid (sprintfP n d q as) (sprintf d q as) := by
  unfold sprintfP
  split
  next h => rw [sprintf, if_pos h]; exact computes_ret _
  next h =>
    refine computes_withBuf fun o b post hc hp => escapes_wp _ fun o1 hf => ?_
    have hc1 := hf.keep hc (by simp)
    have hf1 : ∀ v, Frame [b] o (o1.set b v) := fun v => (hf.weaken (by simp)).trans (Frame.set (by simp) _)
    cases hs : sprintf d q as with
    | ok s =>
      refine wp_write hc1 ⟨_, _, set_cell hc1 _, ?_⟩
      rw [hs] at hp
      exact hp _ _ (hf1 _) (set_cell hc1 _)
    | err e => rw [hs] at hp; exact wp_write hc1 (hp _ _ (hf1 _) (set_cell hc1 _))
    | panic => rw [hs] at hp; exact wp_write hc1 (hp _ _ (hf1 _) (set_cell hc1 _))
    | hang => rw [hs] at hp; exact wp_write hc1 (hp _ _ (hf1 _) (set_cell hc1 _))

/-! ### Rendering -/

theorem exec1_out (d : Dialect) (i : Instr) (s : St) (x : List Piece) :
    exec1 d i { s with out := x } = { exec1 d i { s with out := [] } with out := x ++ (exec1 d i { s with out := [] }).out } := by
  cases i with
  | text t => simp [exec1]
  | forget ns => simp [exec1]
  | bind pn v =>
    simp only [exec1]
    split
    · generalize (if pn = [] then [] else s.params pn) = y
      cases y <;> simp
    · simp
  | named n v =>
    simp only [exec1]
    generalize s.params n = y
    cases y <;> simp
  | param n v =>
    simp only [exec1]
    split
    · generalize s.params n = y
      cases y <;> simp
    · simp

theorem exec_out (d : Dialect) (is : List Instr) (s : St) (x : List Piece) :
    exec d is { s with out := x } = { exec d is { s with out := [] } with out := x ++ (exec d is { s with out := [] }).out } := by
  induction is generalizing s x with
  | nil => simp [exec]
  | cons i is ih =>
    simp only [exec, List.foldl_cons] at ih ⊢
    rw [exec1_out d i s x]
    have h1 := ih (exec1 d i { s with out := [] }) (x ++ (exec1 d i { s with out := [] }).out)
    have h2 := ih (exec1 d i { s with out := [] }) (exec1 d i { s with out := [] }).out
    rw [h1]
    have e : ({ exec1 d i { s with out := [] } with out := (exec1 d i { s with out := [] }).out } : St) = exec1 d i { s with out := [] } := rfl
    rw [e] at h2
    rw [h2]
    simp

theorem bufString_append (d : Dialect) (x y : List Piece) : bufString d (x ++ y) = bufString d x ++ bufString d y := by simp [bufString]

/-- A rendering appends its text to the buffer and its arguments to the slice. -/
theorem codeP_wp (d : Dialect) (esc : Instr → List (Char × Str)) (st : Status) (is : List Instr) :
    ∀ (ps : Params) {o : List Own} {b a : Nat} {pb pa : Option Pool} {cb ca : Cell} {post : Res Unit → List Own → Lk → Prop}, b ≠ a →
      o[b]? = some (some (pb, cb)) → o[a]? = some (some (pa, ca)) →
      (∀ o', Frame [b, a] o o' →
        o'[b]? = some (some (pb, { cb with text := cb.text ++ bufString d (exec d is { args := ca.args, params := ps }).out })) →
        o'[a]? = some (some (pa, { ca with args := (exec d is { args := ca.args, params := ps }).args })) → post (Spec.status st) o' .free) →
      wp valid post (codeP d b a esc st is ps) o .free := by
  induction is with
  | nil =>
    intro ps o b a pb pa cb ca post hne hb ha h
    have := h o (.refl _ o) (by simpa [exec, bufString] using hb) (by simpa [exec] using ha)
    cases st <;> exact this
  | cons i is ih =>
    intro ps o b a pb pa cb ca post hne hb ha h
    refine escapes_wp _ fun o1 hf => ?_
    have hb1 := hf.keep hb (by simp)
    have ha1 := hf.keep ha (by simp)
    refine ⟨pa, ca, ha1, pa, ca, ha1, ?_⟩
    refine wp_write (set_other hb1 (fun e => hne e.symm)) ?_
    refine ih _ hne (set_cell (set_other hb1 (fun e => hne e.symm)) _) (set_other (set_cell ha1 _) hne) fun o2 hf2 hb2 ha2 => h o2 ?_ ?_ ?_
    · exact (hf.weaken (by simp)).trans ((Frame.set (by simp) _).trans ((Frame.set (by simp) _).trans hf2))
    · rw [hb2]
      have e := exec_out d is (exec1 d i { args := ca.args, params := ps }) (exec1 d i { args := ca.args, params := ps }).out
      have e' : exec d (i :: is) { args := ca.args, params := ps } = exec d is (exec1 d i { args := ca.args, params := ps }) := rfl
      rw [e']
      change exec d is (exec1 d i { args := ca.args, params := ps }) = _ at e
      rw [e]
      simp [bufString_append]
    · rw [ha2]
      have e := exec_out d is (exec1 d i { args := ca.args, params := ps }) (exec1 d i { args := ca.args, params := ps }).out
      have e' : exec d (i :: is) { args := ca.args, params := ps } = exec d is (exec1 d i { args := ca.args, params := ps }) := rfl
      rw [e']
      change exec d is (exec1 d i { args := ca.args, params := ps }) = _ at e
      rw [e]

/-- A rendering into an empty slice of arguments. -/
theorem render_wp (d : Dialect) (esc : Instr → List (Char × Str)) (w : W) {g : Res Unit → Prog T R} {o : List Own} {b a : Nat} {pb pa : Option Pool}
    {cb : Cell} {post : R → List Own → Lk → Prop} (hne : b ≠ a) (hb : o[b]? = some (some (pb, cb))) (ha : o[a]? = some (some (pa, {})))
    (h : ∀ o', Frame [b, a] o o' → o'[b]? = some (some (pb, { cb with text := cb.text ++ Spec.text d w })) →
      o'[a]? = some (some (pa, { args := Spec.args d w })) → wp valid post (g (Spec.status w.st)) o' .free) :
    wp valid post ((renderP d esc w b a).bind g) o .free :=
  wp_bind _ _ _ _ (codeP_wp d esc w.st w.code _ hne hb ha h)

theorem toSQL_computes (d : Dialect) (esc : Instr → List (Char × Str)) (w : W) :
    Computes (T := T) valid (toSQLP (renderP d esc w)) (Spec.text d w, Spec.args d w, Spec.status w.st) := by
  refine computes_withBuf fun o b post hc h => ?_
  have hlt := lt_of_cell hc
  have hne : b ≠ o.length := by omega
  refine render_wp (pa := none) d esc w hne (o := o ++ [some (none, ({} : Cell))]) (by rw [List.getElem?_append_left hlt]; exact hc) (by simp) fun o1 hf hb ha => ⟨_, _, hb, _, _, ha, ?_⟩
  exact h _ _ ((Frame.push _ o _).drop hf (by simp)) hb

theorem inline_wp (val : Arg → Val) (n : Inner) (d : Dialect) {o : List Own} {b a : Nat} {pb pa : Option Pool} {cb ca : Cell}
    {post : Res Str → List Own → Lk → Prop} (hb : o[b]? = some (some (pb, cb))) (ha : o[a]? = some (some (pa, ca)))
    (h : ∀ o', Frame [] o o' → post (sprintf d cb.text (ca.args.map val)) o' .free) : wp valid post (inlineP val n d b a) o .free :=
  ⟨_, _, hb, _, _, ha, sprintf_computes n d _ _ o post h⟩

/-- Code that works on a pooled buffer and a pooled slice. -/
def UsesBufArgs (valid : Str → T → Prop) (body : Nat → Nat → Prog T R) (r : R) : Prop :=
  ∀ (o : List Own) (b a : Nat) (post : R → List Own → Lk → Prop), b ≠ a → o[b]? = some (some (some .buf, {})) → o[a]? = some (some (some .args, {})) →
    (∀ o' c c', Frame [b, a] o o' → o'[b]? = some (some (some .buf, c)) → o'[a]? = some (some (some .args, c')) → post r o' .free) →
    wp valid post (body b a) o .free

theorem computes_withBufArgs {body : Nat → Nat → Prog T R} {r : R} (hb : UsesBufArgs valid body r) : Computes valid (withBufArgs body) r := by
  intro o post h
  show wp valid post ((body o.length (o ++ [some (some Pool.buf, ({} : Cell))]).length).bind _) (o ++ [some (some .buf, ({} : Cell))] ++ [some (some .args, ({} : Cell))]) .free
  refine wp_bind _ _ _ _ (hb _ _ _ _ (by simp) (by simp) (by simp) fun o' c c' hf hc hc' => ?_)
  have hne : o.length ≠ (o ++ [some (some Pool.buf, ({} : Cell))]).length := by simp
  refine wp_reset hc (wp_reset (set_other hc' hne) ?_)
  refine ⟨set_other (set_cell hc _) hne.symm, ?_, ?_⟩
  · exact set_other (set_cell (set_other hc' hne) _) hne
  · refine h _ ⟨?_, fun x hx _ => ?_⟩
    · have := hf.1; simp at this ⊢; omega
    · have h1 := hf.2 x (by simp; omega) (by simp; omega)
      have e : (o ++ [some (some Pool.buf, ({} : Cell))]).length = o.length + 1 := by simp
      rw [e]
      rw [List.getElem?_set_ne (by omega), List.getElem?_set_ne (by omega), List.getElem?_set_ne (by omega), List.getElem?_set_ne (by omega), h1,
        List.append_assoc, List.getElem?_append_left hx]

theorem sprintf_nil (d : Dialect) (q : Str) : sprintf d q [] = .ok q := by simp [sprintf]

/-- `if len(args) == 0 { buf.String() } else { Sprintf(...) }` -/
theorem shortcut_wp (val : Arg → Val) (n : Inner) (d : Dialect) {o : List Own} {b a : Nat} {pb pa : Option Pool} {cb ca : Cell}
    {post : Res Str → List Own → Lk → Prop} (hb : o[b]? = some (some (pb, cb))) (ha : o[a]? = some (some (pa, ca)))
    (h : ∀ o', Frame [] o o' → post (sprintf d cb.text (ca.args.map val)) o' .free) :
    wp valid post (.read a fun c => if c.args = [] then .read b fun c => .ret (.ok c.text) else inlineP val n d b a) o .free := by
  refine ⟨_, _, ha, ?_⟩
  dsimp only
  split
  next h0 =>
    refine ⟨_, _, hb, ?_⟩
    have := h o (.refl _ o)
    rw [h0, List.map_nil, sprintf_nil] at this
    exact this
  · exact inline_wp val n d hb ha h

theorem declared_computes (val : Arg → Val) (n : Inner) (d : Dialect) (esc : Instr → List (Char × Str)) (w : W) :
    Computes (T := T) valid (ddlSprintfP val n d (renderP d esc w)) (Spec.inlined val d w) := by
  refine computes_withBufArgs fun o b a post hne hb ha h => render_wp d esc w hne hb ha fun o1 hf hb1 ha1 => ?_
  unfold Spec.inlined at h
  cases hs : Spec.status w.st with
  | ok u =>
    rw [hs] at h
    refine shortcut_wp val n d hb1 ha1 fun o2 hf2 => ?_
    simp only [List.nil_append]
    exact h o2 _ _ (hf.trans (hf2.weaken (by simp))) (hf2.keep hb1 (by simp)) (hf2.keep ha1 (by simp))
  | err e => rw [hs] at h; exact h _ _ _ hf hb1 ha1
  | panic => rw [hs] at h; exact h _ _ _ hf hb1 ha1
  | hang => rw [hs] at h; exact h _ _ _ hf hb1 ha1

theorem namesLoop_wp (val : Arg → Val) (n : Inner) (d : Dialect) (esc : Instr → List (Char × Str)) (msg : Str → Str) (fs : List Spec.FieldItem) :
    ∀ {o : List Own} {b a : Nat} {pb pa : Option Pool} {cb ca : Cell} {post : Res (List Str) → List Own → Lk → Prop}, b ≠ a →
      o[b]? = some (some (pb, cb)) → o[a]? = some (some (pa, ca)) →
      (∀ o' c c', Frame [b, a] o o' → o'[b]? = some (some (pb, c)) → o'[a]? = some (some (pa, c')) → post (Spec.names val d msg fs) o' .free) →
      wp valid post (namesLoop val n d b a msg (fs.map (Spec.item d esc))) o .free := by
  induction fs with
  | nil => intro o b a pb pa cb ca post hne hb ha h; exact h o _ _ (.refl _ o) hb ha
  | cons f fs ih =>
    intro o b a pb pa cb ca post hne hb ha h
    cases f with
    | name s => exact wp_bind _ _ _ _ (ih hne hb ha h)
    | expr w =>
      refine wp_reset hb (wp_reset (set_other ha hne) ?_)
      refine render_wp d esc w hne (set_other (set_cell hb _) hne.symm) (set_cell (set_other ha hne) _) fun o1 hf hb1 ha1 => ?_
      have hf1 : Frame [b, a] o o1 := (Frame.set (by simp) _).trans ((Frame.set (by simp) _).trans hf)
      simp only [Spec.names, Spec.inlined] at h
      cases hs : Spec.status w.st with
      | ok u =>
        rw [hs] at h
        refine wp_bind _ _ _ _ (inline_wp val n d hb1 ha1 fun o2 hf2 => ?_)
        simp only [List.nil_append]
        have hf3 := hf1.trans (hf2.weaken (S' := [b, a]) (by simp))
        have hb2 := hf2.keep hb1 (by simp)
        have ha2 := hf2.keep ha1 (by simp)
        simp only [Res.bind] at h
        cases hr : sprintf d (Spec.text d w) (List.map val (Spec.args d w)) with
        | ok s => rw [hr] at h; exact wp_bind _ _ _ _ (ih hne hb2 ha2 fun o3 c c' hf4 h1 h2 => h o3 c c' (hf3.trans hf4) h1 h2)
        | err e => rw [hr] at h; exact wp_bind _ _ _ _ (ih hne hb2 ha2 fun o3 c c' hf4 h1 h2 => h o3 c c' (hf3.trans hf4) h1 h2)
        | panic => rw [hr] at h; exact h _ _ _ hf3 hb2 ha2
        | hang => rw [hr] at h; exact h _ _ _ hf3 hb2 ha2
      | err e => rw [hs] at h; exact wp_bind _ _ _ _ (ih hne hb1 ha1 fun o3 c c' hf4 h1 h2 => h o3 c c' (hf1.trans hf4) h1 h2)
      | panic => rw [hs] at h; exact h _ _ _ hf1 hb1 ha1
      | hang => rw [hs] at h; exact h _ _ _ hf1 hb1 ha1

theorem exprsLoop_wp (val : Arg → Val) (n : Inner) (d : Dialect) (esc : Instr → List (Char × Str)) (wrap : Str → Str) (fs : List Spec.FieldItem) :
    ∀ {o : List Own} {b a : Nat} {pb pa : Option Pool} {cb ca : Cell} {post : Res (List (Str × Str)) → List Own → Lk → Prop}, b ≠ a →
      o[b]? = some (some (pb, cb)) → o[a]? = some (some (pa, ca)) →
      (∀ o' c c', Frame [b, a] o o' → o'[b]? = some (some (pb, c)) → o'[a]? = some (some (pa, c')) → post (Spec.exprs val d wrap fs) o' .free) →
      wp valid post (exprsLoop val n d b a wrap (fs.map (Spec.item d esc))) o .free := by
  induction fs with
  | nil => intro o b a pb pa cb ca post hne hb ha h; exact h o _ _ (.refl _ o) hb ha
  | cons f fs ih =>
    intro o b a pb pa cb ca post hne hb ha h
    cases f with
    | name s => exact wp_bind _ _ _ _ (ih hne hb ha h)
    | expr w =>
      refine wp_reset hb (wp_reset (set_other ha hne) ?_)
      refine render_wp d esc w hne (set_other (set_cell hb _) hne.symm) (set_cell (set_other ha hne) _) fun o1 hf hb1 ha1 => ?_
      have hf1 : Frame [b, a] o o1 := (Frame.set (by simp) _).trans ((Frame.set (by simp) _).trans hf)
      simp only [Spec.exprs, Spec.inlined] at h
      cases hs : Spec.status w.st with
      | ok u =>
        rw [hs] at h
        refine wp_bind _ _ _ _ (shortcut_wp val n d hb1 ha1 fun o2 hf2 => ?_)
        simp only [List.nil_append]
        have hf3 := hf1.trans (hf2.weaken (S' := [b, a]) (by simp))
        have hb2 := hf2.keep hb1 (by simp)
        have ha2 := hf2.keep ha1 (by simp)
        simp only [Res.bind] at h
        cases hr : sprintf d (Spec.text d w) (List.map val (Spec.args d w)) with
        | ok s => rw [hr] at h; exact wp_bind _ _ _ _ (ih hne hb2 ha2 fun o3 c c' hf4 h1 h2 => h o3 c c' (hf3.trans hf4) h1 h2)
        | err e => rw [hr] at h; exact h _ _ _ hf3 hb2 ha2
        | panic => rw [hr] at h; exact h _ _ _ hf3 hb2 ha2
        | hang => rw [hr] at h; exact h _ _ _ hf3 hb2 ha2
      | err e => rw [hs] at h; exact h _ _ _ hf1 hb1 ha1
      | panic => rw [hs] at h; exact h _ _ _ hf1 hb1 ha1
      | hang => rw [hs] at h; exact h _ _ _ hf1 hb1 ha1

theorem sendBody_wp (before after : Str) (d : Dialect) (esc : Instr → List (Char × Str)) (w : W) (answer : Str → List Arg → Option Str) {o : List Own}
    {b : Nat} {pb : Option Pool} {post : Sent → List Own → Lk → Prop} (hb : o[b]? = some (some (pb, {})))
    (h : ∀ o' c, Frame [b] o o' → o'[b]? = some (some (pb, c)) → post (Spec.sent before after d w answer) o' .free) :
    wp valid post (sendBody before after (renderP d esc w) answer b) o .free := by
  have hlt := lt_of_cell hb
  have hne : b ≠ o.length := by omega
  have hb0 : (o ++ [some ((none : Option Pool), ({} : Cell))])[b]? = some (some (pb, {})) := by rw [List.getElem?_append_left hlt]; exact hb
  have ha0 : (o ++ [some ((none : Option Pool), ({} : Cell))])[o.length]? = some (some (none, {})) := by simp
  refine wp_write hb0 ?_
  refine render_wp d esc w hne (set_cell hb0 _) (set_other ha0 hne) fun o1 hf hb1 ha1 => ?_
  have hf1 : Frame [b] o o1 := (Frame.push _ o _).drop ((Frame.set (S := [b, o.length]) (by simp) _).trans hf) (by simp)
  unfold Spec.sent at h
  simp only [List.nil_append] at hb1
  cases hs : Spec.status w.st with
  | ok u =>
    rw [hs] at h
    simp only at h ⊢
    refine wp_write hb1 ⟨_, _, set_cell hb1 _, _, _, set_other ha1 hne, ?_⟩
    have hf2 : Frame [b] o (o1.set b (some (pb, { text := before ++ Spec.text d w ++ after }))) := hf1.trans (Frame.set (by simp) _)
    have := h _ _ hf2 (set_cell hb1 _)
    simp only at this ⊢
    generalize hq : before ++ Spec.text d w ++ after = q at this hb1 ⊢
    cases q with
    | nil =>
      cases hans : answer [] (Spec.args d w) with
      | none => rw [hans] at this; exact this
      | some e => rw [hans] at this; exact ⟨_, _, set_cell hb1 _, this⟩
    | cons x q => exact this
  | err e => rw [hs] at h; exact ⟨_, _, hb1, h _ _ hf1 hb1⟩
  | panic => rw [hs] at h; exact h _ _ hf1 hb1
  | hang => rw [hs] at h; exact h _ _ hf1 hb1

theorem send_computes (before after : Str) (d : Dialect) (esc : Instr → List (Char × Str)) (w : W) (answer : Str → List Arg → Option Str) :
    Computes (T := T) valid (sendP before after (renderP d esc w) answer) (Spec.sent before after d w answer) :=
  computes_withBuf fun _ _ _ hc h => sendBody_wp before after d esc w answer hc h

theorem fetch_computes (d : Dialect) (esc : Instr → List (Char × Str)) (w : W) (answer : Str → List Arg → Option Str) (results : Str) :
    Computes (T := T) valid (fetchP (renderP d esc w) answer results) (Spec.sent [] [] d w answer, results) := by
  intro o post h
  have e : (o ++ [some (some Pool.buf, ({} : Cell))]).length = o.length + 1 := by simp
  show wp valid post (((sendBody [] [] (renderP d esc w) answer o.length).bind fun r =>
      write (o ++ [some (some Pool.buf, ({} : Cell))]).length results <| .read (o ++ [some (some Pool.buf, ({} : Cell))]).length fun c => .ret (r, c.text)).bind _)
    (o ++ [some (some Pool.buf, ({} : Cell))] ++ [some (some Pool.buf, ({} : Cell))]) .free
  rw [e]
  refine wp_bind _ _ _ _ (wp_bind _ _ _ _ (sendBody_wp (pb := some Pool.buf) [] [] d esc w answer (by simp) fun o1 c hf hc => ?_))
  have hrb : o1[o.length + 1]? = some (some (some Pool.buf, {})) := hf.keep (by simp) (by simp)
  have hne : o.length ≠ o.length + 1 := by omega
  refine wp_write hrb ⟨_, _, set_cell hrb _, ?_⟩
  simp only [List.nil_append]
  refine wp_reset (set_other hc hne.symm) (wp_reset (set_other (set_cell hrb _) hne) ?_)
  refine ⟨set_other (set_cell (set_other hc hne.symm) _) hne.symm, set_other (set_cell (set_other (set_cell hrb _) hne) _) hne, ?_⟩
  refine h _ ⟨?_, fun x hx _ => ?_⟩
  · have := hf.1; simp at this ⊢; omega
  · have h1 := hf.2 x (by simp; omega) (by simp; omega)
    rw [List.getElem?_set_ne (by omega), List.getElem?_set_ne (by omega), List.getElem?_set_ne (by omega), List.getElem?_set_ne (by omega),
      List.getElem?_set_ne (by omega), h1, List.append_assoc, List.getElem?_append_left hx]

theorem log_computes (n : Inner) (d : Dialect) (flag : Nat) (s : QueryStats) (vals : List Val) :
    Computes (T := T) valid (logP n d flag s vals) (match sprintf d s.query vals with
      | .ok x => .ok (logText flag { s with interpolated := x })
      | .err e => .ok (logText flag { s with interpolated := n.part ++ " ".toList ++ e })
      | .panic => .panic
      | .hang => .hang) := by
  refine computes_withBuf fun o b post hc h => wp_of_computes (sprintf_computes n d s.query vals) fun o1 hf => ?_
  have hc1 := hf.keep hc (by simp)
  have hf1 : Frame [b] o o1 := hf.weaken (by simp)
  cases hs : sprintf d s.query vals with
  | ok x => rw [hs] at h; exact wp_write hc1 ⟨_, _, set_cell hc1 _, h _ _ (hf1.trans (Frame.set (by simp) _)) (set_cell hc1 _)⟩
  | err e => rw [hs] at h; exact wp_write hc1 ⟨_, _, set_cell hc1 _, h _ _ (hf1.trans (Frame.set (by simp) _)) (set_cell hc1 _)⟩
  | panic => rw [hs] at h; exact h _ _ hf1 hc1
  | hang => rw [hs] at h; exact h _ _ hf1 hc1

theorem execute_wp (ps : List TPart) : ∀ {o : List Own} {b : Nat} {p : Option Pool} {c : Cell} {post : Unit → List Own → Lk → Prop},
    o[b]? = some (some (p, c)) → (∀ o', Frame [b] o o' → o'[b]? = some (some (p, { c with text := c.text ++ ps.flatMap Spec.partText })) → post () o' .free) →
    wp valid post (executeP b ps) o .free := by
  induction ps with
  | nil => intro o b p c post hc h; exact h o (.refl _ o) (by simpa using hc)
  | cons x ps ih =>
    intro o b p c post hc h
    cases x with
    | text s =>
      refine wp_write hc (ih (set_cell hc _) fun o1 hf hc1 => h o1 ((Frame.set (by simp) _).trans hf) ?_)
      rw [hc1]; simp [Spec.partText]
    | list ss =>
      refine wp_of_computes (printList_computes ss) fun o1 hf => ?_
      have hc1 := hf.keep hc (by simp)
      refine wp_write hc1 (ih (set_cell hc1 _) fun o2 hf2 hc2 => h o2 ((hf.weaken (by simp)).trans ((Frame.set (by simp) _).trans hf2)) ?_)
      rw [hc2]; simp [Spec.partText]

/-- The cache only matters for how often the file is parsed. -/
theorem introspect_computes (load : Str → Res T) (parts : T → List TPart) (name : Str) :
    Computes (fun n t => load n = .ok t) (queryContextP load parts name) ((load name).map fun t => (parts t).flatMap Spec.partText) := by
  have go : ∀ t, Computes (T := T) (fun n t => load n = .ok t)
      (withBuf fun b => (executeP b (parts t)).bind fun _ => .read b fun c => .ret (Res.ok c.text)) (Res.ok ((parts t).flatMap Spec.partText)) := fun t =>
    computes_withBuf fun o b post hc h => wp_bind _ _ _ _ (execute_wp (parts t) hc fun o1 hf hc1 => ⟨_, _, hc1, (by have := h _ _ hf hc1; simpa [wp] using this)⟩)
  intro o post h
  refine ⟨rfl, .inl rfl, fun t ht => ⟨rfl, ?_⟩⟩
  cases t with
  | some t =>
    rw [ht t rfl] at h
    exact go t o post h
  | none =>
    dsimp only
    cases hl : load name with
    | ok t => rw [hl] at h; exact ⟨rfl, rfl, hl, rfl, go t o post h⟩
    | err e => rw [hl] at h; exact h _ (.refl _ _)
    | panic => rw [hl] at h; exact h _ (.refl _ _)
    | hang => rw [hl] at h; exact h _ (.refl _ _)

theorem triggersLoop_wp (ts : List (Str × Str)) : ∀ {o : List Own} {b : Nat} {p : Option Pool} {c : Cell} {post : List Str → List Own → Lk → Prop},
    o[b]? = some (some (p, c)) → (∀ o' c', Frame [b] o o' → o'[b]? = some (some (p, c')) → post (ts.map fun t => t.1 ++ t.2) o' .free) →
    wp valid post (triggersLoop b ts) o .free := by
  induction ts with
  | nil => intro o b p c post hc h; exact h o _ (.refl _ o) hc
  | cons t ts ih =>
    intro o b p c post hc h
    refine wp_reset hc (wp_write (set_cell hc _) (wp_write (set_cell (set_cell hc _) _) ⟨_, _, set_cell (set_cell (set_cell hc _) _) _, ?_⟩))
    refine wp_bind _ _ _ _ (ih (set_cell (set_cell (set_cell hc _) _) _) fun o1 c' hf hc1 => ?_)
    exact h o1 c' ((Frame.set (by simp) _).trans ((Frame.set (by simp) _).trans ((Frame.set (by simp) _).trans hf))) hc1

/-- Every call, run alone, keeps to the rules and returns what it should. -/
theorem call_computes (load : Str → Res T) (c : Spec.Call T) : Computes (fun n t => load n = .ok t) (c.prog load) (c.result load) := by
  cases c with
  | escapeQuote q s => exact computes_bind (escapeQuote_computes q s) (computes_ret _)
  | quoteIdentifier d s => exact computes_bind (quoteIdentifier_computes d s) (computes_ret _)
  | printList ss => exact computes_bind (printList_computes ss) (computes_ret _)
  | generateName k t cs => exact computes_bind (generateName_computes k t cs) (computes_ret _)
  | sprintf n d q as => exact computes_bind (sprintf_computes n d q as) (computes_ret _)
  | toSQL d esc w => exact computes_bind (toSQL_computes d esc w) (computes_ret _)
  | declared val n d esc w => exact computes_bind (declared_computes val n d esc w) (computes_ret _)
  | fieldNames val n d esc msg fs =>
    exact computes_bind (computes_withBufArgs fun o b a post hne hb ha h => namesLoop_wp val n d esc msg fs hne hb ha h) (computes_ret _)
  | indexFields val n d esc wrap fs =>
    exact computes_bind (computes_withBufArgs fun o b a post hne hb ha h => exprsLoop_wp val n d esc wrap fs hne hb ha h) (computes_ret _)
  | exec before after d esc w answer => exact computes_bind (send_computes before after d esc w answer) (computes_ret _)
  | fetch d esc w answer results => exact computes_bind (fetch_computes d esc w answer results) (computes_ret _)
  | log n d flag s vals => exact computes_bind (log_computes n d flag s vals) (computes_ret _)
  | introspect name parts => exact computes_bind (introspect_computes load parts name) (computes_ret _)
  | triggers ts => exact computes_bind (computes_withBuf fun o b post hc h => triggersLoop_wp ts hc h) (computes_ret _)

end triples

/-! ### All interleavings -/

section main
open Spec
variable {T : Type}

theorem inv_calls (load : Str → Res T) (calls : List (Call T)) (s : State T Out) (hs : Steps (start (calls.map (Call.prog load))) s) :
    ∃ who own lk, Inv (fun n t => load n = .ok t) (fun i r => ∀ c, calls[i]? = some c → r = c.result load) s who own lk := by
  refine inv_steps (inv_start _ fun i p hp => ?_) hs
  simp only [List.getElem?_map, Option.map_eq_some_iff] at hp
  obtain ⟨c, hc, rfl⟩ := hp
  refine call_computes load c [] _ fun o' _ => ⟨fun c' hc' => ?_, rfl⟩
  rw [hc] at hc'
  cases hc'
  rfl

/-- **C67.** However the goroutines interleave, whatever the pools hand out, drop or keep, a call that returned has returned what it returns when it runs
alone with buffers of its own. -/
theorem C67_results (load : Str → Res T) (calls : List (Call T)) (s : State T Out) (hs : Steps (start (calls.map (Call.prog load))) s)
    (i : Nat) (c : Call T) (hc : calls[i]? = some c) (env : List Nat) (r : Out) (hr : s.threads[i]? = some ⟨env, .ret r⟩) : r = c.result load := by
  obtain ⟨who, own, lk, hi⟩ := inv_calls load calls s hs
  exact (hi.th i _ hr).runs.1 c hc

/-- **C67, no races.** No two goroutines are ever about to access the same buffer, slice or map, one of them writing. -/
theorem C67_no_race (load : Str → Res T) (calls : List (Call T)) (s : State T Out) (hs : Steps (start (calls.map (Call.prog load))) s) : ¬ Race s := by
  obtain ⟨who, own, lk, hi⟩ := inv_calls load calls s hs
  rintro ⟨i, j, a, b, x, wa, wb, hne, ha, hb, hxa, hxb, hw⟩
  have ta := hi.th i a ha
  have tb := hi.th j b hb
  have cell : ∀ (i : Nat) (a : Thread T Out), s.threads[i]? = some a → ∀ l w, access a = some (.cell l, w) → ∃ h, who l = .thread i h := by
    intro i a ha l w hx
    have t := hi.th i a ha
    obtain ⟨env, prog⟩ := a
    cases prog with
    | modify h f k =>
      simp only [access, Option.map_eq_some_iff] at hx
      obtain ⟨l', hl, hh⟩ := hx
      cases hh
      obtain ⟨p, c, h1, -⟩ := t.runs
      exact ⟨h, (t.owns h p c _ h1 hl).1⟩
    | read h k =>
      simp only [access, Option.map_eq_some_iff] at hx
      obtain ⟨l', hl, hh⟩ := hx
      cases hh
      obtain ⟨p, c, h1, -⟩ := t.runs
      exact ⟨h, (t.owns h p c _ h1 hl).1⟩
    | _ => simp [access] at hx
  have cacheW : ∀ (i : Nat) (a : Thread T Out), s.threads[i]? = some a → access a = some (.cache, true) → lk i = .write := by
    intro i a ha hx
    have t := hi.th i a ha
    obtain ⟨env, prog⟩ := a
    cases prog with
    | store n x k => exact t.runs.1
    | _ => simp [access] at hx
  have cacheR : ∀ (i : Nat) (a : Thread T Out), s.threads[i]? = some a → ∀ w, access a = some (.cache, w) → lk i = .read ∨ lk i = .write := by
    intro i a ha w hx
    have t := hi.th i a ha
    obtain ⟨env, prog⟩ := a
    cases prog with
    | store n x k => exact .inr t.runs.1
    | lookup n k => exact t.runs.1
    | _ => simp [access] at hx
  cases x with
  | cell l =>
    obtain ⟨h1, e1⟩ := cell i a ha l wa hxa
    obtain ⟨h2, e2⟩ := cell j b hb l wb hxb
    rw [e1] at e2
    cases e2
    exact hne rfl
  | cache =>
    have key : ∀ (i j : Nat) (a b : Thread T Out) (w : Bool), i ≠ j → s.threads[i]? = some a → s.threads[j]? = some b → access a = some (.cache, true) →
        access b = some (.cache, w) → False := by
      intro i j a b w hne ha hb h1 h2
      have e1 := cacheW i a ha h1
      have hw := (hi.th i a ha).writes.1 (.inl e1)
      rcases cacheR j b hb w h2 with e2 | e2
      · have := (hi.th j b hb).reads.1 e2
        rw [hi.excl i a ha e1] at this
        cases this
      · have := (hi.th j b hb).writes.1 (.inl e2)
        rw [hw] at this
        cases this
        exact hne rfl
    cases wa with
    | true => exact key i j a b wb hne ha hb hxa hxb
    | false =>
      cases wb with
      | true => exact key j i b a false (fun e => hne e.symm) hb ha hxb hxa
      | false => cases hw

/-- What a goroutine that may go on can do. -/
theorem can_step {R : Type} {s : State T R} {valid : Str → T → Prop} {posts : Nat → R → Prop} {who : Nat → Who} {own : Nat → List Own} {lk : Nat → Lk}
    (hi : Inv valid posts s who own lk) {i : Nat} {th : Thread T R} (hth : s.threads[i]? = some th) (hr : ∀ r, th.prog ≠ .ret r)
    (hw : s.writer = none ∨ lk i = .read ∨ lk i = .write ∨ (lk i = .waiting ∧ s.readers = [])) : ∃ s', Step (some i) s s' := by
  have t := hi.th i th hth
  obtain ⟨env, prog⟩ := th
  have free : lk i = .free → s.writer = none := by
    intro h
    rw [h] at hw
    rcases hw with h | h | h | h
    · exact h
    · cases h
    · cases h
    · cases h.1
  cases prog with
  | ret r => exact absurd rfl (hr r)
  | get p k => exact ⟨_, .fresh s i env p k hth⟩
  | modify h f k =>
    obtain ⟨p, c, h1, -⟩ := t.runs
    obtain ⟨l, hl⟩ := owned_lt t.len h1
    exact ⟨_, .modify s i env h f k l hth hl⟩
  | read h k =>
    obtain ⟨p, c, h1, -⟩ := t.runs
    obtain ⟨l, hl⟩ := owned_lt t.len h1
    exact ⟨_, .read s i env h k l hth hl⟩
  | put p h k =>
    obtain ⟨l, hl⟩ := owned_lt t.len t.runs.1
    exact ⟨_, .put s i env p h k l hth hl⟩
  | rlock k => exact ⟨_, .rlock s i env k hth (free t.runs.1)⟩
  | runlock k => exact ⟨_, .runlock s i env k hth⟩
  | lock k => exact ⟨_, .lock s i env k hth (free t.runs.1)⟩
  | lockWait k =>
    have hl := t.runs.1
    have hw' := t.writes.1 (.inr hl)
    rw [hl, hw'] at hw
    rcases hw with h | h | h | h
    · cases h
    · cases h
    · cases h
    · exact ⟨_, .locked s i env k hth h.2⟩
  | unlock k => exact ⟨_, .unlock s i env k hth⟩
  | lookup n k => exact ⟨_, .lookup s i env n k hth⟩
  | store n x k => exact ⟨_, .store s i env n x k hth⟩

theorem locked_runs {R : Type} {s : State T R} {valid : Str → T → Prop} {posts : Nat → R → Prop} {who : Nat → Who} {own : Nat → List Own} {lk : Nat → Lk}
    (hi : Inv valid posts s who own lk) {i : Nat} {th : Thread T R} (hth : s.threads[i]? = some th) (hl : lk i ≠ .free) : ∀ r, th.prog ≠ .ret r := by
  intro r e
  have t := (hi.th i th hth).runs
  rw [e] at t
  exact hl t.2

/-- **C67, no deadlock.** As long as a call has not returned, some goroutine can go on. -/
theorem C67_no_deadlock (load : Str → Res T) (calls : List (Call T)) (s : State T Out) (hs : Steps (start (calls.map (Call.prog load))) s) :
    Done s ∨ ∃ i s', Step (some i) s s' := by
  obtain ⟨who, own, lk, hi⟩ := inv_calls load calls s hs
  by_cases hd : Done s
  · exact .inl hd
  right
  obtain ⟨th, hmem, hnr⟩ : ∃ th, th ∈ s.threads ∧ ¬ ∃ r, th.prog = .ret r := Classical.byContradiction fun hn =>
    hd fun th hth => Classical.byContradiction fun hr => hn ⟨th, hth, hr⟩
  obtain ⟨i, hth⟩ := List.mem_iff_getElem?.1 hmem
  have hnr : ∀ r, th.prog ≠ .ret r := fun r e => hnr ⟨r, e⟩
  cases hw : s.writer with
  | none => exact ⟨i, can_step hi hth hnr (.inl hw)⟩
  | some j =>
    obtain ⟨tj, htj⟩ : ∃ tj, s.threads[j]? = some tj := ⟨_, List.getElem?_eq_getElem (hi.wdom j hw)⟩
    rcases (hi.th j tj htj).writes.2 hw with hl | hl
    · exact ⟨j, can_step hi htj (locked_runs hi htj (by rw [hl]; decide)) (.inr (.inr (.inl hl)))⟩
    · cases hrd : s.readers with
      | nil => exact ⟨j, can_step hi htj (locked_runs hi htj (by rw [hl]; decide)) (.inr (.inr (.inr ⟨hl, hrd⟩)))⟩
      | cons k ks =>
        have hk : k ∈ s.readers := by rw [hrd]; simp
        obtain ⟨tk, htk⟩ : ∃ tk, s.threads[k]? = some tk := ⟨_, List.getElem?_eq_getElem (hi.rdom k hk)⟩
        have hlk := (hi.th k tk htk).reads.2 hk
        exact ⟨k, can_step hi htk (locked_runs hi htk (by rw [hlk]; decide)) (.inr (.inl hlk))⟩

/-! ### Termination -/

/-- The program after a step. -/
inductive Next {R : Type} : Prog T R → Prog T R → Prop
  | get (p k h) : Next (k h) (.get p k)
  | modify (h f k) : Next k (.modify h f k)
  | read (h k c) : Next (k c) (.read h k)
  | put (p h k) : Next k (.put p h k)
  | rlock (k) : Next k (.rlock k)
  | runlock (k) : Next k (.runlock k)
  | lock (k) : Next (.lockWait k) (.lock k)
  | locked (k) : Next k (.lockWait k)
  | unlock (k) : Next k (.unlock k)
  | lookup (n k t) : Next (k t) (.lookup n k)
  | store (n t k) : Next k (.store n t k)

theorem next_acc {R : Type} (p : Prog T R) : Acc Next p := by
  have key : ∀ p : Prog T R, Acc Next p := by
    intro p
    induction p with
    | ret r => exact ⟨_, fun _ h => by cases h⟩
    | get p k ih => exact ⟨_, fun _ h => by cases h; exact ih _⟩
    | read h k ih => exact ⟨_, fun _ h => by cases h; exact ih _⟩
    | lookup n k ih => exact ⟨_, fun _ h => by cases h; exact ih _⟩
    | lock k ih => exact ⟨_, fun _ h => by cases h; exact ⟨_, fun _ h => by cases h; exact ih⟩⟩
    | modify _ _ k ih | put _ _ k ih | rlock k ih | runlock k ih | lockWait k ih | unlock k ih | store _ _ k ih =>
      exact ⟨_, fun _ h => by cases h; exact ih⟩
  exact key p

/-- One of the programs makes a step. -/
def Nexts {R : Type} (l' l : List (Prog T R)) : Prop := ∃ (i : Nat) (p p' : Prog T R), l[i]? = some p ∧ Next p' p ∧ l' = l.set i p'

theorem nexts_acc {R : Type} (l : List (Prog T R)) : Acc Nexts l := by
  induction l with
  | nil => exact ⟨_, fun _ ⟨i, p, p', h, _⟩ => by simp at h⟩
  | cons p l ih =>
    have hp := next_acc p
    induction hp generalizing l with
    | intro p _ ihp =>
      induction ih with
      | intro l hl ihl =>
        refine ⟨_, fun y ⟨i, q, q', h, hn, e⟩ => ?_⟩
        subst e
        cases i with
        | zero =>
          simp at h
          subst h
          exact ihp q' hn l ⟨_, hl⟩
        | succ i => exact ihl _ ⟨i, q, q', by simpa using h, hn, rfl⟩

/-- How far a state is from the end: what the goroutines still have to do, then how many objects the pools hold. -/
def rank {R : Type} (s : State T R) : List (Prog T R) × Nat := (s.threads.map (·.prog), (s.pool .buf).length + (s.pool .args).length)

theorem step_rank {R : Type} {s s' : State T R} {who : Option Nat} (h : Step who s s') : Prod.Lex Nexts (· < ·) (rank s') (rank s) := by
  have th : ∀ {i : Nat} {env env' : List Nat} {p p' : Prog T R} {n n' : Nat}, s.threads[i]? = some ⟨env, p⟩ → Next p' p →
      Prod.Lex Nexts (· < ·) ((s.threads.set i ⟨env', p'⟩).map (·.prog), n') (s.threads.map (·.prog), n) := by
    intro i env env' p p' n n' hi hn
    refine .left _ _ ⟨i, p, p', ?_, hn, ?_⟩
    · rw [List.getElem?_map, hi]; rfl
    · simp
  cases h
  case reuse h _ => exact th h (.get _ _ _)
  case fresh h => exact th h (.get _ _ _)
  case modify => exact th (by assumption) (.modify _ _ _)
  case read => exact th (by assumption) (.read _ _ _)
  case put => exact th (by assumption) (.put _ _ _)
  case rlock h _ => exact th h (.rlock _)
  case runlock h => exact th h (.runlock _)
  case lock h _ => exact th h (.lock _)
  case locked h _ => exact th h (.locked _)
  case unlock h => exact th h (.unlock _)
  case lookup h => exact th h (.lookup _ _ _)
  case store h => exact th h (.store _ _ _)
  case drop p l hl =>
    refine .right _ ?_
    have h1 := List.length_erase_of_mem hl
    have h2 := List.length_pos_of_mem hl
    cases p <;> simp [upd] <;> omega

/-- **C67, termination.** There is no infinite run: with `C67_no_deadlock`, every call returns in every schedule that goes on as long as it can. -/
theorem C67_returns (load : Str → Res T) (calls : List (Call T)) :
    ¬ ∃ f : Nat → State T Out, f 0 = start (calls.map (Call.prog load)) ∧ ∀ n, ∃ who, Step who (f n) (f (n + 1)) := by
  rintro ⟨f, -, hf⟩
  have acc : ∀ x : List (Prog T Out) × Nat, Acc (Prod.Lex Nexts (· < ·)) x := fun x =>
    Prod.lexAccessible (nexts_acc x.1) (fun n => Nat.lt_wfRel.wf.apply n) x.2
  have : ∀ x, Acc (Prod.Lex Nexts (· < ·)) x → ∀ n, rank (f n) ≠ x := by
    intro x hx
    induction hx with
    | intro x _ ih =>
      rintro n rfl
      obtain ⟨who, h⟩ := hf n
      exact ih _ (step_rank h) (n + 1) rfl
  exact this _ (acc _) 0 rfl

end main

/-! ### The claims are not empty

A schedule is a list of goroutines, each with the choice of taking an object from the pool if there is one. -/

section examples
open Spec
variable {T R : Type}

/-- The step of goroutine `i`, if it can make one. -/
def next? (i : Nat) (reuse : Bool) (s : State T R) : Option (State T R) :=
  match s.threads[i]? with
  | none => none
  | some ⟨env, prog⟩ => match prog with
    | .ret _ => none
    | .get none k => some ({ s with next := s.next + 1, heap := upd s.heap s.next {} }.setThread i ⟨env ++ [s.next], k env.length⟩)
    | .get (some p) k => match reuse, s.pool p with
      | true, l :: ls => some ({ s with pool := upd s.pool p ((l :: ls).erase l) }.setThread i ⟨env ++ [l], k env.length⟩)
      | _, _ => some ({ s with next := s.next + 1, heap := upd s.heap s.next {} }.setThread i ⟨env ++ [s.next], k env.length⟩)
    | .modify h f k => match env[h]? with
      | some l => some ({ s with heap := upd s.heap l (f (s.heap l)) }.setThread i ⟨env, k⟩)
      | none => none
    | .read h k => match env[h]? with
      | some l => some (s.setThread i ⟨env, k (s.heap l)⟩)
      | none => none
    | .put p h k => match env[h]? with
      | some l => some ({ s with pool := upd s.pool p (l :: s.pool p) }.setThread i ⟨env, k⟩)
      | none => none
    | .rlock k => if s.writer = none then some ({ s with readers := i :: s.readers }.setThread i ⟨env, k⟩) else none
    | .runlock k => some ({ s with readers := s.readers.erase i }.setThread i ⟨env, k⟩)
    | .lock k => if s.writer = none then some ({ s with writer := some i }.setThread i ⟨env, .lockWait k⟩) else none
    | .lockWait k => if s.readers = [] then some (s.setThread i ⟨env, k⟩) else none
    | .unlock k => some ({ s with writer := none }.setThread i ⟨env, k⟩)
    | .lookup n k => some (s.setThread i ⟨env, k (s.cache n)⟩)
    | .store n t k => some ({ s with cache := upd s.cache n (some t) }.setThread i ⟨env, k⟩)

theorem next?_step {i : Nat} {reuse : Bool} {s s' : State T R} (h : next? i reuse s = some s') : Step (some i) s s' := by
  unfold next? at h
  split at h
  · cases h
  next env prog hth =>
    split at h
    · cases h
    · cases h; exact .fresh s i env _ _ hth
    · split at h
      next l ls hp => cases h; rw [← hp]; exact .reuse s i env _ _ l hth (by rw [hp]; simp)
      · cases h; exact .fresh s i env _ _ hth
    · split at h
      next l hl => cases h; exact .modify s i env _ _ _ l hth hl
      · cases h
    · split at h
      next l hl => cases h; exact .read s i env _ _ l hth hl
      · cases h
    · split at h
      next l hl => cases h; exact .put s i env _ _ _ l hth hl
      · cases h
    · split at h
      next hw => cases h; exact .rlock s i env _ hth hw
      · cases h
    · cases h; exact .runlock s i env _ hth
    · split at h
      next hw => cases h; exact .lock s i env _ hth hw
      · cases h
    · split at h
      next hr => cases h; exact .locked s i env _ hth hr
      · cases h
    · cases h; exact .unlock s i env _ hth
    · cases h; exact .lookup s i env _ _ hth
    · cases h; exact .store s i env _ _ _ hth

/-- A goroutine that cannot make a step is passed over. -/
def schedule : List (Nat × Bool) → State T R → State T R
  | [], s => s
  | (i, b) :: is, s => schedule is ((next? i b s).getD s)

theorem schedule_steps (is : List (Nat × Bool)) {s s' : State T R} (h : Steps s s') : Steps s (schedule is s') := by
  induction is generalizing s' with
  | nil => exact h
  | cons x is ih =>
    refine ih ?_
    cases hn : next? x.1 x.2 s' with
    | none => exact h
    | some s'' => exact .tail h (next?_step hn)

/-- What goroutine `i` returned. -/
def returned (s : State T R) (i : Nat) : Option R :=
  match s.threads[i]? with
  | some ⟨_, .ret r⟩ => some r
  | _ => none

/-- Three calls: `EscapeQuote`, `printList`, and a query of the introspector. -/
def exampleLoad (n : Str) : Res Str := if n = "tables.sql".toList then .ok "SELECT ".toList else .err "no such file"
def exampleCalls : List (Call Str) :=
  [.escapeQuote '\'' "a'b".toList, .printList ["x'y".toList, "z".toList],
   .introspect "tables.sql".toList fun t => [.text t, .list ["p".toList]]]
/-- The first call runs a little, the others meanwhile; then all of them to the end, taking buffers from the pool where they can. -/
def exampleSchedule : List (Nat × Bool) := [(0, true), (1, true), (2, true), (0, true), (2, true)] ++
  List.replicate 12 (0, true) ++ List.replicate 40 (1, true) ++ List.replicate 40 (2, true)

/-- In that schedule all three calls return, having used two buffers (the second call, which needs a second one for escaping, takes that of the first). -/
theorem C67_example : let s := schedule exampleSchedule (start (exampleCalls.map (Call.prog exampleLoad)))
    returned s 0 = some (.text "a''b".toList) ∧ returned s 1 = some (.text "'x''y', 'z'".toList) ∧ returned s 2 = some (.res (.ok "SELECT 'p'".toList)) ∧
      s.next = 2 := by decide +kernel

/-- A function that does not empty its buffer. -/
def noReset (x : Str) : Prog T Str := .get (some .buf) fun b => write b x <| .read b fun c => .put .buf b (.ret c.text)
/-- A function that gives its buffer back before reading it. -/
def putFirst (x : Str) : Prog T Str := .get (some .buf) fun b => write b x <| .put .buf b <| .read b fun c => reset b (.ret c.text)
/-- A cache that is filled without the lock. -/
def noLock (n : Str) : Prog Str Str := .rlock <| .lookup n fun o => .runlock <| match o with
  | some t => .ret t
  | none => .store n n (.ret n)

/-- Such functions would return wrong results, or race: the machine can tell. -/
theorem C67_wrong_result : ∃ s : State Str Str, Steps (start [noReset "a".toList, noReset "b".toList]) s ∧ returned s 1 = some "ab".toList :=
  ⟨_, schedule_steps (List.replicate 4 (0, true) ++ List.replicate 4 (1, true)) (.refl _), by decide +kernel⟩

theorem C67_wrong_race : ∃ s : State Str Str, Steps (start [putFirst "a".toList, putFirst "b".toList]) s ∧ Race s := by
  refine ⟨_, schedule_steps [(0, true), (0, true), (0, true), (1, true)] (.refl _), 0, 1, ?_⟩
  exact ⟨_, _, .cell 0, false, true, by decide, rfl, rfl, rfl, rfl, rfl⟩

theorem C67_wrong_map : ∃ s : State Str Str, Steps (start [noLock "a".toList, noLock "b".toList]) s ∧ Race s := by
  refine ⟨_, schedule_steps [(0, true), (0, true), (0, true), (1, true), (1, true), (1, true)] (.refl _), 0, 1, ?_⟩
  exact ⟨_, _, .cache, true, true, by decide, rfl, rfl, rfl, rfl, rfl⟩

end examples
end Sq.Conc
