import Verif.Proof.LexItems
import Verif.Props.Inline
import Verif.Spec.Expr
import Verif.Model.Examples
/-
C72: what is rendered can be read.  C65 for whole statements, without assumptions about their text.
-/
namespace Sq.Lexical
open Sq.SqlText (opens sigil separator close NameOk Item ItemsOk Follows PhOk write double)

/-! ### The placeholders written -/

theorem named_tree (n : Node) (m : Mode) (h : n.All (Tame m.d)) (pn : Str) : ∀ x v, Instr.named x v ∈ (ren n m pn).code → NamedOk m.d x := by
  have C : Sites (fun w : W => ∀ x v, Instr.named x v ∈ w.code → NamedOk m.d x) m.d (fun _ => True) :=
    { nilName := trivial
      ok := by intro x v hx; cases hx
      wr := by intro s x v hx; simp [W.wr] at hx
      fail := by intro e x v hx; cases hx
      seq := by
        intro a b ha hb x v hx
        unfold W.seq at hx
        split at hx
        · rcases List.mem_append.1 hx with hx | hx
          · exact ha x v hx
          · exact hb x v hx
        · exact ha x v hx
      forget := by intro ns _ x v hx; simp [W.emit] at hx
      bind := by intro pn a _ x v hx; simp [W.emit] at hx }
  have fmt : ∀ f, FmtOk (fun w : W => ∀ x v, Instr.named x v ∈ w.code → NamedOk m.d x) (fun _ => True) f := by
    intro f s _
    cases s with
    | lit c => trivial
    | unclosed s => trivial
    | trailing => intro x v hx; cases hx
    | hole b => exact ⟨fun _ => trivial, fun _ _ => ⟨fun _ x v hx => (by cases hx), fun _ x v hx => (by cases hx)⟩⟩
  refine ren_ind C n (Node.All.mono ?_ n h) m rfl pn trivial
  intro k hk
  cases k <;> try trivial
  case namedArg nm v =>
    intro m' hm'
    unfold namedArgAppend
    intro x u hx
    split at hx
    · cases hx
    · rename_i hd
      split at hx
      · cases hx
      split at hx
      · cases hx
      · simp [W.emit] at hx
        rcases hk with hk | hk | hk
        · exact absurd (Or.inl (hm'.trans hk)) hd
        · exact absurd (Or.inr (hm'.trans hk)) hd
        · exact hx.1 ▸ hk
  case param nm v => intro a x u hx; simp [W.emit] at hx
  case field => intro p _; exact fmt _
  case checkedField => intro p _; exact fmt _
  case cpred => exact fmt _
  case customTable => exact fmt _
  case customQuery => exact fmt _
  case window =>
    intro a ha x v hx
    refine ha x v ?_
    unfold W.ignoreErr at hx
    split at hx <;> exact hx
  case insert => intro _ p _ _ x v hx; cases hx
  case update => intro _ p _ _ x v hx; cases hx
  case delete => intro t _ _ x v hx; cases hx
  case ext => intro m' hm'; exact (hk m' hm').2

theorem exec_pieces (d : Dialect) (is : List Instr) (h : ∀ x v, Instr.named x v ∈ is → NamedOk d x) (hl : (exec d is {}).args.length < 2 ^ 63) :
    ∀ p ∈ (exec d is {}).out, PieceOk d p := by
  have h1 : ∀ p ∈ (exec d is {}).out, match p with | .text _ => True | .ph _ => numbered d = true | .anon => numbered d = false | .ref x => NamedOk d x := by
    refine exec_ind' (P := fun s : St => ∀ p ∈ s.out, match p with
      | .text _ => True | .ph _ => numbered d = true | .anon => numbered d = false | .ref x => NamedOk d x)
      (Q := fun i => ∀ x v, i = .named x v → NamedOk d x) ?_ is {} (fun i hi x v e => h x v (e ▸ hi)) (by intro p hp; cases hp)
    intro i s hi hs p hp
    have one : ∀ q, p ∈ s.out ++ [q] → (match q with | .text _ => True | .ph _ => numbered d = true | .anon => numbered d = false | .ref x => NamedOk d x) →
        match p with | .text _ => True | .ph _ => numbered d = true | .anon => numbered d = false | .ref x => NamedOk d x := by
      intro q hq hh
      rcases List.mem_append.1 hq with hq | hq
      · exact hs p hq
      · rw [List.mem_singleton] at hq; subst hq; exact hh
    cases i with
    | text t => exact one _ hp trivial
    | bind pn v =>
      simp only [exec1] at hp
      split at hp
      · rename_i hn
        split at hp <;> exact one _ hp hn
      · rename_i hn; exact one _ hp (by simpa using hn)
    | named nm v =>
      simp only [exec1] at hp
      split at hp <;> exact one _ hp (hi nm v rfl)
    | param nm v =>
      simp only [exec1] at hp
      split at hp
      · rename_i hn
        split at hp <;> exact one _ hp hn
      · rename_i hn; exact one _ hp (by simpa using hn)
    | forget ns => exact hs p hp
  intro p hp
  have := h1 p hp
  cases p with
  | text t => trivial
  | ph n => exact ⟨Nat.lt_of_le_of_lt ((inRange_exec d is).1 n hp).2 hl, this⟩
  | anon => exact this
  | ref x => exact this

/-- **C72.** Let every piece of SQL text that the program itself supplies (literals, format strings, unquoted names, join and set operators,
window frames) be readable by itself.  Then what any query or expression is rendered to, in any dialect, is readable: it is made of ordinary
text, quoted texts that are all closed, and placeholders, each of which is one that was written for a value and stands apart from what
follows it; no name, alias or value makes the text break out of its quotes, or makes a placeholder.  This holds whether or not the
rendering succeeds.  Missing: the names that the code writes unquoted (CTEs, `nameonly`, constraints, the tables of a MySQL multi-table
DELETE), which must be readable by themselves: see `C72_cte_name_violated`, `C72_nameonly_violated`. -/
theorem C72_readable_partial (n : Node) (m : Mode) (h : n.All (Tame m.d)) (hl : (renderFrom n m [] {}).args.length < 2 ^ 63) :
    ∃ is, Inline.Reads m.d (renderFrom n m [] {}).out is ∧ ItemsOk m.d is ∧ bufString m.d (renderFrom n m [] {}).out = write m.d is := by
  obtain ⟨s, h1, h2, -⟩ := ren_reads n h m rfl [] .plain rfl
  have hp : pieces (renderFrom n m [] {}).out = effects (ren n m []).code := by
    unfold renderFrom
    rw [pieces_exec]
    rfl
  obtain ⟨is, i1, i2, -, -⟩ := items s h2.1 _ (exec_pieces m.d _ (named_tree n m h []) hl) [] .plain (Or.inl rfl) (by
    show walk m.d .plain (pieces (renderFrom n m [] {}).out) = some s
    rw [hp]; exact h1)
  exact ⟨is, i1, i2, Inline.bufString_reads m.d _ _ i1⟩

/-! ### Where the code puts names in unquoted -/

def isQuote (c : Char) : Bool := c = '"' || c = '\''

theorem one_quote {is : List Item} (h : ItemsOk .postgres is) : (write .postgres is).countP isQuote ≠ 1 := by
  induction is with
  | nil => decide
  | cons i is ih =>
    have ih := ih h.2.2
    rw [show write .postgres (i :: is) = i.write .postgres ++ write .postgres is from rfl, List.countP_append]
    cases i with
    | text s =>
      have : s.countP isQuote = 0 := by
        rw [List.countP_eq_zero]
        intro c hc hq
        have := (h.1 c hc).1
        simp [isQuote] at hq
        exact this (by unfold opens; rcases hq with rfl | rfl <;> simp)
      simp only [Item.write, this]
      omega
    | quoted q b =>
      have : 2 ≤ ((Item.quoted q b).write .postgres).countP isQuote := by
        have hq : opens .postgres q := h.1
        simp only [Item.write, List.cons_append, List.countP_cons, List.countP_append, List.countP_nil]
        have : isQuote q = true ∧ isQuote (close q) = true := by
          unfold opens at hq
          rcases hq with rfl | rfl | ⟨-, h⟩ | ⟨-, h⟩
          · decide
          · decide
          · cases h
          · cases h
        simp [this.1, this.2]
      omega
    | ph sg r =>
      have : ((Item.ph sg r).write .postgres).countP isQuote = 0 := by
        have hp : PhOk .postgres sg r := h.1
        cases r with
        | anon => exact absurd rfl hp.2
        | name x => exact absurd hp.2 (by simp)
        | ord n =>
          rw [show sg = '$' from hp.2]
          rw [List.countP_eq_zero]
          intro c hc hq
          simp [Item.write] at hc
          rcases hc with rfl | hc
          · revert hq; decide
          · have hd := toDigits_digit hc
            simp [isQuote] at hq
            rcases hq with rfl | rfl <;> revert hd <;> decide
      omega

/-- **C72 (violated).** The name of a CTE is written as it is: with a quote in the name, the text cannot be read. -/
theorem C72_cte_name_violated : ¬ ∃ is, Inline.Reads .postgres
    (renderFrom (.select {} [.cte { name := "a\"b".toList } Ex.q1] [Ex.col "u" "id"] [] Ex.users [] (Ex.andp []) [] (Ex.andp []) []) { d := .postgres } [] {}).out is ∧
      ItemsOk .postgres is := by
  rintro ⟨is, h1, h2⟩
  have := one_quote h2
  rw [← Inline.bufString_reads .postgres _ _ h1] at this
  revert this
  decide +kernel

/-- **C72 (violated).** With the `nameonly` modifier the name of a column is written as it is. -/
theorem C72_nameonly_violated : ¬ ∃ is, Inline.Reads .postgres
    (renderFrom (.cpred [] "{1:nameonly} IS NULL".toList false [Ex.col "" "a\"b"]) { d := .postgres } [] {}).out is ∧ ItemsOk .postgres is := by
  rintro ⟨is, h1, h2⟩
  have := one_quote h2
  rw [← Inline.bufString_reads .postgres _ _ h1] at this
  revert this
  decide +kernel

/-- The condition on format strings is needed: in `{}0` the placeholder runs into the digit, and another placeholder is read. -/
example : bufString .postgres (renderFrom (.cpred [] "u.age > {}0".toList false [.scalar (.int 5)]) { d := .postgres } [] {}).out = "u.age > $10".toList ∧
    (renderFrom (.cpred [] "u.age > {}0".toList false [.scalar (.int 5)]) { d := .postgres } [] {}).args = [.val (.int 5)] := by decide +kernel

/-! ### The package's own expressions -/

theorem format_calm (d : Dialect) (ts : List Spec.TPart) (fmt : String) (hr : ts.all (fun t => match t with | .ref _ => false | _ => true) = true)
    (hw : fmt.toList = Spec.write ts) (h : ∀ d, ∃ s, walkT d .plain ts = some s ∧ s.ended = true) : Format d fmt.toList := by
  refine ⟨ts, ?_, hw, h d⟩
  intro nm hnm
  have := List.all_eq_true.1 hr _ hnm
  simp at this

/-- The template of a format string with `{}` only. -/
def tmpl : Str → List Spec.TPart
  | '{' :: '}' :: cs => .next :: tmpl cs
  | c :: cs => .text c :: tmpl cs
  | [] => []

/-- `format_calm` for format strings that are written out. -/
theorem format_lit (d : Dialect) (fmt : String)
    (h : ((tmpl fmt.toList).all (fun t => match t with | .ref _ => false | _ => true) = true ∧ fmt.toList = Spec.write (tmpl fmt.toList)) ∧
      [Dialect.sqlite, .postgres, .mysql, .sqlserver, .oracle, .other].all (fun d => match walkT d .plain (tmpl fmt.toList) with
        | some s => s.ended | none => false) = true) : Format d fmt.toList := by
  refine format_calm d _ fmt h.1.1 h.1.2 fun d => ?_
  have hd : d ∈ [Dialect.sqlite, .postgres, .mysql, .sqlserver, .oracle, .other] := by cases d <;> decide
  have := List.all_eq_true.1 h.2 d hd
  split at this
  · rename_i s hs; exact ⟨s, hs, this⟩
  · cases this

theorem all_predicatef (d : Dialect) (fmt : String) (vals : List Node) (hf : Format d fmt.toList) (h : ∀ n ∈ vals, n.All (Tame d)) :
    (predicatef fmt vals).All (Tame d) := by
  unfold predicatef
  rw [Node.All]
  refine ⟨hf, ?_⟩
  induction vals with
  | nil => trivial
  | cons v vs ih => exact ⟨h v (by simp), ih fun n hn => h n (List.mem_cons_of_mem _ hn)⟩

theorem all_fieldf (d : Dialect) (fmt : String) (vals : List Node) (hf : Format d fmt.toList) (h : ∀ n ∈ vals, n.All (Tame d)) :
    (fieldf fmt vals).All (Tame d) := by
  unfold fieldf
  rw [Node.All]
  refine ⟨?_, ?_⟩
  · intro p hp
    rw [List.mem_singleton] at hp
    subst hp
    exact hf
  induction vals with
  | nil => trivial
  | cons v vs ih => exact ⟨h v (by simp), ih fun n hn => h n (List.mem_cons_of_mem _ hn)⟩

theorem all_cmp (d : Dialect) (a b : Node) (op : String) (ha : a.All (Tame d)) (hb : b.All (Tame d))
    (h : op = "=" ∨ op = "<>" ∨ op = ">" ∨ op = ">=" ∨ op = "<" ∨ op = "<=") : (cmp a b op).All (Tame d) := by
  have hv : ∀ n ∈ [a, b], n.All (Tame d) := by
    intro n hn
    simp only [List.mem_cons, List.not_mem_nil, or_false] at hn
    rcases hn with rfl | rfl <;> assumption
  unfold cmp
  rcases h with rfl | rfl | rfl | rfl | rfl | rfl <;> (
    split
    · exact all_predicatef d _ _ (format_lit d _ (by decide)) hv
    split
    · exact all_predicatef d _ _ (format_lit d _ (by decide)) hv
    split
    · exact all_predicatef d _ _ (format_lit d _ (by decide)) hv
    · exact all_predicatef d _ _ (format_lit d _ (by decide)) hv)

theorem mem_bracketed (n : Node) : Spec.Part.operand n ∈ Spec.bracketed n := by
  unfold Spec.bracketed
  split <;> simp

theorem arms_all (d : Dialect) (cs : List (Node × Node)) (h : ∀ n, Spec.Part.operand n ∈ Spec.arms cs → n.All (Tame d)) : AllP (Tame d) cs := by
  induction cs with
  | nil => trivial
  | cons c cs ih =>
    obtain ⟨a, b⟩ := c
    exact ⟨h a (by simp [Spec.arms]), h b (by simp [Spec.arms]), ih fun n hn => h n (by simp [Spec.arms] at hn ⊢; exact Or.inr (Or.inr hn))⟩

theorem otherwise_all (d : Dialect) (e : Node) (h : ∀ n, Spec.Part.operand n ∈ Spec.otherwise e → n.All (Tame d)) : e.All (Tame d) := by
  cases e with
  | nil => trivial
  | _ => exact h _ (by simp [Spec.otherwise])

/-- **C72, the package's own expressions.** Every comparison, membership test, aggregate, window function, CASE and assignment built with the
package's functions is of this kind if its operands are. -/
theorem C72_expressions (d : Dialect) (c : Call) (h : ∀ n, Spec.Part.operand n ∈ Spec.form c → n.All (Tame d)) : c.node.All (Tame d) := by
  cases c
  case eq a b => exact all_cmp d a b _ (h _ (by simp [Spec.form, mem_bracketed])) (h _ (by simp [Spec.form, mem_bracketed])) (by simp)
  case ne a b => exact all_cmp d a b _ (h _ (by simp [Spec.form, mem_bracketed])) (h _ (by simp [Spec.form, mem_bracketed])) (by simp)
  case gt a b => exact all_cmp d a b _ (h _ (by simp [Spec.form, mem_bracketed])) (h _ (by simp [Spec.form, mem_bracketed])) (by simp)
  case ge a b => exact all_cmp d a b _ (h _ (by simp [Spec.form, mem_bracketed])) (h _ (by simp [Spec.form, mem_bracketed])) (by simp)
  case lt a b => exact all_cmp d a b _ (h _ (by simp [Spec.form, mem_bracketed])) (h _ (by simp [Spec.form, mem_bracketed])) (by simp)
  case le a b => exact all_cmp d a b _ (h _ (by simp [Spec.form, mem_bracketed])) (h _ (by simp [Spec.form, mem_bracketed])) (by simp)
  case in_ a b =>
    have h2 : ∀ n ∈ [a, b], n.All (Tame d) := by
      intro n hn
      refine h n ?_
      simp only [List.mem_cons, List.not_mem_nil, or_false] at hn
      cases b <;> rcases hn with rfl | rfl <;> simp [Spec.form]
    show (if b.kind = .rowvalue then _ else _ : Node).All (Tame d)
    split
    · exact all_predicatef d _ _ (format_lit d _ (by decide)) h2
    · exact all_predicatef d _ _ (format_lit d _ (by decide)) h2
  case assign l r =>
    show (Node.assign l r).All (Tame d)
    rw [Node.All]
    exact ⟨trivial, h _ (by simp [Spec.form]), h _ (by simp [Spec.form, mem_bracketed])⟩
  case caseWhen c cs e =>
    show (Node.predCases [] (c :: cs) e).All (Tame d)
    rw [Node.All]
    exact ⟨trivial, arms_all d _ fun n hn => h n (by simp [Spec.form, hn]), otherwise_all d e fun n hn => h n (by simp [Spec.form, hn])⟩
  case caseOf f c cs e =>
    show (Node.simpleCases [] f (c :: cs) e).All (Tame d)
    rw [Node.All]
    exact ⟨trivial, h _ (by simp [Spec.form]), arms_all d _ fun n hn => h n (by simp [Spec.form, hn]), otherwise_all d e fun n hn => h n (by simp [Spec.form, hn])⟩
  all_goals first
    | (refine all_predicatef d _ _ (format_lit d _ (by decide)) fun n hn => h n ?_
       simp only [List.mem_cons, List.not_mem_nil, or_false] at hn
       rcases hn with rfl | rfl | rfl | rfl <;> simp [Spec.form, Spec.over])
    | (refine all_predicatef d _ _ (format_lit d _ (by decide)) fun n hn => h n ?_
       simp only [List.mem_cons, List.not_mem_nil, or_false] at hn
       rcases hn with rfl | rfl <;> simp [Spec.form, Spec.over])
    | (refine all_predicatef d _ _ (format_lit d _ (by decide)) fun n hn => h n ?_
       simp only [List.mem_cons, List.not_mem_nil, or_false] at hn
       subst hn; simp [Spec.form, Spec.over])
    | (refine all_fieldf d _ _ (format_lit d _ (by decide)) fun n hn => h n ?_
       simp only [List.mem_cons, List.not_mem_nil, or_false] at hn
       rcases hn with rfl | rfl | rfl | rfl <;> simp [Spec.form, Spec.over])
    | (refine all_fieldf d _ _ (format_lit d _ (by decide)) fun n hn => h n ?_
       simp only [List.mem_cons, List.not_mem_nil, or_false] at hn
       rcases hn with rfl | rfl | rfl <;> simp [Spec.form, Spec.over])
    | (refine all_fieldf d _ _ (format_lit d _ (by decide)) fun n hn => h n ?_
       simp only [List.mem_cons, List.not_mem_nil, or_false] at hn
       rcases hn with rfl | rfl <;> simp [Spec.form, Spec.over])
    | (refine all_fieldf d _ _ (format_lit d _ (by decide)) fun n hn => h n ?_
       simp only [List.mem_cons, List.not_mem_nil, or_false] at hn
       subst hn; simp [Spec.form, Spec.over])
    | (refine all_fieldf d _ _ (format_lit d _ (by decide)) fun n hn => ?_
       cases hn)

/-! ### Statements -/

/-- The effects start with a text that starts with an ordinary character, unless the rendering fails. -/
def Begins (w : W) : Prop := w.st = .ok → ∃ c t r, calm c = true ∧ w.code = .text (c :: t) :: r

theorem begins_wr (s : Str) (h : (match s with | c :: _ => calm c | [] => false) = true) : Begins (.wr s) := by
  intro _
  cases s with
  | nil => cases h
  | cons c t => exact ⟨c, t, [], h, rfl⟩

theorem begins_seq {a b : W} (h : Begins a) : Begins (a ⨟ b) := by
  intro hok
  unfold W.seq at hok ⊢
  split at hok
  · rename_i ha
    obtain ⟨c, t, r, h1, h2⟩ := h ha
    exact ⟨c, t, r ++ b.code, h1, by simp [h2]⟩
  · rename_i hna
    exact absurd hok (by intro e; exact hna e)

theorem begins_when {a b : W} (c : Bool) (ha : Begins a) (hb : Begins b) : Begins (.when c a ⨟ b) := by
  unfold W.when
  split
  · exact begins_seq ha
  · intro hok
    exact hb (by simpa [W.seq, W.ok] using hok) |>.imp fun x hx => by simpa [W.seq, W.ok] using hx

theorem begins_ofRes {α : Type} (r : Res α) (f : α → W) (h : ∀ x, Begins (f x)) : Begins (.ofRes r f) := by
  cases r with
  | ok x => exact h x
  | err e => intro hh; cases hh
  | panic => intro hh; cases hh
  | hang => intro hh; cases hh

theorem begins_ctes (m : Mode) (cs : List Obj) : Begins (ctesAppend m cs) := by
  refine begins_seq ?_
  split <;> exact begins_wr _ (by decide)

theorem statement_begins (n : Node) (m : Mode) (pn : Str) (h : Statement n) : Begins (ren n m pn) := by
  cases n <;> try cases h
  · simp only [ren, selectAppend]
    exact begins_when _ (begins_ctes _ _) (begins_seq (begins_wr _ (by decide)))
  · simp only [ren, insertAppend]
    refine begins_ofRes _ _ fun x => ?_
    refine begins_when _ (begins_ctes _ _) (begins_seq ?_)
    split
    · split
      · intro hh; cases hh
      · exact begins_wr _ (by decide)
    · exact begins_wr _ (by decide)
  · simp only [ren, updateAppend]
    refine begins_ofRes _ _ fun x => ?_
    exact begins_when _ (begins_ctes _ _) (begins_seq (begins_wr _ (by decide)))
  · simp only [ren, deleteAppend]
    exact begins_when _ (begins_ctes _ _) (begins_seq (begins_wr _ (by decide)))

/-- Text that starts with an ordinary character starts with ordinary text. -/
theorem first_item (d : Dialect) (is : List Item) (h : ∀ i ∈ is, Nonempty' i) (hok : ItemsOk d is) (c : Char) (t : Str) (hw : write d is = c :: t)
    (hc : ¬ opens d c ∧ c ≠ '?' ∧ c ≠ '$' ∧ c ≠ ':' ∧ c ≠ '@') : ∃ t' is', is = .text (c :: t') :: is' := by
  cases is with
  | nil => cases hw
  | cons i is =>
    cases i with
    | text s =>
      cases s with
      | nil => exact absurd rfl (h (.text []) (by simp))
      | cons a as =>
        simp only [write, List.flatMap_cons, Item.write, List.cons_append, List.cons.injEq] at hw
        exact ⟨as, is, by rw [hw.1]⟩
    | quoted q b =>
      simp only [write, List.flatMap_cons, Item.write, List.cons_append, List.cons.injEq] at hw
      exact absurd (hw.1 ▸ hok.1) hc.1
    | ph sg r =>
      obtain ⟨t', ht⟩ := ph_head (d := d) hok.1 (write d is)
      have : sg :: t' = c :: t := by rw [← ht, ← hw]; rfl
      simp only [List.cons.injEq] at this
      have hs := ph_sigil (d := d) hok.1
      rw [this.1] at hs
      rcases hs with hs | hs | hs | hs
      · exact absurd hs hc.2.1
      · exact absurd hs hc.2.2.1
      · exact absurd hs hc.2.2.2.1
      · exact absurd hs hc.2.2.2.2

theorem first_text (d : Dialect) (c : Char) (t : Str) (r : List Instr) : ∃ ps, (exec d (.text (c :: t) :: r) {}).out = .text (c :: t) :: ps := by
  refine exec_ind (P := fun s : St => ∃ ps, s.out = .text (c :: t) :: ps) ?_ r _ ⟨[], rfl⟩
  rintro i s ⟨ps, hs⟩
  have : ∃ qs, (exec1 d i s).out = s.out ++ qs := by
    cases i <;> simp only [exec1]
    · exact ⟨_, rfl⟩
    · split
      · split <;> exact ⟨_, rfl⟩
      · exact ⟨_, rfl⟩
    · split <;> exact ⟨_, rfl⟩
    · split
      · split <;> exact ⟨_, rfl⟩
      · exact ⟨_, rfl⟩
    · exact ⟨[], by simp⟩
  obtain ⟨qs, hq⟩ := this
  exact ⟨ps ++ qs, by rw [hq, hs]; rfl⟩

/-- **C65, statements.** Let the pieces of SQL text that the program itself supplies be readable.  Then the text of every SELECT, INSERT, UPDATE
or DELETE statement with its arguments put in (as it is logged, and stored as the text of views and triggers) is the rendered statement with
each placeholder replaced by the literal of the value bound to it, everything else unchanged; it fails exactly if some bound value has no
literal.  Missing: named arguments that share a name. -/
theorem C65_statements_partial (n : Node) (m : Mode) (hs : Statement n) (h : n.All (Tame m.d)) (opq : Nat → Val) (hopq : ∀ i x v, opq i ≠ .named x v)
    (hst : (ren n m []).st = .ok) (hn : Inline.NamesDiffer (renderFrom n m [] {}).args) (hl : (renderFrom n m [] {}).args.length < 2 ^ 63) :
    Res.toOption' (Ddl.inlined opq m.d (ren n m [])) =
      Inline.written (Inline.lit m.d opq) (Spec.resolve (renderFrom n m [] {}).args 0 (renderFrom n m [] {}).out) := by
  refine Inline.C65_inlined_partial n m opq hopq hst hn fun _ => ?_
  obtain ⟨s, h1, h2, -⟩ := ren_reads n h m rfl [] .plain rfl
  have hp : pieces (renderFrom n m [] {}).out = effects (ren n m []).code := by
    unfold renderFrom
    rw [pieces_exec]
    rfl
  obtain ⟨is, i1, i2, i3, -⟩ := items s h2.1 _ (exec_pieces m.d _ (named_tree n m h []) hl) [] .plain (Or.inl rfl) (by
    show walk m.d .plain (pieces (renderFrom n m [] {}).out) = some s
    rw [hp]; exact h1)
  obtain ⟨c, t, r, hc, hcode⟩ := statement_begins n m [] hs hst
  obtain ⟨ps, hps⟩ := first_text m.d c t r
  have hw : write m.d is = c :: (t ++ bufString m.d ps) := by
    rw [← Inline.bufString_reads m.d _ _ i1]
    simp only [List.map_nil, List.nil_append, renderFrom, hcode]
    rw [hps]
    simp [bufString, Piece.str]
  obtain ⟨t', is', rfl⟩ := first_item m.d is i3 i2 c _ hw ⟨(calm_spec hc).1, by
    unfold calm at hc
    simp only [Bool.and_eq_true, decide_eq_true_eq] at hc
    exact ⟨hc.1.1.1.2, hc.1.1.2, hc.1.2, hc.2⟩⟩
  exact ⟨c, t', is', i1, i2⟩

/-! ### Non-vacuity -/

/-- A statement with names that contain quotes and placeholder characters, a named argument and a CASE expression. -/
def nasty : Node :=
  .select { limit := some 5 } [] [Ex.col "o'k" "a\"b", .field { name := "$1".toList, «alias» := "?".toList } false false []] []
    (.table "s".toList "t?".toList "o'k".toList Ex.noHook fun _ => .nil) []
    (Ex.andp [(Call.eq (Ex.col "o'k" ":x") (.namedArg "nm".toList (.str "'"))).node, (Call.in_ (Ex.col "" "c") (.slice 0 [.scalar (.int 1), .scalar (.str "$2")])).node])
    [] (Ex.andp []) []

theorem nasty_tame : nasty.All (Tame .sqlite) := by
  have hn : NamedOk .sqlite "nm".toList := ⟨Or.inl rfl, ⟨'n', ['m'], rfl, by decide⟩, by decide, by nofun⟩
  have col : ∀ a b : Str, (Ex.col a b).All (Tame .sqlite) := fun a b => by simp [Ex.col, Node.All, AllL, Tame]
  have e1 := C72_expressions .sqlite (.eq (Ex.col "o'k" ":x") (.namedArg "nm".toList (.str "'".toList))) (by
    intro n hh
    simp [Spec.form, Spec.bracketed, Node.kind, Ex.col] at hh
    rcases hh with rfl | rfl
    · exact col _ _
    · rw [Node.All]; exact Or.inr (Or.inr hn))
  have e2 := C72_expressions .sqlite (.in_ (Ex.col "" "c") (.slice 0 [.scalar (.int 1), .scalar (.str "$2".toList)])) (by
    intro n hh
    simp [Spec.form] at hh
    rcases hh with rfl | rfl
    · exact col _ _
    · simp [Node.All, AllL, Tame])
  simp only [nasty, Node.All, AllL, Ex.andp, Tame]
  simp [col]
  exact ⟨e1, e2⟩

set_option maxRecDepth 100000 in
/-- Non-vacuity of C72 and C65: the statement above meets the hypotheses; what it is rendered to; and what is logged. -/
example (opq : Nat → Val) (hopq : ∀ i x v, opq i ≠ .named x v) :
    bufString .sqlite (renderFrom nasty { d := .sqlite } [] {}).out =
      "SELECT \"o'k\".\"a\"\"b\", \"$1\" AS \"?\" FROM s.\"t?\" AS \"o'k\" WHERE \"o'k\".\":x\" = $nm AND c IN ($2, $3) LIMIT $4".toList ∧
    Res.toOption' (Ddl.inlined opq .sqlite (ren nasty { d := .sqlite } [])) =
      some "SELECT \"o'k\".\"a\"\"b\", \"$1\" AS \"?\" FROM s.\"t?\" AS \"o'k\" WHERE \"o'k\".\":x\" = '''' AND c IN (1, '$2') LIMIT 5".toList := by
  have ha : (renderFrom nasty { d := .sqlite } [] {}).args =
      [.named "nm".toList (.str "'".toList), .val (.int 1), .val (.str "$2".toList), .val (.int 5)] := by decide +kernel
  refine ⟨by decide +kernel, ?_⟩
  rw [C65_statements_partial nasty { d := .sqlite } trivial nasty_tame opq hopq (by decide +kernel) ?_ (by rw [ha]; decide)]
  · rw [ha]
    rfl
  · rw [ha]
    intro i j x a b h1 h2
    match i, j with
    | 0, 0 => rfl
    | 0, 1 | 0, 2 | 0, 3 => cases h2
    | 0, j + 4 => simp at h2
    | 1, _ | 2, _ | 3, _ => cases h1
    | i + 4, _ => simp at h1

end Sq.Lexical
