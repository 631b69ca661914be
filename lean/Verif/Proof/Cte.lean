import Verif.Spec.Cte
import Verif.Proof.Change
import Verif.Proof.Guard
/-
Common table expressions: what is written for them is what the same questions about tables are written as, each behind its name and in parentheses.
-/
namespace Sq.Shared
open Sq Sq.Spec Sq.Chain Sq.Exprs Sq.Spec.Store Sq.Spec.Where Sq.Spec.Sel Sq.Choosing Sq.Asking Sq.Deriving
open Sq.Spec.Cte hiding query fromQuery Sound Understands
open Sq.Storing hiding pieces
open Ddl (Ends Breaks nameTok tokens_ident tokens_append_ends tokens_append_breaks ends_append_breaks tokens_of_ends tokens_word ends_append)
open _root_.Spec (Tok tokens BTok BExp readBool identClose isBareIdent readOr readAnd readNot readPrim)

/-! ### Parentheses -/

/-- Every parenthesis in it has its counterpart in it. -/
def Bal (u : List Lex) : Prop := ∀ n r, close? n (u ++ r) = (close? n r).map fun y => (u ++ y.1, y.2)

def Quiet (x : Lex) : Prop := x ≠ .tok (.sym '(') ∧ x ≠ .tok (.sym ')')

theorem Bal.nil : Bal [] := fun n r => by simp
theorem Bal.append {a b : List Lex} (ha : Bal a) (hb : Bal b) : Bal (a ++ b) := fun n r => by
  rw [List.append_assoc, ha, hb, Option.map_map]
  congr 1
  funext y
  simp
theorem Bal.cons {x : Lex} (hx : Quiet x) {u : List Lex} (h : Bal u) : Bal (x :: u) := fun n r => by
  show close? n (x :: (u ++ r)) = _
  conv => lhs; unfold close?
  rw [if_neg hx.1, if_neg hx.2, h, Option.map_map]
  rfl
theorem Bal.quiet {u : List Lex} (h : ∀ x ∈ u, Quiet x) : Bal u := by
  induction u with
  | nil => exact Bal.nil
  | cons x u ih => exact Bal.cons (h x (List.mem_cons_self ..)) (ih fun y hy => h y (List.mem_cons_of_mem _ hy))
theorem Bal.paren {u : List Lex} (h : Bal u) : Bal (.tok (.sym '(') :: (u ++ [.tok (.sym ')')])) := fun n r => by
  show close? n (.tok (.sym '(') :: (u ++ [.tok (.sym ')')] ++ r)) = _
  rw [List.append_assoc]
  conv => lhs; unfold close?
  rw [if_pos rfl, h, List.singleton_append]
  have : close? (n + 1) (.tok (.sym ')') :: r) = (close? n r).map fun y => (.tok (.sym ')') :: y.1, y.2) := by
    conv => lhs; unfold close?
    rw [if_neg (by simp), if_pos rfl]
  rw [this, Option.map_map, Option.map_map]
  congr 1
  funext y
  simp
theorem Bal.close {u : List Lex} (h : Bal u) (r : List Lex) : close? 0 (u ++ .tok (.sym ')') :: r) = some (u, r) := by
  rw [h]
  have : close? 0 (.tok (.sym ')') :: r) = some ([], r) := by
    unfold close?
    rw [if_neg (by simp), if_pos rfl]
  rw [this]
  simp

theorem quiet_word (w : Str) : Quiet (.tok (.word w)) := ⟨by simp, by simp⟩
theorem quiet_val (v : Scalar) : Quiet (.val v) := ⟨by simp, by simp⟩
theorem quiet_sym {c : Char} (h1 : c ≠ '(') (h2 : c ≠ ')') : Quiet (.tok (.sym c)) := ⟨by simpa using h1, by simpa using h2⟩
theorem quiet_name {d : Dialect} {t : Tok} {n : Str} (h : name? d t = some n) : Quiet (.tok t) := by
  cases t with
  | sym c => simp [name?] at h
  | word w => exact quiet_word w
  | quoted q x => exact ⟨by simp, by simp⟩

/-- What a reader took is balanced. -/
def Takes (xs r : List Lex) : Prop := ∃ u, xs = u ++ r ∧ Bal u

theorem Takes.refl (xs : List Lex) : Takes xs xs := ⟨[], rfl, Bal.nil⟩
theorem Takes.trans {a b c : List Lex} (h : Takes a b) (k : Takes b c) : Takes a c := by
  obtain ⟨u, rfl, hu⟩ := h
  obtain ⟨v, rfl, hv⟩ := k
  exact ⟨u ++ v, by simp, hu.append hv⟩
theorem Takes.quiet {x : Lex} (hx : Quiet x) (r : List Lex) : Takes (x :: r) r := ⟨[x], rfl, Bal.cons hx Bal.nil⟩
theorem Takes.end {a : List Lex} (h : Takes a []) : Bal a := by
  obtain ⟨u, rfl, hu⟩ := h
  rwa [List.append_nil]

theorem takes_column {κ : Type} {d : Dialect} {sc : Scope κ} {xs r : List Lex} {c : κ} (h : column? d sc xs = some (c, r)) : Takes xs r := by
  unfold column? at h
  split at h
  · rename_i a b r'
    simp only [Option.bind_eq_some_iff, Option.map_eq_some_iff] at h
    obtain ⟨l, hl, n, hn, k, _, e⟩ := h
    cases e
    exact ((Takes.quiet (quiet_name hl) _).trans (Takes.quiet (quiet_sym (by decide) (by decide)) _)).trans (Takes.quiet (quiet_name hn) _)
  · cases h

theorem takes_rhs {κ : Type} {d : Dialect} {sc : Scope κ} {xs r : List Lex} {c : Rhs κ} (h : rhs? d sc xs = some (c, r)) : Takes xs r := by
  unfold rhs? at h
  split at h
  · cases h
    exact Takes.quiet (quiet_val _) _
  · simp only [Option.map_eq_some_iff, Prod.mk.injEq] at h
    obtain ⟨⟨k, r'⟩, hk, _, rfl⟩ := h
    exact takes_column hk

theorem takes_op {xs r : List Lex} {o : Op} (h : op? xs = some (o, r)) : Takes xs r := by
  unfold op? at h
  have s : ∀ (c : Char) (r : List Lex), c ≠ '(' → c ≠ ')' → Takes (.tok (.sym c) :: r) r := fun c r h1 h2 => Takes.quiet (quiet_sym h1 h2) r
  split at h
  · cases h; exact (s _ _ (by decide) (by decide)).trans (s _ _ (by decide) (by decide))
  · cases h; exact (s _ _ (by decide) (by decide)).trans (s _ _ (by decide) (by decide))
  · cases h; exact (s _ _ (by decide) (by decide)).trans (s _ _ (by decide) (by decide))
  · cases h; exact s _ _ (by decide) (by decide)
  · cases h; exact s _ _ (by decide) (by decide)
  · cases h; exact s _ _ (by decide) (by decide)
  · split at h
    · cases h; exact Takes.quiet (quiet_word _) _
    · split at h
      · cases h; exact Takes.quiet (quiet_word _) _
      · cases h
  · cases h

theorem takes_values (xs : List Lex) : ∀ vs r, values? xs = some (vs, r) → ∃ u, xs = u ++ .tok (.sym ')') :: r ∧ Bal u := by
  fun_induction values? xs with
  | case1 v r ih =>
    intro vs r' h
    simp only [Option.map_eq_some_iff, Prod.mk.injEq] at h
    obtain ⟨⟨ws, r''⟩, hw, _, rfl⟩ := h
    obtain ⟨u, rfl, hu⟩ := ih _ _ hw
    exact ⟨.val v :: .tok (.sym ',') :: u, rfl, Bal.cons (quiet_val v) (Bal.cons (quiet_sym (by decide) (by decide)) hu)⟩
  | case2 v r =>
    intro vs r' h
    cases h
    exact ⟨[.val v], rfl, Bal.cons (quiet_val v) Bal.nil⟩
  | case3 xs h1 h2 =>
    intro vs r' h
    cases h

theorem takes_test {κ : Type} {d : Dialect} {sc : Scope κ} {c : κ} {xs r : List Lex} {x : Test κ} (h : test? d sc c xs = some (x, r)) : Takes xs r := by
  unfold test? at h
  split at h
  · rename_i op r0 ho
    simp only [Option.map_eq_some_iff, Prod.mk.injEq] at h
    obtain ⟨⟨y, r'⟩, hr, _, rfl⟩ := h
    exact (takes_op ho).trans (takes_rhs hr)
  · split at h
    · have w2 : ∀ (a b : Str) (r0 : List Lex), Takes (.tok (.word a) :: .tok (.word b) :: r0) r0 := fun a b r0 =>
        (Takes.quiet (quiet_word a) (.tok (.word b) :: r0)).trans (Takes.quiet (quiet_word b) r0)
      split at h
      · split at h
        · cases h; exact w2 _ _ _
        · split at h
          · split at h
            · rename_i n' r1
              split at h
              · cases h; exact (w2 _ _ _).trans (Takes.quiet (quiet_word _) _)
              · cases h
            · cases h
          · cases h
      · cases h
    · split at h
      · simp only [Option.map_eq_some_iff, Prod.mk.injEq] at h
        obtain ⟨⟨vs, r'⟩, hv, _, rfl⟩ := h
        obtain ⟨u, rfl, hu⟩ := takes_values _ _ _ hv
        exact (Takes.quiet (quiet_word _) _).trans ⟨_, by simp, hu.paren⟩
      · cases h
    · cases h

/-- The text of connectives, parentheses and tests. -/
def Lay {α : Type} : List Lex → List (BTok α) → Prop
  | xs, [] => xs = []
  | xs, .lp :: ts => ∃ r, xs = .tok (.sym '(') :: r ∧ Lay r ts
  | xs, .rp :: ts => ∃ r, xs = .tok (.sym ')') :: r ∧ Lay r ts
  | xs, _ :: ts => ∃ r, Takes xs r ∧ Lay r ts

theorem lay_group {κ : Type} (d : Dialect) (sc : Scope κ) (k : Nat) : ∀ (xs : List Lex) ts, group d sc k xs = some ts → Lay xs ts := by
  induction k with
  | zero =>
    intro xs ts h
    cases xs with
    | nil => simp only [group, Option.some.injEq] at h; subst h; rfl
    | cons x xs => simp [group] at h
  | succ k ih =>
    intro xs ts h
    cases xs with
    | nil => simp only [group, Option.some.injEq] at h; subst h; rfl
    | cons x xs =>
      unfold group at h
      split at h
      · rename_i b hb
        simp only [Option.map_eq_some_iff] at h
        obtain ⟨ts', ht, rfl⟩ := h
        have hl := ih _ _ ht
        cases x with
        | val v => cases hb
        | tok t =>
          change connective? t = some b at hb
          unfold connective? at hb
          split at hb
          · cases hb; exact ⟨xs, rfl, hl⟩
          · cases hb; exact ⟨xs, rfl, hl⟩
          · rename_i w
            have hw := Takes.quiet (quiet_word w) xs
            split at hb
            · cases hb; exact ⟨xs, hw, hl⟩
            · split at hb
              · cases hb; exact ⟨xs, hw, hl⟩
              · split at hb
                · cases hb; exact ⟨xs, hw, hl⟩
                · cases hb
          · cases hb
      · simp only [Option.bind_eq_some_iff, Option.map_eq_some_iff] at h
        obtain ⟨⟨c, r⟩, hc, ⟨t, r'⟩, ht, ts', hts, rfl⟩ := h
        exact ⟨r', (takes_column hc).trans (takes_test ht), ih _ _ hts⟩

/-- Reading from here to there takes balanced text. -/
def Crosses {α : Type} (ts r : List (BTok α)) : Prop := ∀ xs, Lay xs ts → ∃ y, Takes xs y ∧ Lay y r

theorem crosses_read {α : Type} (k : Nat) :
    (∀ (ts : List (BTok α)) e r, readOr k ts = some (e, r) → Crosses ts r) ∧
    (∀ (ts : List (BTok α)) e r, readAnd k ts = some (e, r) → Crosses ts r) ∧
    (∀ (ts : List (BTok α)) e r, readNot k ts = some (e, r) → Crosses ts r) ∧
    (∀ (ts : List (BTok α)) e r, readPrim k ts = some (e, r) → Crosses ts r) := by
  have join : ∀ {ts r r' : List (BTok α)} {x : BTok α}, x = .and ∨ x = .or → Crosses ts (x :: r) → Crosses r r' → Crosses ts r' := by
    intro ts r r' x hx h1 h2 xs hl
    obtain ⟨y, t1, l1⟩ := h1 xs hl
    have : ∃ z, Takes y z ∧ Lay z r := by rcases hx with rfl | rfl <;> exact l1
    obtain ⟨z, t2, l2⟩ := this
    obtain ⟨v, t3, l3⟩ := h2 z l2
    exact ⟨v, (t1.trans t2).trans t3, l3⟩
  induction k with
  | zero => exact ⟨fun _ _ _ h => by simp [readOr] at h, fun _ _ _ h => by simp [readAnd] at h, fun _ _ _ h => by simp [readNot] at h, fun _ _ _ h => by simp [readPrim] at h⟩
  | succ k ih =>
    obtain ⟨i1, i2, i3, i4⟩ := ih
    refine ⟨fun ts e r h => ?_, fun ts e r h => ?_, fun ts e r h => ?_, fun ts e r h => ?_⟩
    · simp only [readOr] at h
      split at h
      · rename_i e1 r1 h1
        split at h
        · rename_i f r' h2
          simp only [Option.some.injEq, Prod.mk.injEq] at h
          obtain ⟨rfl, rfl⟩ := h
          exact join (.inr rfl) (i2 _ _ _ h1) (i1 _ _ _ h2)
        · cases h
      · exact i2 _ _ _ h
    · simp only [readAnd] at h
      split at h
      · rename_i e1 r1 h1
        split at h
        · rename_i f r' h2
          simp only [Option.some.injEq, Prod.mk.injEq] at h
          obtain ⟨rfl, rfl⟩ := h
          exact join (.inl rfl) (i3 _ _ _ h1) (i2 _ _ _ h2)
        · cases h
      · exact i3 _ _ _ h
    · unfold readNot at h
      split at h
      · cases h
      · rename_i k' r0 hk
        cases hk
        split at h
        · rename_i e1 r1 h1
          simp only [Option.some.injEq, Prod.mk.injEq] at h
          obtain ⟨rfl, rfl⟩ := h
          rintro xs ⟨y, t1, l1⟩
          obtain ⟨z, t2, l2⟩ := i3 _ _ _ h1 y l1
          exact ⟨z, t1.trans t2, l2⟩
        · cases h
      · rename_i hk _
        cases hk
        exact i4 _ _ _ h
    · unfold readPrim at h
      split at h
      · cases h
      · simp only [Option.some.injEq, Prod.mk.injEq] at h
        obtain ⟨rfl, rfl⟩ := h
        exact fun xs hl => hl
      · rename_i k' r0 hk
        cases hk
        split at h
        · rename_i e1 r1 h1
          simp only [Option.some.injEq, Prod.mk.injEq] at h
          obtain ⟨rfl, rfl⟩ := h
          rintro xs ⟨y, rfl, l1⟩
          obtain ⟨z, ⟨u, rfl, hu⟩, v, rfl, l2⟩ := i1 _ _ _ h1 y l1
          exact ⟨v, ⟨_, by simp, hu.paren⟩, l2⟩
        · cases h
      · cases h

theorem bal_expression {κ : Type} {d : Dialect} {sc : Scope κ} {xs : List Lex} {e : BExp (Test κ)} (h : expression d sc xs = some e) : Bal xs := by
  unfold expression at h
  simp only [Option.bind_eq_some_iff] at h
  obtain ⟨ts, ht, hr⟩ := h
  unfold readBool at hr
  split at hr
  · rename_i e' h1
    obtain ⟨y, t, hy⟩ := (crosses_read _).1 _ _ _ h1 xs (lay_group d sc _ _ _ ht)
    cases hy
    exact t.end
  · cases hr

theorem bal_cond {d : Dialect} {labels : List Str} {xs : List Lex} {e : Option (BExp (Test Sel.Col))} (h : cond? d labels xs = some e) : Bal xs := by
  unfold cond? at h
  split at h
  · rename_i e' he
    exact bal_expression he
  · split at h
    · rename_i ha
      unfold always at ha
      split at ha
      · exact Bal.cons (quiet_word _) Bal.nil
      · cases ha
    · cases h

theorem bal_alias {d : Dialect} {s n : Str} {xs : List Lex} {t : Ref} (h : alias? d s n xs = some t) : Bal xs := by
  unfold alias? at h
  split at h
  · exact Bal.nil
  · split at h
    · simp only [Option.map_eq_some_iff] at h
      obtain ⟨a, ha, _⟩ := h
      exact Bal.cons (quiet_word _) (Bal.cons (quiet_name ha) Bal.nil)
    · cases h
  · cases h

theorem bal_ref {d : Dialect} {xs : List Lex} {t : Ref} (h : ref? d xs = some t) : Bal xs := by
  unfold ref? at h
  split at h
  · simp only [Option.bind_eq_some_iff] at h
    obtain ⟨s, hs, x, hx, h⟩ := h
    exact Bal.cons (quiet_name hs) (Bal.cons (quiet_sym (by decide) (by decide)) (Bal.cons (quiet_name hx) (bal_alias h)))
  · simp only [Option.bind_eq_some_iff] at h
    obtain ⟨x, hx, h⟩ := h
    exact Bal.cons (quiet_name hx) (bal_alias h)
  · cases h

theorem bal_nulls {l : Lang} {xs : List Lex} {o : Option Bool} (h : nulls? l xs = some o) : Bal xs := by
  unfold nulls? at h
  split at h
  · exact Bal.nil
  · exact Bal.cons (quiet_word _) (Bal.cons (quiet_word _) Bal.nil)
  · cases h

theorem bal_key {l : Lang} {labels : List Str} {xs : List Lex} {k : Key} (h : key? l labels xs = some k) : Bal xs := by
  unfold key? at h
  simp only [Option.bind_eq_some_iff] at h
  obtain ⟨⟨c, r⟩, hc, h⟩ := h
  have t := takes_column hc
  have fin : ∀ {r' : List Lex} {o : Option Bool}, Takes r r' → nulls? l r' = some o → Bal xs := by
    rintro r' o t' hn
    obtain ⟨u, rfl, hu⟩ := t.trans t'
    exact hu.append (bal_nulls hn)
  dsimp only at h
  split at h
  · split at h
    · simp only [Option.map_eq_some_iff] at h
      obtain ⟨o, ho, _⟩ := h
      exact fin (Takes.quiet (quiet_word _) _) ho
    · split at h
      · simp only [Option.map_eq_some_iff] at h
        obtain ⟨o, ho, _⟩ := h
        exact fin (Takes.quiet (quiet_word _) _) ho
      · simp only [Option.map_eq_some_iff] at h
        obtain ⟨o, ho, _⟩ := h
        exact fin (Takes.refl _) ho
  · simp only [Option.map_eq_some_iff] at h
    obtain ⟨o, ho, _⟩ := h
    exact fin (Takes.refl _) ho

theorem bal_col {d : Dialect} {labels : List Str} {xs : List Lex} {c : Sel.Col} (h : col? d labels xs = some c) : Bal xs := by
  unfold col? at h
  split at h
  · rename_i c' hc
    exact (takes_column hc).end
  · cases h

theorem comma_pieces (xs : List Lex) : commaL (Sel.pieces xs) = xs := by
  induction xs with
  | nil => rfl
  | cons x xs ih =>
    obtain ⟨p, ps, e⟩ := List.exists_cons_of_ne_nil (pieces_ne xs)
    rw [e] at ih
    unfold Sel.pieces
    split
    · rename_i hx
      subst hx
      rw [e]
      show [] ++ .tok (.sym ',') :: commaL (p :: ps) = _
      rw [ih]
      rfl
    · rw [e]
      show commaL ((x :: p) :: ps) = x :: xs
      rw [← ih]
      cases ps <;> rfl

theorem bal_comma (ps : List (List Lex)) (h : ∀ p ∈ ps, Bal p) : Bal (commaL ps) := by
  induction ps with
  | nil => exact Bal.nil
  | cons p ps ih =>
    cases ps with
    | nil => exact h p (List.mem_cons_self ..)
    | cons q ps =>
      exact (h p (List.mem_cons_self ..)).append (Bal.cons (quiet_sym (by decide) (by decide)) (ih fun x hx => h x (List.mem_cons_of_mem _ hx)))

theorem every_some {α β : Type} {f : α → Option β} {xs : List α} {ys : List β} (h : every f xs = some ys) : ∀ x ∈ xs, ∃ y, f x = some y := by
  induction xs generalizing ys with
  | nil => simp
  | cons x xs ih =>
    simp only [every, Option.bind_eq_some_iff, Option.map_eq_some_iff] at h
    obtain ⟨y, hy, zs, hz, _⟩ := h
    intro z hz'
    rcases List.mem_cons.1 hz' with rfl | hz'
    · exact ⟨y, hy⟩
    · exact ih hz z hz'

theorem bal_every {β : Type} {f : List Lex → Option β} (hf : ∀ x y, f x = some y → Bal x) {xs : List Lex} {ys : List β} (h : every f (Sel.pieces xs) = some ys) : Bal xs := by
  rw [← comma_pieces xs]
  refine bal_comma _ fun p hp => ?_
  obtain ⟨y, hy⟩ := every_some h p hp
  exact hf p y hy

/-- What follows each clause word. -/
def BalSecs (ss : List (Word × List Lex)) : Prop := ∀ s ∈ ss, Bal s.2

theorem bal_sections (xs : List Lex) (h1 : Bal (sections xs).1) (h2 : BalSecs (sections xs).2) : Bal xs := by
  have key : ∃ us : List (Lex × List Lex), xs = (sections xs).1 ++ us.flatMap (fun u => u.1 :: u.2) ∧ (∀ u ∈ us, Quiet u.1) ∧ us.map Prod.snd = (sections xs).2.map Prod.snd := by
    clear h1 h2
    induction xs with
    | nil => exact ⟨[], rfl, by simp, rfl⟩
    | cons x xs ih =>
      obtain ⟨us, e1, e2, e3⟩ := ih
      unfold sections
      split
      · rename_i w hw
        refine ⟨(x, (sections xs).1) :: us, ?_, ?_, ?_⟩
        · exact congrArg (x :: ·) e1
        · intro u hu
          rcases List.mem_cons.1 hu with rfl | hu
          · unfold clauseWord at hw
            split at hw
            · exact quiet_word _
            · cases hw
          · exact e2 u hu
        · simp [e3]
      · refine ⟨us, ?_, e2, e3⟩
        exact congrArg (x :: ·) e1
  obtain ⟨us, e1, e2, e3⟩ := key
  rw [e1]
  refine h1.append ?_
  have hb : ∀ u ∈ us, Bal u.2 := by
    intro u hu
    have : u.2 ∈ (sections xs).2.map Prod.snd := by rw [← e3]; exact List.mem_map_of_mem hu
    obtain ⟨s, hs, e⟩ := List.mem_map.1 this
    rw [← e]
    exact h2 s hs
  clear e1 e3
  induction us with
  | nil => exact Bal.nil
  | cons u us ih =>
    rw [List.flatMap_cons]
    exact (Bal.cons (e2 u (List.mem_cons_self ..)) (hb u (List.mem_cons_self ..))).append
      (ih (fun v hv => e2 v (List.mem_cons_of_mem _ hv)) (fun v hv => hb v (List.mem_cons_of_mem _ hv)))

theorem BalSecs.cons {w : Word} {x : List Lex} (hx : Bal x) {ss : List (Word × List Lex)} (h : BalSecs ss) : BalSecs ((w, x) :: ss) := fun s hs => by
  rcases List.mem_cons.1 hs with rfl | hs
  · exact hx
  · exact h s hs

theorem bal_joins {l : Lang} (k : Nat) : ∀ {labels : List Str} {ss : List (Word × List Lex)} {z}, joins? l k labels ss = some z → BalSecs z.2.2 → BalSecs ss := by
  induction k with
  | zero => intro _ _ _ h; simp [joins?] at h
  | succ k ih =>
    intro labels ss z h hz
    unfold joins? at h
    split at h
    · cases h; exact hz
    · rename_i how x y r hn
      simp only [Option.bind_eq_some_iff] at h
      obtain ⟨t, ht, h⟩ := h
      split at h
      · simp only [Option.bind_eq_some_iff, Option.map_eq_some_iff] at h
        obtain ⟨e, he, z', hz', rfl⟩ := h
        have hr := ih hz' hz
        have hx := bal_ref ht
        have hy : ∀ y', y = some y' → Bal y' := by rintro y' rfl; exact bal_cond he
        unfold nextJoin at hn
        split at hn <;> cases hn
        · exact .cons hx (.cons (hy _ rfl) hr)
        · exact .cons Bal.nil (.cons hx (.cons (hy _ rfl) hr))
        · exact .cons Bal.nil (.cons hx (.cons (hy _ rfl) hr))
        · exact .cons Bal.nil (.cons hx (.cons (hy _ rfl) hr))
        · exact .cons Bal.nil (.cons hx hr)
      · cases h

theorem bal_where {d : Dialect} {labels : List Str} {ss : List (Word × List Lex)} {z} (h : where? d labels ss = some z) (hz : BalSecs z.2) : BalSecs ss := by
  unfold where? at h
  split at h
  · simp only [Option.map_eq_some_iff] at h
    obtain ⟨e, he, rfl⟩ := h
    exact .cons (bal_cond he) hz
  · cases h; exact hz

theorem bal_order {l : Lang} {labels : List Str} {ss : List (Word × List Lex)} {z} (h : order? l labels ss = some z) (hz : BalSecs z.2) : BalSecs ss := by
  unfold order? at h
  split at h
  · split at h
    · simp only [Option.map_eq_some_iff] at h
      obtain ⟨e, he, rfl⟩ := h
      exact .cons (Bal.cons (quiet_word _) (bal_every (fun x y => bal_key) he)) hz
    · cases h
  · cases h; exact hz

theorem bal_number {xs : List Lex} {n : Nat} (h : number? xs = some n) : Bal xs := by
  unfold number? at h
  split at h
  · exact Bal.cons (quiet_val _) Bal.nil
  · cases h

theorem bal_page {l : Lang} {ss : List (Word × List Lex)} {z} (h : page? l ss = some z) (hz : BalSecs z.2) : BalSecs ss := by
  unfold page? at h
  split at h
  · simp only [Option.bind_eq_some_iff, Option.map_eq_some_iff] at h
    obtain ⟨n, hn, k, hk, rfl⟩ := h
    exact .cons (bal_number hn) (.cons (bal_number hk) hz)
  · simp only [Option.map_eq_some_iff] at h
    obtain ⟨n, hn, rfl⟩ := h
    exact .cons (bal_number hn) hz
  · split at h
    · simp only [Option.map_eq_some_iff] at h
      obtain ⟨k, hk, rfl⟩ := h
      exact .cons (bal_number hk) hz
    · cases h
  · cases h; exact hz

/-- A statement that is read is balanced. -/
theorem bal_stmt {l : Lang} {xs : List Lex} {m : Stmt} (h : stmt? l xs = some m) : Bal xs := by
  unfold stmt? stmtOf? at h
  split at h
  · rename_i m' hs
    unfold selected? at hs
    split at hs
    · rename_i sel cols x r e
      split at hs
      · simp only [Option.bind_eq_some_iff, Option.map_eq_some_iff] at hs
        obtain ⟨t, ht, j, hj, w, hw, o, ho, p, hp, cs, hcs, e'⟩ := hs
        have hp2 : p.2 = [] := (Prod.mk.inj e').2
        refine bal_sections xs ?_ ?_
        · rw [e]
          exact Bal.cons (quiet_word _) (bal_every (fun x y => bal_col) hcs)
        · rw [e]
          exact .cons (bal_ref ht) (bal_joins _ hj (bal_where hw (bal_order ho (bal_page hp (by rw [hp2]; intro s hs; cases hs)))))
      · cases hs
    · cases hs
  · cases h

/-! ### Values that are written alike -/

theorem obj_ext {a b : Node} (h1 : a.kind = b.kind) (h2 : a.alias = b.alias) (h3 : a.name = b.name) (h4 : a.key = b.key) (h5 : ∀ m pn, ren a m pn = ren b m pn)
    (h6 : ∀ e, hookOf a e = hookOf b e) : obj a = obj b := by
  unfold obj mkPV
  rw [h1, h2, h3, h4, show ren a = ren b from funext fun m => funext (h5 m), show hookOf a = hookOf b from funext h6]

theorem obj_kind {a b : Node} (h : obj a = obj b) : a.kind = b.kind := congrArg (fun p : PV => p.kind) h
theorem obj_alias {a b : Node} (h : obj a = obj b) : a.alias = b.alias := congrArg (fun p : PV => p.alias) h

theorem alike_cpred {f : Str} {n : Bool} {vs ws : List Node} (h : vs.map obj = ws.map obj) : obj (.cpred [] f n vs) = obj (.cpred [] f n ws) := by
  refine obj_ext rfl rfl rfl rfl (fun m pn => ?_) (fun e => rfl)
  simp only [ren]
  rw [objs_eq, objs_eq, h]

theorem alike_vpred {t o n : Bool} {a : Str} {ps qs : List Node} (h : ps.map obj = qs.map obj) : obj (.vpred t a o n ps) = obj (.vpred t a o n qs) := by
  have hl : ps.length = qs.length := by simpa using congrArg List.length h
  refine obj_ext (by simp [Node.kind, hl]) rfl rfl rfl (fun m pn => ?_) (fun e => rfl)
  simp only [ren]
  rw [objs_eq, objs_eq, h, hl]

/-- The Go type of a field, where fields of CTEs are what they are. -/
def raws (raw : Field → Bool) (cs : List CTE) (c : Field) : Bool := if (cteFor cs c.tab).isSome then false else raw c

/-- A CTE that can be used. -/
structure Fit (k : CTE) : Prop where
  sticky : k.info.sticky = none
  name : k.info.name ≠ []
  bare : isBareIdent k.info.name = true
  query : k.query.kind.isNil = false
  cache : k.cache ≠ []

def Has (cs : List CTE) (c : Field) : Prop := ∀ k, cteFor cs c.tab = some k → c.name ∈ k.cache

theorem cteFor_mem {cs : List CTE} {t : Tab} {k : CTE} (h : cteFor cs t = some k) : k ∈ cs ∧ t.schema = [] ∧ k.info.name = t.name := by
  unfold cteFor at h
  split at h
  · next hs => exact ⟨List.mem_of_find?_eq_some h, hs, by simpa using List.find?_some h⟩
  · cases h

theorem Fit.as {k : CTE} (h : Fit k) (x : Str) : k.as x = { k with info := { k.info with alias := x } } := by
  unfold CTE.as
  rw [if_neg (by simp [h.sticky]), if_neg h.name, if_neg (by simp [h.query]), if_neg h.cache]

theorem alike_checked (raw : Bool) (avail : List Str) (fi : FInfo) (h : fi.name ∈ avail) (hr : raw = false) : obj (.checkedField false avail fi) = obj (.field fi raw false []) := by
  subst hr
  refine obj_ext rfl rfl rfl rfl (fun m pn => ?_) (fun e => rfl)
  simp only [ren]
  unfold checkedFieldAppend
  rw [if_neg (by simp), if_neg (by simpa using h)]
  rfl

theorem alike_field (raw : Field → Bool) (cs : List CTE) (hf : ∀ k ∈ cs, Fit k) (c : Field) (h : Has cs c) : obj (fieldNode raw cs c) = obj (c.node (raws raw cs)) := by
  unfold fieldNode
  cases e : cteFor cs c.tab with
  | none =>
    show obj (c.node raw) = _
    unfold Field.node raws
    rw [e]
    rfl
  | some k =>
    obtain ⟨h1, h2, h3⟩ := cteFor_mem e
    show obj ((k.as c.tab.alias).field c.name) = _
    rw [(hf k h1).as]
    unfold CTE.field Field.node
    rw [show k.info.name = c.tab.name from h3]
    exact alike_checked _ _ _ (h k e) (by unfold raws; rw [e]; rfl)

theorem alike_sort (raw : Field → Bool) (cs : List CTE) (hf : ∀ k ∈ cs, Fit k) (c : Sorting) (h : Has cs c.col) : obj (sortNode raw cs c) = obj (c.node (raws raw cs)) := by
  unfold sortNode fieldNode
  cases e : cteFor cs c.col.tab with
  | none =>
    show obj (c.node raw) = _
    unfold Sorting.node raws
    rw [e]
    rfl
  | some k =>
    obtain ⟨h1, h2, h3⟩ := cteFor_mem e
    simp only [(hf k h1).as]
    unfold CTE.field Sorting.node
    rw [show k.info.name = c.col.tab.name from h3]
    exact alike_checked _ _ _ (h k e) (by unfold raws; rw [e]; rfl)

theorem alike_cmp {a a' b b' : Node} (op : String) (ha : obj a = obj a') (hb : obj b = obj b') :
    ∃ f vs ws, cmp a b op = .cpred [] f false vs ∧ cmp a' b' op = .cpred [] f false ws ∧ vs.map obj = ws.map obj := by
  unfold cmp
  rw [obj_kind ha, obj_kind hb]
  split
  · exact ⟨_, _, _, rfl, rfl, by simp [ha, hb]⟩
  · split
    · exact ⟨_, _, _, rfl, rfl, by simp [ha, hb]⟩
    · split <;> exact ⟨_, _, _, rfl, rfl, by simp [ha, hb]⟩

theorem alike_test (f g : Field → Node) (x : Test Field) (h : ∀ c ∈ x.columns, obj (f c) = obj (g c)) :
    ∃ t vs ws, (x.map f).node = .cpred [] t false vs ∧ (x.map g).node = .cpred [] t false ws ∧ vs.map obj = ws.map obj := by
  cases x with
  | cmp op c x =>
    have hc := h c (List.mem_cons_self ..)
    cases x with
    | col c' =>
      have hc' := h c' (List.mem_cons_of_mem _ (List.mem_singleton.2 rfl))
      cases op <;> first | exact alike_cmp _ hc hc' | exact ⟨_, _, _, rfl, rfl, by simp [hc, hc']⟩
    | val v => cases op <;> first | exact alike_cmp _ hc rfl | exact ⟨_, _, _, rfl, rfl, by simp [hc]⟩
  | null c => exact ⟨_, _, _, rfl, rfl, by simp [h c (List.mem_singleton.2 rfl)]⟩
  | notNull c => exact ⟨_, _, _, rfl, rfl, by simp [h c (List.mem_singleton.2 rfl)]⟩
  | among c vs => exact ⟨_, _, _, rfl, rfl, by simp [h c (List.mem_singleton.2 rfl)]⟩

mutual
theorem alike_cond (f g : Field → Node) : (c : Cond Field) → (∀ x ∈ c.columns, obj (f x) = obj (g x)) → obj ((c.map f).node) = obj ((c.map g).node)
  | .test n x, h => by
    obtain ⟨t, vs, ws, h1, h2, h3⟩ := alike_test f g x h
    simp only [Cond.map, Cond.node, h1, h2]
    cases n
    · exact alike_cpred h3
    · exact alike_cpred h3
  | .group o n cs, h => by
    simp only [Cond.map, Cond.node]
    exact alike_vpred (alike_conds f g cs h)
theorem alike_conds (f g : Field → Node) : (cs : List (Cond Field)) → (∀ x ∈ columns cs, obj (f x) = obj (g x)) → (nodes (mapAll f cs)).map obj = (nodes (mapAll g cs)).map obj
  | [], _ => rfl
  | c :: cs, h => by
    simp only [mapAll, nodes, List.map_cons]
    rw [alike_cond f g c fun x hx => h x (List.mem_append_left _ hx), alike_conds f g cs fun x hx => h x (List.mem_append_right _ hx)]
end

/-- A table and a CTE that is used as that table. -/
structure Stands (a b : Node) : Prop where
  kind : a.kind.isNil = b.kind.isNil
  alias : a.alias = b.alias
  hook : ∀ e, hookOf a e = hookOf b e
  act : ∀ m pn, m.meth = .std → ren a m pn = ren b m pn

theorem alike_tab (cs : List CTE) (hf : ∀ k ∈ cs, Fit k) (t : Tab) : Stands (tabNode cs t) t.node := by
  unfold tabNode
  cases e : cteFor cs t with
  | none => exact ⟨rfl, rfl, fun _ => rfl, fun _ _ _ => rfl⟩
  | some k =>
    obtain ⟨h1, h2, h3⟩ := cteFor_mem e
    have hk := hf k h1
    simp only [hk.as]
    refine ⟨rfl, rfl, fun _ => rfl, fun m pn hm => ?_⟩
    simp only [CTE.node, Tab.node, ren]
    rw [if_neg (by rw [hm]; simp)]
    unfold cteRefAppend tableAppend
    simp only [hk.sticky]
    rw [if_neg hk.name, if_pos h2, ← h3]
    have hq : quoteIdentifier m.d k.info.name = k.info.name := by
      unfold quoteIdentifier
      rw [if_neg (plain_of_bare _ hk.bare)]
    rw [hq]
    rfl

def joinNodeOf (raw : Field → Bool) (cs : List CTE) (j : Join) : Node :=
  match j.how with
  | .inner => joinTable .join (tabNode cs j.tab) (nodes (mapAll (fieldNode raw cs) j.on))
  | .left => joinTable .leftJoin (tabNode cs j.tab) (nodes (mapAll (fieldNode raw cs) j.on))
  | .right => joinTable .rightJoin (tabNode cs j.tab) (nodes (mapAll (fieldNode raw cs) j.on))
  | .full => joinTable .fullJoin (tabNode cs j.tab) (nodes (mapAll (fieldNode raw cs) j.on))
  | .cross => Chain.crossJoin (tabNode cs j.tab)

theorem alike_joinTable {a b : Node} (h : Stands a b) {o o' : Node} (ho : obj o = obj o') (jt : Str) : obj (.join jt a o) = obj (.join jt b o') := by
  refine obj_ext rfl rfl rfl rfl (fun m pn => ?_) h.hook
  simp only [ren]
  unfold joinAppend
  have ho' : (mkPV o (ren o) (hookOf o)) = (mkPV o' (ren o') (hookOf o')) := ho
  rw [ho']
  have e1 : (mkPV a (ren a) (hookOf a)).act (m.call none []) [] = (mkPV b (ren b) (hookOf b)).act (m.call none []) [] := h.act _ _ rfl
  have e2 : (mkPV a (ren a) (hookOf a)).kind.isNil = (mkPV b (ren b) (hookOf b)).kind.isNil := h.kind
  have e3 : (mkPV a (ren a) (hookOf a)).alias = (mkPV b (ren b) (hookOf b)).alias := h.alias
  rw [e1, e2, e3]

theorem alike_join (raw : Field → Bool) (cs : List CTE) (hf : ∀ k ∈ cs, Fit k) (j : Join) (h : ∀ c ∈ columns j.on, Has cs c) :
    obj (joinNodeOf raw cs j) = obj (Asking.joinNode (raws raw cs) j) := by
  have hc := alike_conds (fieldNode raw cs) (Field.node (raws raw cs)) j.on fun x hx => alike_field raw cs hf x (h x hx)
  have ht := alike_tab cs hf j.tab
  obtain ⟨how, tab, on⟩ := j
  cases how <;> first | exact alike_joinTable ht (alike_vpred hc) _ | exact alike_joinTable ht rfl _

/-- A question with CTEs is written as the question about tables. -/
theorem alike_select (q : SelMeta) (ctes : List Node) {fields fields' : List Node} (hfi : fields.map obj = fields'.map obj) {t t' : Node} (ht : Stands t t')
    {js js' : List Node} (hj : js.map obj = js'.map obj) {w w' : Node} (hw : obj w = obj w') (hv : Node) {ob ob' : List Node} (hob : ob.map obj = ob'.map obj) (m : Mode) :
    ren (.select q ctes fields [] t js w [] hv ob) m [] = ren (.select q ctes fields' [] t' js' w' [] hv ob') m [] := by
  have e1 : (mkPV t (ren t) (hookOf t)).kind.isNil = (mkPV t' (ren t') (hookOf t')).kind.isNil := ht.kind
  have e2 : ∀ m' : Mode, m'.meth = .std → tableRef m' (mkPV t (ren t) (hookOf t)).toObj = tableRef m' (mkPV t' (ren t') (hookOf t')).toObj := by
    intro m' hm'
    unfold tableRef
    have a1 : (mkPV t (ren t) (hookOf t)).act m' [] = (mkPV t' (ren t') (hookOf t')).act m' [] := ht.act _ _ hm'
    have a2 : (mkPV t (ren t) (hookOf t)).alias = (mkPV t' (ren t') (hookOf t')).alias := ht.alias
    rw [a1, a2]
  have e3 : ∀ env, collectHooks env (mkPV t (ren t) (hookOf t) :: js'.map obj) = collectHooks env (mkPV t' (ren t') (hookOf t') :: js'.map obj) := by
    intro env
    unfold collectHooks
    have : (mkPV t (ren t) (hookOf t)).hook env = (mkPV t' (ren t') (hookOf t')).hook env := ht.hook env
    rw [this]
  have e4 : mkPV w (ren w) (hookOf w) = mkPV w' (ren w') (hookOf w') := hw
  simp only [ren, selectAppend, objs_eq]
  rw [hfi, hob, e4]
  have e5 := e2 { d := m.d, env := effEnv m.env q.env, ex := [] } rfl
  simp only [e1, e3, e5, hj]

/-! ### The statements -/

/-- A SELECT with these CTEs and fields. -/
def cteNode (b : Builder) (raw : Field → Bool) (cs : List CTE) (ctes : List Node) (a : Ask) (fields : List Node) (limit offset : Option Nat) : Node :=
  .select { dialect := b.lang.dialect, env := b.env, distinct := false, limit := limit.map Int.ofNat, offset := offset.map Int.ofNat }
    ctes fields [] (tabNode cs a.tab) (a.joins.map (joinNodeOf raw cs)) (and_ (nodes (mapAll (fieldNode raw cs) a.conds))) [] (and_ []) (a.order.map (sortNode raw cs))

theorem joins_run (raw : Field → Bool) (cs : List CTE) (js : List Join) (q : SelectQ) :
    (js.map (joinCall raw cs)).foldl SelectCall.run q = { q with joins := q.joins ++ js.map (joinNodeOf raw cs) } := by
  induction js generalizing q with
  | nil => simp
  | cons j js ih =>
    simp only [List.map_cons, List.foldl_cons]
    rw [ih]
    obtain ⟨how, tab, on⟩ := j
    cases how <;> simp [joinCall, SelectCall.run, joinNodeOf]

theorem calls_run (raw : Field → Bool) (cs : List CTE) (a : Ask) (limit offset : Option Nat) (q : SelectQ) (h1 : q.limit = none) (h2 : q.offset = none) :
    (Cte.calls raw cs a limit offset).foldl SelectCall.run q =
      { q with joins := q.joins ++ a.joins.map (joinNodeOf raw cs), where_ := q.where_ ++ nodes (mapAll (fieldNode raw cs) a.conds),
               orderBy := q.orderBy ++ a.order.map (sortNode raw cs), limit := limit.map Int.ofNat, offset := offset.map Int.ofNat } := by
  unfold Cte.calls
  rw [List.foldl_append, List.foldl_append, List.foldl_append, joins_run]
  cases limit <;> cases offset <;> simp [SelectCall.run, h1, h2]

theorem question_node (b : Builder) (raw : Field → Bool) (cs : List CTE) (a : Ask) (limit offset : Option Nat) :
    question b raw cs a limit offset = cteNode b raw cs [] a (a.cols.map (fieldNode raw cs)) limit offset := by
  unfold question Chain.select
  rw [List.foldl_cons, calls_run _ _ _ _ _ _ rfl rfl]
  simp [SelectStart.run, SelectCall.run, SelectQ.node, cteNode]

theorem query_node (b : Builder) (raw : Field → Bool) (gs : List Given) (a : Ask) (limit offset : Option Nat) :
    Cte.query b raw gs a limit offset =
      cteNode b raw (made b raw [] gs) ((made b raw [] gs).map CTE.node) a (a.cols.map (fieldNode raw (made b raw [] gs))) limit offset := by
  unfold Cte.query Chain.select
  simp only []
  rw [List.foldl_cons, List.foldl_cons, calls_run _ _ _ _ _ _ rfl rfl]
  simp [SelectStart.run, SelectCall.run, SelectQ.node, cteNode]

theorem fromQuery_node (b : Builder) (raw : Field → Bool) (gs : List Given) (a : Ask) (limit offset : Option Nat) :
    Cte.fromQuery b raw gs a limit offset = cteNode b raw (made b raw [] gs) ((made b raw [] gs).map CTE.node) a [] limit offset := by
  unfold Cte.fromQuery Chain.select
  simp only []
  rw [List.foldl_cons, calls_run _ _ _ _ _ _ rfl rfl]
  simp [SelectStart.run, SelectCall.run, SelectQ.node, cteNode]

theorem Adds.alike {d : Dialect} {n n' : Node} {m : Mode} (h : ren n m [] = ren n' m []) {xs : List Part} (k : Adds d [.placed n' m] xs) : Adds d [.placed n m] xs := by
  refine ⟨fun x mx hx => ?_, fun s t hst => ?_⟩
  · simp only [List.mem_singleton, Part.placed.injEq] at hx
    obtain ⟨rfl, rfl⟩ := hx
    have := k.ok n' mx (List.mem_singleton.2 rfl)
    unfold renderAt at this ⊢
    rw [h]
    exact this
  · have := k.eq s t hst
    have e : appendParts d [.placed n m] s = appendParts d [.placed n' m] s := by
      show appendSQL m n s = appendSQL m n' s
      unfold appendSQL
      rw [h]
    rw [e]
    exact this

theorem map_alike {α : Type} {f g : α → Node} {xs : List α} (h : ∀ x ∈ xs, obj (f x) = obj (g x)) : (xs.map f).map obj = (xs.map g).map obj := by
  rw [List.map_map, List.map_map]
  exact List.map_congr_left h

theorem ask_alike (b : Builder) (raw : Field → Bool) (cs : List CTE) (hf : ∀ k ∈ cs, Fit k) (ctes : List Node) (a : Ask) (hh : ∀ c ∈ fieldsOf a, Has cs c)
    {fields fields' : List Node} (hfi : fields.map obj = fields'.map obj) (limit offset : Option Nat) (m : Mode) :
    ren (cteNode b raw cs ctes a fields limit offset) m [] =
    ren (.select { dialect := b.lang.dialect, env := b.env, distinct := false, limit := limit.map Int.ofNat, offset := offset.map Int.ofNat }
      ctes fields' [] a.tab.node (a.joins.map (Asking.joinNode (raws raw cs))) (and_ (nodes (mapAll (Field.node (raws raw cs)) a.conds))) []
      (and_ []) (a.order.map (Sorting.node (raws raw cs)))) m [] := by
  have hjoins : ∀ j ∈ a.joins, ∀ c ∈ columns j.on, Has cs c := fun j hj c hc => hh c (by
    unfold fieldsOf
    refine List.mem_append_left _ (List.mem_append_left _ (List.mem_append_right _ (List.mem_flatMap.2 ⟨j, hj, hc⟩))))
  have hconds : ∀ c ∈ columns a.conds, Has cs c := fun c hc => hh c (List.mem_append_left _ (List.mem_append_right _ hc))
  have horder : ∀ k ∈ a.order, Has cs k.col := fun k hk => hh _ (List.mem_append_right _ (List.mem_map_of_mem hk))
  exact alike_select _ ctes hfi (alike_tab cs hf a.tab)
    (map_alike fun j hj => alike_join raw cs hf j (hjoins j hj))
    (alike_vpred (alike_conds _ _ _ fun x hx => alike_field raw cs hf x (hconds x hx))) _ (map_alike fun k hk => alike_sort raw cs hf k (horder k hk)) m

/-- What is sent for a question that may be about CTEs, in parts, and how these are read, whatever it selects. -/
theorem question_parts (b : Builder) (raw : Field → Bool) (cs : List CTE) (hf : ∀ k ∈ cs, Fit k) (a : Ask) (h : a.Body b.lang) (hh : ∀ c ∈ fieldsOf a, Has cs c) :
    (∀ x ∈ a.labels, Readable b.lang.dialect x) ∧ ∃ m : Core, m.order = a.order.map Sorting.key ∧ (∀ C T, m.rows C T = a.answer C T) ∧
      ∀ (fields fields' : List Node) (P : List Part) (Y : List Lex), fields' ≠ [] → fields.map obj = fields'.map obj →
        Adds b.lang.dialect (items { d := b.lang.dialect, env := b.env } fields') P → Asking.Piece b.lang P Y → NoWord Y →
        ∀ limit offset, Allowed b.lang limit offset → ∀ ctes W, Adds b.lang.dialect (with_ { d := b.lang.dialect, env := b.env } ctes) W →
          ∃ xs Z, Adds b.lang.dialect [.placed (cteNode b raw cs ctes a fields limit offset) { d := b.lang.dialect }] (W ++ xs) ∧
            Asking.Piece b.lang xs Z ∧ ∀ list? cs, list? a.labels Y = some cs → stmtOf? list? b.lang Z = some ⟨{ m with cols := cs }, limit, offset⟩ := by
  obtain ⟨hl, m, m1, m2, m3⟩ := ask_written b (raws raw cs) a h { d := b.lang.dialect } rfl b.env rfl
  refine ⟨hl, m, m1, m2, fun fields fields' P Y hne hfi c1 c2 c3 limit offset hal ctes W hW => ?_⟩
  obtain ⟨ps, xs, Z, e1, e2, e3, e4, _, e5⟩ := m3 fields' P Y hne c1 c2 c3 limit offset hal
  refine ⟨xs, Z, ?_, e4, fun list? cs hcs => ?_⟩
  · refine Adds.alike (ask_alike b raw cs hf ctes a hh hfi limit offset _) ?_
    refine Adds.construct (m := { d := b.lang.dialect }) rfl (ps := with_ { d := b.lang.dialect, env := b.env } ctes ++ ps) ?_ ?_ (hW.append e3)
    rotate_left
    · exact e2
    unfold Asking.askNode at e1
    simp only [Spec.construct] at e1 ⊢
    obtain ⟨own, ho, rfl⟩ := Option.map_eq_some_iff.1 e1
    rw [ho]
    simp only [Option.map_some, with_, List.isEmpty_nil, if_true, List.nil_append, List.append_assoc]
  · have := e5 _ _ hcs [] After.nil
    rw [show Z ++ secL [] = Z from List.append_nil Z] at this
    unfold stmtOf?
    rw [this]

theorem cols_alike (raw : Field → Bool) (cs : List CTE) (hf : ∀ k ∈ cs, Fit k) (a : Ask) (hh : ∀ c ∈ fieldsOf a, Has cs c) :
    (a.cols.map (fieldNode raw cs)).map obj = (a.cols.map (Field.node (raws raw cs))).map obj :=
  map_alike fun c hc => alike_field raw cs hf c (hh c (by simp [fieldsOf, hc]))

theorem question_adds (b : Builder) (raw : Field → Bool) (cs : List CTE) (hf : ∀ k ∈ cs, Fit k) (a : Ask) (h : a.Sound b.lang) (hh : ∀ c ∈ fieldsOf a, Has cs c) :
    ∃ m : Core, m.cols = a.cols.map Field.col ∧ m.order = a.order.map Sorting.key ∧ (∀ C T, m.rows C T = a.answer C T) ∧
      ∀ limit offset, Allowed b.lang limit offset → ∀ ctes W, Adds b.lang.dialect (with_ { d := b.lang.dialect, env := b.env } ctes) W →
        ∃ xs Z, Adds b.lang.dialect [.placed (cteNode b raw cs ctes a (a.cols.map (fieldNode raw cs)) limit offset) { d := b.lang.dialect }] (W ++ xs) ∧
          Asking.Piece b.lang xs Z ∧ stmt? b.lang Z = some ⟨m, limit, offset⟩ := by
  obtain ⟨hl, m, m1, m2, m3⟩ := question_parts b raw cs hf a h.toBody hh
  obtain ⟨P, Y, c1, c2, c3, c4⟩ := cols_parts b.lang (raws raw cs) a.labels hl a.cols h.some h.cols b.env
  refine ⟨{ m with cols := a.cols.map Field.col }, rfl, m1, m2, fun limit offset hal ctes W hW => ?_⟩
  obtain ⟨xs, Z, e1, e2, e3⟩ := m3 _ _ P Y (by simpa using h.some) (cols_alike raw cs hf a hh) c1 c2 c3 limit offset hal ctes W hW
  exact ⟨xs, Z, e1, e2, e3 _ _ c4⟩

/-! ### The CTEs -/

theorem fieldNode_named (raw : Field → Bool) (cs : List CTE) (hf : ∀ k ∈ cs, Fit k) (c : Field) :
    (fieldNode raw cs c).kind.isNil = false ∧ (fieldNode raw cs c).alias = [] ∧ (fieldNode raw cs c).name = c.name := by
  unfold fieldNode
  cases e : cteFor cs c.tab with
  | none => exact ⟨rfl, rfl, rfl⟩
  | some k => exact ⟨rfl, rfl, rfl⟩

theorem gather_fields (raw : Field → Bool) (cs : List CTE) (hf : ∀ k ∈ cs, Fit k) (cols : List Field) (h : ∀ c ∈ cols, c.name ≠ []) :
    gather (cols.map (fieldNode raw cs)) = .ok (cols.map Field.name, true) := by
  induction cols with
  | nil => rfl
  | cons c cols ih =>
    obtain ⟨h1, h2, h3⟩ := fieldNode_named raw cs hf c
    have hn : fieldNameOf (fieldNode raw cs c) = c.name := by unfold fieldNameOf; rw [if_pos h2, h3]
    simp only [List.map_cons, gather]
    rw [h1, if_neg (by simp), hn, if_neg (h c (List.mem_cons_self ..)), ih fun x hx => h x (List.mem_cons_of_mem _ hx)]
    rfl

theorem cte_made (b : Builder) (raw : Field → Bool) (cs : List CTE) (hf : ∀ k ∈ cs, Fit k) (g : Given) (h1 : g.name ≠ []) (h2 : g.ask.cols ≠ [])
    (h3 : ∀ c ∈ g.ask.cols, c.name ≠ []) :
    g.cte b raw cs = ⟨{ name := g.name, fieldNames := g.columns }, g.columns, cteNode b raw cs [] g.ask (g.ask.cols.map (fieldNode raw cs)) g.limit g.offset⟩ := by
  unfold Given.cte newCTE
  rw [question_node]
  have hk : (cteNode b raw cs [] g.ask (g.ask.cols.map (fieldNode raw cs)) g.limit g.offset).kind.isNil = false := rfl
  have hfe : fetchable (fun _ => .panic) (cteNode b raw cs [] g.ask (g.ask.cols.map (fieldNode raw cs)) g.limit g.offset) = .ok (g.ask.cols.map (fieldNode raw cs)) := by
    unfold cteNode
    simp only [fetchable]
  have hg := gather_fields raw cs hf g.ask.cols h3
  obtain ⟨c, r, e⟩ := List.exists_cons_of_ne_nil h2
  simp only []
  rw [if_neg h1, hk, if_neg (by simp), if_neg (by simp), hfe]
  rw [e, List.map_cons] at hg ⊢
  simp only [hg]
  unfold Given.columns
  rw [e]
  rfl

/-- Which question a CTE is for. -/
def For (cs : List CTE) (before : List Given) : Prop := ∀ k ∈ cs, Fit k ∧ ∃ g ∈ before, k.info.name = g.name ∧ k.cache = g.columns

theorem For.has {cs : List CTE} {before : List Given} (h : For cs before) {c : Field} (hc : HasColumn before c) : Has cs c := by
  intro k hk
  obtain ⟨h1, h2, h3⟩ := cteFor_mem hk
  obtain ⟨_, g, hg, e1, e2⟩ := h k h1
  rw [e2]
  exact hc h2 g hg (e1.symm.trans h3)

/-- `name AS (...)` -/
def cteL (l : Lang) (n : Str) (Z : List Lex) : List Lex := .tok (nameT l n) :: .tok (.word "AS".toList) :: .tok (.sym '(') :: (Z ++ [.tok (.sym ')')])

/-- A CTE as it is written and read. -/
def Defined (l : Lang) (k : CTE) (x : Str × Stmt) : Prop := isBareIdent x.1 = true ∧ Readable l.dialect x.1 ∧ k.info.isRec = false ∧
  ∃ xs Z, Adds l.dialect [.placed k.node { d := l.dialect, meth := .cteDef }] xs ∧ Asking.Piece l xs (cteL l x.1 Z) ∧ stmt? l Z = some x.2

theorem nameT_bare (l : Lang) (x : Str) (h : isBareIdent x = true) : tokens (lexing l) x = some [nameT l x] := by
  have := tokens_ident (lexing l) x
  rw [show quoteIdentifier (lexing l) x = x from by unfold quoteIdentifier; rw [if_neg (plain_of_bare _ h)]] at this
  exact this

theorem defined (b : Builder) (raw : Field → Bool) (cs : List CTE) (hf : ∀ k ∈ cs, Fit k) (g : Given) (hb : isBareIdent g.name = true) (hr : Readable b.lang.dialect g.name)
    (hs : g.ask.Sound b.lang) (hn : ∀ c ∈ g.ask.cols, c.name ≠ []) (hh : ∀ c ∈ fieldsOf g.ask, Has cs c) (hal : Allowed b.lang g.limit g.offset) :
    Fit (g.cte b raw cs) ∧ (g.cte b raw cs).info.name = g.name ∧ (g.cte b raw cs).cache = g.columns ∧
    ∃ m : Core, m.cols = g.ask.cols.map Field.col ∧ m.order = g.ask.order.map Sorting.key ∧ (∀ C T, m.rows C T = g.ask.answer C T) ∧
      Defined b.lang (g.cte b raw cs) (g.name, ⟨m, g.limit, g.offset⟩) := by
  have hne : g.name ≠ [] := by rintro e; rw [e] at hb; simp [isBareIdent] at hb
  have e := cte_made b raw cs hf g hne hs.some hn
  refine ⟨by rw [e]; exact ⟨rfl, hne, hb, rfl, by simpa [Given.columns] using hs.some⟩, by rw [e], by rw [e], ?_⟩
  obtain ⟨m, m1, m2, m3, m4⟩ := question_adds b raw cs hf g.ask hs hh
  refine ⟨m, m1, m2, m3, hb, hr, by rw [e], ?_⟩
  obtain ⟨xs, Z, a1, a2, a3⟩ := m4 g.limit g.offset hal [] [] (Adds.nil _)
  rw [List.nil_append] at a1
  refine ⟨[.text g.name] ++ (.text " AS ".toList :: .text "(".toList :: (xs ++ [.text ")".toList])), Z, ?_, ?_, a3⟩
  · rw [e]
    refine Adds.construct (m := { d := b.lang.dialect, meth := .cteDef }) rfl (ps := [.text g.name] ++ (.text " AS ".toList :: .text "(".toList ::
      ([.placed (cteNode b raw cs [] g.ask (g.ask.cols.map (fieldNode raw cs)) g.limit g.offset) { d := b.lang.dialect }] ++ [.text ")".toList]))) ?_ ?_ ?_
    · show Spec.construct _ (.cte _ _) = _
      simp only [Spec.construct, if_true, Bool.false_eq_true, if_false]
      have hk : (cteNode b raw cs [] g.ask (g.ask.cols.map (fieldNode raw cs)) g.limit g.offset).kind = .query := rfl
      rw [hk]
      cases b.lang <;> rfl
    · exact ⟨rfl, hne, fun _ => by simp [cteNode]⟩
    · exact (Adds.text _).append (Adds.cons _ (Adds.cons _ (a1.append (Adds.text _))))
  · have k1 : Ends (lexing b.lang) " AS ".toList [.word "AS".toList] := by cases b.lang <;> decide +kernel
    have k2 : Ends (lexing b.lang) "(".toList [.sym '('] := by cases b.lang <;> decide +kernel
    have k3 : tokens (lexing b.lang) ")".toList = some [.sym ')'] := by cases b.lang <;> decide +kernel
    have hp : ∀ x ∈ [nameT b.lang g.name], Choosing.Plain x := fun x hx => by rw [List.mem_singleton.1 hx]; exact plain_name _ _
    exact (Asking.Piece.text (nameT_bare b.lang g.name hb) hp).append
      (Asking.Piece.kw k1 (by simp [Choosing.Plain]) (Asking.Piece.kw k2 (by simp [Choosing.Plain])
        (a2.append (Asking.Piece.text k3 (by simp [Choosing.Plain])) (Sep.text _ (c := ')') (by decide) _)))) (Sep.text _ (c := ' ') (by decide) _)

/-- In pairs. -/
inductive Each {α β : Type} (R : α → β → Prop) : List α → List β → Prop
  | nil : Each R [] []
  | cons {x y xs ys} : R x y → Each R xs ys → Each R (x :: xs) (y :: ys)

/-- All of them. -/
theorem made_defined (b : Builder) (raw : Field → Bool) (gs : List Given) : ∀ (cs : List CTE) (before : List Given), For cs before → Cte.Sound b.lang before gs →
    ∃ (new : List CTE) (ms : List (Str × Stmt)), made b raw cs gs = cs ++ new ∧ For (made b raw cs gs) (before ++ gs) ∧ Each (Defined b.lang) new ms ∧
      ms.map Prod.fst = gs.map Given.name ∧
      ∀ C O arrange, (∀ T m, (arrange T m).Perm (m.rows C T)) → (∀ T m, Sorted O m.order (arrange T m)) → ∀ T, Answered C O T gs (withResults arrange T ms) := by
  induction gs with
  | nil => intro cs before hf _; exact ⟨[], [], by simp [made], by simpa [made] using hf, .nil, rfl, fun _ _ _ _ _ _ => rfl⟩
  | cons g gs ih =>
    intro cs before hf hs
    obtain ⟨s1, s2, s3, s4, s5, s6, s7, s8, s9⟩ := hs
    obtain ⟨d1, d2, d3, m, m1, m2, m3, m4⟩ := defined b raw cs (fun k hk => (hf k hk).1) g s1 s2 s4 s5 (fun c hc => hf.has (s7 c hc)) s8
    have hf' : For (cs ++ [g.cte b raw cs]) (before ++ [g]) := by
      intro k hk
      rcases List.mem_append.1 hk with hk | hk
      · obtain ⟨f1, x, hx, e⟩ := hf k hk
        exact ⟨f1, x, List.mem_append_left _ hx, e⟩
      · rw [List.mem_singleton.1 hk]
        exact ⟨d1, g, List.mem_append_right _ (List.mem_singleton.2 rfl), d2, d3⟩
    obtain ⟨new, ms, n1, n2, n3, n4, n5⟩ := ih _ _ hf' s9
    refine ⟨g.cte b raw cs :: new, (g.name, ⟨m, g.limit, g.offset⟩) :: ms, ?_, ?_, .cons m4 n3, by simp [n4], ?_⟩
    · rw [made, n1, List.append_assoc]; rfl
    · rw [made]
      have : before ++ g :: gs = before ++ [g] ++ gs := by simp
      rw [this]
      exact n2
    · intro C O arrange h1 h2 T
      refine ⟨page g.limit g.offset (arrange T m), ⟨arrange T m, m3 C T ▸ h1 T m, m2 ▸ h2 T m, rfl⟩, ?_⟩
      have he : (page g.limit g.offset (arrange T m)).map (fun w => record (m.cols.map Sel.Col.name) (m.cols.map (World.at w))) = g.records (page g.limit g.offset (arrange T m)) := by
        unfold Given.records Given.columns
        rw [m1]
        simp only [List.map_map]
        rfl
      have := n5 C O arrange h1 h2 (add T g.name (g.records (page g.limit g.offset (arrange T m))))
      rw [← he] at this ⊢
      exact this

/-! ### How WITH is read -/

theorem cte_read (l : Lang) (n : Str) (hr : Readable l.dialect n) (Z : List Lex) (hZ : Bal Z) (r : List Lex) : cte? l (cteL l n Z ++ r) = some ((n, Z), r) := by
  have h1 := hZ.close r
  have h2 := (name_read (κ := Sel.Col) l n hr).1
  show cte? l (.tok (nameT l n) :: .tok (.word "AS".toList) :: .tok (.sym '(') :: (Z ++ [.tok (.sym ')')] ++ r)) = _
  rw [List.append_assoc, List.singleton_append]
  simp only [cte?]
  rw [if_pos (by decide +kernel), h2, h1]
  rfl

/-- What follows is not another CTE. -/
def NotMore (r : List Lex) : Prop := ∀ x, r ≠ .tok (.sym ',') :: x

theorem ctes_read (l : Lang) {new : List CTE} {ms : List (Str × Stmt)} (h : Each (Defined l) new ms) (hne : new ≠ []) :
    ∃ W Y, Adds l.dialect (listed ", ".toList (new.map fun k => [.placed k.node { d := l.dialect, meth := .cteDef }])) W ∧ Asking.Piece l W Y ∧ new.length ≤ Y.length ∧
      ∃ ps : List (Str × List Lex), ps.map Prod.fst = ms.map Prod.fst ∧ every (fun p => (stmt? l p.2).map fun m => (p.1, m)) ps = some ms ∧
        ∀ r, NotMore r → ∀ k, new.length ≤ k → ctes? l k (Y ++ r) = some (ps, r) := by
  induction h with
  | nil => exact absurd rfl hne
  | @cons k x new ms hd he ih =>
    obtain ⟨n, m⟩ := x
    obtain ⟨h1, h2, h3, xs, Z, a1, a2, a3⟩ := hd
    cases he with
    | nil =>
      refine ⟨xs, cteL l n Z, a1, a2, by simp [cteL], [(n, Z)], rfl, ?_, fun r hr k hk => ?_⟩
      · simp only [every, a3, Option.map_some, Option.bind_some]
      · obtain ⟨k, rfl⟩ : ∃ j, k = j + 1 := ⟨k - 1, by simp at hk; omega⟩
        unfold ctes?
        rw [cte_read l n h2 Z (bal_stmt a3), Option.bind_some]
        split
        · rename_i r' e
          exact absurd e (hr r')
        · rfl
    | @cons k' x' new' ms' hd' he' =>
      obtain ⟨W, Y, b1, b2, b3, ps, b4, b5, b6⟩ := ih (by simp)
      refine ⟨xs ++ .text ", ".toList :: W, cteL l n Z ++ .tok (.sym ',') :: Y, ?_, ?_, ?_, (n, Z) :: ps, by simp [b4], ?_, fun r hr k hk => ?_⟩
      · exact a1.append (Adds.cons _ b1)
      · have k1 : Ends (lexing l) ", ".toList [.sym ','] := by cases l <;> decide +kernel
        exact a2.append (Asking.Piece.kw k1 (by simp [Choosing.Plain]) b2) (Sep.text _ (c := ',') (by decide) _)
      · simp only [List.length_cons, List.length_append] at b3 ⊢
        omega
      · unfold every
        simp only [a3, Option.map_some, Option.bind_some, b5]
      · obtain ⟨k, rfl⟩ : ∃ j, k = j + 1 := ⟨k - 1, by simp at hk; omega⟩
        have hk : (k' :: new').length ≤ k := by simp only [List.length_cons] at hk ⊢; omega
        rw [List.append_assoc, List.cons_append]
        conv => lhs; unfold ctes?
        rw [cte_read l n h2 Z (bal_stmt a3), Option.bind_some]
        simp only [b6 r hr k hk, Option.map_some]

theorem stmt_notMore {list? : List Str → List Lex → Option (List Sel.Col)} {l : Lang} {Z : List Lex} {m : Stmt} (h : stmtOf? list? l Z = some m) : NotMore Z := by
  rintro x rfl
  unfold stmtOf? selected? at h
  simp only [sections, clauseWord] at h
  cases h

theorem names_nodup {l : Lang} (gs : List Given) : ∀ before, Cte.Sound l before gs → (gs.map Given.name).Nodup ∧ ∀ g ∈ gs, ∀ x ∈ before, x.name ≠ g.name := by
  induction gs with
  | nil => intro _ _; exact ⟨List.nodup_nil, fun g hg => (List.not_mem_nil hg).elim⟩
  | cons g gs ih =>
    intro before hs
    obtain ⟨s1, s2, s3, s4, s5, s6, s7, s8, s9⟩ := hs
    obtain ⟨i1, i2⟩ := ih _ s9
    refine ⟨?_, fun x hx y hy => ?_⟩
    · rw [List.map_cons, List.nodup_cons]
      refine ⟨fun hm => ?_, i1⟩
      obtain ⟨x, hx, e⟩ := List.mem_map.1 hm
      exact i2 x hx g (List.mem_append_right _ (List.mem_singleton.2 rfl)) e.symm
    · rcases List.mem_cons.1 hx with rfl | hx
      · exact s3 y hy
      · exact i2 x hx y (List.mem_append_left _ hy)

theorem not_recursive {l : Lang} {new : List CTE} {ms : List (Str × Stmt)} (h : Each (Defined l) new ms) : (new.map CTE.node).any recursive = false := by
  induction h with
  | nil => rfl
  | cons hd _ ih =>
    rw [List.map_cons, List.any_cons, ih, Bool.or_false]
    exact hd.2.2.1

/-- As `ask_parts` (Proof/Select), of a question about CTEs. -/
theorem query_parts (b : Builder) (raw : Field → Bool) (gs : List Given) (hne : gs ≠ []) (hg : Cte.Sound b.lang [] gs) (a : Ask) (h : a.Body b.lang)
    (hh : ∀ c ∈ fieldsOf a, HasColumn gs c) :
    (∀ x ∈ a.labels, Readable b.lang.dialect x) ∧
    (a.cols.map (fieldNode raw (made b raw [] gs))).map obj = (a.cols.map (Field.node (raws raw (made b raw [] gs)))).map obj ∧
    ∃ (ms : List (Str × Stmt)) (m : Core), m.order = a.order.map Sorting.key ∧ (∀ C T, m.rows C T = a.answer C T) ∧
      ms.map Prod.fst = gs.map Given.name ∧
      (∀ C O arrange, (∀ T m, (arrange T m).Perm (m.rows C T)) → (∀ T m, Sorted O m.order (arrange T m)) → ∀ T, Answered C O T gs (withResults arrange T ms)) ∧
      ∀ (fields fields' : List Node) (P : List Part) (Y : List Lex), fields' ≠ [] → fields.map obj = fields'.map obj →
        Adds b.lang.dialect (items { d := b.lang.dialect, env := b.env } fields') P → Asking.Piece b.lang P Y → NoWord Y →
        ∀ limit offset, Allowed b.lang limit offset →
        ∃ xs Z, ((ownSQL (cteNode b raw (made b raw [] gs) ((made b raw [] gs).map CTE.node) a fields limit offset)).status = .ok ∧
            (ownSQL (cteNode b raw (made b raw [] gs) ((made b raw [] gs).map CTE.node) a fields limit offset)).query = Storing.flat b.lang.dialect 0 xs ∧
            (ownSQL (cteNode b raw (made b raw [] gs) ((made b raw [] gs).map CTE.node) a fields limit offset)).args = vals xs) ∧ Asking.Piece b.lang xs Z ∧
          ∀ list? cs, list? a.labels Y = some cs → withOf? list? b.lang Z = some (ms, ⟨{ m with cols := cs }, limit, offset⟩) := by
  obtain ⟨new, ms, n1, n2, n3, n4, n5⟩ := made_defined b raw gs [] [] (fun _ hk => (List.not_mem_nil hk).elim) hg
  rw [List.nil_append] at n1 n2
  obtain ⟨hl, m, m1, m2, m3⟩ := question_parts b raw _ (fun k hk => (n2 k hk).1) a h fun c hc => n2.has (hh c hc)
  have hnew : new ≠ [] := by
    rintro rfl
    cases n3
    rw [List.map_nil] at n4
    exact hne (List.map_eq_nil_iff.1 n4.symm)
  obtain ⟨W, Y', w1, w2, w3, ps, w4, w5, w6⟩ := ctes_read b.lang n3 hnew
  refine ⟨hl, cols_alike raw _ (fun k hk => (n2 k hk).1) a (fun c hc => n2.has (hh c hc)), ms, m, m1, m2, n4, n5, fun fields fields' P Y hf hfi c1 c2 c3 limit offset hal => ?_⟩
  have hW : Adds b.lang.dialect (with_ { d := b.lang.dialect, env := b.env } ((made b raw [] gs).map CTE.node)) (.text "WITH ".toList :: (W ++ [.text " ".toList])) := by
    unfold with_
    rw [n1, if_neg (by simpa using hnew), List.map_map]
    have hrec := not_recursive n3
    rw [hrec]
    exact Adds.cons _ (w1.append (Adds.text _))
  obtain ⟨xs, Z, x1, x2, x3⟩ := m3 fields fields' P Y hf hfi c1 c2 c3 limit offset hal _ _ hW
  have hp : Asking.Piece b.lang (.text "WITH ".toList :: (W ++ (.text " ".toList :: xs))) (.tok (.word "WITH".toList) :: (Y' ++ Z)) := by
    have k1 : Ends (lexing b.lang) "WITH ".toList [.word "WITH".toList] := by cases b.lang <;> decide +kernel
    have k2 : Ends (lexing b.lang) " ".toList [] := by cases b.lang <;> decide +kernel
    exact Asking.Piece.kw k1 (by simp [Choosing.Plain]) (w2.append (Asking.Piece.kw k2 (by simp) x2) (Sep.text _ (c := ' ') (by decide) _))
  have x1 : Adds b.lang.dialect [.placed (cteNode b raw (made b raw [] gs) ((made b raw [] gs).map CTE.node) a fields limit offset) { d := b.lang.dialect }] (.text "WITH ".toList :: (W ++ (.text " ".toList :: xs))) := by
    rw [List.cons_append, List.append_assoc] at x1
    exact x1
  refine ⟨_, _, ?_, hp, fun list? cs hcs => ?_⟩
  · have hd : queryDialect (cteNode b raw (made b raw [] gs) ((made b raw [] gs).map CTE.node) a fields limit offset) = b.lang.dialect := rfl
    unfold ownSQL
    rw [hd]
    exact toSQL_adds x1 hp.flat
  have x3 := x3 list? cs hcs
  simp only [withOf?]
  rw [if_pos (by decide +kernel), w6 Z (stmt_notMore x3) _ (by rw [List.length_append]; omega), Option.bind_some, if_pos (by rw [w4, n4]; exact (names_nodup gs [] hg).1), w5]
  rw [Option.bind_some, x3]
  rfl

/-- What is sent for a question with CTEs, and how it is read. -/
theorem query_reads (b : Builder) (raw : Field → Bool) (gs : List Given) (hne : gs ≠ []) (hg : Cte.Sound b.lang [] gs) (a : Ask) (h : a.Sound b.lang)
    (hh : ∀ c ∈ fieldsOf a, HasColumn gs c) :
    ∃ (ms : List (Str × Stmt)) (m : Core), m.cols = a.cols.map Field.col ∧ m.order = a.order.map Sorting.key ∧ (∀ C T, m.rows C T = a.answer C T) ∧
      ms.map Prod.fst = gs.map Given.name ∧
      (∀ C O arrange, (∀ T m, (arrange T m).Perm (m.rows C T)) → (∀ T m, Sorted O m.order (arrange T m)) → ∀ T, Answered C O T gs (withResults arrange T ms)) ∧
      ∀ limit offset, Allowed b.lang limit offset →
        (ownSQL (Cte.query b raw gs a limit offset)).status = .ok ∧
        readWith b.lang (ownSQL (Cte.query b raw gs a limit offset)).args (ownSQL (Cte.query b raw gs a limit offset)).query = some (ms, ⟨m, limit, offset⟩) := by
  obtain ⟨hl, halike, ms, m, m1, m2, m3, m4, m5⟩ := query_parts b raw gs hne hg a h.toBody hh
  obtain ⟨Q, Y, c1, c2, c3, c4⟩ := cols_parts b.lang (raws raw (made b raw [] gs)) a.labels hl a.cols h.some h.cols b.env
  refine ⟨ms, { m with cols := a.cols.map Field.col }, rfl, m1, m2, m3, m4, fun limit offset hal => ?_⟩
  obtain ⟨xs, Z, ⟨o1, o2, o3⟩, hp, hz⟩ := m5 _ _ Q Y (by simpa using h.some) halike c1 c2 c3 limit offset hal
  rw [query_node]
  refine ⟨o1, ?_⟩
  unfold readWith
  rw [o2, o3, ← Option.bind_assoc, hp.reads, Option.bind_some]
  exact hz (columns? b.lang) _ c4

theorem exists_reads {l : Lang} {xs : List Part} {Z : List Lex} (h : Asking.Piece l xs Z) (m : List (Str × Stmt) × Stmt)
    (hm : withOf? (fun labels xs => if xs = [.tok (.word "1".toList)] then some [] else columns? l labels xs) l Z = some m) :
    Cte.readExists l (vals xs) ("SELECT EXISTS (".toList ++ Storing.flat l.dialect 0 xs ++ ")".toList) = some m := by
  have k1 : Asking.Piece l [.text ")".toList] ([Tok.sym ')'].map .tok) := Asking.Piece.text (by cases l <;> decide +kernel) (by simp [Choosing.Plain])
  have k2 := Asking.Piece.kw (l := l) (kw := "SELECT EXISTS (".toList) (K := [.word "SELECT".toList, .word "EXISTS".toList, .sym '('])
    (by cases l <;> decide +kernel) (by simp [Choosing.Plain]) (h.append k1 (Sep.text l (by decide +kernel) []))
  have hr := k2.reads
  have hf : Storing.flat l.dialect 0 (.text "SELECT EXISTS (".toList :: (xs ++ [.text ")".toList])) = "SELECT EXISTS (".toList ++ Storing.flat l.dialect 0 xs ++ ")".toList := by
    rw [List.append_assoc]
    show "SELECT EXISTS (".toList ++ Storing.flat l.dialect 0 (xs ++ [.text ")".toList]) = _
    rw [flat_append]
    rfl
  have hv : vals (.text "SELECT EXISTS (".toList :: (xs ++ [.text ")".toList])) = vals xs := by
    show vals (xs ++ [.text ")".toList]) = _
    rw [vals_append]
    exact List.append_nil _
  rw [hf, hv] at hr
  unfold Cte.readExists
  rw [← Option.bind_assoc, hr, Option.bind_some]
  show (if upper "SELECT".toList = "SELECT".toList ∧ upper "EXISTS".toList = "EXISTS".toList then (inside (Z ++ [.tok (.sym ')')])).bind _ else none) = _
  rw [if_pos (by decide +kernel), inside_append, Option.bind_some]
  exact hm

/-! ### The order of records does not matter -/

theorem perm_each {α β : Type} {f g : α → List β} (k : ∀ x, (f x).Perm (g x)) (l : List α) : (l.flatMap f).Perm (l.flatMap g) := by
  induction l with
  | nil => exact .refl _
  | cons x l ih => exact (k x).append ih
theorem perm_flatMap {α β : Type} {f g : α → List β} {xs ys : List α} (h : xs.Perm ys) (k : ∀ x, (f x).Perm (g x)) : (xs.flatMap f).Perm (ys.flatMap g) := by
  induction h with
  | nil => exact .refl _
  | cons x _ ih => exact (k x).append ih
  | swap x y l =>
    simp only [List.flatMap_cons]
    rw [← List.append_assoc, ← List.append_assoc]
    refine (((k y).append (k x)).trans List.perm_append_comm).append (perm_each k l)
  | trans h1 _ ih1 ih2 =>
    exact ih1.trans ((perm_each (fun x => (k x).symm) _).trans ih2)

theorem perm_all {α : Type} {xs ys : List α} (h : xs.Perm ys) (p : α → Bool) : xs.all p = ys.all p := by
  rw [Bool.eq_iff_iff, List.all_eq_true, List.all_eq_true]
  exact ⟨fun k x hx => k x (h.mem_iff.2 hx), fun k x hx => k x (h.mem_iff.1 hx)⟩

theorem perm_joined (how : How) (label : Str) {rows rows' : List Row} (hr : rows.Perm rows') (on : World → Bool) {ws ws' : List World} (hw : ws.Perm ws') :
    (how.joined label rows on ws).Perm (how.joined label rows' on ws') := by
  have h1 : (matching label rows on ws).Perm (matching label rows' on ws') := perm_flatMap hw fun w => (hr.map _).filter _
  have h2 : (unmatchedLeft label rows on ws).Perm (unmatchedLeft label rows' on ws') := by
    unfold unmatchedLeft
    rw [show (fun w : World => rows.all fun r => !on (w.put label r)) = fun w => rows'.all fun r => !on (w.put label r) from funext fun w => perm_all hr _]
    exact (hw.filter _).map _
  have h3 : (unmatchedRight label rows on ws).Perm (unmatchedRight label rows' on ws') := by
    unfold unmatchedRight
    rw [show (fun r : Row => ws.all fun w => !on (w.put label r)) = fun r => ws'.all fun w => !on (w.put label r) from funext fun w => perm_all hw _]
    exact (hr.filter _).map _
  cases how with
  | inner => exact h1
  | left => exact h1.append h2
  | right => exact h1.append h3
  | full => exact (h1.append h2).append h3
  | cross => exact perm_flatMap hw fun w => hr.map _

/-- The same records, in another order. -/
def SameRecords (T T' : Tables) : Prop := ∀ s n, (T s n).Perm (T' s n)

theorem perm_answer (C : Compare) {T T' : Tables} (h : SameRecords T T') (a : Ask) : (a.answer C T).Perm (a.answer C T') := by
  have hj : ∀ (js : List Join) (ws ws' : List World), ws.Perm ws' → (joinedAll C T js ws).Perm (joinedAll C T' js ws') := by
    intro js
    induction js with
    | nil => intro _ _ h; exact h
    | cons j js ih => intro ws ws' hw; exact ih _ _ (perm_joined _ _ (h _ _) _ hw)
  exact (hj _ _ _ ((h _ _).map _)).filter _

theorem page_none {α : Type} (xs : List α) : page none none xs = xs := rfl

/-- Without paging, the tables with the answers are determined but for the order of the records. -/
theorem answered_canonical (C : Compare) (O : Order) (gs : List Given) (hp : ∀ g ∈ gs, g.limit = none ∧ g.offset = none) :
    ∀ T₀ T T', SameRecords T T₀ → Answered C O T gs T' → SameRecords T' (withAnswers C T₀ gs) := by
  induction gs with
  | nil => intro T₀ T T' h hA; rw [show T' = T from hA]; exact h
  | cons g gs ih =>
    intro T₀ T T' h hA
    obtain ⟨ws, ⟨all, a1, a2, rfl⟩, hA⟩ := hA
    obtain ⟨p1, p2⟩ := hp g (List.mem_cons_self ..)
    refine ih (fun x hx => hp x (List.mem_cons_of_mem _ hx)) _ _ _ ?_ hA
    intro s n
    unfold add
    split
    · rw [p1, p2, page_none]
      exact (a1.trans (perm_answer C h g.ask)).map _
    · exact h s n

end Sq.Shared
