import Verif.Proof.Lexer
import Verif.Spec.DdlForm
/-
C57: the tokens of the texts of the DDL commands (rules and automation).
-/
namespace Ddl
open Spec
open _root_.Spec (Tok tokens kw opt commas)
open Sq (quoteIdentifier escapeQuote)

/-- How the package spells names. -/
def spelling (d : Dialect) : Spelling := ⟨nameTok d, fun q x => .quoted q (unq q x)⟩

theorem spelling_faithful (d : Dialect) : (spelling d).Faithful d :=
  ⟨nameTok_denotes d, fun q x h => by show Tok.quoted q (unq q x) = _; rw [unq_faithful q x h],
   fun x c => ⟨by show nameTok d x ≠ _; unfold nameTok; split <;> simp, fun q => by show Tok.quoted q (unq q x) ≠ _; simp⟩⟩

/-! ### Rules -/

theorem Res.append_assoc (a b c : Res Str) : (a +++ b) +++ c = a +++ (b +++ c) := by
  cases a <;> cases b <;> cases c <;> simp [Res.append, Res.bind, Res.map]

theorem Res.append_ok {a b : Res Str} {t : Str} (h : a +++ b = .ok t) : ∃ x y, a = .ok x ∧ b = .ok y ∧ t = x ++ y := by
  cases a <;> cases b <;> simp only [Res.append, Res.bind, Res.map] at h <;> cases h
  exact ⟨_, _, rfl, rfl, rfl⟩

theorem txt_append (a b : Str) : txt (a ++ b) = txt a +++ txt b := rfl
theorem txt_lit (s : String) : txt s.toList = lit s := rfl

structure L (d : Dialect) (r : Res Str) (ts : List Tok) : Prop where
  is : ∀ t, r = .ok t → tokens d t = some ts
structure E (d : Dialect) (r : Res Str) (ts : List Tok) : Prop where
  is : ∀ t, r = .ok t → Ends d t ts
structure B (r : Res Str) : Prop where
  is : ∀ t, r = .ok t → Breaks t

def dialects : List Dialect := [.sqlite, .postgres, .mysql, .sqlserver, .oracle, .other]
theorem mem_dialects (d : Dialect) : d ∈ dialects := by cases d <;> simp [dialects]

def litTokens (s : String) (ts : List Tok) : Bool := dialects.all fun d => decide (tokens d s.toList = some ts)
def litEnds (s : String) (ts : List Tok) : Bool := dialects.all fun d => decide (Spec.tokRun d .top s.toList = some (ts, .top))
def litBreaks (s : String) : Bool := match s.toList with | [] => false | c :: _ => isBreak c

theorem L_lit {d : Dialect} {s : String} {ts : List Tok} (h : litTokens s ts = true) : L d (lit s) ts :=
  ⟨by rintro t ht; cases ht; exact of_decide_eq_true (List.all_eq_true.1 h d (mem_dialects d))⟩
theorem E_lit {d : Dialect} {s : String} {ts : List Tok} (h : litEnds s ts = true) : E d (lit s) ts :=
  ⟨by rintro t ht; cases ht; unfold Ends; exact of_decide_eq_true (List.all_eq_true.1 h d (mem_dialects d))⟩
theorem litBreaks_is {s : String} (h : litBreaks s = true) : ∃ c cs, s.toList = c :: cs ∧ isBreak c = true := by
  unfold litBreaks at h
  cases hs : s.toList with
  | nil => rw [hs] at h; cases h
  | cons c cs => rw [hs] at h; exact ⟨c, cs, rfl, h⟩
theorem B_lit {s : String} (h : litBreaks s = true) : B (lit s) :=
  ⟨by rintro t ht; cases ht; exact .inr (litBreaks_is h)⟩

theorem L_txt {d : Dialect} {s : Str} {ts : List Tok} (h : tokens d s = some ts) : L d (txt s) ts := ⟨by rintro t ht; cases ht; exact h⟩
theorem E_txt {d : Dialect} {s : Str} {ts : List Tok} (h : Ends d s ts) : E d (txt s) ts := ⟨by rintro t ht; cases ht; exact h⟩
theorem L_nil {d : Dialect} : L d (.ok []) [] := ⟨by rintro t ht; cases ht; rfl⟩
theorem E_nil {d : Dialect} : E d (.ok []) [] := ⟨by rintro t ht; cases ht; rfl⟩
theorem B_nil : B (.ok []) := ⟨by rintro t ht; cases ht; exact .inl rfl⟩
theorem L_empty {d : Dialect} : L d (txt []) [] := L_nil
theorem E_empty {d : Dialect} : E d (txt []) [] := E_nil
theorem B_empty : B (txt []) := B_nil
theorem L_err {d : Dialect} {e : Str} {ts : List Tok} : L d (.err e) ts := ⟨by rintro t h; cases h⟩
theorem L_panic {d : Dialect} {ts : List Tok} : L d .panic ts := ⟨by rintro t h; cases h⟩
theorem B_err {e : Str} : B (.err e) := ⟨by rintro t h; cases h⟩
theorem L_of_E {d : Dialect} {r : Res Str} {ts : List Tok} (h : E d r ts) : L d r ts := ⟨fun t ht => tokens_of_ends (h.is t ht)⟩

theorem failIf_ok {b : Bool} {s : String} {t : Str} (h : failIf b s = .ok t) : t = [] ∧ b = false := by
  unfold failIf at h; cases b
  · cases h; exact ⟨rfl, rfl⟩
  · cases h

theorem L_catE {d : Dialect} {a r : Res Str} {x : List Tok} {xs : List (List Tok)} (ha : E d a x) (hr : L d r xs.flatten) :
    L d (a +++ r) (x :: xs).flatten := by
  refine ⟨fun t ht => ?_⟩
  obtain ⟨u, v, h1, h2, rfl⟩ := Res.append_ok ht
  exact tokens_append_ends (ha.is u h1) (hr.is v h2)
theorem L_catB {d : Dialect} {a r : Res Str} {x : List Tok} {xs : List (List Tok)} (ha : L d a x) (hr : L d r xs.flatten) (hb : B r) :
    L d (a +++ r) (x :: xs).flatten := by
  refine ⟨fun t ht => ?_⟩
  obtain ⟨u, v, h1, h2, rfl⟩ := Res.append_ok ht
  exact tokens_append_breaks (ha.is u h1) (hr.is v h2) (hb.is v h2)
theorem L_one {d : Dialect} {r : Res Str} {x : List Tok} (h : L d r x) : L d r [x].flatten := by simpa using h
/-- A part that says nothing: a check, or blanks. -/
theorem L_skip {d : Dialect} {a r : Res Str} {ts : List Tok} (ha : E d a []) (hr : L d r ts) : L d (a +++ r) ts := by
  refine ⟨fun t ht => ?_⟩
  obtain ⟨u, v, h1, h2, rfl⟩ := Res.append_ok ht
  exact tokens_append_ends (ha.is u h1) (hr.is v h2)
theorem E_failIf {d : Dialect} {b : Bool} {s : String} : E d (failIf b s) [] :=
  ⟨fun t ht => by rw [(failIf_ok ht).1]; rfl⟩
theorem B_failIf {b : Bool} {s : String} : B (failIf b s) := ⟨fun _ ht => .inl (failIf_ok ht).1⟩

theorem E_cat {d : Dialect} {a r : Res Str} {x : List Tok} {xs : List (List Tok)} (ha : E d a x) (hr : E d r xs.flatten) :
    E d (a +++ r) (x :: xs).flatten := by
  refine ⟨fun t ht => ?_⟩
  obtain ⟨u, v, h1, h2, rfl⟩ := Res.append_ok ht
  exact ends_append (ha.is u h1) (hr.is v h2)
theorem E_catL {d : Dialect} {a : Res Str} {s : String} {x y : List Tok} (ha : L d a x) (hr : E d (lit s) y) (hb : litBreaks s = true) :
    E d (a +++ lit s) [x, y].flatten := by
  refine ⟨fun t ht => ?_⟩
  obtain ⟨u, v, h1, h2, rfl⟩ := Res.append_ok ht
  cases h2
  obtain ⟨c, cs, hs, hc⟩ := litBreaks_is hb
  rw [show [x, y].flatten = x ++ y by simp]
  exact ends_append_breaks (ha.is u h1) (hr.is _ rfl) (.inr ⟨c, cs, hs, hc⟩) (by rw [hs]; simp)
theorem E_one {d : Dialect} {r : Res Str} {x : List Tok} (h : E d r x) : E d r [x].flatten := by simpa using h
theorem E_skip {d : Dialect} {a r : Res Str} {ts : List Tok} (ha : E d a []) (hr : E d r ts) : E d (a +++ r) ts := by
  refine ⟨fun t ht => ?_⟩
  obtain ⟨u, v, h1, h2, rfl⟩ := Res.append_ok ht
  exact ends_append (ha.is u h1) (hr.is v h2)

/-- Only checks. -/
theorem E_checks {d : Dialect} {a r : Res Str} (ha : E d a []) (hr : E d r []) : E d (a +++ r) [] := E_skip ha hr

theorem L_when {d : Dialect} {b : Bool} {p : Prop} [Decidable p] {r : Res Str} {ts : List Tok} (hp : b = true ↔ p) (h : b = true → L d r ts) :
    L d (when b r) (opt p ts) := by
  unfold when opt
  cases b
  · simp only [Bool.false_eq_true, if_false]
    rw [if_neg (fun h' => by cases hp.2 h')]; exact L_nil
  · rw [if_pos (hp.1 rfl)]; exact h rfl
theorem E_when {d : Dialect} {b : Bool} {p : Prop} [Decidable p] {r : Res Str} {ts : List Tok} (hp : b = true ↔ p) (h : b = true → E d r ts) :
    E d (when b r) (opt p ts) := by
  unfold when opt
  cases b
  · simp only [Bool.false_eq_true, if_false]
    rw [if_neg (fun h' => by cases hp.2 h')]; exact E_nil
  · rw [if_pos (hp.1 rfl)]; exact h rfl
theorem E_when_nil {d : Dialect} {b : Bool} {r : Res Str} (h : E d r []) : E d (when b r) [] := by
  unfold when
  cases b
  · exact E_nil
  · exact h
theorem B_when {b : Bool} {r : Res Str} (h : b = true → B r) : B (when b r) := by
  unfold when; cases b
  · exact B_nil
  · exact h rfl
theorem L_ite {d : Dialect} {p q : Prop} [Decidable p] [Decidable q] {a b : Res Str} {x y : List Tok} (hp : p ↔ q) (ha : p → L d a x)
    (hb : ¬p → L d b y) : L d (if p then a else b) (if q then x else y) := by
  by_cases h : p
  · rw [if_pos h, if_pos (hp.1 h)]; exact ha h
  · rw [if_neg h, if_neg (by rw [← hp]; exact h)]; exact hb h
theorem E_ite {d : Dialect} {p q : Prop} [Decidable p] [Decidable q] {a b : Res Str} {x y : List Tok} (hp : p ↔ q) (ha : p → E d a x)
    (hb : ¬p → E d b y) : E d (if p then a else b) (if q then x else y) := by
  by_cases h : p
  · rw [if_pos h, if_pos (hp.1 h)]; exact ha h
  · rw [if_neg h, if_neg (by rw [← hp]; exact h)]; exact hb h
theorem E_ite_nil {d : Dialect} {p : Prop} [Decidable p] {a b : Res Str} {ts : List Tok} (ha : E d a ts)
    (hb : E d b ts) : E d (if p then a else b) ts := by
  by_cases h : p
  · rw [if_pos h]; exact ha
  · rw [if_neg h]; exact hb
theorem B_ite {p : Prop} [Decidable p] {a b : Res Str} (ha : p → B a) (hb : ¬p → B b) : B (if p then a else b) := by
  by_cases h : p
  · rw [if_pos h]; exact ha h
  · rw [if_neg h]; exact hb h

theorem B_cat {a r : Res Str} (ha : B a) (hr : B r) : B (a +++ r) := by
  refine ⟨fun t ht => ?_⟩
  obtain ⟨u, v, h1, h2, rfl⟩ := Res.append_ok ht
  rcases ha.is u h1 with rfl | ⟨c, cs, rfl, hc⟩
  · exact hr.is v h2
  · exact .inr ⟨c, cs ++ v, rfl, hc⟩
theorem B_first {s : String} {r : Res Str} (h : litBreaks s = true) : B (lit s +++ r) := by
  refine ⟨fun t ht => ?_⟩
  obtain ⟨u, v, h1, h2, rfl⟩ := Res.append_ok ht
  cases h1
  obtain ⟨c, cs, hs, hc⟩ := litBreaks_is h
  exact .inr ⟨c, cs ++ v, by rw [hs]; rfl, hc⟩

theorem tokens_nil (d : Dialect) : tokens d [] = some [] := rfl

theorem rd_of {d : Dialect} {x : Str} (h : (tokens d x).isSome = true) : tokens d x = some (rd d x) := by
  unfold rd
  cases hx : tokens d x with
  | none => rw [hx] at h; cases h
  | some y => rfl

/-- The fragment can be read. -/
def Reads (d : Dialect) (x : Str) : Prop := (tokens d x).isSome = true

theorem L_raw {d : Dialect} {x : Str} (h : Reads d x) : L d (txt x) (rd d x) := L_txt (rd_of h)
theorem L_name {d : Dialect} {x : Str} : L d (txt (quoteIdentifier d x)) [(spelling d).name x] := L_txt (tokens_ident d x)

theorem qualified_eq (d : Dialect) (a b : Str) :
    txt (qualified d a b) = when (a ≠ []) (txt (quoteIdentifier d a) +++ lit ".") +++ txt (quoteIdentifier d b) := by
  unfold qualified
  by_cases h : a = []
  · simp [h, when, txt, Res.append, Res.bind, Res.map]
  · simp [h, when, txt, lit, Res.append, Res.bind, Res.map]

/-- Normal form: one `txt` for each name, fragment or literal. -/
macro "norm" : tactic => `(tactic| try simp only [txt_append, txt_lit, Res.append_assoc])

macro "side" : tactic => `(tactic| first
  | with_reducible exact Iff.rfl
  | (simp; done)
  | (simp [and_assoc]; done))

/-- Proves that a text starts with a break (or is empty). -/
macro "breaks" : tactic => `(tactic| repeat' first
  | with_reducible assumption
  | with_reducible exact B_failIf
  | with_reducible exact B_err
  | with_reducible exact B_nil
  | with_reducible exact B_empty
  | (with_reducible refine B_first ?_; decide +kernel)
  | (with_reducible refine B_lit ?_; decide +kernel)
  | simp only [txt_append, txt_lit, Res.append_assoc]
  | with_reducible refine B_when (fun _ => ?_)
  | with_reducible refine B_ite (fun _ => ?_) (fun _ => ?_)
  | with_reducible refine B_cat ?_ ?_)

/-- Proves that a text is complete. -/
macro "ends" : tactic => `(tactic| repeat' first
  | with_reducible assumption
  | with_reducible exact E_failIf
  | with_reducible exact E_nil
  | with_reducible exact E_empty
  | (with_reducible refine E_lit ?_; decide +kernel)
  | simp only [txt_append, txt_lit, Res.append_assoc]
  | with_reducible refine E_checks ?_ ?_
  | (with_reducible refine E_skip (E_failIf) ?_)
  | (with_reducible refine E_catL L_name ?_ ?_; rotate_left; decide +kernel)
  | (with_reducible refine E_catL (L_raw ?_) ?_ ?_; assumption; rotate_left; decide +kernel)
  | with_reducible refine E_cat ?_ ?_
  | (with_reducible refine E_when ?_ (fun _ => ?_); focus (side; done))
  | with_reducible refine E_when_nil ?_
  | (with_reducible refine E_ite ?_ (fun _ => ?_) (fun _ => ?_); focus (side; done))
  | with_reducible refine E_one ?_)

/-- Proves what a text says, part by part. -/
macro "says" : tactic => `(tactic| repeat' first
  | with_reducible assumption
  | with_reducible exact L_err
  | with_reducible exact L_panic
  | with_reducible exact L_nil
  | with_reducible exact L_empty
  | with_reducible exact L_name
  | (with_reducible refine L_raw ?_; assumption)
  | (with_reducible refine L_lit ?_; decide +kernel)
  | simp only [txt_append, txt_lit, Res.append_assoc]
  | (with_reducible refine L_skip ?_ ?_; focus (ends; done))
  | (with_reducible refine L_catE ?_ ?_; focus (ends; done))
  | (with_reducible refine L_catB ?_ ?_ ?_; rotate_left 2; focus (breaks; done))
  | (with_reducible refine L_when ?_ (fun _ => ?_); focus (side; done))
  | (with_reducible refine L_ite ?_ (fun _ => ?_) (fun _ => ?_); focus (side; done))
  | with_reducible refine L_one ?_)

end Ddl
