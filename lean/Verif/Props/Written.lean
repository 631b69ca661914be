import Verif.Props.Clauses
import Verif.Spec.Written
/-
C54, C55 without any assumption about parameter names: the buffer, the values and the parameters after a construct was rendered are those
after its parts were rendered one after another.
-/
namespace Sq.Exprs.Writing
open Sq Sq.Spec Sq.Exprs

/-- The same buffer, values and parameters, whatever pieces the text was written in. -/
def Same (d : Dialect) (s t : St) : Prop := written d s = written d t

theorem Same.rfl {d : Dialect} {s : St} : Same d s s := Eq.refl _
theorem Same.trans {d : Dialect} {s t u : St} (h : Same d s t) (k : Same d t u) : Same d s u := Eq.trans h k

theorem same_iff {d : Dialect} {s t : St} : Same d s t ↔ bufString d s.out = bufString d t.out ∧ s.args = t.args ∧ s.params = t.params := by
  simp [Same, written]

theorem bufString_append (d : Dialect) (a b : List Piece) : bufString d (a ++ b) = bufString d a ++ bufString d b := by
  simp [bufString]

theorem exec1_same {d : Dialect} {s t : St} (i : Instr) (h : Same d s t) : Same d (exec1 d i s) (exec1 d i t) := by
  obtain ⟨so, sa, sp⟩ := s
  obtain ⟨to, ta, tp⟩ := t
  obtain ⟨h1, h2, h3⟩ := same_iff.1 h
  simp only at h1 h2 h3
  subst h2 h3
  rw [same_iff]
  cases i <;> simp only [exec1] <;> (repeat' split) <;> simp [bufString_append, h1]

theorem exec_same {d : Dialect} (is : List Instr) : ∀ {s t : St}, Same d s t → Same d (exec d is s) (exec d is t) := by
  induction is with
  | nil => intro s t h; exact h
  | cons i is ih => intro s t h; exact ih (exec1_same i h)

/-- One cut part. -/
def cappend (d : Dialect) (s : St) : CPart → St
  | .char c => { s with out := s.out ++ [.text [c]] }
  | .value a => { s with out := s.out ++ [if numbered d then .ph (s.args.length + 1) else .anon], args := s.args ++ [a] }
  | .operand n m => appendSQL m n s

theorem cappend_same {d : Dialect} (p : CPart) (hp : ∀ n m, p = .operand n m → m.d = d) {s t : St} (h : Same d s t) :
    Same d (cappend d s p) (cappend d t p) := by
  cases p with
  | operand n m =>
    have := hp n m (Eq.refl _)
    subst this
    exact exec_same _ h
  | _ =>
    obtain ⟨so, sa, sp⟩ := s
    obtain ⟨to, ta, tp⟩ := t
    obtain ⟨h1, h2, h3⟩ := same_iff.1 h
    simp only at h1 h2 h3
    subst h2 h3
    rw [same_iff]
    simp [cappend, bufString_append, h1]

theorem chars_same {d : Dialect} (t : Str) (s : St) :
    Same d ((t.map CPart.char).foldl (cappend d) s) { s with out := s.out ++ [.text t] } := by
  induction t generalizing s with
  | nil => rw [same_iff]; simp [bufString, Piece.str]
  | cons c t ih =>
    refine (ih _).trans ?_
    rw [same_iff]
    simp [cappend, bufString, Piece.str]

/-- All operands are rendered for this dialect. -/
def For (d : Dialect) (ps : List CPart) : Prop := ∀ p ∈ ps, ∀ n m, p = .operand n m → m.d = d

theorem follows_for {d : Dialect} {w : W} {ps : List CPart} (h : Follows d w ps) : For d ps := by
  induction h with
  | text t => intro p hp n m e; subst e; simp at hp
  | value a => intro p hp n m e; subst e; simp at hp
  | done => intro p hp; cases hp
  | forget => intro p hp; cases hp
  | operand n m h =>
    intro p hp k l e
    subst e
    simp at hp
    rw [hp.2]; exact h
  | seq _ _ iha ihb =>
    intro p hp n m e
    rcases List.mem_append.1 hp with hp | hp
    · exact iha p hp n m e
    · exact ihb p hp n m e

theorem foldl_same {d : Dialect} (ps : List CPart) (hp : For d ps) :
    ∀ {s t : St}, Same d s t → Same d (ps.foldl (cappend d) s) (ps.foldl (cappend d) t) := by
  induction ps with
  | nil => intro s t h; exact h
  | cons p ps ih =>
    intro s t h
    exact ih (fun q hq => hp q (by simp [hq])) (cappend_same p (hp p (by simp)) h)

theorem exec_app (d : Dialect) (a b : List Instr) (s : St) : exec d (a ++ b) s = exec d b (exec d a s) := by simp [exec]

/-- Code that follows a form, on any buffer. -/
theorem follows_written {d : Dialect} {w : W} {ps : List CPart} (h : Follows d w ps)
    (hok : ∀ o ∈ cops ps, (ren o.1 o.2 []).st = .ok) :
    w.st = .ok ∧ ∀ s, Same d (exec d w.code s) (ps.foldl (cappend d) s) := by
  induction h with
  | text t =>
    refine ⟨Eq.refl _, fun s => ?_⟩
    have : Same d (exec d (W.wr t).code s) { s with out := s.out ++ [.text t] } := Eq.refl _
    exact this.trans (Eq.symm (chars_same t s))
  | value a =>
    refine ⟨Eq.refl _, fun s => ?_⟩
    rw [same_iff]
    cases d <;> simp [W.emit, exec, exec1, cappend, numbered, bufString]
  | done => exact ⟨Eq.refl _, fun s => Same.rfl⟩
  | forget =>
    refine ⟨Eq.refl _, fun s => ?_⟩
    rw [same_iff]
    have : s.params.erase [] = s.params := by
      funext x; simp [Params.erase]
    simp [W.emit, exec, exec1, this]
  | operand n m hm =>
    subst hm
    exact ⟨hok (n, m) (by simp [cops]), fun s => Same.rfl⟩
  | @seq a b ps qs ha hb iha ihb =>
    rw [cops_append] at hok
    obtain ⟨sa, da⟩ := iha fun o ho => hok o (by simp [ho])
    obtain ⟨sb, db⟩ := ihb fun o ho => hok o (by simp [ho])
    refine ⟨by simp [W.seq, sa, sb], fun s => ?_⟩
    simp only [W.seq, sa]
    rw [exec_app, List.foldl_append]
    exact (db _).trans (foldl_same qs (follows_for hb) (da s))

theorem cut_same (d : Dialect) (p : Part) (s : St) : Same d ((cut d p).foldl (cappend d) s) (p.append d s) := by
  cases p with
  | text t => exact chars_same t s
  | _ => exact Eq.refl _

theorem cuts_same (d : Dialect) (ps : List Part) (h : For d (ps.flatMap (cut d))) (s : St) :
    Same d ((ps.flatMap (cut d)).foldl (cappend d) s) (appendParts d ps s) := by
  induction ps generalizing s with
  | nil => exact Eq.refl _
  | cons p ps ih =>
    rw [List.flatMap_cons, List.foldl_append]
    have h2 : For d (ps.flatMap (cut d)) := fun q hq => h q (by rw [List.flatMap_cons]; exact List.mem_append_right _ hq)
    exact (foldl_same _ h2 (cut_same d p s)).trans (ih h2 _)

theorem follows_parts {d : Dialect} {w : W} {ps : List Part} (h : Follows d w (ps.flatMap (cut d)))
    (hok : ∀ o ∈ cops (ps.flatMap (cut d)), (ren o.1 o.2 []).st = .ok) :
    w.st = .ok ∧ ∀ s, written d (exec d w.code s) = written d (appendParts d ps s) := by
  obtain ⟨h1, h2⟩ := follows_written h hok
  exact ⟨h1, fun s => (h2 s).trans (cuts_same d ps (follows_for h) s)⟩

theorem renders_cops {d : Dialect} {ps : List Part} (h : ∀ p ∈ ps, p.renders d) :
    ∀ o ∈ cops (ps.flatMap (cut d)), (ren o.1 o.2 []).st = .ok := by
  induction ps with
  | nil => intro o ho; cases ho
  | cons p ps ih =>
    intro o ho
    rw [List.flatMap_cons, cops_append] at ho
    rcases List.mem_append.1 ho with ho | ho
    · have hp := h p (by simp)
      cases p with
      | text t => rw [cut, cops_char] at ho; cases ho
      | value a => cases ho
      | operand n => simp [cut, cops] at ho; subst ho; exact hp
      | placed n m => simp [cut, cops] at ho; subst ho; exact hp
    · exact ih (fun q hq => h q (by simp [hq])) o ho

/-- **C55.** Whenever a statement, join, common table expression, subquery, set operation, group of predicates, CASE, table, list of values or
assignment renders without error, on any buffer, what it adds to the text, to the values and to the parameters is what the parts of the form
it stands for add when they are rendered one after another, with the fixed text between them: the clauses that were given, once each and in
the order SQL wants them, with their keywords and separators, and nothing else.  Nothing is assumed about the parameters the parts use. -/
theorem C55_written (m : Mode) (n : Node) (ps : List Part) (hf : construct m n = some ps) (hok : appendStatus m n = .ok) (s : St) :
    written m.d (appendSQL m n s) = written m.d (appendParts m.d ps s) := by
  have h := construct_fol n m ps hf hok
  exact (follows_parts h (h.ok hok)).2 s

/-- The text, values and parameters `ToSQL` returns. -/
theorem C55_sent (d : Dialect) (n : Node) (ps : List Part) (hf : construct { d := d } n = some ps) (hok : (toSQL d n).status = .ok) :
    written d { out := (toSQL d n).pieces, args := (toSQL d n).args, params := (toSQL d n).params } = written d (appendParts d ps {}) :=
  C55_written { d := d } n ps hf hok {}

/-- **C55, DELETE (partial).** A DELETE of any tables writes the parts of the form, but of several tables only the first, unless all are named
with USING on MySQL (`C55_delete_tables_violated`). -/
theorem C55_delete_written_partial (m : Mode) (q : ModMeta) (ctes froms : List Node) (us : Node) (joins : List Node) (wh : Node)
    (ob ret : List Node) (hok : appendStatus m (.delete q ctes froms us joins wh ob ret) = .ok) (s : St) :
    written m.d (appendSQL m (.delete q ctes froms us joins wh ob ret) s) =
    written m.d (appendParts m.d (deleteParts { d := m.d, env := effEnv m.env q.env } q ctes froms us joins wh ob ret) s) := by
  have h := delete_fol q ctes froms us joins wh ob ret m hok
  exact (follows_parts h (h.ok hok)).2 s

/-- **C55, windows (partial).** The same of a window, when all its fields render: it ignores their errors (`C21_window_violated`). -/
theorem C55_window_written_partial (m : Mode) (part order : List Node) (frame : Str)
    (hok : ∀ k ∈ part ++ order, appendStatus { d := m.d } k = .ok) (s : St) :
    appendStatus m (.window part order frame) = .ok ∧
    written m.d (appendSQL m (.window part order frame) s) = written m.d (appendParts m.d (windowForm m.d part order frame) s) := by
  obtain ⟨hst, hf⟩ := window_fol m part order frame hok
  have h := hf hst
  exact ⟨hst, (follows_parts h (h.ok hst)).2 s⟩

/-- **C54.** Every call of a comparison, membership, NULL test, EXISTS, LIKE, aggregate, window, CASE or assignment function whose operands can be
rendered can be rendered, and, on any buffer, it adds what the parts of the SQL form it is named after add when they are rendered one after
another.  Nothing is assumed about the parameters the operands use. -/
theorem C54_written (d : Dialect) (c : Call) (hok : ∀ p ∈ form c, p.renders d) (s : St) :
    appendStatus { d := d } c.node = .ok ∧
    written d (appendSQL { d := d } c.node s) = written d (appendParts d (form c) s) := by
  obtain ⟨h1, h2⟩ := follows_parts (call_form d c) (renders_cops hok)
  exact ⟨h1, h2 s⟩

/-! ### Operands that share a parameter -/

/-- `WHERE a = {x} AND b = {x}` on PostgreSQL: the second `x` is the first one's placeholder. -/
def exShared : Call := .eq (.param "x" (.scalar (.int 1))) (.param "x" (.scalar (.int 2)))

example : (∀ p ∈ form exShared, p.renders .postgres) ∧
    written .postgres (appendSQL { d := .postgres } exShared.node {}) = written .postgres (appendParts .postgres (form exShared) {}) ∧
    (written .postgres (appendParts .postgres (form exShared) {})).text = "$1 = $1".toList ∧
    (written .postgres (appendParts .postgres (form exShared) {})).args = [.val (.int 2)] := by
  have h : ∀ p ∈ form exShared, p.renders .postgres := by
    intro p hp
    simp [exShared, form, bracketed, Node.kind] at hp
    rcases hp with rfl | rfl | rfl <;> first | trivial | exact Eq.refl _
  exact ⟨h, (C54_written .postgres exShared h {}).2, by decide +kernel, by decide +kernel⟩

/-- The statement of `C55_applies` meets the hypotheses here too. -/
example (d : Dialect) : ∃ ps, construct { d := d } exSelect = some ps ∧ appendStatus { d := d } exSelect = .ok :=
  ⟨_, Eq.refl _, by cases d <;> decide +kernel⟩

end Sq.Exprs.Writing
