import Verif.Proof.Names
import Verif.Model.Examples
/-
C05-C08, C10: placeholders and arguments.
-/
namespace Sq
open Spec

/-- The state after rendering value `n` (with parameter name `pn`) in mode `m` — dialect, environment, excluded
qualifiers — starting from buffer/args/params `s`. -/
def renderFrom (n : Node) (m : Mode) (pn : Str) (s : St) : St := exec m.d (ren n m pn).code s

/-- **C05.** Every numbered placeholder in the result of rendering any value in any dialect, environment and
exclusion list refers to an element of the argument list; so does every recorded parameter position. -/
theorem C05_placeholder_in_range (n : Node) (m : Mode) (pn : Str) :
    (∀ k, Piece.ph k ∈ (renderFrom n m pn {}).out → 1 ≤ k ∧ k ≤ (renderFrom n m pn {}).args.length) ∧
    (∀ x i, i ∈ (renderFrom n m pn {}).params x → i < (renderFrom n m pn {}).args.length) :=
  ⟨(inRange_exec m.d _).ph, (inRange_exec m.d _).params⟩

/-- C05 for the exported entry point `ToSQL`. -/
theorem C05_toSQL (d : Dialect) (n : Node) (k : Nat) (h : Piece.ph k ∈ (toSQL d n).pieces) :
    1 ≤ k ∧ k ≤ (toSQL d n).args.length := (C05_placeholder_in_range n { d := d } []).1 k h

theorem numbered_iff (d : Dialect) : d ∈ numberedDialects ↔ numbered d = true := by cases d <;> decide

theorem anonCount_zero (ps : List Piece) (h : anonCount ps = 0) : Piece.anon ∉ ps := by
  induction ps with
  | nil => simp
  | cons p ps ih =>
    cases p <;> simp_all [anonCount]

/-- C05: whatever is written besides literal text is a placeholder spelled as the dialect spells it: `$n` on PostgreSQL and SQLite, `@pn` on
SQL Server, `?` elsewhere; named placeholders with the dialect's sigil. -/
theorem C05_spelling (n : Node) (m : Mode) (pn : Str) (p : Piece) (hp : p ∈ (renderFrom n m pn {}).out) :
    (∃ t, p = .text t) ∨
    (∃ k, p = (if m.d ∈ numberedDialects then .ph k else .anon) ∧ p.str m.d = spelled m.d k) ∨
    (∃ nm, p = .ref nm ∧ p.str m.d = spelledName m.d nm) := by
  cases p with
  | text t => exact .inl ⟨t, rfl⟩
  | ref nm =>
    refine .inr (.inr ⟨nm, rfl, ?_⟩)
    cases h : m.d <;> simp [Piece.str, spelledName]
  | ph k =>
    refine .inr (.inl ⟨k, ?_⟩)
    by_cases hd : m.d ∈ numberedDialects
    · rw [if_pos hd]
      refine ⟨rfl, ?_⟩
      cases h : m.d <;> rw [h] at hd <;> first | rfl | (exact absurd hd (by decide))
    · exfalso
      have hd' : numbered m.d = false := by
        cases h : numbered m.d with
        | false => rfl
        | true => exact absurd ((numbered_iff m.d).2 h) hd
      have : ∀ k, Piece.ph k ∉ (renderFrom n m pn {}).out := by
        refine exec_ind (P := fun s => ∀ k, Piece.ph k ∉ s.out) ?_ _ {} (by simp)
        intro i s hs
        cases i <;> simp only [exec1, hd'] <;> (repeat' split) <;> simp_all
      exact this k hp
  | anon =>
    refine .inr (.inl ⟨0, ?_⟩)
    by_cases hd : m.d ∈ numberedDialects
    · exfalso
      exact anonCount_zero _ (no_anon_exec m.d ((numbered_iff m.d).1 hd) _ {} (by simp [anonCount])) hp
    · rw [if_neg hd]
      refine ⟨rfl, ?_⟩
      cases h : m.d <;> rw [h] at hd <;> first | rfl | (exact absurd (by decide) hd)

example : Piece.ph 4 ∈ (toSQL .postgres Ex.q1).pieces ∧ (toSQL .postgres Ex.q1).args.length = 4 ∧
    (toSQL .postgres Ex.q1).status = .ok := by decide +kernel

/-- **C06.** In a dialect without numbered placeholders (MySQL, Oracle, unknown), when no sql.NamedArg is used, the
number of `?` equals the number of arguments, and replacing the k-th `?` by the k-th argument gives the sequence of
written text and visited values. -/
theorem C06_anonymous_placeholders (n : Node) (m : Mode) (pn : Str) (hd : m.d ∉ numberedDialects)
    (h : n.All (NoNamed m.d)) :
    anonCount (renderFrom n m pn {}).out = (renderFrom n m pn {}).args.length ∧
    (∀ k, Piece.ph k ∉ (renderFrom n m pn {}).out) ∧
    resolve (renderFrom n m pn {}).args 0 (renderFrom n m pn {}).out = (ren n m pn).code.flatMap Instr.denote := by
  have hd : numbered m.d = false := by
    cases h : numbered m.d with
    | false => rfl
    | true => exact absurd ((numbered_iff m.d).2 h) hd
  have hn := no_named n h m rfl pn
  refine ⟨anon_exec m.d hd _ {} hn (by simp [anonCount]), ?_, ?_⟩
  · refine exec_ind (P := fun s => ∀ k, Piece.ph k ∉ s.out) ?_ _ {} (by simp)
    intro i s hs
    cases i <;> simp only [exec1, hd] <;> (repeat' split) <;> simp_all
  · have := resolve_unnumbered m.d hd (ren n m pn).code {} hn (by simp [anonCount]) (by simp) (by simp)
    simpa [renderFrom, resolve] using this

/-- C06 for MySQL: sql.NamedArg need not be excluded, because MySQL rendering rejects it.  The only hypothesis is about
user-defined appenders. -/
theorem C06_mysql (n : Node) (h : n.All (NoNamed .mysql)) :
    anonCount (toSQL .mysql n).pieces = (toSQL .mysql n).args.length :=
  (C06_anonymous_placeholders n { d := .mysql } [] (by decide) h).1

/-- `NoNamed` on MySQL only restricts user-defined appenders: every other node satisfies it. -/
theorem noNamed_mysql (n : Node) (h : ∀ k a nm act, n ≠ .ext k a nm act) : NoNamed .mysql n := by
  cases n <;> simp [NoNamed]
  exact absurd rfl (h _ _ _ _)

example : Ex.q1.All (NoNamed .mysql) ∧ anonCount (toSQL .mysql Ex.q1).pieces = 4 ∧
    (toSQL .mysql Ex.q1).args = [.val (.int 1), .val (.int 2), .val (.int 3), .val (.int 5)] := by
  refine ⟨?_, by decide +kernel, by decide +kernel⟩
  simp [Ex.q1, Ex.col, Ex.users, Ex.andp, Ex.orp, Ex.eqInt, Node.All, AllL, NoNamed]

/-- **C07.** In a dialect with numbered placeholders every argument is referenced by a placeholder in the text: by its
number, or by its name if it is an sql.NamedArg. -/
theorem C07_no_unused_argument (n : Node) (m : Mode) (pn : Str) (hd : m.d ∈ numberedDialects) (k : Nat) (a : Arg)
    (ha : (renderFrom n m pn {}).args[k]? = some a) :
    Piece.ph (k + 1) ∈ (renderFrom n m pn {}).out ∨
    ∃ nm v, a = .named nm v ∧ Piece.ref nm ∈ (renderFrom n m pn {}).out := by
  have := allUsed_exec m.d ((numbered_iff m.d).1 hd) (ren n m pn).code k a ha
  rcases this with h | ⟨nm, v, hv, hr⟩
  · exact Or.inl h
  · exact Or.inr ⟨nm, v, hv, hr⟩

example : (toSQL .sqlite Ex.q2).args[1]? = some (.val (.int 7)) ∧ Piece.ph 2 ∈ (toSQL .sqlite Ex.q2).pieces := by
  decide +kernel

/-- **C08 (full statement, violated).** It is not true that a value means the same inside another one: in
`Fieldf("{1} {2}", 10, Fieldf("f({1})", 20))` the inner `{1}` is bound to 10, and 20 is lost. -/
theorem C08_ordinal_capture_violated :
    resolve (toSQL .postgres Ex.captureInner).args 0 (toSQL .postgres Ex.captureInner).pieces =
      [.sql "f", .sql "(", .val (.val (.int 20)), .sql ")", .sql []] ∧
    resolve (toSQL .postgres Ex.capture).args 0 (toSQL .postgres Ex.capture).pieces =
      [.val (.val (.int 10)), .sql " ", .sql "f", .sql "(", .val (.val (.int 10)), .sql ")", .sql [], .sql []] := by
  decide +kernel

/-- **C08 (partial).** Rendering a value after anything else has been written gives the same text with placeholder numbers
moved by the number of arguments already bound, and the same arguments appended — provided none of the parameter
names used by the value (`Nm`: names of its named parameters/arguments and the ordinals of its formats) is recorded in
the state it is rendered in.  Missing: values using a name that is recorded, where the claim is false. -/
theorem C08_embedding_partial (n : Node) (m : Mode) (pn : Str) (Nm : Str → Prop) (h : n.All (UsesNames m.d Nm))
    (hpn : pn = [] ∨ Nm pn) (s : St) (hs : ∀ x, Nm x → s.params x = []) :
    (renderFrom n m pn s).out = s.out ++ (renderFrom n m pn {}).out.map (Piece.shift s.args.length) ∧
    (renderFrom n m pn s).args = s.args ++ (renderFrom n m pn {}).args :=
  exec_shift_fresh m.d Nm _ (uses_names Nm n h m rfl pn hpn) s hs

/-- C08, resolved form: after replacing placeholders by values, the text of the enclosing rendering is the text before it
followed by exactly the value's own resolved text.  `pre` is whatever was rendered before. -/
theorem C08_resolved_partial (n : Node) (m : Mode) (pn : Str) (Nm : Str → Prop) (h : n.All (UsesNames m.d Nm))
    (hnn : n.All (NoNamed m.d)) (hpn : pn = [] ∨ Nm pn) (pre : List Instr) (hpre : ∀ i ∈ pre, ∀ x v, i ≠ .named x v)
    (hs : ∀ x, Nm x → (exec m.d pre {}).params x = []) :
    let s := exec m.d pre {}
    resolve (renderFrom n m pn s).args 0 (renderFrom n m pn s).out =
      resolve s.args 0 s.out ++ resolve (renderFrom n m pn {}).args 0 (renderFrom n m pn {}).out := by
  intro s
  obtain ⟨ho, ha⟩ := C08_embedding_partial n m pn Nm h hpn s hs
  have hr1 : ∀ nm, Piece.ref nm ∉ s.out := no_ref_exec m.d pre {} hpre (by simp)
  have hr2 : ∀ nm, Piece.ref nm ∉ (renderFrom n m pn {}).out :=
    no_ref_exec m.d _ {} (no_named n hnn m rfl pn) (by simp)
  have hin : InRange s := inRange_exec m.d pre
  have hin2 : InRange (renderFrom n m pn {}) := inRange_exec m.d _
  rw [ho, ha, resolve_append]
  cases hd : numbered m.d with
  | true =>
    have hz : anonCount s.out = 0 := no_anon_exec m.d hd pre {} (by simp [anonCount])
    have hz2 : anonCount (renderFrom n m pn {}).out = 0 := no_anon_exec m.d hd _ {} (by simp [anonCount])
    rw [resolve_args_append _ _ _ _ hin.ph hr1 (by omega)]
    congr 1
    have := resolve_shift s.args (renderFrom n m pn {}).args 0 (renderFrom n m pn {}).out
      (fun n hn => (hin2.ph n hn).1) hr2
    rw [← this]
    have indep : ∀ (args : List Arg) (ps : List Piece) (k k' : Nat), anonCount ps = 0 →
        resolve args k ps = resolve args k' ps := by
      intro args ps
      induction ps with
      | nil => intros; rfl
      | cons p ps ih =>
        intro k k' hz
        cases p with
        | anon => simp [anonCount] at hz
        | text x => simp only [resolve]; rw [ih k k' (by simpa [anonCount] using hz)]
        | ph x => simp only [resolve]; rw [ih k k' (by simpa [anonCount] using hz)]
        | ref x => simp only [resolve]; rw [ih k k' (by simpa [anonCount] using hz)]
    apply indep
    clear this indep
    generalize (renderFrom n m pn {}).out = ps at hz2
    induction ps with
    | nil => rfl
    | cons p ps ih =>
      cases p with
      | anon => simp [anonCount] at hz2
      | _ => simp [anonCount, Piece.shift] at hz2 ih ⊢; simpa using ih hz2
  | false =>
    have hc : anonCount s.out = s.args.length := anon_exec m.d hd pre {} hpre (by simp [anonCount])
    rw [resolve_args_append _ _ _ _ hin.ph hr1 (by omega), hc]
    congr 1
    exact resolve_shift s.args _ 0 _ (fun n hn => (hin2.ph n hn).1) hr2

/-- The premises of C08 hold for a query that itself uses a named parameter and ordinals, rendered after a prefix that
has bound an argument. -/
example : Ex.q2.All (UsesNames .postgres (fun x => x ∈ ["id".toList, "1".toList, "2".toList])) := by
  have e1 : parseFmt none "{} = {}".toList = [.hole [], .lit ' ', .lit '=', .lit ' ', .hole []] := by decide
  have e2 : parseFmt none "{1} BETWEEN {2} AND {2} + 1".toList =
      .hole ['1'] :: (" BETWEEN ".toList.map .lit ++ .hole ['2'] :: (" AND ".toList.map .lit ++ .hole ['2'] ::
        " + 1".toList.map .lit)) := by decide
  simp only [Ex.q2, Ex.col, Ex.users, Ex.andp, Ex.orp, Node.All, AllL, UsesNames]
  have f1 : OrdinalsIn (fun x => x ∈ ["id".toList, "1".toList, "2".toList]) "{} = {}".toList := by
    intro b hb; rw [e1] at hb; simp at hb; subst hb; decide
  have f2 : OrdinalsIn (fun x => x ∈ ["id".toList, "1".toList, "2".toList]) "{1} BETWEEN {2} AND {2} + 1".toList := by
    intro b hb; rw [e2] at hb; simp at hb
    rcases hb with rfl | rfl <;> decide
  simp at f1 f2
  simp [f1, f2]

/-- **C10.** Rendering any value never changes what was written before, and never changes an argument bound before unless
its position is recorded under a parameter name. -/
theorem C10_only_appends (n : Node) (m : Mode) (pn : Str) (s : St) :
    s.out <+: (renderFrom n m pn s).out ∧
    ∀ k, k < s.args.length → (∀ x, k ∉ s.params x) → (renderFrom n m pn s).args[k]? = s.args[k]? :=
  ⟨exec_out_prefix m.d _ s, fun k hk hf => exec_args_keep m.d _ s k hk hf⟩

/-- C10, for the text: the rendered string starts with the string written before. -/
theorem C10_text_prefix (n : Node) (m : Mode) (pn : Str) (s : St) :
    bufString m.d s.out <+: bufString m.d (renderFrom n m pn s).out := by
  obtain ⟨t, ht⟩ := (C10_only_appends n m pn s).1
  rw [← ht]; simp [bufString]

/-- The exception is real: a reused named parameter overwrites its argument. -/
example : let s : St := { out := [.ph 1], args := [.val (.int 1)], params := fun x => if x = "id".toList then [0] else [] }
    (renderFrom (.param "id" (.scalar (.int 2))) { d := .postgres } [] s).args = [.val (.int 2)] := by decide

end Sq
