import Verif.Proof.Tree
import Verif.Proof.Resolve
/-
Which parameter names a tree can look up.
-/
namespace Sq

/-- The ordinals `{n}` of a format string are in `Nm`. -/
def OrdinalsIn (Nm : Str → Prop) (fmt : Str) : Prop :=
  ∀ body, Seg.hole body ∈ parseFmt none fmt → (atoi (splitColon body).1).isSome = true → Nm (splitColon body).1

/-- Parameter names used at one node: names of named parameters and named arguments, ordinals of format
strings, and what a user-defined appender uses. -/
def UsesNames (d : Dialect) (Nm : Str → Prop) : Node → Prop
  | .namedArg n _ => Nm n
  | .param n _ => Nm n
  | .field fi _ _ _ => ∀ p ∈ fi.formats, OrdinalsIn Nm p.2
  | .checkedField _ _ fi => ∀ p ∈ fi.formats, OrdinalsIn Nm p.2
  | .cpred _ fmt _ _ => OrdinalsIn Nm fmt
  | .customTable fmt _ => OrdinalsIn Nm fmt
  | .customQuery _ fmt _ => OrdinalsIn Nm fmt
  | .ext _ _ _ act => ∀ m : Mode, m.d = d → ∀ i ∈ (act m).code, ∀ x ∈ i.names, Nm x
  | _ => True

/-- Code predicates that only look at single effects. -/
theorem sites_forall {d : Dialect} {N : Str → Prop} {Q : Instr → Prop} (hnil : N [])
    (ht : ∀ s, Q (.text s)) (hf : ∀ ns, (∀ x ∈ ns, N x) → Q (.forget ns)) (hb : ∀ pn a, N pn → Q (.bind pn a)) :
    Sites (fun w => ∀ i ∈ w.code, Q i) d N where
  nilName := hnil
  ok := by simp [W.ok]
  wr := by intro s i hi; simp [W.wr] at hi; subst hi; exact ht s
  fail := by simp [W.fail]
  seq := by
    intro a b ha hb' i hi
    unfold W.seq at hi
    split at hi
    · simp at hi; rcases hi with hi | hi
      · exact ha i hi
      · exact hb' i hi
    · exact ha i hi
  forget := by intro ns hn i hi; simp [W.emit] at hi; subst hi; exact hf ns hn
  bind := by intro pn a hn i hi; simp [W.emit] at hi; subst hi; exact hb pn a hn

theorem forall_ignoreErr {Q : Instr → Prop} (a : W) (h : ∀ i ∈ a.code, Q i) : ∀ i ∈ a.ignoreErr.code, Q i := by
  unfold W.ignoreErr; split <;> exact h

theorem fmtOk_forall {N : Str → Prop} {Q : Instr → Prop} (fmt : Str) (h : OrdinalsIn N fmt) :
    FmtOk (fun w => ∀ i ∈ w.code, Q i) N fmt := by
  intro s hs
  cases s with
  | lit c => trivial
  | unclosed s => trivial
  | trailing => simp [SegOk, W.panic]
  | hole body => exact ⟨h body hs, by simp [W.panic, W.hang]⟩

theorem uses_names {d : Dialect} (Nm : Str → Prop) (n : Node) (h : n.All (UsesNames d Nm)) (m : Mode) (hm : m.d = d)
    (pn : Str) (hp : pn = [] ∨ Nm pn) : ∀ i ∈ (ren n m pn).code, ∀ x ∈ i.names, Nm x := by
  have S : Sites (fun w => ∀ i ∈ w.code, ∀ x ∈ i.names, Nm x) d (fun x => x = [] ∨ Nm x) :=
    sites_forall (Q := fun i => ∀ x ∈ i.names, Nm x) (Or.inl rfl) (by simp [Instr.names]) (by simp [Instr.names])
      (by
        intro pn a hn x hx
        simp only [Instr.names] at hx
        split at hx
        · simp at hx
        · simp at hx; subst hx; rcases hn with h | h
          · contradiction
          · exact h)
  refine ren_ind S n (h.mono ?_) m hm pn hp
  intro n hn
  have weak : ∀ fmt, OrdinalsIn Nm fmt → OrdinalsIn (fun x => x = [] ∨ Nm x) fmt :=
    fun fmt h body hb ha => Or.inr (h body hb ha)
  cases n <;> simp only [UsesNames, NodeOk] at hn ⊢
  case namedArg a v =>
    intro m _ i hi x hx
    unfold namedArgAppend at hi
    repeat' split at hi
    · simp [W.fail] at hi
    · simp [W.fail] at hi
    · simp [W.fail] at hi
    · simp [W.emit] at hi; subst hi; simp [Instr.names] at hx; subst hx; exact hn
  case param a v =>
    intro v i hi x hx
    simp [W.emit] at hi; subst hi; simp [Instr.names] at hx; subst hx; exact hn
  case field => intro p hp; exact fmtOk_forall _ (weak _ (hn p hp))
  case checkedField => intro p hp; exact fmtOk_forall _ (weak _ (hn p hp))
  case cpred => exact fmtOk_forall _ (weak _ hn)
  case customTable => exact fmtOk_forall _ (weak _ hn)
  case customQuery => exact fmtOk_forall _ (weak _ hn)
  case window => intro a ha; exact forall_ignoreErr a ha
  case insert => intro _ _ _ _; simp [W.panic]
  case update => intro _ _ _ _; simp [W.panic]
  case delete => intro _ _ _; simp [W.panic]
  case ext => exact hn

/-- A user-defined appender that does not pass an sql.NamedArg to the package, or any other node. -/
def NoNamed (d : Dialect) : Node → Prop
  | .namedArg _ _ => d = .mysql ∨ d = .postgres
  | .ext _ _ _ act => ∀ m : Mode, m.d = d → ∀ i ∈ (act m).code, ∀ n v, i ≠ .named n v
  | _ => True

theorem no_named {d : Dialect} (n : Node) (h : n.All (NoNamed d)) (m : Mode) (hm : m.d = d) (pn : Str) :
    ∀ i ∈ (ren n m pn).code, ∀ x v, i ≠ .named x v := by
  have S : Sites (fun w => ∀ i ∈ w.code, ∀ x v, i ≠ .named x v) d (fun _ => True) :=
    sites_forall (Q := fun i => ∀ x v, i ≠ .named x v) trivial (by simp) (by simp) (by simp)
  refine ren_ind S n (h.mono ?_) m hm pn trivial
  intro n hn
  have tr : ∀ fmt, OrdinalsIn (fun _ => True) fmt := fun _ _ _ _ => trivial
  cases n <;> simp only [NoNamed, NodeOk] at hn ⊢
  case namedArg a v =>
    intro m hm i hi
    unfold namedArgAppend at hi
    rw [hm] at hi
    rw [if_pos (by rcases hn with h | h <;> simp [h])] at hi
    simp [W.fail] at hi
  case param => intro v i hi; simp [W.emit] at hi; subst hi; simp
  case field => intro p hp; exact fmtOk_forall _ (tr _)
  case checkedField => intro p hp; exact fmtOk_forall _ (tr _)
  case cpred => exact fmtOk_forall _ (tr _)
  case customTable => exact fmtOk_forall _ (tr _)
  case customQuery => exact fmtOk_forall _ (tr _)
  case window => intro a ha; exact forall_ignoreErr a ha
  case insert => intro _ _ _ _; simp [W.panic]
  case update => intro _ _ _ _; simp [W.panic]
  case delete => intro _ _ _; simp [W.panic]
  case ext => exact hn

end Sq
