import Verif.Model.Node
/-
A generic induction principle for the renderer: a property of rendering results that is closed under the
elementary combinators and holds at the binding sites holds for the rendering of every node.
-/
namespace Sq

/-- Closure conditions on a property of rendering results. -/
structure Closed (P : W → Prop) (N : Str → Prop) : Prop where
  nilName : N []
  ok : P .ok
  wr : ∀ s, P (.wr s)
  fail : ∀ e, P (.fail e)
  seq : ∀ a b, P a → P b → P (a ⨟ b)
  forget : ∀ ns, (∀ x ∈ ns, N x) → P (.emit (.forget ns))

/-- `P` holds for every call of the value's rendering method in dialect `d` with a parameter name in `N`
(any parameter name, if the value is itself a named parameter or named argument). -/
def Good (P : W → Prop) (d : Dialect) (N : Str → Prop) (o : Obj) : Prop :=
  ∀ m pn, m.d = d → (o.key = none → N pn) → P (o.act m pn)

def GoodHook (P : W → Prop) (d : Dialect) (N : Str → Prop) (h : Env → HookRes) : Prop :=
  ∀ env o, h env = .pred o → Good P d N o

/-- The parameter names of a segment are in `N`; a segment that makes the code panic or hang is only allowed
when `P` tolerates that. -/
def SegOk (P : W → Prop) (N : Str → Prop) : Seg → Prop
  | .lit _ => True
  | .unclosed _ => True
  | .trailing => P .panic
  | .hole body => ((atoi (splitColon body).1).isSome = true → N (splitColon body).1) ∧ ∀ ms, (splitColon body).2 = some ms →
      (lexModifiers true ms = .panic → P .panic) ∧ (lexModifiers true ms = .hang → P .hang)

/-- All segments of a format string are fine. -/
def FmtOk (P : W → Prop) (N : Str → Prop) (fmt : Str) : Prop := ∀ s ∈ parseFmt none fmt, SegOk P N s

section
variable {P : W → Prop} {d : Dialect} {N : Str → Prop}

theorem Closed.when (C : Closed P N) (c : Bool) {w : W} (h : P w) : P (.when c w) := by
  unfold W.when; split
  · exact h
  · exact C.ok

theorem Closed.sepBy (C : Closed P N) (sep : Str) (ws : List W) (h : ∀ w ∈ ws, P w) : P (sepBy sep ws) := by
  induction ws with
  | nil => exact C.ok
  | cons w ws ih =>
    cases ws with
    | nil => exact h w (by simp)
    | cons w' ws =>
      exact C.seq _ _ (h w (by simp)) (C.seq _ _ (C.wr _) (ih (fun x hx => h x (List.mem_cons_of_mem _ hx))))

theorem Closed.seqAll (C : Closed P N) (ws : List W) (h : ∀ w ∈ ws, P w) : P (seqAll ws) := by
  induction ws with
  | nil => exact C.ok
  | cons w ws ih => exact C.seq _ _ (h w (by simp)) (ih (fun x hx => h x (List.mem_cons_of_mem _ hx)))

theorem Closed.ofRes (C : Closed P N) {α : Type} (r : Res α) (f : α → W) (h : ∀ a, r = .ok a → P (f a))
    (hp : r = .panic → P .panic) (hh : r = .hang → P .hang) :
    P (.ofRes r f) := by
  cases r with
  | ok a => exact h a rfl
  | err e => exact C.fail e
  | panic => exact hp rfl
  | hang => exact hh rfl

theorem lookupName_mem (vals : List Obj) (nm : Str) (v : Obj) (h : lookupName vals nm = some v) :
    v ∈ vals ∧ v.key = some nm := by
  have aux : ∀ (l : List Obj) (r : Option Obj),
      l.foldl (fun r o => if o.key = some nm then some o else r) r = some v →
        r = some v ∨ (v ∈ l ∧ v.key = some nm) := by
    intro l
    induction l with
    | nil => intro r h; exact Or.inl h
    | cons a l ihl =>
      intro r h
      simp only [List.foldl_cons] at h
      rcases ihl _ h with h | h
      · split at h
        · rename_i hk
          right; simp at h; subst h; exact ⟨by simp, hk⟩
        · exact Or.inl h
      · right; exact ⟨by simp [h.1], h.2⟩
  rcases aux vals none h with h | h
  · simp at h
  · exact h

theorem printSegs_closed (C : Closed P N) (m : Mode) (hm : m.d = d) (vals : List Obj)
    (hv : ∀ v ∈ vals, Good P d N v) (idx : Nat) (ords : List Str) (ho : ∀ x ∈ ords, N x) (segs : List Seg)
    (hN : ∀ s ∈ segs, SegOk P N s) : P (printSegs m vals idx ords segs) := by
  have hNo : ∀ no (v : Obj) pn, v ∈ vals → (v.key = none → N pn) → P (applyNameonly no v m pn) := by
    intro no v pn hm' hp
    unfold applyNameonly; split
    · exact C.wr _
    · exact hv v hm' m pn hm hp
  induction segs generalizing idx ords with
  | nil => exact C.forget _ ho
  | cons sg segs ih =>
    have ih' : ∀ idx ords, (∀ x ∈ ords, N x) → P (printSegs m vals idx ords segs) :=
      fun i o ho => ih i o ho (fun b hb => hN b (List.mem_cons_of_mem _ hb))
    cases sg with
    | lit c => exact C.seq _ _ (C.wr _) (ih' _ _ ho)
    | unclosed s => exact C.seq _ _ (C.forget _ ho) (C.wr _)
    | trailing => exact hN .trailing (by simp)
    | hole body =>
      have hseg := hN (.hole body) (by simp)
      simp only [printSegs]
      apply C.ofRes (P := P)
      case hp =>
        intro h
        split at h
        · simp at h
        · rename_i ms hms
          exact (hseg.2 ms hms).1 h
      case hh =>
        intro h
        split at h
        · simp at h
        · rename_i ms hms
          exact (hseg.2 ms hms).2 h
      intro ms _
      split
      · rename_i h0
        split
        · exact C.fail _
        · rename_i v hv'
          exact C.seq _ _ (hNo _ _ _ (List.mem_of_getElem? hv') (fun _ => h0 ▸ C.nilName)) (ih' _ _ ho)
      · split
        · rename_i num hnum
          have hname : N (splitColon body).1 := hseg.1 (by simp [hnum])
          split
          · exact C.fail _
          · split
            · exact C.fail _
            · rename_i v hv'
              refine C.seq _ _ (hNo _ _ _ (List.mem_of_getElem? hv') (fun _ => hname)) (ih' _ _ ?_)
              intro x hx
              rcases List.mem_append.1 hx with hx | hx
              · exact ho x hx
              · simp at hx; subst hx; exact hname
        · split
          · exact C.fail _
          · rename_i v hv'
            have := lookupName_mem _ _ _ hv'
            exact C.seq _ _ (hNo _ _ _ this.1 (fun hk => by rw [this.2] at hk; simp at hk)) (ih' _ _ ho)

theorem bprintf_closed (C : Closed P N) (m : Mode) (hm : m.d = d) (fmt : Str) (vals : List Obj)
    (hv : ∀ v ∈ vals, Good P d N v) (hN : FmtOk P N fmt) : P (bprintf m fmt vals) :=
  printSegs_closed C m hm vals hv 0 [] (by simp) _ hN

end

/-- The conditions at the binding sites. -/
structure Sites (P : W → Prop) (d : Dialect) (N : Str → Prop) : Prop extends Closed P N where
  bind : ∀ pn a, N pn → P (.emit (.bind pn a))

section
variable {P : W → Prop} {d : Dialect} {N : Str → Prop}

theorem explodeSlice_closed (C : Sites P d N) (m : Mode) (hm : m.d = d) (os : List Obj)
    (h : ∀ o ∈ os, Good P d N o) : P (explodeSlice m os) := by
  apply C.sepBy
  intro w hw
  obtain ⟨o, ho, rfl⟩ := List.mem_map.1 hw
  unfold explodeElem; split
  · exact h o ho _ _ hm (fun _ => C.nilName)
  · exact C.bind _ _ C.nilName

theorem fieldsAppend_closed (C : Sites P d N) (m : Mode) (hm : m.d = d) (fs : List Obj)
    (h : ∀ o ∈ fs, Good P d N o) : P (fieldsAppend m fs) := by
  apply C.sepBy
  intro w hw
  obtain ⟨o, ho, rfl⟩ := List.mem_map.1 hw
  exact h o ho _ _ hm (fun _ => C.nilName)

theorem asAlias_closed (C : Closed P N) (d' : Dialect) (a : Str) : P (asAlias d' a) := by
  unfold asAlias; split
  · exact C.ok
  · exact C.wr _

theorem aliasFieldsAppend_closed (C : Sites P d N) (m : Mode) (hm : m.d = d) (fs : List Obj)
    (h : ∀ o ∈ fs, Good P d N o) : P (aliasFieldsAppend m fs) := by
  apply C.sepBy
  intro w hw
  obtain ⟨o, ho, rfl⟩ := List.mem_map.1 hw
  unfold aliasField; split
  · exact h o ho _ _ hm (fun _ => C.nilName)
  · exact C.seq _ _ (h o ho _ _ hm (fun _ => C.nilName)) (asAlias_closed C.toClosed _ _)

theorem fieldInfoAppend_closed (C : Sites P d N) (m : Mode) (hm : m.d = d) (fi : FInfo) (vals : List Obj)
    (h : ∀ o ∈ vals, Good P d N o) (hf : ∀ p ∈ fi.formats, FmtOk P N p.2) : P (fieldInfoAppend m fi vals) := by
  unfold fieldInfoAppend
  split
  · exact C.fail _
  · refine C.seq _ _ ?_ (C.wr _)
    split
    · split
      · exact C.fail _
      · rename_i f hcf
        refine bprintf_closed C.toClosed m hm f vals h ?_
        have aux : ∀ (l : List (Str × Str)) (r : Option Str) (k : Str) (v : Str),
            l.foldl (fun r p => if p.1 = k then some p.2 else r) r = some v →
              r = some v ∨ ∃ p ∈ l, p.2 = v := by
          intro l
          induction l with
          | nil => intro r k v h; exact Or.inl h
          | cons a l ihl =>
            intro r k v h
            simp only [List.foldl_cons] at h
            rcases ihl _ _ _ h with h | ⟨p, hp, hv⟩
            · split at h
              · right; simp at h; exact ⟨a, by simp, h⟩
              · exact Or.inl h
            · right; exact ⟨p, by simp [hp], hv⟩
        have mem : ∃ p ∈ fi.formats, p.2 = f := by
          unfold chooseFormat at hcf
          simp only at hcf
          split at hcf
          · simp at hcf
          · rename_i dflt hd1
            split at hcf
            · rename_i f2 hd2
              simp at hcf; subst hcf
              rcases aux _ _ _ _ hd2 with h | h
              · simp at h
              · exact h
            · simp at hcf; subst hcf
              rcases aux _ _ _ _ hd1 with h | h
              · simp at h
              · exact h
        obtain ⟨p, hp, rfl⟩ := mem
        exact hf p hp
    · exact C.wr _

theorem customPred_closed (C : Sites P d N) (m : Mode) (hm : m.d = d) (neg : Bool) (fmt : Str) (vals : List Obj)
    (h : ∀ o ∈ vals, Good P d N o) (hf : FmtOk P N fmt) : P (customPredAppend m neg fmt vals) :=
  C.seq _ _ (C.when _ (C.wr _)) (bprintf_closed C.toClosed m hm fmt vals h hf)

theorem variadicAppend_closed (C : Sites P d N) (m : Mode) (hm : m.d = d) (top isOr neg : Bool) (ps : List Obj)
    (h : ∀ o ∈ ps, Good P d N o) : P (variadicAppend m top isOr neg ps) := by
  unfold variadicAppend
  split
  · exact C.ok
  · rename_i p
    refine C.seq _ _ (C.when _ (C.wr _)) ?_
    split
    · exact C.fail _
    · exact C.seq _ _ (C.when _ (C.wr _)) (C.seq _ _ (h p (by simp) _ _ hm (fun _ => C.nilName)) (C.when _ (C.wr _)))
    · exact h p (by simp) _ _ hm (fun _ => C.nilName)
  · refine C.seq _ _ (C.when _ (C.wr _)) (C.seq _ _ (C.when _ (C.wr _)) (C.seq _ _ ?_ (C.when _ (C.wr _))))
    apply C.sepBy
    intro w hw
    obtain ⟨o, ho, rfl⟩ := List.mem_map.1 hw
    unfold operand; split
    · exact C.fail _
    · exact h o ho _ _ hm (fun _ => C.nilName)

theorem caseArm_closed (C : Sites P d N) (m : Mode) (hm : m.d = d) (p : Obj × Obj)
    (h1 : Good P d N p.1) (h2 : Good P d N p.2) : P (caseArm m p) :=
  C.seq _ _ (C.wr _) (C.seq _ _ (h1 _ _ (by exact hm) (fun _ => C.nilName)) (C.seq _ _ (C.wr _) (h2 _ _ hm (fun _ => C.nilName))))

theorem elseEnd_closed (C : Sites P d N) (m : Mode) (hm : m.d = d) (fb : Obj) (h : Good P d N fb) :
    P (elseEnd m fb) :=
  C.seq _ _ (C.when _ (C.seq _ _ (C.wr _) (h _ _ hm (fun _ => C.nilName)))) (C.wr _)

theorem predCases_closed (C : Sites P d N) (m : Mode) (hm : m.d = d) (cases : List (Obj × Obj)) (fb : Obj)
    (h : ∀ p ∈ cases, Good P d N p.1 ∧ Good P d N p.2) (hf : Good P d N fb) : P (predCasesAppend m cases fb) := by
  refine C.seq _ _ (C.wr _) (C.seq _ _ ?_ (C.seq _ _ ?_ (elseEnd_closed C m hm fb hf)))
  · split
    · exact C.fail _
    · exact C.ok
  · apply C.seqAll
    intro w hw
    obtain ⟨p, hp, rfl⟩ := List.mem_map.1 hw
    exact caseArm_closed C m hm p (h p hp).1 (h p hp).2

theorem simpleCases_closed (C : Sites P d N) (m : Mode) (hm : m.d = d) (e : Obj) (cases : List (Obj × Obj)) (fb : Obj)
    (he : Good P d N e) (h : ∀ p ∈ cases, Good P d N p.1 ∧ Good P d N p.2) (hf : Good P d N fb) :
    P (simpleCasesAppend m e cases fb) := by
  refine C.seq _ _ (C.wr _) (C.seq _ _ ?_ (C.seq _ _ (he _ _ hm (fun _ => C.nilName)) (C.seq _ _ ?_ (elseEnd_closed C m hm fb hf))))
  · split
    · exact C.fail _
    · exact C.ok
  · apply C.seqAll
    intro w hw
    obtain ⟨p, hp, rfl⟩ := List.mem_map.1 hw
    exact caseArm_closed C m hm p (h p hp).1 (h p hp).2

theorem window_closed (C : Sites P d N) (m : Mode) (hm : m.d = d) (part order : List Obj) (frame : Str)
    (hi : ∀ a, P a → P a.ignoreErr) (h1 : ∀ o ∈ part, Good P d N o) (h2 : ∀ o ∈ order, Good P d N o) : P (windowAppend m part order frame) := by
  refine C.seq _ _ (C.wr _) (C.seq _ _ (C.when _ ?_) (C.seq _ _ (C.when _ ?_) (C.seq _ _ (C.when _ ?_) (C.wr _))))
  · exact C.seq _ _ (C.wr _) (hi _ (fieldsAppend_closed C _ (by exact hm) _ h1))
  · exact C.seq _ _ (C.when _ (C.wr _)) (C.seq _ _ (C.wr _) (hi _ (fieldsAppend_closed C _ (by exact hm) _ h2)))
  · exact C.seq _ _ (C.when _ (C.wr _)) (C.wr _)

theorem rowValue_closed (C : Sites P d N) (m : Mode) (hm : m.d = d) (vs : List Obj)
    (h : ∀ o ∈ vs, Good P d N o) : P (rowValueAppend m vs) :=
  C.seq _ _ (C.wr _) (C.seq _ _ (fieldsAppend_closed C m hm vs h) (C.wr _))

theorem rowValues_closed (C : Sites P d N) (m : Mode) (hm : m.d = d) (rows : List (List Obj))
    (h : ∀ r ∈ rows, ∀ o ∈ r, Good P d N o) : P (rowValuesAppend m rows) := by
  apply C.sepBy
  intro w hw
  obtain ⟨r, hr, rfl⟩ := List.mem_map.1 hw
  exact rowValue_closed C _ (by exact hm) r (h r hr)

theorem assign_closed (C : Sites P d N) (m : Mode) (hm : m.d = d) (l r : Obj)
    (h1 : Good P d N l) (h2 : Good P d N r) : P (assignAppend m l r) := by
  refine C.seq _ _ (h1 _ _ (by exact hm) (fun _ => C.nilName)) (C.seq _ _ (C.wr _) ?_)
  split
  · exact C.seq _ _ (C.wr _) (C.seq _ _ (h2 _ _ hm (fun _ => C.nilName)) (C.wr _))
  · exact h2 _ _ hm (fun _ => C.nilName)

theorem assigns_closed (C : Sites P d N) (m : Mode) (hm : m.d = d) (as : List (Obj × Obj))
    (h : ∀ p ∈ as, Good P d N p.1 ∧ Good P d N p.2) : P (assignsAppend m as) := by
  apply C.sepBy
  intro w hw
  obtain ⟨p, hp, rfl⟩ := List.mem_map.1 hw
  exact assign_closed C _ (by exact hm) _ _ (h p hp).1 (h p hp).2

theorem join_closed (C : Sites P d N) (m : Mode) (hm : m.d = d) (jt : Str) (tbl on : Obj)
    (h1 : Good P d N tbl) (h2 : Good P d N on) : P (joinAppend m jt tbl on) := by
  unfold joinAppend
  simp only
  generalize (if jt = [] then _ else jt) = jt'
  split
  · exact C.fail _
  split
  · exact C.fail _
  refine C.seq _ _ (C.wr _) (C.seq _ _ ?_ (C.seq _ _ (asAlias_closed C.toClosed _ _) (C.when _ ?_)))
  · split
    · exact C.fail _
    · exact h1 _ _ hm (fun _ => C.nilName)
  · exact C.seq _ _ (C.wr _) (h2 _ _ hm (fun _ => C.nilName))

theorem cteDef_closed (C : Sites P d N) (m : Mode) (hm : m.d = d) (c : CteMeta) (q : Obj)
    (h : Good P d N q) : P (cteDefAppend m c q) := by
  unfold cteDefAppend
  split
  · exact C.fail _
  split
  · exact C.fail _
  refine C.seq _ _ (C.wr _) (C.seq _ _ (C.when _ (C.wr _)) (C.seq _ _ (C.wr _) (C.seq _ _ ?_ (C.seq _ _ (C.wr _) (C.seq _ _ ?_ (C.wr _))))))
  · split
    · exact C.wr _
    · exact C.wr _
    · exact C.ok
  · split
    · exact C.fail _
    · exact h _ _ hm (fun _ => C.nilName)
    · exact h _ _ hm (fun _ => C.nilName)

theorem cteRef_closed (C : Closed P N) (c : CteMeta) : P (cteRefAppend c) := by
  unfold cteRefAppend
  split
  · exact C.fail _
  split
  · exact C.fail _
  · exact C.wr _

theorem ctes_closed (C : Sites P d N) (m : Mode) (hm : m.d = d) (cs : List Obj)
    (h : ∀ o ∈ cs, Good P d N o) : P (ctesAppend m cs) := by
  refine C.seq _ _ (C.wr _) (C.seq _ _ ?_ (C.wr _))
  apply C.sepBy
  intro w hw
  obtain ⟨o, ho, rfl⟩ := List.mem_map.1 hw
  exact h o ho _ _ hm (fun _ => C.nilName)

theorem subquery_closed (C : Sites P d N) (m : Mode) (hm : m.d = d) (st : Option Str) (a : Str) (q : Obj)
    (h : Good P d N q) : P (subqueryAppend m st a q) := by
  unfold subqueryAppend
  split
  · exact C.fail _
  refine C.seq _ _ (C.wr _) (C.seq _ _ (h _ _ hm (fun _ => C.nilName)) (C.seq _ _ (C.wr _) ?_))
  split
  · exact C.fail _
  · exact C.ok

theorem variadicQuery_closed (C : Sites P d N) (m : Mode) (hm : m.d = d) (top : Bool) (op : Str) (qs : List Obj)
    (h : ∀ o ∈ qs, Good P d N o) : P (variadicQueryAppend m top op qs) := by
  unfold variadicQueryAppend
  simp only
  split
  · exact C.ok
  · rename_i q
    split
    · exact C.fail _
    · exact h q (by simp) _ _ hm (fun _ => C.nilName)
    · exact h q (by simp) _ _ hm (fun _ => C.nilName)
  · refine C.seq _ _ (C.when _ (C.wr _)) (C.seq _ _ ?_ (C.when _ (C.wr _)))
    apply C.sepBy
    intro w hw
    obtain ⟨o, ho, rfl⟩ := List.mem_map.1 hw
    unfold vqOperand
    split
    · exact C.fail _
    · exact h o ho _ _ hm (fun _ => C.nilName)
    · exact h o ho _ _ hm (fun _ => C.nilName)

theorem limit_closed (C : Sites P d N) (m : Mode) (hm : m.d = d) (kw : Str)
    (hkw : kw = "LIMIT".toList ∨ kw = "OFFSET".toList) (n : Option Int) : P (limitAppend m kw n) := by
  unfold limitAppend
  split
  · exact C.ok
  · refine bprintf_closed (N := N) C.toClosed m hm _ _ ?_ ?_
    · intro v hv
      simp at hv; subst hv
      intro m pn _ hp
      exact C.bind _ _ (hp rfl)
    · intro sg hb
      have : (∃ c, sg = .lit c) ∨ sg = .hole [] := by
        rcases hkw with rfl | rfl
        · have hp : parseFmt none (' ' :: "LIMIT".toList ++ " {}".toList) =
            [.lit ' ', .lit 'L', .lit 'I', .lit 'M', .lit 'I', .lit 'T', .lit ' ', .hole []] := by decide
          rw [hp] at hb; simp at hb; grind
        · have hp : parseFmt none (' ' :: "OFFSET".toList ++ " {}".toList) =
            [.lit ' ', .lit 'O', .lit 'F', .lit 'F', .lit 'S', .lit 'E', .lit 'T', .lit ' ', .hole []] := by decide
          rw [hp] at hb; simp at hb; grind
      rcases this with ⟨c, rfl⟩ | rfl
      · trivial
      · exact ⟨fun _ => C.nilName, by simp [splitColon]⟩

theorem collectHooks_noPanic (env : Env) (ts : List PV) :
    collectHooks env ts ≠ .panic ∧ collectHooks env ts ≠ .hang := by
  induction ts with
  | nil => simp [collectHooks]
  | cons t ts ih =>
    simp only [collectHooks]
    split
    · simp
    · exact ih
    · cases h : collectHooks env ts <;> simp_all [Res.map]

theorem hooks_closed (C : Sites P d N) (env : Env) (ts : List PV) (f : List Obj → W)
    (h : ∀ os, collectHooks env ts = .ok os → P (f os)) : P (W.ofRes (collectHooks env ts) f) :=
  C.ofRes _ _ h (fun hp => absurd hp (collectHooks_noPanic env ts).1) (fun hp => absurd hp (collectHooks_noPanic env ts).2)

theorem collectHooks_good (env : Env) (ts : List PV) (os : List Obj)
    (h : ∀ t ∈ ts, GoodHook P d N t.hook) (hc : collectHooks env ts = .ok os) : ∀ o ∈ os, Good P d N o := by
  induction ts generalizing os with
  | nil => simp [collectHooks] at hc; subst hc; simp
  | cons t ts ih =>
    have ih' := fun os => ih os (fun t ht => h t (List.mem_cons_of_mem _ ht))
    simp only [collectHooks] at hc
    split at hc
    · simp at hc
    · exact ih' os hc
    · rename_i o ho
      cases hr : collectHooks env ts with
      | ok os' =>
        rw [hr] at hc; simp at hc; subst hc
        intro x hx
        rcases List.mem_cons.1 hx with rfl | hx
        · exact h t (by simp) env _ ho
        · exact ih' _ hr x hx
      | err e => rw [hr] at hc; simp [Res.map] at hc
      | panic => rw [hr] at hc; simp [Res.map] at hc
      | hang => rw [hr] at hc; simp [Res.map] at hc

theorem predClause_closed (C : Sites P d N) (m : Mode) (hm : m.d = d) (kw : Str) (p : Obj)
    (h : Good P d N p) : P (predClause m kw p) :=
  C.when _ (C.seq _ _ (C.wr _) (h _ _ hm (fun _ => C.nilName)))

theorem whereWithHooks_closed (C : Sites P d N) (m : Mode) (hm : m.d = d) (hooks : List Obj) (own : Obj)
    (h : Good P d N own) (hh : ∀ o ∈ hooks, Good P d N o) : P (whereWithHooks m hooks own) := by
  unfold whereWithHooks
  split
  · refine C.seq _ _ (C.wr _) (variadicAppend_closed C m hm _ _ _ _ ?_)
    intro o ho
    rcases List.mem_append.1 ho with ho | ho
    · exact hh o ho
    · simp at ho; subst ho; exact h
  · exact predClause_closed C m hm _ _ h

theorem tableRef_closed (C : Sites P d N) (m : Mode) (hm : m.d = d) (t : Obj) (h : Good P d N t) :
    P (tableRef m t) := C.seq _ _ (h _ _ hm (fun _ => C.nilName)) (asAlias_closed C.toClosed _ _)

theorem joins_closed (C : Sites P d N) (m : Mode) (hm : m.d = d) (js : List Obj)
    (h : ∀ o ∈ js, Good P d N o) : P (joinsAppend m js) := by
  apply C.sepBy
  intro w hw
  obtain ⟨o, ho, rfl⟩ := List.mem_map.1 hw
  exact h o ho _ _ hm (fun _ => C.nilName)

theorem withTrue_good (w : Obj) (h : Good P d N w) : Good P d N (withTrue w) :=
  fun m pn hm hp => h { m with meth := .whereTrue } pn hm hp

theorem select_closed (C : Sites P d N) (m : Mode) (hm : m.d = d) (q : SelMeta) (ctes fields distinctOn : List Obj)
    (from_ : PV) (joins : List PV) (where_ : Obj) (groupBy : List Obj) (having : Obj) (orderBy : List Obj)
    (h1 : ∀ o ∈ ctes, Good P d N o) (h2 : ∀ o ∈ fields, Good P d N o) (h3 : ∀ o ∈ distinctOn, Good P d N o)
    (h4 : Good P d N from_.toObj ∧ GoodHook P d N from_.hook)
    (h5 : ∀ j ∈ joins, Good P d N j.toObj ∧ GoodHook P d N j.hook)
    (h6 : Good P d N where_) (h7 : ∀ o ∈ groupBy, Good P d N o) (h8 : Good P d N having)
    (h9 : ∀ o ∈ orderBy, Good P d N o) :
    P (selectAppend m q ctes fields distinctOn from_ joins where_ groupBy having orderBy) := by
  unfold selectAppend
  simp only
  refine C.seq _ _ (C.when _ (ctes_closed C _ (by exact hm) _ h1)) (C.seq _ _ (C.wr _) (C.seq _ _ ?_ (C.seq _ _ ?_ (C.seq _ _
    (C.when _ (C.seq _ _ (C.wr _) (tableRef_closed C _ (by exact hm) _ h4.1))) (C.seq _ _ (C.when _ (C.seq _ _ ?_ ?_))
    (C.seq _ _ ?_ (C.seq _ _ (C.when _ (C.seq _ _ (C.wr _) (fieldsAppend_closed C _ (by exact hm) _ h7)))
    (C.seq _ _ (predClause_closed C _ (by exact hm) _ _ h8) (C.seq _ _ (C.when _ (C.seq _ _ (C.wr _) (fieldsAppend_closed C _ (by exact hm) _ h9)))
    (C.seq _ _ (limit_closed C _ (by exact hm) _ (Or.inl rfl) _) (limit_closed C _ (by exact hm) _ (Or.inr rfl) _)))))))))))
  · split
    · split
      · exact C.fail _
      split
      · exact C.fail _
      exact C.seq _ _ (C.wr _) (C.seq _ _ (fieldsAppend_closed C _ (by exact hm) _ h3) (C.wr _))
    · exact C.when _ (C.wr _)
  · split
    · exact C.fail _
    · exact aliasFieldsAppend_closed C _ (by exact hm) _ h2
  · split
    · exact C.fail _
    · exact C.wr _
  · refine joins_closed C _ (by exact hm) _ ?_
    intro o ho
    obtain ⟨j, hj, rfl⟩ := List.mem_map.1 ho
    exact (h5 j hj).1
  · refine hooks_closed C _ _ _ ?_
    intro os hos
    refine whereWithHooks_closed C _ (by exact hm) _ _ ?_ (collectHooks_good _ _ _ ?_ hos)
    · split
      · exact withTrue_good _ h6
      · exact h6
    · intro t ht
      rcases List.mem_cons.1 ht with rfl | ht
      · exact h4.2
      · exact (h5 t ht).2

theorem conflict_closed (C : Sites P d N) (m : Mode) (hm : m.d = d) (ex : List Str) (q : InsMeta) (cf : List Obj) (cp : Obj)
    (res : List (Obj × Obj)) (rp : Obj) (h1 : ∀ o ∈ cf, Good P d N o) (h2 : Good P d N cp)
    (h3 : ∀ p ∈ res, Good P d N p.1 ∧ Good P d N p.2) (h4 : Good P d N rp) :
    P (insertConflict m ex q cf cp res rp) := by
  have main : P (if q.conflictConstraint = [] ∧ cf = [] ∧ q.doNothing = false then W.ok
    else
      .wr " ON CONFLICT" ⨟
      (if q.conflictConstraint ≠ [] then
        if m.d ≠ .postgres then .fail "ON CONFLICT ON CONSTRAINT not supported"
        else .wr (" ON CONSTRAINT ".toList ++ q.conflictConstraint)
       else .when (cf ≠ [])
        (.wr " (" ⨟ fieldsAppend { m with ex := ex } cf ⨟ .wr ")" ⨟
         .when (!cp.kind.isNil)
           (.wr " WHERE " ⨟ cp.act { m with ex := ex, meth := .top true } []))) ⨟
      (if res = [] ∨ q.doNothing = true then .wr " DO NOTHING"
       else
        .wr " DO UPDATE SET " ⨟ assignsAppend { m with ex := ex } res ⨟
        predClause m " WHERE " rp)) := by
    split
    · exact C.ok
    refine C.seq _ _ (C.wr _) (C.seq _ _ ?_ ?_)
    · split
      · split
        · exact C.fail _
        · exact C.wr _
      · exact C.when _ (C.seq _ _ (C.wr _) (C.seq _ _ (fieldsAppend_closed C _ (by exact hm) _ h1) (C.seq _ _ (C.wr _)
          (C.when _ (C.seq _ _ (C.wr _) (h2 _ _ hm (fun _ => C.nilName)))))))
    · split
      · exact C.wr _
      · exact C.seq _ _ (C.wr _) (C.seq _ _ (assigns_closed C _ (by exact hm) _ h3) (predClause_closed C _ (by exact hm) _ _ h4))
  unfold insertConflict
  split
  · exact main
  · exact main
  · exact C.when _ (C.seq _ _ (C.wr _) (assigns_closed C _ (by exact hm) _ h3))
  · exact C.ok

theorem returning_closed (C : Sites P d N) (m : Mode) (hm : m.d = d) (fs : List Obj) (h : ∀ o ∈ fs, Good P d N o) :
    P (returningAppend m fs) := by
  refine C.when _ ?_
  split
  · exact C.fail _
  · exact C.seq _ _ (C.wr _) (aliasFieldsAppend_closed C _ (by exact hm) _ h)

/-- Every column and every value of the rows built by the column mapper comes from a `Set` call. -/
theorem columnInsert_mem {F V : Type} (nm : F → Str) (calls : List (F × V)) :
    (∀ f ∈ (columnInsert nm calls).1, ∃ p ∈ calls, p.1 = f) ∧
    (∀ r ∈ (columnInsert nm calls).2, ∀ v ∈ r, ∃ p ∈ calls, p.2 = v) := by
  have happ : ∀ (v : V) (rows : List (List V)) (r : List V), r ∈ appendLast v rows → ∀ x ∈ r,
      x = v ∨ ∃ r' ∈ rows, x ∈ r' := by
    intro v rows
    fun_induction appendLast v rows with
    | case1 => simp
    | case2 r => intro r' hr x hx; simp at hr; subst hr; simp at hx; rcases hx with hx | hx
                 · right; exact ⟨r, by simp, hx⟩
                 · left; exact hx
    | case3 r rs hne ih =>
      intro r' hr x hx
      rcases List.mem_cons.1 hr with rfl | hr
      · right; exact ⟨r', by simp, hx⟩
      · rcases ih r' hr x hx with h | ⟨r'', h, h'⟩
        · exact Or.inl h
        · right; exact ⟨r'', by simp [h], h'⟩
  have key : ∀ (calls all : List (F × V)) (c : Col F V), (∀ p ∈ calls, p ∈ all) →
      ((∀ f ∈ c.insertColumns, ∃ p ∈ all, p.1 = f) ∧ (∀ r ∈ c.rowValues, ∀ v ∈ r, ∃ p ∈ all, p.2 = v)) →
      let c' := calls.foldl (fun c p => c.set nm p.1 p.2) c
      ((∀ f ∈ c'.insertColumns, ∃ p ∈ all, p.1 = f) ∧ (∀ r ∈ c'.rowValues, ∀ v ∈ r, ∃ p ∈ all, p.2 = v)) := by
    intro calls all
    induction calls with
    | nil => intro c _ h; exact h
    | cons p ps ih =>
      intro c hsub hc
      simp only [List.foldl_cons]
      refine ih _ (fun q hq => hsub q (List.mem_cons_of_mem _ hq)) ?_
      have hp : p ∈ all := hsub p (by simp)
      unfold Col.set
      split
      · refine ⟨?_, ?_⟩
        · intro f hf; simp at hf
          rcases hf with hf | rfl
          · exact hc.1 f hf
          · exact ⟨p, hp, rfl⟩
        · intro r hr v hv; simp at hr
          rcases hr with hr | rfl
          · exact hc.2 r hr v hv
          · simp at hv; exact ⟨p, hp, hv.symm⟩
      · split
        · refine ⟨hc.1, ?_⟩
          intro r hr v hv; simp at hr
          rcases hr with hr | rfl
          · exact hc.2 r hr v hv
          · simp at hv; exact ⟨p, hp, hv.symm⟩
        · refine ⟨?_, ?_⟩
          · intro f hf; simp only at hf
            split at hf
            · exact hc.1 f hf
            · simp at hf
              rcases hf with hf | rfl
              · exact hc.1 f hf
              · exact ⟨p, hp, rfl⟩
          · intro r hr v hv
            rcases happ _ _ r hr v hv with rfl | ⟨r', hr', hv'⟩
            · exact ⟨p, hp, rfl⟩
            · exact hc.2 r' hr' v hv'
  exact key calls calls {} (fun _ h => h) ⟨by simp, by simp⟩

theorem columnUpdate_eq {F V : Type} (calls : List (F × V)) : columnUpdate calls = calls := by
  have : ∀ (l acc : List (F × V)), l.foldl (fun as p => as ++ [p]) acc = acc ++ l := by
    intro l
    induction l with
    | nil => simp
    | cons a l ih => intro acc; simp [ih]
  simpa [columnUpdate] using this calls []

theorem insert_closed (C : Sites P d N) (m : Mode) (hm : m.d = d) (q : InsMeta) (ctes : List Obj) (into : Obj)
    (columns : List Obj) (rows : List (List Obj)) (sets : List (Obj × Obj)) (sel : Obj) (cf : List Obj) (cp : Obj)
    (res : List (Obj × Obj)) (rp : Obj) (ret : List Obj)
    (h1 : ∀ o ∈ ctes, Good P d N o) (h2 : Good P d N into) (h3 : ∀ o ∈ columns, Good P d N o)
    (h4 : ∀ r ∈ rows, ∀ o ∈ r, Good P d N o) (h5 : ∀ p ∈ sets, Good P d N p.1 ∧ Good P d N p.2)
    (h6 : Good P d N sel) (h7 : ∀ o ∈ cf, Good P d N o) (h8 : Good P d N cp)
    (h9 : ∀ p ∈ res, Good P d N p.1 ∧ Good P d N p.2) (h10 : Good P d N rp) (h11 : ∀ o ∈ ret, Good P d N o)
    (hnp : q.hasMapper = true → ∀ p ∈ sets, p.1.kind.isNil = true → P .panic) :
    P (insertAppend m q ctes into columns rows sets sel cf cp res rp ret) := by
  unfold insertAppend
  simp only
  refine C.ofRes _ _ ?_ ?_ ?_
  case refine_2 =>
    intro hp
    unfold insertColumnsRows at hp
    split at hp
    · rename_i hmap
      split at hp
      · rename_i hs
        obtain ⟨p, hpm, hnil⟩ := List.any_eq_true.1 hs
        exact hnp hmap p hpm hnil
      · split at hp <;> simp at hp
    · simp at hp
  case refine_3 =>
    intro hp
    unfold insertColumnsRows at hp
    repeat' (split at hp)
    all_goals simp at hp
  rintro ⟨cols, rws⟩ hcr
  have hcr' : (∀ o ∈ cols, Good P d N o) ∧ (∀ r ∈ rws, ∀ o ∈ r, Good P d N o) := by
    unfold insertColumnsRows at hcr
    split at hcr
    · split at hcr
      · simp at hcr
      · split at hcr
        · simp at hcr
        · simp at hcr
          have hmem := columnInsert_mem (fun o : Obj => o.name) sets
          rw [hcr] at hmem
          refine ⟨?_, ?_⟩
          · intro o ho
            obtain ⟨p, hp, rfl⟩ := hmem.1 o ho
            exact (h5 p hp).1
          · intro r hr o ho
            obtain ⟨p, hp, rfl⟩ := hmem.2 r hr o ho
            exact (h5 p hp).2
    · simp at hcr
      obtain ⟨rfl, rfl⟩ := hcr
      exact ⟨h3, h4⟩
  simp only
  refine C.seq _ _ (C.when _ (ctes_closed C _ (by exact hm) _ h1)) (C.seq _ _ ?_ (C.seq _ _ ?_ (C.seq _ _ ?_ (C.seq _ _
    (C.when _ (C.seq _ _ (C.wr _) (C.seq _ _ (fieldsAppend_closed C _ (by exact hm) _ hcr'.1) (C.wr _)))) (C.seq _ _ ?_
    (C.seq _ _ (conflict_closed C _ (by exact hm) _ _ _ _ _ _ h7 h8 h9 h10) (returning_closed C _ (by exact hm) _ h11)))))))
  · split
    · split
      · exact C.fail _
      · exact C.wr _
    · exact C.wr _
  · split
    · exact C.fail _
    · exact h2 _ _ hm (fun _ => C.nilName)
  · split
    · split
      · exact C.fail _
      · exact C.wr _
    · exact C.ok
  · split
    · refine C.seq _ _ (C.wr _) (C.seq _ _ (rowValues_closed C _ (by exact hm) _ hcr'.2) (C.when _ ?_))
      split
      · exact C.fail _
      · exact C.seq _ _ (C.wr _) (C.when _ (C.wr _))
    · split
      · exact C.seq _ _ (C.wr _) (h6 _ _ hm (fun _ => C.nilName))
      · exact C.fail _

theorem update_closed (C : Sites P d N) (m : Mode) (hm : m.d = d) (q : ModMeta) (ctes : List Obj) (table from_ : PV)
    (joins : List PV) (as sets : List (Obj × Obj)) (where_ : Obj) (orderBy ret : List Obj)
    (h1 : ∀ o ∈ ctes, Good P d N o) (h2 : Good P d N table.toObj) (h3 : Good P d N from_.toObj)
    (h4 : ∀ j ∈ joins, Good P d N j.toObj) (h5 : ∀ p ∈ as, Good P d N p.1 ∧ Good P d N p.2)
    (h6 : ∀ p ∈ sets, Good P d N p.1 ∧ Good P d N p.2) (h7 : Good P d N where_)
    (h8 : ∀ o ∈ orderBy, Good P d N o) (h9 : ∀ o ∈ ret, Good P d N o)
    (hnp : q.hasMapper = true → ∀ p ∈ sets, p.1.kind.isNil = true → P .panic) :
    P (updateAppend m q ctes table from_ joins as sets where_ orderBy ret) := by
  unfold updateAppend
  simp only
  refine C.ofRes _ _ ?_ ?_ ?_
  case refine_2 =>
    intro hp
    unfold updateAssignments at hp
    split at hp
    · rename_i hmap
      split at hp
      · rename_i hs
        obtain ⟨p, hpm, hnil⟩ := List.any_eq_true.1 hs
        exact hnp hmap p hpm hnil
      · split at hp <;> simp at hp
    · simp at hp
  case refine_3 =>
    intro hp
    unfold updateAssignments at hp
    repeat' (split at hp)
    all_goals simp at hp
  intro asg hasg
  have hasg' : ∀ p ∈ asg, Good P d N p.1 ∧ Good P d N p.2 := by
    unfold updateAssignments at hasg
    split at hasg
    · split at hasg
      · simp at hasg
      · split at hasg
        · simp at hasg
        · simp [columnUpdate_eq] at hasg; subst hasg; exact h6
    · simp at hasg; subst hasg; exact h5
  refine C.seq _ _ (C.when _ (ctes_closed C _ (by exact hm) _ h1)) (C.seq _ _ (C.wr _) (C.seq _ _ ?_ (C.seq _ _ ?_ (C.seq _ _
    (C.when _ (C.seq _ _ (C.wr _) (assigns_closed C _ (by exact hm) _ hasg'))) (C.seq _ _ (C.when _ ?_) (C.seq _ _
    (C.when _ (C.seq _ _ ?_ ?_)) (C.seq _ _ (C.when _ (C.seq _ _ (C.wr _) (assigns_closed C _ (by exact hm) _ hasg')))
    (C.seq _ _ ?_ (C.seq _ _ (predClause_closed C _ (by exact hm) _ _ h7) (C.seq _ _ (C.when _ ?_) (C.seq _ _ (C.when _ ?_)
    (C.seq _ _ (C.when _ ?_) (returning_closed C _ (by exact hm) _ h9)))))))))))))
  · split
    · exact C.fail _
    · exact tableRef_closed C _ (by exact hm) _ h2
  · split
    · exact C.fail _
    · exact C.ok
  · split
    · exact C.fail _
    · exact C.seq _ _ (C.wr _) (tableRef_closed C _ (by exact hm) _ h3)
  · split
    · exact C.fail _
    · exact C.wr _
  · refine joins_closed C _ (by exact hm) _ ?_
    intro o ho
    obtain ⟨j, hj, rfl⟩ := List.mem_map.1 ho
    exact h4 j hj
  · exact hooks_closed C _ _ _ (fun _ _ => C.ok)
  · split
    · exact C.fail _
    · exact C.seq _ _ (C.wr _) (fieldsAppend_closed C _ (by exact hm) _ h8)
  · split
    · exact C.fail _
    · exact limit_closed C _ (by exact hm) _ (Or.inl rfl) _
  · split
    · exact C.fail _
    · exact limit_closed C _ (by exact hm) _ (Or.inr rfl) _

theorem delete_closed (C : Sites P d N) (m : Mode) (hm : m.d = d) (q : ModMeta) (ctes : List Obj) (froms : List PV)
    (using_ : Obj) (joins : List Obj) (where_ : Obj) (orderBy ret : List Obj)
    (h1 : ∀ o ∈ ctes, Good P d N o) (h2 : ∀ t ∈ froms, Good P d N t.toObj ∧ GoodHook P d N t.hook)
    (h3 : Good P d N using_) (h4 : ∀ j ∈ joins, Good P d N j) (h5 : Good P d N where_)
    (h6 : ∀ o ∈ orderBy, Good P d N o) (h7 : ∀ o ∈ ret, Good P d N o)
    (hnp : ∀ t ∈ froms, t.kind.isNil = true → P .panic) :
    P (deleteAppend m q ctes froms using_ joins where_ orderBy ret) := by
  unfold deleteAppend
  simp only
  refine C.seq _ _ (C.when _ (ctes_closed C _ (by exact hm) _ h1)) (C.seq _ _ (C.wr _) (C.seq _ _ ?_ (C.seq _ _ (C.when _ ?_)
    (C.seq _ _ (C.when _ ?_) (C.seq _ _ ?_ (C.seq _ _ (C.when _ ?_) (C.seq _ _ (C.when _ ?_) (C.seq _ _ (C.when _ ?_)
    (returning_closed C _ (by exact hm) _ h7)))))))))
  · split
    · exact C.fail _
    · rename_i f fs
      split
      · apply C.sepBy
        intro w hw
        obtain ⟨o, ho, rfl⟩ := List.mem_map.1 hw
        split
        · rename_i hnil
          exact hnp o ho hnil
        · exact C.wr _
      · split
        · exact C.fail _
        · exact tableRef_closed C _ (by exact hm) _ (h2 f (by simp)).1
  · split
    · exact C.fail _
    · exact C.seq _ _ (C.wr _) (tableRef_closed C _ (by exact hm) _ h3)
  · split
    · exact C.fail _
    · split
      · exact C.fail _
      · exact C.seq _ _ (C.wr _) (joins_closed C _ (by exact hm) _ h4)
  · refine hooks_closed C _ _ _ ?_
    intro os hos
    exact whereWithHooks_closed C _ (by exact hm) _ _ h5 (collectHooks_good _ _ _ (fun t ht => (h2 t ht).2) hos)
  · split
    · exact C.fail _
    split
    · exact C.fail _
    · exact C.seq _ _ (C.wr _) (fieldsAppend_closed C _ (by exact hm) _ h6)
  · split
    · exact C.fail _
    split
    · exact C.fail _
    · exact limit_closed C _ (by exact hm) _ (Or.inl rfl) _
  · split
    · exact C.fail _
    · exact limit_closed C _ (by exact hm) _ (Or.inr rfl) _

end

end Sq
