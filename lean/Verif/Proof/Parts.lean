import Verif.Spec.Parts
import Verif.Props.Format
import Verif.Props.Binding
import Verif.Proof.Seq
/-
Rendering code that writes fixed text and operands in a given order: what it means after placeholders are resolved.
-/
namespace Sq.Exprs
open Sq Sq.Spec

/-! ### What a piece of rendering code contributes to the resolved SQL -/

/-- Resolved characters of a state. -/
def view (s : St) : List RPiece := (resolve s.args 0 s.out).flatMap RPiece.chars

/-- After anything that leaves the names `N` unused, the code adds exactly `rs`. -/
structure Den (d : Dialect) (N : Str → Prop) (code : List Instr) (rs : List RPiece) : Prop where
  names : ∀ i ∈ code, ∀ x ∈ i.names, N x
  noNamed : ∀ i ∈ code, ∀ x v, i ≠ .named x v
  adds : ∀ pre : List Instr, (∀ i ∈ pre, ∀ x v, i ≠ .named x v) → (∀ x, N x → (exec d pre {}).params x = []) →
    view (exec d (pre ++ code) {}) = view (exec d pre {}) ++ rs

theorem params_exec (d : Dialect) (x : Str) (is : List Instr) (s : St) (h : ∀ i ∈ is, x ∉ i.names)
    (hs : s.params x = []) : (exec d is s).params x = [] := by
  induction is generalizing s with
  | nil => exact hs
  | cons i is ih =>
    refine ih (exec1 d i s) (fun j hj => h j (by simp [hj])) ?_
    have hi := h i (by simp)
    cases i with
    | text t => exact hs
    | bind pn v =>
      simp only [exec1]
      split
      · split
        · exact hs
        · simp only
          split
          · exact hs
          · rename_i hpn
            have : x ≠ pn := by intro e; exact hi (by simp [Instr.names, hpn, e])
            simp [Params.set, this, hs]
      · exact hs
    | named nm v =>
      simp only [exec1]
      have : x ≠ nm := by intro e; exact hi (by simp [Instr.names, e])
      split
      · exact hs
      · simp [Params.set, this, hs]
    | param nm v =>
      simp only [exec1]
      have : x ≠ nm := by intro e; exact hi (by simp [Instr.names, e])
      split
      · split
        · exact hs
        · simp [Params.set, this, hs]
      · simp [Params.set, this, hs]
    | forget ns => simp only [exec1, Params.erase]; split <;> simp [hs]

theorem Den.append {d : Dialect} {N M : Str → Prop} {c e : List Instr} {r s : List RPiece} (h : Den d N c r)
    (k : Den d M e s) (hd : ∀ x, N x → ¬ M x) : Den d (fun x => N x ∨ M x) (c ++ e) (r ++ s) where
  names i hi x hx := by
    rcases List.mem_append.1 hi with hi | hi
    · exact .inl (h.names i hi x hx)
    · exact .inr (k.names i hi x hx)
  noNamed i hi := by
    rcases List.mem_append.1 hi with hi | hi
    · exact h.noNamed i hi
    · exact k.noNamed i hi
  adds pre hp hf := by
    rw [← List.append_assoc, k.adds (pre ++ c) ?_ ?_, h.adds pre hp (fun x hx => hf x (.inl hx)), List.append_assoc]
    · intro i hi
      rcases List.mem_append.1 hi with hi | hi
      · exact hp i hi
      · exact h.noNamed i hi
    · intro x hx
      rw [exec_append]
      exact params_exec d x c _ (fun i hi hm => hd x (h.names i hi x hm) hx) (hf x (.inr hx))

theorem Den.text (d : Dialect) (t : Str) : Den d (fun _ => False) [.text t] (t.map fun c => .sql [c]) where
  names := by simp [Instr.names]
  noNamed := by simp
  adds pre _ _ := by
    rw [exec_append]
    simp only [exec, List.foldl_cons, List.foldl_nil, exec1, view, resolve_append, List.flatMap_append, resolve,
      List.flatMap_cons, List.flatMap_nil, List.append_nil, RPiece.chars]

theorem Den.forget (d : Dialect) : Den d (fun _ => False) [.forget []] [] where
  names := by simp [Instr.names]
  noNamed := by simp
  adds pre _ _ := by
    rw [exec_append]
    simp only [exec, List.foldl_cons, List.foldl_nil, exec1, view, List.append_nil]

theorem Den.nil (d : Dialect) : Den d (fun _ => False) [] [] where
  names := by simp
  noNamed := by simp
  adds pre _ _ := by simp

theorem Den.weaken {d : Dialect} {N M : Str → Prop} {c : List Instr} {r : List RPiece} (h : Den d N c r)
    (hm : ∀ x, N x → M x) : Den d M c r where
  names i hi x hx := hm x (h.names i hi x hx)
  noNamed := h.noNamed
  adds pre hp hf := h.adds pre hp (fun x hx => hf x (hm x hx))

theorem Den.operand (n : Node) (m : Mode) (N : Str → Prop) (h : n.All (UsesNames m.d N)) (hn : n.All (NoNamed m.d)) :
    Den m.d N (ren n m []).code (sqlAt m n) where
  names := uses_names N n h m rfl [] (.inl rfl)
  noNamed := no_named n hn m rfl []
  adds pre hp hf := by
    have := C08_resolved_partial n m [] N h hn (.inl rfl) pre hp hf
    simp only [renderFrom] at this
    rw [exec_append]
    simp only [view, this, List.flatMap_append]
    rfl

/-- A bound value. -/
theorem Den.value (d : Dialect) (a : Arg) : Den d (fun _ => False) [.bind [] a] [.val a] := by
  have h := Den.operand (.ext .app [] [] fun _ => .emit (.bind [] a)) { d := d } (fun _ => False)
    (by simp [Node.All, UsesNames, W.emit, Instr.names]) (by simp [Node.All, NoNamed, W.emit])
  have e : sqlAt { d := d } (.ext .app [] [] fun _ => .emit (.bind [] a)) = [.val a] := by
    cases d <;> rfl
  rw [e] at h
  exact h

/-! ### Rendering code that follows a form -/

/-- A form cut into characters, values and operands. -/
inductive CPart where
  | char (c : Char)
  | value (a : Arg)
  | operand (n : Node) (m : Mode)

def cut (d : Dialect) : Part → List CPart
  | .text s => s.map .char
  | .value a => [.value a]
  | .operand n => [.operand n { d := d }]
  | .placed n m => [.operand n m]

def CPart.sql : CPart → List RPiece
  | .char c => [.sql [c]]
  | .value a => [.val a]
  | .operand n m => sqlAt m n

def cops (ps : List CPart) : List (Node × Mode) := ps.filterMap fun | .operand n m => some (n, m) | _ => none

/-- The code writes these parts, in order, if all operands can be rendered. -/
inductive Follows (d : Dialect) : W → List CPart → Prop where
  | text (t : Str) : Follows d (.wr t) (t.map .char)
  | value (a : Arg) : Follows d (.emit (.bind [] a)) [.value a]
  | done : Follows d .ok []
  | forget : Follows d (.emit (.forget [])) []
  | operand (n : Node) (m : Mode) (h : m.d = d) : Follows d (ren n m []) [.operand n m]
  | seq {a b ps qs} : Follows d a ps → Follows d b qs → Follows d (a ⨟ b) (ps ++ qs)

theorem cops_append (ps qs : List CPart) : cops (ps ++ qs) = cops ps ++ cops qs := by simp [cops]

theorem cops_char (t : Str) : cops (t.map CPart.char) = [] := by
  simp [cops, List.filterMap_map, Function.comp_def, List.filterMap_eq_nil_iff]

theorem Follows.ok {d : Dialect} {w : W} {ps : List CPart} (h : Follows d w ps) (hw : w.st = .ok) :
    ∀ o ∈ cops ps, (ren o.1 o.2 []).st = .ok := by
  induction h with
  | text t => simp [cops_char]
  | value a => simp [cops]
  | done => simp [cops]
  | forget => simp [cops]
  | operand n m _ => simpa [cops] using hw
  | seq _ _ iha ihb =>
    obtain ⟨ha, hb⟩ := seq_ok hw
    intro o ho
    rw [cops_append, List.mem_append] at ho
    rcases ho with ho | ho
    · exact iha ha o ho
    · exact ihb hb o ho

theorem Follows.den {d : Dialect} {w : W} {ps : List CPart} (h : Follows d w ps) (N : Node → Str → Prop)
    (hok : ∀ o ∈ cops ps, (ren o.1 o.2 []).st = .ok)
    (hN : ∀ o ∈ cops ps, o.1.All (UsesNames d (N o.1)) ∧ o.1.All (NoNamed d))
    (hd : (cops ps).Pairwise fun a b => ∀ x, N a.1 x → ¬ N b.1 x) :
    w.st = .ok ∧ Den d (fun x => ∃ o ∈ cops ps, N o.1 x) w.code (ps.flatMap CPart.sql) := by
  induction h with
  | text t =>
    have h : Den d (fun x => ∃ o ∈ cops (t.map CPart.char), N o.1 x) _ _ := (Den.text d t).weaken (by simp)
    refine ⟨rfl, ?_⟩
    have e : (t.map CPart.char).flatMap CPart.sql = t.map fun c => .sql [c] := by
      rw [List.flatMap_map]; clear h hok hN hd; induction t <;> simp_all [CPart.sql]
    rw [e]; exact h
  | value a => exact ⟨rfl, (Den.value d a).weaken (by simp)⟩
  | done => exact ⟨rfl, (Den.nil d).weaken (by simp)⟩
  | forget => exact ⟨rfl, (Den.forget d).weaken (by simp)⟩
  | operand n m hm =>
    refine ⟨hok (n, m) (by simp [cops]), ?_⟩
    have hn := hN (n, m) (by simp [cops])
    subst hm
    have := Den.operand n m (N n) hn.1 hn.2
    simpa [cops, CPart.sql] using this
  | seq ha hb iha ihb =>
    rw [cops_append] at hok hN hd
    rw [List.pairwise_append] at hd
    obtain ⟨sa, da⟩ := iha (fun n hn => hok n (by simp [hn])) (fun n hn => hN n (by simp [hn])) hd.1
    obtain ⟨sb, db⟩ := ihb (fun n hn => hok n (by simp [hn])) (fun n hn => hN n (by simp [hn])) hd.2.1
    refine ⟨by simp [W.seq, sa, sb], ?_⟩
    have := da.append db (fun x ⟨n, hn, hx⟩ ⟨k, hk, hy⟩ => hd.2.2 n hn k hk x hx hy)
    rw [List.flatMap_append]
    simp only [W.seq, sa]
    refine this.weaken ?_
    intro x
    rw [cops_append]
    rintro (⟨n, hn, hx⟩ | ⟨n, hn, hx⟩)
    · exact ⟨n, by simp [hn], hx⟩
    · exact ⟨n, by simp [hn], hx⟩

theorem cops_cut (d : Dialect) (ps : List Part) : (cops (ps.flatMap (cut d))).map Prod.fst = operands ps := by
  induction ps with
  | nil => rfl
  | cons p ps ih =>
    rw [List.flatMap_cons, cops_append, List.map_append, ih]
    cases p with
    | text s => rw [cut, cops_char]; rfl
    | value a => rfl
    | operand n => rfl
    | placed n m => rfl

theorem sql_cut (d : Dialect) (ps : List Part) : (ps.flatMap (cut d)).flatMap CPart.sql = ps.flatMap (Part.sql d) := by
  induction ps with
  | nil => rfl
  | cons p ps ih =>
    rw [List.flatMap_cons, List.flatMap_append, ih, List.flatMap_cons]
    cases p with
    | text s =>
      congr 1
      simp only [cut, Part.sql]
      induction s <;> simp_all [CPart.sql]
    | value a => rfl
    | operand n => simp [cut, CPart.sql, Part.sql]; rfl
    | placed n m => simp [cut, CPart.sql, Part.sql]

/-- From a form to the meaning of the whole. -/
theorem Follows.means {n : Node} {m : Mode} {ps : List Part} (h : Follows m.d (ren n m []) (ps.flatMap (cut m.d)))
    (N : Node → Str → Prop) (hok : ∀ o ∈ cops (ps.flatMap (cut m.d)), (ren o.1 o.2 []).st = .ok)
    (hN : ∀ n ∈ operands ps, n.All (UsesNames m.d (N n)) ∧ n.All (NoNamed m.d))
    (hd : (operands ps).Pairwise fun a b => ∀ x, N a x → ¬ N b x) :
    (ren n m []).st = .ok ∧ sqlAt m n = ps.flatMap (Part.sql m.d) := by
  rw [← cops_cut m.d] at hN hd
  rw [List.pairwise_map] at hd
  have h := h.den N hok (fun o ho => hN o.1 (List.mem_map.2 ⟨o, ho, rfl⟩)) hd
  refine ⟨h.1, ?_⟩
  have ha := h.2.adds [] (by simp) (by intro x _; rfl)
  rw [sql_cut, List.nil_append] at ha
  have hv : view (exec m.d [] {}) = [] := rfl
  rw [hv, List.nil_append] at ha
  exact ha

theorem follows_chars (d : Dialect) (t : Str) : Follows d (seqAll (t.map fun c => .wr [c])) (t.map .char) := by
  induction t with
  | nil => exact .done
  | cons c t ih => exact .seq (.text [c]) ih

/-- Texts and operands alternating. -/
def weave (m : Mode) : List Str → List Node → List CPart
  | [], _ => []
  | [s], _ => s.map .char
  | s :: ss, [] => s.map .char ++ weave m ss []
  | s :: ss, v :: vs => s.map .char ++ .operand v m :: weave m ss vs

theorem follows_interleave (m : Mode) : ∀ (ss : List Str) (vs : List Node),
    Follows m.d (interleave ss (vs.map fun v => ren v m [])) (weave m ss vs)
  | [], _ => .done
  | [s], vs => by simpa [interleave, weave] using follows_chars m.d s
  | s :: t :: ss, [] => by
    have := Follows.seq (follows_chars m.d s) (follows_interleave m (t :: ss) [])
    simpa [interleave, weave] using this
  | s :: t :: ss, v :: vs => by
    have := Follows.seq (follows_chars m.d s) (Follows.seq (.operand v m rfl) (follows_interleave m (t :: ss) vs))
    simpa [interleave, weave] using this

theorem follows_format (m : Mode) (fmt : Str) (ss : List Str) (vs : List Node) (hf : fmt = write (holes ss))
    (hl : ss.length - 1 ≤ vs.length) : Follows m.d (bprintf m fmt ((objs vs).map PV.toObj)) (weave m ss vs) := by
  rw [hf, C11_sequential _ _ _ (by simpa [objs_eq] using hl)]
  have h1 : (((objs vs).map PV.toObj).map fun v => v.act m []) = vs.map fun v => ren v m [] := by
    simp [objs_eq, Function.comp_def, obj, mkPV]
  rw [h1]
  have := Follows.seq (follows_interleave m ss vs) Follows.forget
  simpa using this

end Sq.Exprs
