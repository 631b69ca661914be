import Verif.Proof.Seq
import Verif.Spec.Template
import Verif.Proof.Closure
import Verif.Proof.Tree
import Verif.Model.Examples
import Verif.Props.Binding
/-
C11-C13: format strings.
-/
namespace Sq
open Spec

def partSeg : TPart → Seg
  | .text c => .lit c
  | .next => .hole []
  | .ref nm => .hole nm

theorem parse_body (nm : Str) (h : '}' ∉ nm) (acc rest : Str) :
    parseFmt (some acc) (nm ++ '}' :: rest) = .hole (acc ++ nm) :: parseFmt none rest := by
  induction nm generalizing acc with
  | nil => simp [parseFmt]
  | cons c cs ih =>
    have hc : c ≠ '}' := fun e => h (by simp [e])
    simp only [List.cons_append, parseFmt, hc, if_false]
    rw [ih (fun hm => h (List.mem_cons_of_mem _ hm))]
    simp

theorem parse_write (ts : List TPart) (h : WellFormed ts) : parseFmt none (write ts) = ts.map partSeg := by
  induction ts with
  | nil => simp [write, parseFmt]
  | cons t ts ih =>
    have ih := ih (fun nm hn => h nm (List.mem_cons_of_mem _ hn))
    have e : write (t :: ts) = t.write ++ write ts := by simp [write]
    rw [e, List.map_cons, ← ih]
    cases t with
    | text c =>
      simp only [TPart.write, partSeg]
      by_cases hc : c = '{'
      · subst hc; simp [parseFmt]
      · rw [if_neg hc]
        cases hw : write ts with
        | nil => simp [parseFmt, hc]
        | cons x xs => simp [parseFmt, hc]
    | next => simp [TPart.write, partSeg, parseFmt]
    | ref nm =>
      obtain ⟨h1, h2, h3, h4⟩ := h nm (by simp)
      cases nm with
      | nil => exact absurd rfl h1
      | cons c cs =>
        have c1 : c ≠ '{' := by simpa using h2
        have c2 : c ≠ '}' := fun e => h3 (by simp [e])
        have c3 : '}' ∉ cs := fun hm => h3 (List.mem_cons_of_mem _ hm)
        simp only [TPart.write, partSeg, List.cons_append, parseFmt, c1, c2, if_true, if_false, List.append_assoc,
          List.nil_append]
        rw [parse_body cs c3]; simp

theorem splitColon_none (nm : Str) (h : ':' ∉ nm) : splitColon nm = (nm, none) := by
  induction nm with
  | nil => rfl
  | cons c cs ih =>
    have hc : c ≠ ':' := fun e => h (by simp [e])
    simp only [splitColon, hc, if_false, ih (fun hm => h (List.mem_cons_of_mem _ hm))]

theorem lookupName_find (vals : List Obj) (nm : Str) :
    lookupName vals nm = vals.reverse.find? (fun v => v.key = some nm) := by
  unfold lookupName
  have : ∀ (l : List Obj) (r : Option Obj), l.foldl (fun r o => if o.key = some nm then some o else r) r =
      (l.reverse.find? (fun v => v.key = some nm)).or r := by
    intro l
    induction l with
    | nil => intro r; simp
    | cons a l ih =>
      intro r
      rw [List.foldl_cons, ih]
      by_cases h : a.key = some nm <;> simp [List.find?_append, h]
  rw [this vals none, Option.or_none]

/-- Rendering of a step. -/
def Spec.Step.run (m : Mode) : Step Obj → W
  | .text c => .wr [c]
  | .value v nm => v.act m nm

/-- The numeric references of a template, in order: the names whose bookkeeping is undone at the end. -/
def ordinalsOf (ts : List TPart) : List Str :=
  ts.filterMap (fun t => match t with | .ref nm => if (atoi nm).isSome then some nm else none | _ => none)

theorem printSegs_plan (m : Mode) (vals : List Obj) (ts : List TPart) (h : WellFormed ts) (i : Nat) (ords : List Str) :
    (∀ ps, plan Obj.key vals i ts = some ps → printSegs m vals i ords (ts.map partSeg) =
      seqAll (ps.map (Step.run m)) ⨟ .emit (.forget (ords ++ ordinalsOf ts))) ∧
    (plan Obj.key vals i ts = none → (printSegs m vals i ords (ts.map partSeg)).st ≠ .ok) := by
  have seq_ne : ∀ a b : W, b.st ≠ .ok → (a ⨟ b).st ≠ .ok := by
    intro a b hb; unfold W.seq; split
    · exact hb
    · assumption
  induction ts generalizing i ords with
  | nil =>
    constructor
    · intro ps hp; simp [plan] at hp; subst hp; simp [printSegs, seqAll, ordinalsOf, W.seq, W.ok, W.emit]
    · simp [plan]
  | cons t ts ih =>
    have ih := ih (fun nm hn => h nm (List.mem_cons_of_mem _ hn))
    cases t with
    | text c =>
      simp only [List.map_cons, partSeg, printSegs, plan, Option.map_eq_some_iff, Option.map_eq_none_iff]
      refine ⟨?_, fun hn => seq_ne _ _ ((ih i ords).2 hn)⟩
      rintro ps ⟨qs, hq, rfl⟩
      rw [(ih i ords).1 qs hq]
      simp only [List.map_cons, seqAll, Step.run, seq_assoc]
      simp [ordinalsOf]
    | next =>
      simp only [List.map_cons, partSeg, printSegs, plan, splitColon, W.ofRes, if_true, List.any_nil, applyNameonly,
        Bool.false_and, Bool.false_eq_true, if_false]
      cases hv : vals[i]? with
      | none => simp [W.fail]
      | some v =>
        cases hq : plan Obj.key vals (i + 1) ts with
        | none =>
          refine ⟨by simp, fun _ => seq_ne _ _ ((ih (i + 1) ords).2 hq)⟩
        | some qs =>
          refine ⟨?_, by simp⟩
          intro ps hp
          simp at hp; subst hp
          dsimp only
          rw [(ih (i + 1) ords).1 qs hq]
          simp only [List.map_cons, seqAll, Step.run, seq_assoc]
          simp [ordinalsOf]
    | ref nm =>
      have hr := h nm (by simp)
      simp only [List.map_cons, partSeg, printSegs, plan, splitColon_none nm hr.2.2.2, W.ofRes, if_neg hr.1, List.any_nil,
        applyNameonly, Bool.false_and, Bool.false_eq_true, if_false]
      cases hn : atoi nm with
      | none =>
        simp only [lookupName_find, pickRef, hn]
        cases hv : vals.reverse.find? (fun v => v.key = some nm) with
        | none => simp [W.fail]
        | some v =>
          cases hq : plan Obj.key vals i ts with
          | none => exact ⟨by simp, fun _ => seq_ne _ _ ((ih i ords).2 hq)⟩
          | some qs =>
            refine ⟨?_, by simp⟩
            intro ps hp
            simp at hp; subst hp
            dsimp only
            rw [(ih i ords).1 qs hq]
            simp only [List.map_cons, seqAll, Step.run, seq_assoc]
            simp [ordinalsOf, hn]
      | some k =>
        simp only [pickRef, hn]
        by_cases hk : k - 1 < 0
        · rw [if_pos hk, if_neg (by omega)]; simp [W.fail]
        · rw [if_neg hk, if_pos (by omega)]
          cases hv : vals[(k - 1).toNat]? with
          | none => simp [W.fail]
          | some v =>
            cases hq : plan Obj.key vals i ts with
            | none => exact ⟨by simp, fun _ => seq_ne _ _ ((ih i (ords ++ [nm])).2 hq)⟩
            | some qs =>
              refine ⟨?_, by simp⟩
              intro ps hp
              simp at hp; subst hp
              dsimp only
              rw [(ih i (ords ++ [nm])).1 qs hq]
              simp only [List.map_cons, seqAll, Step.run, seq_assoc]
              simp [ordinalsOf, hn]

/-- **C13 (references).** For every template of literal text, `{}` and `{name}`/`{n}` references, and any values:
formatting performs exactly the template's plan, in order (then forgets the ordinals), and is an error if some
reference has no value. -/
theorem C13_references (m : Mode) (vals : List Obj) (ts : List TPart) (h : WellFormed ts) :
    (∀ ps, plan Obj.key vals 0 ts = some ps →
      bprintf m (write ts) vals = seqAll (ps.map (Step.run m)) ⨟ .emit (.forget (ordinalsOf ts))) ∧
    (plan Obj.key vals 0 ts = none → (bprintf m (write ts) vals).st ≠ .ok) := by
  have := printSegs_plan m vals ts h 0 []
  rw [← parse_write ts h] at this
  simpa [bprintf] using this

/-- The template of a text with `{}` holes, as a list of literal texts between the holes. -/
def holes : List Str → List TPart
  | [] => []
  | [s] => s.map .text
  | s :: ss => s.map .text ++ .next :: holes ss

/-- Literal texts and rendered values, alternating. -/
def interleave : List Str → List W → W
  | [], _ => .ok
  | [s], _ => seqAll (s.map fun c => .wr [c])
  | s :: ss, [] => seqAll (s.map fun c => .wr [c]) ⨟ interleave ss []
  | s :: ss, v :: vs => seqAll (s.map fun c => .wr [c]) ⨟ v ⨟ interleave ss vs

theorem plan_texts (vals : List Obj) (i : Nat) (s : Str) (ts : List TPart) :
    plan Obj.key vals i (s.map .text ++ ts) = (plan Obj.key vals i ts).map (s.map .text ++ ·) := by
  induction s with
  | nil => simp
  | cons c s ih => simp [plan, ih, Function.comp_def]

theorem holes_noRef (ss : List Str) : ∀ t ∈ holes ss, ∀ nm, t ≠ .ref nm := by
  fun_induction holes ss with
  | case1 => simp
  | case2 s => intro t ht nm; simp at ht; obtain ⟨c, _, rfl⟩ := ht; simp
  | case3 s ss _ ih =>
    intro t ht nm
    simp at ht
    rcases ht with ⟨c, _, rfl⟩ | rfl | ht
    · simp
    · simp
    · exact ih t ht nm

theorem holes_wf (ss : List Str) : WellFormed (holes ss) :=
  fun nm hn => absurd rfl (holes_noRef ss _ hn nm)

theorem holes_plan (m : Mode) (vals : List Obj) (ss : List Str) (i : Nat) :
    (i + (ss.length - 1) ≤ vals.length → ∃ ps, plan Obj.key vals i (holes ss) = some ps ∧
      seqAll (ps.map (Step.run m)) = interleave ss ((vals.drop i).map (fun v => v.act m []))) ∧
    (ss ≠ [] → i ≤ vals.length → vals.length < i + (ss.length - 1) → plan Obj.key vals i (holes ss) = none) := by
  have ht : ∀ s : Str, (s.map TPart.text ++ []) = s.map TPart.text := by simp
  fun_induction holes ss generalizing i with
  | case1 => simp [plan, seqAll, interleave]
  | case2 s =>
    refine ⟨fun _ => ⟨s.map .text, ?_, ?_⟩, fun _ _ h => ?_⟩
    · have := plan_texts vals i s []; simpa [plan] using this
    · simp [interleave, Function.comp_def, Step.run]
    · simp at h; omega
  | case3 s ss hne ih =>
    have hl : ss.length ≥ 1 := by
      cases ss with
      | nil => exact absurd rfl hne
      | cons => simp
    rw [plan_texts]
    simp only [plan, List.length_cons, Nat.add_sub_cancel]
    constructor
    · intro hi
      have hlt : i < vals.length := by omega
      obtain ⟨ps, hp, hs⟩ := (ih (i + 1)).1 (by omega)
      rw [List.getElem?_eq_getElem hlt]
      refine ⟨s.map .text ++ .value vals[i] [] :: ps, by simp [hp], ?_⟩
      rw [List.map_append, seqAll_append, List.map_cons, seqAll, hs]
      rw [show vals.drop i = vals[i] :: vals.drop (i + 1) from (List.getElem_cons_drop ..).symm]
      cases ss with
      | nil => exact absurd rfl hne
      | cons s' ss => simp only [interleave, List.map_cons, List.map_map, Function.comp_def, Step.run]
    · intro _ hi hlt
      by_cases he : i = vals.length
      · subst he; simp
      · rw [(ih (i + 1)).2 (by intro e; exact hne e) (by omega) (by omega)]
        cases vals[i]? <;> simp

/-- **C11.** A format string made of the literal texts `s₀ … s_k` (with `{` doubled) and `k` holes `{}` between them, with
at least `k` values, writes `s₀`, value 1, `s₁`, value 2, … in order; the trailing effect erases nothing. -/
theorem C11_sequential (m : Mode) (ss : List Str) (vals : List Obj) (h : ss.length - 1 ≤ vals.length) :
    bprintf m (write (holes ss)) vals = interleave ss (vals.map fun v => v.act m []) ⨟ .emit (.forget []) := by
  obtain ⟨ps, hp, hs⟩ := (holes_plan m vals ss 0).1 (by omega)
  have ho : ordinalsOf (holes ss) = [] := by
    unfold ordinalsOf
    rw [List.filterMap_eq_nil_iff]
    intro t ht
    cases t with
    | text c => rfl
    | next => rfl
    | ref nm => exact absurd rfl (holes_noRef ss _ ht nm)
  have := (C13_references m vals (holes ss) (holes_wf ss)).1 ps hp
  rw [this, hs, ho]
  simp

/-- C11: with fewer values than holes the result is an error (or an earlier failure), never success. -/
theorem C11_too_few (m : Mode) (ss : List Str) (vals : List Obj) (h : vals.length < ss.length - 1) :
    (bprintf m (write (holes ss)) vals).st ≠ .ok := by
  have hne : ss ≠ [] := by intro e; subst e; simp at h
  exact (C13_references m vals (holes ss) (holes_wf ss)).2 ((holes_plan m vals ss 0).2 hne (by omega) (by omega))

end Sq
