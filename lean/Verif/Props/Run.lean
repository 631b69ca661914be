import Verif.Spec.Run
import Verif.Props.Modes
/-
C39: executing a migration.
-/
namespace Ddl
open Spec

/-- The non-ignored commands in the order of the loops. -/
def Migration.order (m : Migration) : List Command := m.execPhases.flatten.filter fun c => !c.ignore

theorem filter_kind_map {α : Type} (l : List α) (f : α → Command) (k k' : Kind) (h : ∀ a, kind (f a) = k') :
    ((l.map f).filter (fun c => !c.ignore)).filter (fun c => kind c = k) =
      if k' = k then (l.map f).filter (fun c => !c.ignore) else [] := by
  by_cases hk : k' = k
  · rw [if_pos hk]
    apply List.filter_eq_self.2
    intro c hc
    obtain ⟨a, _, rfl⟩ := List.mem_map.1 (List.mem_filter.1 hc).1
    simp [h, hk]
  · rw [if_neg hk]
    apply List.filter_eq_nil_iff.2
    intro c hc
    obtain ⟨a, _, rfl⟩ := List.mem_map.1 (List.mem_filter.1 hc).1
    simp [h, hk]

theorem pairwise_phases (phases : List (List Command)) (ts : List Nat) (hlen : ts.length = phases.length)
    (hts : ts.Pairwise (· ≤ ·)) (h : ∀ i (hi : i < phases.length), ∀ c ∈ phases[i], turn (kind c) = ts[i]) :
    (phases.flatten.filter fun c => !c.ignore).Pairwise fun a b => turn (kind a) ≤ turn (kind b) := by
  apply List.Pairwise.filter
  induction phases generalizing ts with
  | nil => simp
  | cons p ps ih =>
    cases ts with
    | nil => simp at hlen
    | cons t ts =>
      rw [List.flatten_cons, List.pairwise_append]
      have h0 : ∀ c ∈ p, turn (kind c) = t := h 0 (by simp)
      have htl : ∀ i (hi : i < ps.length), ∀ c ∈ ps[i], turn (kind c) = ts[i]'(by simp at hlen; omega) := fun i hi c hc =>
        h (i + 1) (by simp; omega) c hc
      refine ⟨?_, ih ts (by simpa using hlen) (List.pairwise_cons.1 hts).2 htl, ?_⟩
      · apply List.pairwise_of_forall_mem_list
        intro a ha b hb
        rw [h0 a ha, h0 b hb]; exact Nat.le_refl _
      · intro a ha b hb
        obtain ⟨q, hq, hb⟩ := List.mem_flatten.1 hb
        obtain ⟨i, hi, rfl⟩ := List.mem_iff_getElem.1 hq
        rw [h0 a ha, htl i hi b hb]
        exact (List.pairwise_cons.1 hts).1 _ (List.getElem_mem _)

theorem order_each (m : Migration) (k : Kind) :
    m.order.filter (fun c => kind c = k) = (ofKind m k).filter fun c => !c.ignore := by
  unfold Migration.order Migration.execPhases
  simp only [List.flatten_cons, List.flatten_nil, List.filter_append, List.append_nil]
  rw [filter_kind_map m.createSchemaCmds _ k .schema (fun _ => rfl), filter_kind_map m.createExtensionCmds _ k .extension (fun _ => rfl),
    filter_kind_map m.createFunctionCmds _ k .function (fun _ => rfl), filter_kind_map m.createTableCmds _ k .table (fun _ => rfl),
    filter_kind_map m.alterTableCmds _ k .alter (fun _ => rfl), filter_kind_map m.createViewCmds _ k .view (fun _ => rfl),
    filter_kind_map m.createIndexCmds _ k .index (fun _ => rfl), filter_kind_map m.createTriggerCmds _ k .trigger (fun _ => rfl),
    filter_kind_map m.addForeignKeyCmds _ k .foreignKey (fun _ => rfl), filter_kind_map m.dropViewCmds _ k .noView (fun _ => rfl),
    filter_kind_map m.dropTableCmds _ k .noTable (fun _ => rfl), filter_kind_map m.dropTriggerCmds _ k .noTrigger (fun _ => rfl),
    filter_kind_map m.dropIndexCmds _ k .noIndex (fun _ => rfl), filter_kind_map m.alterTableDropCmds _ k .noPart (fun _ => rfl),
    filter_kind_map m.dropFunctionCmds _ k .noFunction (fun _ => rfl),
    filter_kind_map m.dropExtensionCmds _ k .noExtension (fun _ => rfl)]
  cases k <;>
    simp only [reduceCtorEq, if_true, if_false, List.nil_append, List.append_nil, ofKind]

/-- **C39, the order.** -/
theorem C39_order (m : Migration) : Order m m.order := by
  refine ⟨order_each m, pairwise_phases m.execPhases [0, 1, 2, 3, 4, 5, 6, 7, 8, 9, 10, 11, 12, 13, 14, 15] rfl (by decide) ?_⟩
  intro i hi
  have h16 : i < 16 := hi
  rcases i with _ | _ | _ | _ | _ | _ | _ | _ | _ | _ | _ | _ | _ | _ | _ | _ | i
  all_goals first
    | (intro c hc
       simp only [Migration.execPhases, List.getElem_cons_succ, List.getElem_cons_zero, Nat.zero_add] at hc ⊢
       obtain ⟨a, _, rfl⟩ := List.mem_map.1 hc
       rfl)
    | omega

/-! ### Running -/

theorem accepted_snoc (db : List Str → Str → Bool) (h : List Str) (q : Str) (ha : Accepted db h) (hq : db h q = true) :
    Accepted db (h ++ [q]) := by
  intro pre x post e
  rcases List.eq_nil_or_concat post with rfl | ⟨post', y, rfl⟩
  · obtain ⟨rfl, e2⟩ := List.append_inj' e rfl
    obtain rfl : q = x := by simpa using e2
    exact hq
  · rw [List.concat_eq_append] at e
    rw [← List.cons_append, ← List.append_assoc] at e
    obtain ⟨e1, _⟩ := List.append_inj' e rfl
    exact ha pre x post' e1

/-- Running one loop after the commands `pre` went through. -/
theorem execLoop_ran (db : List Str → Str → Bool) (d : Dialect) (cs pre : List Command) (h : List Str)
    (ht : pre.map (·.sql d) = h.map .ok) (ha : Accepted db h) :
    Ran db d (pre ++ cs.filter fun c => !c.ignore) (execLoop db d cs h) := by
  induction cs generalizing pre h with
  | nil =>
    rw [List.filter_nil, List.append_nil]
    exact .all h ht ha
  | cons c cs ih =>
    by_cases hi : c.ignore = true
    · rw [List.filter_cons_of_neg (by simp [hi])]
      rw [execLoop, if_pos hi]
      exact ih pre h ht ha
    · rw [List.filter_cons_of_pos (by simpa using hi)]
      rw [execLoop, if_neg hi]
      cases hs : c.sql d with
      | ok q =>
        simp only
        by_cases hq : db h q = true
        · rw [if_pos hq]
          have := ih (pre ++ [c]) (h ++ [q]) (by simp [ht, hs]) (accepted_snoc db h q ha hq)
          simpa using this
        · rw [if_neg hq]
          exact .refused pre c _ h q rfl ht ha hs (by simpa using hq)
      | err e => exact .notBuilt pre c _ h e rfl ht ha hs
      | panic => exact .panicked pre c _ h rfl ht ha (.inl hs)
      | hang => exact .panicked pre c _ h rfl ht ha (.inr hs)

theorem execLoop_done (db : List Str → Str → Bool) (d : Dialect) (cs : List Command) (h : List Str)
    (he : (execLoop db d cs h).ended = .done) :
    ∃ qs, (execLoop db d cs h).sent = h ++ qs ∧ (cs.filter fun c => !c.ignore).map (·.sql d) = qs.map .ok ∧
      ∀ pre q post, qs = pre ++ q :: post → db (h ++ pre) q = true := by
  induction cs generalizing h with
  | nil => exact ⟨[], by simp [execLoop], rfl, by intro pre q post e; simp at e⟩
  | cons c cs ih =>
    rw [execLoop] at he ⊢
    by_cases hi : c.ignore = true
    · rw [if_pos hi] at he ⊢
      rw [List.filter_cons_of_neg (by simp [hi])]
      exact ih h he
    · rw [if_neg hi] at he ⊢
      rw [List.filter_cons_of_pos (by simpa using hi)]
      cases hs : c.sql d with
      | ok q =>
        rw [hs] at he
        simp only at he ⊢
        by_cases hq : db h q = true
        · rw [if_pos hq] at he ⊢
          obtain ⟨qs, h1, h2, h3⟩ := ih (h ++ [q]) he
          refine ⟨q :: qs, by rw [h1]; simp, by rw [List.map_cons, hs, h2]; rfl, ?_⟩
          intro pre x post e
          cases pre with
          | nil => simp at e; simpa [← e.1] using hq
          | cons y pre =>
            simp at e
            have := h3 pre x post e.2
            rw [← e.1]; simpa using this
        · rw [if_neg hq] at he
          cases he
      | err e => rw [hs] at he; cases he
      | panic => rw [hs] at he; cases he
      | hang => rw [hs] at he; cases he

/-- A loop that did not finish: nothing after it matters. -/
theorem ran_more (db : List Str → Str → Bool) (d : Dialect) (cs more : List Command) (e : Execution) (h : Ran db d cs e)
    (hd : e.ended ≠ .done) : Ran db d (cs ++ more) e := by
  cases h with
  | all qs _ _ => exact absurd rfl hd
  | notBuilt pre c post qs e ho ht ha hf => exact .notBuilt pre c (post ++ more) qs e (by rw [ho]; simp) ht ha hf
  | panicked pre c post qs ho ht ha hf => exact .panicked pre c (post ++ more) qs (by rw [ho]; simp) ht ha hf
  | refused pre c post qs q ho ht ha htx hn => exact .refused pre c (post ++ more) qs q (by rw [ho]; simp) ht ha htx hn

theorem execLoops_ran (db : List Str → Str → Bool) (d : Dialect) (ps : List (List Command)) (pre : List Command) (h : List Str)
    (ht : pre.map (·.sql d) = h.map .ok) (ha : Accepted db h) :
    Ran db d (pre ++ ps.flatten.filter fun c => !c.ignore) (execLoops db d ps h) := by
  induction ps generalizing pre h with
  | nil => simpa [execLoops] using Ran.all (db := db) h ht ha
  | cons p ps ih =>
    rw [execLoops]
    rw [List.flatten_cons, List.filter_append, ← List.append_assoc]
    have hr := execLoop_ran db d p pre h ht ha
    by_cases hd : (execLoop db d p h).ended = .done
    · simp only [if_pos hd]
      apply ih
      · obtain ⟨qs, h1, h2, _⟩ := execLoop_done db d p h hd
        rw [h1]; simp [ht, h2]
      · cases hr' : execLoop db d p h with
        | mk sent ended =>
          rw [hr'] at hr hd
          cases hr with
          | all _ _ hacc => exact hacc
          | notBuilt => cases hd
          | panicked => cases hd
          | refused => cases hd
    · simp only [if_neg hd]
      exact ran_more db d _ _ _ hr hd

/-- **C39.** For every migration and every database: there is one order of the commands, by turns, of each kind exactly the
non-ignored ones, and executing the migration runs a prefix of it: all of it when no error is returned, and otherwise everything
before the first command that cannot be built or that the database refuses.  Nothing after that command is sent. -/
theorem C39_exec (m : Migration) (db : List Str → Str → Bool) : ∃ cs, Order m cs ∧ Ran db m.d cs (m.exec db) :=
  ⟨m.order, C39_order m, by
    have := execLoops_ran db m.d m.execPhases [] [] rfl (by intro pre q post e; simp at e)
    simpa [Migration.exec, Migration.order] using this⟩

/-- The order is unique: there is nothing else `C39_exec` could speak of. -/
theorem turn_inj (a b : Kind) (h : turn a = turn b) : a = b := by
  cases a <;> cases b <;> first | rfl | (simp [turn] at h)

theorem sorted_cons_filter (c : Command) (cs cs' : List Command)
    (h1 : (c :: cs).Pairwise fun a b => turn (kind a) ≤ turn (kind b))
    (h2 : cs'.Pairwise fun a b => turn (kind a) ≤ turn (kind b))
    (he : ∀ k, (c :: cs).filter (fun x => kind x = k) = cs'.filter fun x => kind x = k) : ∃ tl, cs' = c :: tl := by
  have hc : c ∈ cs' := by
    have := he (kind c)
    rw [List.filter_cons_of_pos (by simp)] at this
    have hm : c ∈ cs'.filter fun x => kind x = kind c := by rw [← this]; simp
    exact (List.mem_filter.1 hm).1
  cases cs' with
  | nil => cases hc
  | cons d tl =>
    have hd : d ∈ c :: cs := by
      have := he (kind d)
      have hm : d ∈ (c :: cs).filter fun x => kind x = kind d := by rw [this]; simp
      exact (List.mem_filter.1 hm).1
    have hle1 : turn (kind c) ≤ turn (kind d) := by
      rcases List.mem_cons.1 hd with rfl | hd
      · exact Nat.le_refl _
      · exact (List.pairwise_cons.1 h1).1 d hd
    have hle2 : turn (kind d) ≤ turn (kind c) := by
      rcases List.mem_cons.1 hc with rfl | hc
      · exact Nat.le_refl _
      · exact (List.pairwise_cons.1 h2).1 c hc
    have hk := turn_inj _ _ (Nat.le_antisymm hle1 hle2)
    have := he (kind c)
    rw [List.filter_cons_of_pos (by simp), List.filter_cons_of_pos (by simp [hk])] at this
    exact ⟨tl, by rw [(List.cons.inj this).1]⟩

theorem C39_order_unique (m : Migration) (cs cs' : List Command) (h : Order m cs) (h' : Order m cs') : cs = cs' := by
  have he : ∀ k, cs.filter (fun x => kind x = k) = cs'.filter fun x => kind x = k := fun k => (h.each k).trans (h'.each k).symm
  have s1 := h.sorted
  have s2 := h'.sorted
  clear h h'
  induction cs generalizing cs' with
  | nil =>
    cases cs' with
    | nil => rfl
    | cons c tl =>
      have := he (kind c)
      rw [List.filter_nil, List.filter_cons_of_pos (by simp)] at this
      cases this
  | cons c cs ih =>
    obtain ⟨tl, rfl⟩ := sorted_cons_filter c cs cs' s1 s2 he
    congr 1
    refine ih tl ?_ (List.pairwise_cons.1 s1).2 (List.pairwise_cons.1 s2).2
    intro k
    have := he k
    by_cases hk : kind c = k
    · rw [List.filter_cons_of_pos (by simp [hk]), List.filter_cons_of_pos (by simp [hk])] at this
      exact (List.cons.inj this).2
    · rwa [List.filter_cons_of_neg (by simp [hk]), List.filter_cons_of_neg (by simp [hk])] at this

/-- No error: every non-ignored command was sent, exactly once, and accepted. -/
theorem C39_success (m : Migration) (db : List Str → Str → Bool) (h : (m.exec db).ended = .done) :
    m.order.map (·.sql m.d) = (m.exec db).sent.map .ok ∧ Accepted db (m.exec db).sent := by
  obtain ⟨cs, ho, hr⟩ := C39_exec m db
  rw [C39_order_unique m cs m.order ho (C39_order m)] at hr
  cases he : m.exec db with
  | mk sent ended =>
    rw [he] at hr h
    cases hr with
    | all _ ht ha => exact ⟨ht, ha⟩
    | notBuilt => cases h
    | panicked => cases h
    | refused => cases h

/-- What `Accepted` and `Ran` mean when a database refuses exactly one statement: everything before it is sent, nothing after it. -/
example :
    let m : Migration := { dialect := some .postgres
                           createTableCmds := [{ table := { tableName := "a".toList } }, { table := { tableName := "b".toList }, ignore := true },
                             { table := { tableName := "c".toList } }]
                           createSchemaCmds := [{ schemaName := "s".toList }]
                           dropTableCmds := [{ tableSchemas := [[]], tableNames := ["d".toList] }] }
    m.exec (fun _ q => q ≠ "CREATE TABLE c (\n)".toList) =
      ⟨["CREATE SCHEMA s".toList, "CREATE TABLE a (\n)".toList, "CREATE TABLE c (\n)".toList], .refused⟩ := by
  decide +kernel

end Ddl
