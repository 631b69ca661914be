import Verif.Proof.Where
/-
C80: the records that a condition describes are the records that the WHERE clause selects.
-/
namespace Sq.Choosing
open Sq Sq.Spec Sq.Chain Sq.Exprs Sq.Exprs.Writing Sq.Spec.Store Sq.Storing Sq.Spec.Where
open _root_.Spec (Tok tokens BTok BExp readBool identClose isBareIdent)

/-! ### The statements -/

/-- The conditions can be written: there are some, each is fine, and the names are read as what they are. -/
structure Sound (l : Lang) (t : Tab) (cs : List (Cond Str)) : Prop where
  named : t.name ≠ []
  fine : (Cond.group false false cs).fine true
  label : Readable l.dialect t.label
  columns : ∀ c ∈ columns cs, Readable l.dialect c

theorem Sound.ne {l : Lang} {t : Tab} {cs : List (Cond Str)} (h : Sound l t cs) : cs ≠ [] := by
  rintro rfl
  have := h.fine
  simp [Cond.fine] at this

theorem has_after (pre vs : List Scalar) : Has (pre.map .val ++ vs.map .val) pre.length vs := by
  intro k v hk
  rw [List.getElem?_append_right (by simp)]
  simp [hk]

theorem Sound.clear {l : Lang} {t : Tab} {cs : List (Cond Str)} (h : Sound l t cs) (raw : Str → Bool) :
    Clear l (oneTable t.label) Node.name (t.field raw) cs where
  fine := h.fine
  column := fun c _ => ⟨t, raw, c, h.named, rfl⟩
  read := fun c hc => ⟨h.label, h.columns c hc, by rw [(label_field t raw c).1]; exact if_pos rfl⟩

/-- The WHERE clause, when `pre` are the values before it. -/
theorem where_parts (l : Lang) (t : Tab) (raw : Str → Bool) (cs : List (Cond Str)) (env : Env) (h : Sound l t cs) (pre : List Scalar) :
    ∃ (xs : List Part) (vs : List Scalar) (e : BExp (Test Str)), Adds l.dialect (condition { d := l.dialect, env := env } " WHERE ".toList (and_ (nodes (mapAll (t.field raw) cs)))) (.text " WHERE ".toList :: xs) ∧
      Flat xs ∧ vals xs = vs.map .val ∧
      readWhere l t.label (pre.map .val ++ vs.map .val) pre.length (flat l.dialect pre.length xs) = some e ∧
      ∀ C r, truthOf C r e = allTrue C r cs := by
  obtain ⟨ts, e, h1, h2, h3, h4, _⟩ := clause_parts (t.field raw) l (oneTable t.label) Node.name cs env (h.clear raw)
  refine ⟨ts.flatMap (tokParts l.dialect), ts.flatMap used, e, ?_, clause_flat _ _, vals_clause _ _, ?_, h4⟩
  · cases cs with
    | nil => exact absurd rfl h.ne
    | cons c cs =>
      simp only [nodes, mapAll, and_, condition] at h1 ⊢
      exact Adds.cons _ h1
  · unfold readWhere
    rw [tokens_clause l ts pre.length h2, Option.bind_some]
    obtain ⟨n', _, hn'⟩ := turns_clause l _ ts pre.length (has_after pre (ts.flatMap used)) pre.length (fun _ => rfl)
    have := hn' []
    rw [List.append_nil] at this
    rw [this]
    simp only [Where.resolve, Option.map_some, Option.bind_some, List.append_nil]
    exact h3

/-- **C80 (partial), the SELECT statement.** `Select(columns...).From(table).Where(conditions...)` is the statement that reads these columns, and what
stands behind its WHERE, read with the values sent along, is true for exactly the records that all of the conditions describe.  Missing: negated
groups where the code writes no parentheses (C17), and names that are not read as they are (C01). -/
theorem C80_select_partial (b : Builder) (t : Tab) (raw : Str → Bool) (cols : List Str) (cs : List (Cond Str)) (h : Sound b.lang t cs) (hc : cols ≠ []) :
    ∃ w e, (ownSQL (selectWhere b t raw cols cs)).status = .ok ∧
      (ownSQL (selectWhere b t raw cols cs)).query = Where.selectText b.lang t cols w ∧
      readWhere b.lang t.label (ownSQL (selectWhere b t raw cols cs)).args 0 w = some e ∧
      ∀ C r, truthOf C r e = allTrue C r cs := by
  obtain ⟨xs, vs, e, p1, p2, p3, p4, p5⟩ := where_parts b.lang t raw cs b.env h []
  have hne : nodes (mapAll (t.field raw) cs) ≠ [] := fun e => h.ne ((isEmpty_nodes (t.field raw) cs).1 e)
  have h := own (n := selectWhere b t raw cols cs) (l := b.lang) rfl
    (xs := [.text "SELECT ".toList] ++ (listed ", ".toList (cols.map fun c => [.text (t.column b.lang.dialect c)]) ++ (.text " FROM ".toList :: (srcParts b.lang.dialect t ++ (.text " WHERE ".toList :: xs)))))
    (ps := [.text "SELECT ".toList] ++ (items { d := b.lang.dialect, env := b.env } (cols.map (t.field raw)) ++
      (.text " FROM ".toList :: (source { d := b.lang.dialect, env := b.env } t.node ++
        condition { d := b.lang.dialect, env := b.env } " WHERE ".toList (and_ (nodes (mapAll (t.field raw) cs)))))))
    (by
        obtain ⟨p, ps, hp⟩ := List.exists_cons_of_ne_nil hne
        simp [selectWhere, hp, Chain.select, SelectCall.run, SelectStart.run, SelectQ.node, Spec.construct, whereOf, and_, with_, distinct, joined,
        ifAny, filtered, condition, number, ifTable, Tab.node, effEnv]
        rfl)
    (show SelectNeeds _ _ _ (cols.map (t.field raw)) [] t.node [] from ⟨by simpa using hc, fun h => (h rfl).elim, fun h => (h rfl).elim, fun x hx => by
      rw [List.mem_singleton.1 hx]
      exact node_answers t _⟩)
    ((Adds.text _).append ((adds_items t raw cols _ h.named).append (Adds.cons _ ((adds_src _ t _).append p1))))
    (Flat.cons _ (Flat.append (flat_listed _ _ fun c _ => Flat.text _) (Flat.cons _ ((srcParts_flat _ _).append (Flat.cons _ p2)))))
  have ht := fun i => flat_texts b.lang.dialect i (t.column b.lang.dialect) cols
  refine ⟨flat b.lang.dialect 0 xs, e, h.1, h.2.1.trans ?_, ?_, p5⟩
  · clear h
    unfold Where.selectText Store.selectText
    generalize "SELECT ".toList = k0
    generalize " FROM ".toList = k1
    generalize " WHERE ".toList = k2
    simp only [List.cons_append, List.nil_append, flat_text, flat_append, (ht _).1, (ht 0).2, vals_src, flat_src, List.append_assoc, List.length_nil, Nat.add_zero]
  · rw [h.2.2]
    simp only [List.cons_append, List.nil_append, vals_text, vals_append, (ht 0).2, vals_src, p3]
    exact p4

/-- **C80 (partial), the DELETE statement.** -/
theorem C80_delete_partial (b : Builder) (t : Tab) (raw : Str → Bool) (cs : List (Cond Str)) (h : Sound b.lang t cs) :
    ∃ w e, (ownSQL (deleteWhere b t raw cs)).status = .ok ∧
      (ownSQL (deleteWhere b t raw cs)).query = Where.deleteText b.lang t w ∧
      readWhere b.lang t.label (ownSQL (deleteWhere b t raw cs)).args 0 w = some e ∧
      ∀ C r, truthOf C r e = allTrue C r cs := by
  obtain ⟨xs, vs, e, p1, p2, p3, p4, p5⟩ := where_parts b.lang t raw cs b.env h []
  have hne : nodes (mapAll (t.field raw) cs) ≠ [] := fun e => h.ne ((isEmpty_nodes (t.field raw) cs).1 e)
  have h := own (n := deleteWhere b t raw cs) (l := b.lang) rfl
    (xs := [.text "DELETE FROM ".toList] ++ (srcParts b.lang.dialect t ++ (.text " WHERE ".toList :: xs)))
    (ps := [.text "DELETE FROM ".toList] ++ (source { d := b.lang.dialect, env := b.env } t.node ++
        condition { d := b.lang.dialect, env := b.env } " WHERE ".toList (and_ (nodes (mapAll (t.field raw) cs)))))
    (by
        obtain ⟨p, ps, hp⟩ := List.exists_cons_of_ne_nil hne
        simp [deleteWhere, hp, Chain.delete, DeleteCall.run, DeleteStart.run, DeleteQ.node, Spec.construct, deleteParts, deleted, and_, with_, joined,
        ifAny, filtered, condition, number, ifTable, Tab.node, effEnv, Node.kind]
        rfl)
    (show DeleteNeeds _ _ _ [t.node] .nil [] [] [] from
      { table := ⟨t.node, [], rfl, node_ne t, fun h => (h rfl).elim⟩
        usingAllowed := fun h => (h rfl).elim
        joinable := fun h => (h rfl).elim
        hooksAnswer := fun x hx => by
          rw [List.mem_singleton.1 hx]
          exact node_answers t _
        limitsAllowed := ⟨fun h => by simp [Chain.delete, DeleteCall.run, DeleteStart.run] at h, fun h => by simp [Chain.delete, DeleteCall.run, DeleteStart.run] at h⟩
        single := fun h => by simp [Chain.delete, DeleteCall.run, DeleteStart.run] at h
        returningAllowed := fun h => (h rfl).elim })
    ((Adds.text _).append ((adds_src _ t _).append p1))
    (Flat.cons _ ((srcParts_flat _ _).append (Flat.cons _ p2)))
  refine ⟨flat b.lang.dialect 0 xs, e, h.1, h.2.1.trans ?_, ?_, p5⟩
  · clear h
    unfold Where.deleteText
    generalize "DELETE FROM ".toList = k0
    generalize " WHERE ".toList = k2
    simp only [List.cons_append, List.nil_append, flat_text, flat_append, vals_src, flat_src, List.append_assoc, List.length_nil, Nat.add_zero]
  · rw [h.2.2]
    simp only [List.cons_append, List.nil_append, vals_text, vals_append, vals_src, p3]
    exact p4

/-- **C80 (partial), the UPDATE statement.** The values of SET come first, those of the conditions after them. -/
theorem C80_update_partial (b : Builder) (t : Tab) (raw : Str → Bool) (cols : List Str) (rec : List Scalar) (cs : List (Cond Str)) (h : Sound b.lang t cs)
    (hc : cols ≠ []) (hlen : rec.length = cols.length) :
    ∃ w e vs, (ownSQL (updateWhere b t raw cols rec cs)).status = .ok ∧
      (ownSQL (updateWhere b t raw cols rec cs)).query = Where.updateText b.lang t cols w ∧
      (ownSQL (updateWhere b t raw cols rec cs)).args = rec.map .val ++ vs ∧
      readWhere b.lang t.label (rec.map .val ++ vs) cols.length w = some e ∧
      ∀ C r, truthOf C r e = allTrue C r cs := by
  obtain ⟨xs, vs, e, p1, p2, p3, p4, p5⟩ := where_parts b.lang t raw cs b.env h rec
  have hnn := h.named
  have hne' : nodes (mapAll (t.field raw) cs) ≠ [] := fun e => h.ne ((isEmpty_nodes (t.field raw) cs).1 e)
  let ex : List Str := if b.lang = .mysql then [] else [t.label]
  have hset : setAll t raw cols [rec] = (cols.map (t.field raw)).zip (rec.map Node.scalar) := by simp [setAll]
  have hne : (cols.map (t.field raw)).zip (rec.map Node.scalar) ≠ [] := by
    cases cols with
    | nil => exact (hc rfl).elim
    | cons c cs => cases rec with
      | nil => simp at hlen
      | cons v vs => simp
  have h := own (n := updateWhere b t raw cols rec cs) (l := b.lang) rfl
    (xs := [.text "UPDATE ".toList] ++ (srcParts b.lang.dialect t ++ (.text " SET ".toList :: (listed ", ".toList ((cols.zip rec).map (setPart fun c => if isExcluded ex t.label then quoteIdentifier b.lang.dialect c else t.column b.lang.dialect c)) ++ (.text " WHERE ".toList :: xs)))))
    (ps := [.text "UPDATE ".toList] ++ (source { d := b.lang.dialect, env := b.env } t.node ++ (.text " SET ".toList ::
        (assignments { d := b.lang.dialect, env := b.env, ex := ex } ((cols.map (t.field raw)).zip (rec.map Node.scalar)) ++
        condition { d := b.lang.dialect, env := b.env } " WHERE ".toList (and_ (nodes (mapAll (t.field raw) cs)))))))
    (by
      have hq : Spec.qualifier t.node = t.label := rfl
      obtain ⟨p, ps, hp⟩ := List.exists_cons_of_ne_nil hne'
      obtain ⟨l, env⟩ := b
      cases l <;> simp [updateWhere, hp, Chain.update, UpdateCall.run, UpdateStart.run, UpdateQ.node, Spec.construct, and_, with_, joined,
        ifAny, condition, number, ifTable, effEnv, Lang.dialect, hset, ex, hq])
    (show UpdateNeeds _ _ _ t.node .nil [] [] (setAll t raw cols [rec]) [] [] from
      { mapperWorks := fun _ => ⟨rfl, fun s hs => by
          rw [hset] at hs
          obtain ⟨c, _, hc'⟩ := List.mem_map.1 (List.of_mem_zip (show (s.1, s.2) ∈ _ from hs)).1
          rw [← hc']
          simp [Tab.field]⟩
        someTable := node_ne t
        something := by
          rw [hset]
          exact hne
        fromAllowed := fun h => (h rfl).elim
        joinable := fun h => (h rfl).elim
        hooksAnswer := fun x hx => by
          rcases List.mem_cons.1 hx with rfl | hx
          · exact node_answers t _
          · rw [List.mem_singleton.1 hx]
            exact id
        limitsAllowed := ⟨fun h => by simp [Chain.update, UpdateCall.run, UpdateStart.run] at h, fun h => by simp [Chain.update, UpdateCall.run, UpdateStart.run] at h⟩
        returningAllowed := fun h => (h rfl).elim })
    ((Adds.text _).append ((adds_src _ t _).append (Adds.cons _ ((adds_sets t raw cols rec { d := b.lang.dialect, env := b.env, ex := ex } rfl hnn).append p1))))
    (Flat.cons _ ((srcParts_flat _ _).append (Flat.cons _ (Flat.append (flat_listed _ _ fun c _ => Flat.cons _ (Flat.cons _ (Flat.value _))) (Flat.cons _ p2)))))
  have htg : (fun c => if isExcluded ex t.label then quoteIdentifier b.lang.dialect c else t.column b.lang.dialect c) = target b.lang t := by
    funext c
    unfold target
    by_cases hm : b.lang = .mysql
    · rw [if_pos hm, if_neg (by simp [ex, hm, excluded_nil])]
    · rw [if_neg hm, if_pos (by simp [ex, hm, excluded_self])]
  rw [htg] at h
  have ht := fun i => flat_sets b.lang (target b.lang t) i cols rec hlen
  refine ⟨flat b.lang.dialect rec.length xs, e, vs.map .val, h.1, h.2.1.trans ?_, h.2.2.trans ?_, ?_, p5⟩ <;> clear h
  · unfold Where.updateText
    generalize "UPDATE ".toList = k0
    generalize " SET ".toList = k1
    generalize " WHERE ".toList = k2
    simp only [List.cons_append, List.nil_append, flat_text, flat_append, vals_src, flat_src, List.append_assoc, List.length_nil, Nat.add_zero, (ht _).1, (ht 0).2, Nat.zero_add, List.length_map]
  · simp only [List.cons_append, List.nil_append, vals_text, vals_append, vals_src, p3, (ht 0).2]
  · rw [← hlen]
    exact p4

/-! ### Fetching, changing and removing what conditions describe -/

section RoundTrip
open Sq.Sending Sq.Fetching.Spec Sq.Spec.Send

variable {Ctx V : Type}

theorem chosen_described (C : Compare) (cs : List (Cond Str)) (e : BExp (Test Str)) (h : ∀ C r, truthOf C r e = allTrue C r cs) : chosen C e = described C cs := by
  funext r
  unfold chosen described
  rw [h]

/-- **C80 (partial).** On a database that reads WHERE clauses as SQL does, fetching with conditions gives exactly the records of the table that all of the
conditions describe, in the order of the table: whatever is in the table, however And, Or and Not are nested, and whatever the values are.
Missing: as in `C80_select_partial`. -/
theorem C80_found_partial (D : Database) (C : Compare) (b : Builder) (t : Tab) (raw : Str → Bool) (cols : List Str) (hD : Where.Understands D C b.lang t cols)
    (s : D.State) (source : Logging.LogSource) (hs : source.Usable) (o : Outside V) (ctx : Ctx) (zero : Fetching.Kind → V)
    (conv : Fetching.Kind → Scalar → Option V) (get : Fetching.Kind → Scalar → V) (kind : Str → Fetching.Kind)
    (hc : cols ≠ []) (cs : List (Cond Str)) (h : Sound b.lang t cs)
    (hconv : ∀ r ∈ D.rows s, ∀ c ∈ cols, conv (kind c) (r c) = some (get (kind c) (r c))) :
    let f := fetch o (D.conn source s Ctx) (fromWhere b t raw cs) zero conv (reads t raw kind cols) ctx []
    f.fin = .ok ∧ f.count = ((D.rows s).filter (described C cs)).length ∧
      f.trace = ((D.rows s).filter (described C cs)).map fun r => cols.map fun c => get (kind c) (r c) := by
  intro f
  obtain ⟨w, e, q1, q2, q3, q4⟩ := C80_select_partial b t raw cols cs h hc
  have h := fetch_reads D s source hs o zero conv get t raw kind cols hc ctx (fromWhere b t raw cs)
    (selectWhere b t raw cols cs) b.lang.dialect (by simp only [fromWhere, SelectQ.node, Dial.getDialect]; rfl) trivial (.select ..) q1
    ((D.rows s).filter (described C cs))
    (by
      rw [show (toSQL b.lang.dialect (selectWhere b t raw cols cs)).query = _ from q2, ← chosen_described C cs e q4]
      exact hD.select s _ w e q3)
    (fun r hr => hconv r (List.mem_filter.1 hr).1)
  exact ⟨h.1, h.2.1, h.2.2.1⟩

/-- **C80 (partial), changing and removing.** UPDATE changes exactly the records that all of the conditions describe, and DELETE removes exactly these. -/
theorem C80_changed_partial (D : Database) (C : Compare) (b : Builder) (t : Tab) (raw : Str → Bool) (cols : List Str) (hD : Where.Understands D C b.lang t cols)
    (s : D.State) (source : Logging.LogSource) (hs : source.Usable) (o : Outside V) (ctx : Ctx) (hc : cols ≠ [])
    (rec : List Scalar) (hlen : rec.length = cols.length) (cs : List (Cond Str)) (h : Sound b.lang t cs) :
    (let e := Sending.exec o (D.conn source s Ctx) (updateWhere b t raw cols rec cs) ctx
     e.fin = .ok ∧ D.rows (D.after s e.sent) = (D.rows s).map fun r => if described C cs r then Row.set r (cols.zip rec) else r) ∧
    (let e := Sending.exec o (D.conn source s Ctx) (deleteWhere b t raw cs) ctx
     e.fin = .ok ∧ D.rows (D.after s e.sent) = (D.rows s).filter fun r => !described C cs r) := by
  refine ⟨?_, ?_⟩
  · intro e
    obtain ⟨w, x, vs, i1, i2, i3, i4, i5⟩ := C80_update_partial b t raw cols rec cs h hc hlen
    obtain ⟨e1, e2⟩ := exec_does D s source hs o ctx (updateWhere b t raw cols rec cs) b.lang.dialect
      (by simp only [updateWhere, UpdateQ.node, Dial.getDialect]; rfl) i1
    rw [show (toSQL b.lang.dialect (updateWhere b t raw cols rec cs)).query = _ from i2,
      show (toSQL b.lang.dialect (updateWhere b t raw cols rec cs)).args = _ from i3] at e2
    refine ⟨e1, ?_⟩
    rw [show D.after s e.sent = _ from e2, ← chosen_described C cs x i5]
    exact hD.update s rec vs w x hlen i4
  · intro e
    obtain ⟨w, x, i1, i2, i3, i4⟩ := C80_delete_partial b t raw cs h
    obtain ⟨e1, e2⟩ := exec_does D s source hs o ctx (deleteWhere b t raw cs) b.lang.dialect
      (by simp only [deleteWhere, DeleteQ.node, Dial.getDialect]; rfl) i1
    rw [show (toSQL b.lang.dialect (deleteWhere b t raw cs)).query = _ from i2] at e2
    refine ⟨e1, ?_⟩
    rw [show D.after s e.sent = _ from e2, ← chosen_described C cs x i4]
    exact hD.delete s _ w x i3

/-! ### A database that reads WHERE clauses -/

/-- One table in memory, which knows one SELECT, one UPDATE and one DELETE statement and reads what stands behind their WHERE. -/
def memory (C : Compare) (l : Lang) (t : Tab) (cols : List Str) : Database :=
  { State := List Row
    exec := fun text args s =>
      (if text.head? = some 'U' then
        match readWhere l t.label args cols.length (text.drop (Where.updateText l t cols []).length) with
        | some e => s.map fun r => if chosen C e r then Row.set r (cols.zip (scalars (args.take cols.length))) else r
        | none => s
      else
        match readWhere l t.label args 0 (text.drop (Where.deleteText l t []).length) with
        | some e => s.filter fun r => !chosen C e r
        | none => s, 0, 0)
    query := fun text args s =>
      match readWhere l t.label args 0 (text.drop (Where.selectText l t cols []).length) with
      | some e => (s.filter (chosen C e)).map fun r => cols.map r
      | none => []
    rows := id
    eq := fun x y => decide (x = y) }

theorem select_prefix (l : Lang) (t : Tab) (cols : List Str) (w : Str) : Where.selectText l t cols w = Where.selectText l t cols [] ++ w := by
  unfold Where.selectText
  generalize " WHERE ".toList = k
  simp only [List.append_assoc, List.append_nil]
theorem update_prefix (l : Lang) (t : Tab) (cols : List Str) (w : Str) : Where.updateText l t cols w = Where.updateText l t cols [] ++ w := by
  unfold Where.updateText
  generalize " WHERE ".toList = k
  generalize "UPDATE ".toList = k
  generalize " SET ".toList = k
  simp only [List.append_assoc, List.append_nil]
theorem delete_prefix (l : Lang) (t : Tab) (w : Str) : Where.deleteText l t w = Where.deleteText l t [] ++ w := by
  unfold Where.deleteText
  generalize " WHERE ".toList = k
  generalize "DELETE FROM ".toList = k
  simp only [List.append_assoc, List.append_nil]

/-- The hypothesis of the theorems is met. -/
theorem memory_understands (C : Compare) (l : Lang) (t : Tab) (cols : List Str) : Where.Understands (memory C l t cols) C l t cols where
  select := by
    intro (s : List Row) args w e h
    show (match readWhere l t.label args 0 ((Where.selectText l t cols w).drop (Where.selectText l t cols []).length) with
      | some e => (List.filter (chosen C e) s).map fun r => cols.map r
      | none => []) = (s.filter (chosen C e)).map fun r => cols.map r
    rw [select_prefix l t cols w, List.drop_left, h]
  update := by
    intro (s : List Row) rec args w e hlen h
    have hh : (Where.updateText l t cols w).head? = some 'U' := by
      unfold Where.updateText
      rw [show "UPDATE ".toList = 'U' :: "PDATE ".toList by decide +kernel]
      rfl
    refine (if_pos hh : (if (Where.updateText l t cols w).head? = some 'U' then
        match readWhere l t.label (rec.map Arg.val ++ args) cols.length ((Where.updateText l t cols w).drop (Where.updateText l t cols []).length) with
        | some e => s.map fun r => if chosen C e r then Row.set r (cols.zip (scalars ((rec.map Arg.val ++ args).take cols.length))) else r
        | none => s
      else
        match readWhere l t.label (rec.map Arg.val ++ args) 0 ((Where.updateText l t cols w).drop (Where.deleteText l t []).length) with
        | some e => s.filter fun r => !chosen C e r
        | none => s) = _).trans ?_
    rw [update_prefix l t cols w, List.drop_left, h]
    show List.map _ s = List.map _ s
    rw [show (rec.map Arg.val ++ args).take cols.length = rec.map .val by rw [← hlen, List.take_append_of_le_length (by simp), List.take_of_length_le (by simp)], scalars_vals]
  delete := by
    intro (s : List Row) args w e h
    have hh : ¬ (Where.deleteText l t w).head? = some 'U' := by
      unfold Where.deleteText
      rw [show "DELETE FROM ".toList = 'D' :: "ELETE FROM ".toList by decide +kernel]
      show ¬ some 'D' = some 'U'
      decide
    refine (if_neg hh : (if (Where.deleteText l t w).head? = some 'U' then
        match readWhere l t.label args cols.length ((Where.deleteText l t w).drop (Where.updateText l t cols []).length) with
        | some e => s.map fun r => if chosen C e r then Row.set r (cols.zip (scalars (args.take cols.length))) else r
        | none => s
      else
        match readWhere l t.label args 0 ((Where.deleteText l t w).drop (Where.deleteText l t []).length) with
        | some e => s.filter fun r => !chosen C e r
        | none => s) = _).trans ?_
    rw [delete_prefix l t w, List.drop_left, h]
    rfl

/-- An example: NULL is neither equal nor unequal to anything. -/
def plainCompare : Compare :=
  { op := fun op a b =>
      match a, b with
      | .int x, .int y => some (match op with | .eq => x == y | .ne => x != y | .gt => decide (x > y) | .ge => decide (x ≥ y) | .lt => decide (x < y) | _ => decide (x ≤ y))
      | .nil, _ | _, .nil => none
      | a, b => some (match op with | .eq => a == b | .ne => a != b | _ => false)
    null := fun v => v == .nil }

def users : Tab := { schema := [], name := "users".toList, alias := "u".toList }
def user (id age : Scalar) : Row := fun c => if c = "id".toList then id else age

/-- `u.id > 1 AND (u.age IS NULL OR NOT (u.age = 7 AND u.id IN (2, 3)))` -/
def someConds : List (Cond Str) :=
  [.test false (.cmp .gt "id".toList (.val (.int 1))),
   .group true false [.test false (.null "age".toList),
     .group false true [.test false (.cmp .eq "age".toList (.val (.int 7))), .test false (.among "id".toList [.int 2, .int 3])]]]

theorem no_pair {q : Char} {s : Str} (h : q ∉ s) : ¬ _root_.Spec.InnerPair q s := by
  rintro ⟨a, c, b, rfl⟩
  exact h (by simp)

theorem readable_id : Readable .postgres "id".toList ∧ Readable .postgres "age".toList ∧ Readable .postgres "u".toList := by
  refine ⟨⟨?_, fun _ => by decide +kernel⟩, ⟨?_, fun _ => by decide +kernel⟩, ⟨?_, fun _ => by decide +kernel⟩⟩ <;> exact no_pair (by decide +kernel)

example : Sound .postgres users someConds where
  named := by decide +kernel
  fine := by simp [someConds, Cond.fine, allFine]
  label := readable_id.2.2
  columns := by
    intro c hc
    simp only [someConds, columns, Cond.columns, Test.columns, Rhs.columns, List.append_nil, List.cons_append, List.nil_append, List.mem_cons, List.not_mem_nil,
      or_false] at hc
    rcases hc with rfl | rfl | rfl | rfl
    · exact readable_id.1
    · exact readable_id.2.1
    · exact readable_id.2.1
    · exact readable_id.1

def outside : Outside Scalar :=
  { value := { verb := .insert, goType := some .postgres, env := 0 }, own := fun _ => .other, getFields := fun _ => .err []
    setFields := fun _ _ => .err [], name := fun _ => ([], .ok []), show_ := fun _ => .ok [] }

/-- Fetching the ids and ages of the users the conditions describe, from a database in memory. -/
def ages (cs : List (Cond Str)) (s : List Row) : List (List Scalar) :=
  (fetch outside ((memory plainCompare .postgres users ["id".toList, "age".toList]).conn .noLogger s Unit)
    (fromWhere { lang := .postgres, env := none } users (fun _ => false) cs) (fun _ => Scalar.nil) (fun _ v => some v)
    (reads users (fun _ => false) (fun _ => .custom 0) ["id".toList, "age".toList]) () []).trace

example : (ownSQL (selectWhere { lang := .postgres, env := none } users (fun _ => false) ["id".toList] someConds)).query =
      "SELECT u.id FROM users AS u WHERE u.id > $1 AND (u.age IS NULL OR NOT (u.age = $2 AND u.id IN ($3, $4)))".toList ∧
    ages someConds [user (.int 1) (.int 7), user (.int 2) (.int 7), user (.int 3) .nil, user (.int 4) (.int 7)] =
      [[.int 3, .nil], [.int 4, .int 7]] := by decide +kernel

/-- **C80 (violated).** `Where(Not(Or(a, b)))` is sent as `NOT a OR b`: on a database that reads WHERE as SQL does it fetches records that the condition does
not describe (here: the record for which `b` holds). -/
theorem C80_negated_violated :
    let cs : List (Cond Str) := [.group true true [.test false (.cmp .eq "id".toList (.val (.int 1))), .test false (.cmp .eq "age".toList (.val (.int 7)))]]
    let r := user (.int 2) (.int 7)
    Where.Understands (memory plainCompare .postgres users ["id".toList, "age".toList]) plainCompare .postgres users ["id".toList, "age".toList] ∧
    described plainCompare cs r = false ∧ ages cs [r] = [[.int 2, .int 7]] :=
  ⟨memory_understands _ _ _ _, by decide +kernel, by decide +kernel⟩

end RoundTrip

end Sq.Choosing
