import Verif.Props.Store
/-
C78 for the other way to write the same statements: Columns(...).Values(...)... instead of Valuesx(...), Set(...) instead of Setx(...).
-/
namespace Sq.Storing
open Sq Sq.Spec Sq.Chain Sq.Exprs Sq.Exprs.Writing Sq.Spec.Store

/-- `InsertInto(t).Columns(cols...).Values(rec1...).Values(rec2...)...` -/
def valuesQuery (b : Builder) (t : Tab) (raw : Str → Bool) (cols : List Str) (recs : List (List Scalar)) : Node :=
  (Chain.insert b (.insertInto t.node) (.columns (cols.map (t.field raw)) :: recs.map fun r => .values (r.map .scalar))).node

/-- `Update(t).Set(col1.Set(v1), col2.Set(v2), ...).Where(key.Eq(v))` -/
def setQuery (b : Builder) (t : Tab) (raw : Str → Bool) (cols : List Str) (rec : List Scalar) (key : Str) (v : Scalar) : Node :=
  (Chain.update b (.update t.node) [.set (setAll t raw cols [rec]), .where [keyIs t raw key v]]).node

theorem foldl_values (q : InsertQ) (recs : List (List Scalar)) :
    (recs.map fun r => InsertCall.values (r.map Node.scalar)).foldl InsertCall.run q = { q with rows := q.rows ++ recs.map (·.map Node.scalar) } := by
  induction recs generalizing q with
  | nil => simp
  | cons r recs ih => simp [ih, InsertCall.run]

theorem values_calls (b : Builder) (t : Tab) (raw : Str → Bool) (cols : List Str) (recs : List (List Scalar)) :
    valuesQuery b t raw cols recs = InsertQ.node
      { dialect := b.lang.dialect, env := b.env, into := t.node, columns := cols.map (t.field raw), rows := recs.map (·.map Node.scalar) } := by
  simp [valuesQuery, Chain.insert, foldl_values, InsertCall.run, InsertStart.run]

/-- **C78 (storing, row by row).** `InsertInto(table).Columns(...).Values(...)...` is the same statement, with the same arguments, as the one
`Valuesx` gives. -/
theorem C78_values (b : Builder) (t : Tab) (raw : Str → Bool) (cols : List Str) (recs : List (List Scalar)) (hn : t.name ≠ [])
    (ha : b.lang = .mysql → t.alias = []) (hc : cols ≠ []) (hr : recs ≠ []) (hlen : ∀ r ∈ recs, r.length = cols.length) :
    (ownSQL (valuesQuery b t raw cols recs)).status = .ok ∧
    (ownSQL (valuesQuery b t raw cols recs)).query = insertText b.lang t cols recs.length ∧
    (ownSQL (valuesQuery b t raw cols recs)).args = recs.flatten.map .val := by
  have h := own (n := valuesQuery b t raw cols recs) (l := b.lang) (by rw [values_calls]; rfl)
    (xs := [.text "INSERT INTO ".toList] ++ (srcParts b.lang.dialect t ++ (.text " (".toList :: (listed ", ".toList (cols.map fun c => [.text (quoteIdentifier b.lang.dialect c)]) ++ (.text ")".toList :: .text " VALUES ".toList :: listed ", ".toList (recs.map rowParts))))))
    (ps := [.text "INSERT INTO ".toList] ++ (source { d := b.lang.dialect, env := b.env } t.node ++ (.text " (".toList ::
        (values { d := b.lang.dialect, env := b.env, ex := [t.label] } (cols.map (t.field raw)) ++ (.text ")".toList :: .text " VALUES ".toList ::
        listed ", ".toList ((recs.map (·.map Node.scalar)).map (row { d := b.lang.dialect })))))))
    (by
      have hq : Spec.qualifier t.node = t.label := rfl
      obtain ⟨l, env⟩ := b
      rw [values_calls]
      cases l <;> simp [InsertQ.node, Spec.construct, and_, with_, joined,
        ifAny, condition, number, ifTable, effEnv, Lang.dialect, insertData, supply, conflict, hq, hr, hc])
    (by
      rw [values_calls]
      exact
      { mapperWorks := fun h => by simp at h
        ignoreAllowed := fun h => by simp at h
        someTable := node_ne t
        aliasAllowed := fun h hm => h (ha (by
          obtain ⟨l, env⟩ := b
          cases l <;> simp [Lang.dialect] at hm ⊢))
        rowAliasAllowed := fun _ h => (h rfl).elim
        something := .inl (by simpa [insertData] using hr)
        constraintAllowed := fun h => (h rfl).elim
        returningAllowed := fun h => (h rfl).elim } : _)
    ((Adds.text _).append ((adds_src _ t _).append (Adds.cons _ ((adds_columns t raw _ _ hn).append (Adds.cons _ (Adds.cons _ (adds_rows recs)))))))
    (Flat.cons _ ((srcParts_flat _ _).append (Flat.cons _ (Flat.append (flat_listed _ _ fun c _ => Flat.text _) (Flat.cons _ (Flat.cons _
      (flat_listed _ _ fun r _ => Flat.cons _ (Flat.append (flat_listed _ _ fun c _ => Flat.value _) (Flat.text _)))))))))
  have ht := fun i => flat_texts b.lang.dialect i (quoteIdentifier b.lang.dialect) cols
  have hv := fun i => flat_rows b.lang cols.length i recs hlen
  refine ⟨h.1, h.2.1.trans ?_, h.2.2.trans ?_⟩ <;> clear h
  · unfold insertText
    generalize "INSERT INTO ".toList = k0
    generalize " (".toList = k1
    rw [show ") VALUES ".toList = ")".toList ++ " VALUES ".toList by decide +kernel]
    generalize ")".toList = k2
    generalize " VALUES ".toList = k3
    simp only [List.cons_append, List.nil_append, flat_text, flat_append, vals_src, flat_src, List.append_assoc, List.length_nil, Nat.add_zero, (ht _).1, (ht 0).2, (hv _).1, Nat.zero_add]
  · simp only [List.cons_append, List.nil_append, vals_text, vals_append, vals_src, (ht 0).2, (hv 0).2]

/-- **C78 (changing, assignment by assignment).** `Update(table).Set(...).Where(key.Eq(v))` is the same statement, with the same arguments, as the one
`Setx` gives. -/
theorem C78_set (b : Builder) (t : Tab) (raw : Str → Bool) (cols : List Str) (rec : List Scalar) (key : Str) (v : Scalar) (hn : t.name ≠ [])
    (hc : cols ≠ []) (hlen : rec.length = cols.length) :
    (ownSQL (setQuery b t raw cols rec key v)).status = .ok ∧
    (ownSQL (setQuery b t raw cols rec key v)).query = updateText b.lang t cols key ∧
    (ownSQL (setQuery b t raw cols rec key v)).args = rec.map .val ++ [.val v] := by
  let ex : List Str := if b.lang = .mysql then [] else [t.label]
  have hset : setAll t raw cols [rec] = (cols.map (t.field raw)).zip (rec.map Node.scalar) := by simp [setAll]
  have hne : (cols.map (t.field raw)).zip (rec.map Node.scalar) ≠ [] := by
    cases cols with
    | nil => exact (hc rfl).elim
    | cons c cs => cases rec with
      | nil => simp at hlen
      | cons v vs => simp
  have h := own (n := setQuery b t raw cols rec key v) (l := b.lang) rfl
    (xs := [.text "UPDATE ".toList] ++ (srcParts b.lang.dialect t ++ (.text " SET ".toList :: (listed ", ".toList ((cols.zip rec).map (setPart fun c => if isExcluded ex t.label then quoteIdentifier b.lang.dialect c else t.column b.lang.dialect c)) ++ keyParts b.lang.dialect t key v))))
    (ps := [.text "UPDATE ".toList] ++ (source { d := b.lang.dialect, env := b.env } t.node ++ (.text " SET ".toList ::
        (assignments { d := b.lang.dialect, env := b.env, ex := ex } ((cols.map (t.field raw)).zip (rec.map Node.scalar)) ++
        condition { d := b.lang.dialect, env := b.env } " WHERE ".toList (and_ [keyIs t raw key v])))))
    (by
      have hq : Spec.qualifier t.node = t.label := rfl
      obtain ⟨l, env⟩ := b
      cases l <;> simp [setQuery, Chain.update, UpdateCall.run, UpdateStart.run, UpdateQ.node, Spec.construct, and_, with_, joined,
        ifAny, condition, number, ifTable, effEnv, Lang.dialect, hset, ex, hq])
    (show UpdateNeeds _ _ _ t.node .nil [] (setAll t raw cols [rec]) [] [] [] from
      { mapperWorks := fun h => by simp [Chain.update, UpdateCall.run, UpdateStart.run] at h
        someTable := node_ne t
        something := by
          show setAll t raw cols [rec] ≠ []
          rw [hset]
          exact hne
        fromAllowed := fun h => (h rfl).elim
        joinable := fun h => (h rfl).elim
        hooksAnswer := fun x hx => by
          rcases List.mem_cons.1 hx with rfl | hx
          · exact node_answers t _
          · rw [List.mem_singleton.1 hx]
            exact id
        limitsAllowed := ⟨fun h => by simp [Chain.update, UpdateCall.run, UpdateStart.run] at h, fun h => by simp [Chain.update, UpdateCall.run, UpdateStart.run] at h⟩
        returningAllowed := fun h => (h rfl).elim })
    ((Adds.text _).append ((adds_src _ t _).append (Adds.cons _ ((adds_sets t raw cols rec { d := b.lang.dialect, env := b.env, ex := ex } rfl hn).append (adds_key _ t raw key v hn _)))))
    (Flat.cons _ ((srcParts_flat _ _).append (Flat.cons _ (Flat.append (flat_listed _ _ fun c _ => Flat.cons _ (Flat.cons _ (Flat.value _))) (keyParts_flat _ _ _ _)))))
  have htg : (fun c => if isExcluded ex t.label then quoteIdentifier b.lang.dialect c else t.column b.lang.dialect c) = target b.lang t := by
    funext c
    unfold target
    by_cases hm : b.lang = .mysql
    · rw [if_pos hm, if_neg (by simp [ex, hm, excluded_nil])]
    · rw [if_neg hm, if_pos (by simp [ex, hm, excluded_self])]
  rw [htg] at h
  have ht := fun i => flat_sets b.lang (target b.lang t) i cols rec hlen
  refine ⟨h.1, h.2.1.trans ?_, h.2.2.trans ?_⟩ <;> clear h
  · unfold updateText
    generalize "UPDATE ".toList = k0
    generalize " SET ".toList = k1
    simp only [List.cons_append, List.nil_append, flat_text, flat_append, vals_src, flat_src, flat_key, List.append_assoc, List.length_nil, Nat.add_zero, (ht _).1, (ht 0).2, Nat.zero_add, List.length_map, hlen]
  · simp only [List.cons_append, List.nil_append, vals_text, vals_append, vals_src, vals_key, (ht 0).2]

section RoundTrip
open Sq.Sending Sq.Fetching.Spec Sq.Spec.Send

variable {Ctx V : Type}

/-- **C78 (row by row).** As `C78_stored`, for records stored with `Columns(...).Values(...)...`. -/
theorem C78_stored_values (D : Database) (b : Builder) (t : Tab) (raw : Str → Bool) (cols : List Str) (key : Str)
    (hD : Understands D b.lang t cols key) (s : D.State) (source : Logging.LogSource) (hs : source.Usable) (o : Outside V) (ctx ctx' : Ctx)
    (zero : Fetching.Kind → V) (conv : Fetching.Kind → Scalar → Option V) (get : Fetching.Kind → Scalar → V) (kind : Str → Fetching.Kind)
    (hn : t.name ≠ []) (ha : b.lang = .mysql → t.alias = []) (hc : cols ≠ [])
    (recs : List (List Scalar)) (hr : recs ≠ []) (hlen : ∀ r ∈ recs, r.length = cols.length)
    (hold : ∀ r ∈ D.rows s, ∀ x ∈ cols, conv (kind x) (r x) = some (get (kind x) (r x)))
    (hnew : ∀ rec ∈ recs, ∀ x ∈ cols.zip rec, conv (kind x.1) x.2 = some (get (kind x.1) x.2)) :
    let e := Sending.exec o (D.conn source s Ctx) (valuesQuery b t raw cols recs) ctx
    let f := fetch o (D.conn source (D.after s e.sent) Ctx) (fromQuery b t) zero conv (reads t raw kind cols) ctx' []
    e.fin = .ok ∧ f.fin = .ok ∧ f.count = (D.rows s).length + recs.length ∧
    f.trace = ((D.rows s).map fun r => cols.map fun x => get (kind x) (r x)) ++
      recs.map fun rec => (cols.zip rec).map fun x => get (kind x.1) x.2 := by
  intro e f
  obtain ⟨i1, i2, i3⟩ := C78_values b t raw cols recs hn ha hc hr hlen
  have hos : ownSQL (valuesQuery b t raw cols recs) = toSQL b.lang.dialect (valuesQuery b t raw cols recs) := by rw [values_calls]; rfl
  rw [hos] at i1 i2 i3
  obtain ⟨e1, e2⟩ := exec_does D s source hs o ctx (valuesQuery b t raw cols recs) b.lang.dialect
    (by rw [values_calls]; simp only [InsertQ.node, Dial.getDialect]) i1
  obtain ⟨new, n1, n2⟩ := hD.insert s recs hr hlen
  obtain ⟨q1, q2, q3⟩ := C78_select b t raw cols hn hc
  rw [show (toSQL b.lang.dialect (valuesQuery b t raw cols recs)).query = _ from i2,
    show (toSQL b.lang.dialect (valuesQuery b t raw cols recs)).args = _ from i3] at e2
  have hrows : D.rows (D.after s e.sent) = D.rows s ++ new := by rw [show D.after s e.sent = _ from e2]; exact n1
  have hfetch := fetch_reads D (D.after s e.sent) source hs o zero conv get t raw kind cols hc ctx' (fromQuery b t)
    (selectQuery b t raw cols) b.lang.dialect (by simp only [fromQuery, SelectQ.node, Dial.getDialect]; rfl) trivial (.select ..) q1
    (D.rows s ++ new)
    (by
      rw [show (toSQL b.lang.dialect (selectQuery b t raw cols)).query = _ from q2,
        show (toSQL b.lang.dialect (selectQuery b t raw cols)).args = _ from q3, hD.select, hrows])
    (by
      intro r hr x hx
      rcases List.mem_append.1 hr with hr | hr
      · exact hold r hr x hx
      · have : cols.map r ∈ recs := by rw [← n2]; exact List.mem_map_of_mem hr
        have := hnew _ this (x, r x) (mem_zip_map r _ x hx)
        exact this)
  refine ⟨e1, hfetch.1, ?_, ?_⟩
  · rw [show f.count = _ from hfetch.2.1, List.length_append, ← n2, List.length_map]
  · rw [show f.trace = _ from hfetch.2.2.1, List.map_append, rec_of_row _ _ _ new recs n2]

/-- **C78 (assignment by assignment).** `Update(...).Set(...).Where(key.Eq(v))` changes exactly the records with that key, to the given values. -/
theorem C78_changed_set (D : Database) (b : Builder) (t : Tab) (raw : Str → Bool) (cols : List Str) (key : Str) (hD : Understands D b.lang t cols key)
    (s : D.State) (source : Logging.LogSource) (hs : source.Usable) (o : Outside V) (ctx : Ctx) (hn : t.name ≠ []) (hc : cols ≠ [])
    (rec : List Scalar) (hlen : rec.length = cols.length) (v : Scalar) :
    let e := Sending.exec o (D.conn source s Ctx) (setQuery b t raw cols rec key v) ctx
    e.fin = .ok ∧ D.rows (D.after s e.sent) = (D.rows s).map fun r => if D.eq (r key) v then Row.set r (cols.zip rec) else r := by
  intro e
  obtain ⟨i1, i2, i3⟩ := C78_set b t raw cols rec key v hn hc hlen
  obtain ⟨e1, e2⟩ := exec_does D s source hs o ctx (setQuery b t raw cols rec key v) b.lang.dialect
    (by simp only [setQuery, UpdateQ.node, Dial.getDialect]; rfl) i1
  rw [show (toSQL b.lang.dialect (setQuery b t raw cols rec key v)).query = _ from i2,
    show (toSQL b.lang.dialect (setQuery b t raw cols rec key v)).args = _ from i3] at e2
  exact ⟨e1, by rw [show D.after s e.sent = _ from e2]; exact hD.update s rec v hlen⟩

/-- An example: two records stored in a table that has one already. -/
example :
    let o : Outside Scalar := { value := { verb := .insert, goType := some .postgres, env := 0 }, own := fun _ => .other, getFields := fun _ => .err []
                                setFields := fun _ _ => .err [], name := fun _ => ([], .ok []), show_ := fun _ => .ok [] }
    let D := memory ["id".toList, "name".toList] "id".toList
    let b : Builder := { lang := .mysql, env := none }
    let recs := [[.int 2, .str "bob".toList], [.int 3, .nil]]
    let e := Sending.exec o (D.conn .noLogger [anybody] Unit) (valuesQuery b people (fun _ => false) ["id".toList, "name".toList] recs) ()
    let u := Sending.exec o (D.conn .noLogger (D.after [anybody] e.sent) Unit) (setQuery b people (fun _ => false) ["id".toList, "name".toList]
      [.int 4, .str "eve".toList] "id".toList (.int 3)) ()
    let f := fetch o (D.conn .noLogger (D.after (D.after [anybody] e.sent) u.sent) Unit) (fromQuery b people) (fun _ => Scalar.nil) (fun _ v => some v)
      (reads people (fun _ => false) (fun _ => .custom 0) ["id".toList, "name".toList]) () []
    e.sent = some ((), "INSERT INTO people (id, name) VALUES (?, ?), (?, ?)".toList,
      [.val (.int 2), .val (.str "bob".toList), .val (.int 3), .val .nil]) ∧
    f.trace = [[.int 1, .str "ann".toList], [.int 2, .str "bob".toList], [.int 4, .str "eve".toList]] := by
  decide +kernel

end RoundTrip

end Sq.Storing
