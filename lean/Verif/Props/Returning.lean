import Verif.Spec.Returning
import Verif.Props.Where
/-
C85: statements that give back what they stored, changed or removed.
-/
namespace Sq.Returns
open Sq Sq.Spec Sq.Chain Sq.Exprs Sq.Spec.Store Sq.Spec.Where Sq.Choosing
open Sq.Storing hiding pieces
open _root_.Spec (Tok tokens BTok BExp readBool identClose isBareIdent)

theorem returning_dialect (b : Builder) (hm : b.lang ≠ .mysql) : b.lang.dialect = .postgres ∨ b.lang.dialect = .sqlite := by
  obtain ⟨l, env⟩ := b
  cases l <;> simp_all [Lang.dialect]

/-! ### RETURNING is what comes last -/

def asked (b : Builder) (t : Tab) (raw : Str → Bool) (ret : List Str) : List Part :=
  .text " RETURNING ".toList :: items { d := b.lang.dialect, env := b.env } (ret.map (t.field raw))
def retParts (l : Lang) (t : Tab) (ret : List Str) : List Part :=
  .text " RETURNING ".toList :: listed ", ".toList (ret.map fun c => [.text (t.column l.dialect c)])

theorem adds_ret (b : Builder) (t : Tab) (raw : Str → Bool) (ret : List Str) (hn : t.name ≠ []) : Adds b.lang.dialect (asked b t raw ret) (retParts b.lang t ret) :=
  Adds.cons _ (adds_items t raw ret _ hn)
theorem retParts_flat (l : Lang) (t : Tab) (ret : List Str) : Flat (retParts l t ret) := Flat.cons _ (flat_listed _ _ fun _ _ => Flat.text _)
theorem flat_ret (l : Lang) (t : Tab) (ret : List Str) (i : Nat) : flat l.dialect i (retParts l t ret) = Returning.returningText l t ret := by
  unfold retParts Returning.returningText
  rw [flat_text, (flat_texts l.dialect i (t.column l.dialect) ret).1]
theorem vals_ret (l : Lang) (t : Tab) (ret : List Str) : vals (retParts l t ret) = [] := (flat_texts l.dialect 0 (t.column l.dialect) ret).2

theorem ifAny_nil {α : Type} (kw : Str) (ps : List Part) : ifAny kw ([] : List α) ps = [] := rfl
theorem ifAny_cons {α : Type} (kw : Str) {xs : List α} (h : xs ≠ []) (ps : List Part) : ifAny kw xs ps = .text kw :: ps := by
  cases xs with
  | nil => exact absurd rfl h
  | cons x xs => rfl

theorem construct_delete (m0 : Mode) (q : ModMeta) (ctes froms : List Node) (us : Node) (joins : List Node) (wh : Node) (ob ret : List Node) (h : ret ≠ [])
    {ps : List Part} (hc : Spec.construct m0 (.delete q ctes froms us joins wh ob []) = some ps) :
    Spec.construct m0 (.delete q ctes froms us joins wh ob ret) =
      some (ps ++ .text " RETURNING ".toList :: items { d := m0.d, env := effEnv m0.env q.env } ret) := by
  simp only [Spec.construct] at hc ⊢
  split at hc
  · cases hc
  · rename_i hn
    rw [if_neg hn]
    rw [← Option.some.inj hc]
    unfold deleteParts
    rw [ifAny_cons _ h, ifAny_nil, List.append_nil]

theorem construct_update (m0 : Mode) (q : ModMeta) (ctes : List Node) (t from_ : Node) (joins : List Node) (as sets : List (Node × Node)) (wh : Node)
    (ob ret : List Node) (h : ret ≠ []) {ps : List Part} (hc : Spec.construct m0 (.update q ctes t from_ joins as sets wh ob []) = some ps) :
    Spec.construct m0 (.update q ctes t from_ joins as sets wh ob ret) =
      some (ps ++ .text " RETURNING ".toList :: items { d := m0.d, env := effEnv m0.env q.env } ret) := by
  simp only [Spec.construct] at hc ⊢
  rw [← Option.some.inj hc, ifAny_cons _ h, ifAny_nil, List.append_nil]

theorem construct_insert (m0 : Mode) (q : InsMeta) (ctes : List Node) (into : Node) (cols : List Node) (rows : List (List Node)) (sets : List (Node × Node))
    (sel : Node) (cf : List Node) (cp : Node) (res : List (Node × Node)) (rp : Node) (ret : List Node) (h : ret ≠ [])
    {ps : List Part} (hc : Spec.construct m0 (.insert q ctes into cols rows sets sel cf cp res rp []) = some ps) :
    Spec.construct m0 (.insert q ctes into cols rows sets sel cf cp res rp ret) =
      some (ps ++ .text " RETURNING ".toList :: items { d := m0.d, env := effEnv m0.env q.env } ret) := by
  simp only [Spec.construct] at hc ⊢
  rw [← Option.some.inj hc, ifAny_cons _ h, ifAny_nil, List.append_nil]

/-- **C85, the INSERT statement.** -/
theorem C85_insert (b : Builder) (t : Tab) (raw : Str → Bool) (c : Str) (cs : List Str) (recs : List (List Scalar)) (hn : t.name ≠ [])
    (hd : c ∉ cs) (ret : List Str) (hret : ret ≠ []) (hm : b.lang ≠ .mysql) (hr : recs ≠ []) (hlen : ∀ r ∈ recs, r.length = (c :: cs).length) :
    (ownSQL (Returning.insertQuery b t raw (c :: cs) recs ret)).status = .ok ∧
    (ownSQL (Returning.insertQuery b t raw (c :: cs) recs ret)).query = Returning.insertText b.lang t (c :: cs) recs.length ret ∧
    (ownSQL (Returning.insertQuery b t raw (c :: cs) recs ret)).args = recs.flatten.map .val := by
  have hdata : columnInsert Node.name (setAll t raw (c :: cs) recs) = ((c :: cs).map (t.field raw), recs.map (·.map Node.scalar)) := by
    have := C26_rectangular Node.name (t.field raw c) (cs.map (t.field raw)) (by
      intro g hg
      obtain ⟨x, hx, rfl⟩ := List.mem_map.1 hg
      show x ≠ c
      rintro rfl
      exact hd hx) (recs.map (·.map Node.scalar)) (by simpa using hr) (by
      intro r hr
      obtain ⟨x, hx, rfl⟩ := List.mem_map.1 hr
      simpa using hlen x hx)
    rw [← List.map_cons] at this
    rw [← this]
    congr 1
    simp only [setAll, mapperCalls, rowCalls, List.map_map, List.flatMap]
    rfl
  have h := own (n := Returning.insertQuery b t raw (c :: cs) recs ret) (l := b.lang) rfl
    (xs := ([.text "INSERT INTO ".toList] ++ (srcParts b.lang.dialect t ++ (.text " (".toList :: (listed ", ".toList ((c :: cs).map fun c => [.text (quoteIdentifier b.lang.dialect c)]) ++ (.text ")".toList :: .text " VALUES ".toList :: listed ", ".toList (recs.map rowParts)))))) ++ retParts b.lang t ret)
    (ps := ([.text "INSERT INTO ".toList] ++ (source { d := b.lang.dialect, env := b.env } t.node ++ (.text " (".toList ::
        (values { d := b.lang.dialect, env := b.env, ex := [t.label] } ((c :: cs).map (t.field raw)) ++ (.text ")".toList :: .text " VALUES ".toList ::
        listed ", ".toList ((recs.map (·.map Node.scalar)).map (row { d := b.lang.dialect }))))))) ++ asked b t raw ret)
    (construct_insert _ _ _ _ _ _ _ _ _ _ _ _ _ (show ret.map (t.field raw) ≠ [] by simpa using hret) <| show Spec.construct _ (Store.insertQuery b t raw (c :: cs) recs) = _ by
      have hq : Spec.qualifier t.node = t.label := rfl
      obtain ⟨l, env⟩ := b
      cases l <;> simp [Store.insertQuery, Chain.insert, InsertCall.run, InsertStart.run, InsertQ.node, Spec.construct, and_, with_, joined,
        ifAny, condition, number, ifTable, effEnv, Lang.dialect, insertData, hdata, supply, conflict, hq, hr])
    (show InsertNeeds _ _ t.node [] [] (setAll t raw (c :: cs) recs) .nil (ret.map (t.field raw)) from
      { mapperWorks := fun _ => ⟨rfl, fun s hs => by
          obtain ⟨rec, _, hs⟩ := List.mem_flatMap.1 hs
          obtain ⟨c, _, hc'⟩ := List.mem_map.1 (List.of_mem_zip (show (s.1, s.2) ∈ _ from hs)).1
          rw [← hc']
          simp [Tab.field]⟩
        ignoreAllowed := fun h => by simp [Chain.insert, InsertCall.run, InsertStart.run] at h
        someTable := node_ne t
        aliasAllowed := fun _ h' => hm (by
          obtain ⟨l, env⟩ := b
          cases l <;> simp [Lang.dialect] at h' ⊢)
        rowAliasAllowed := fun _ h => (h rfl).elim
        something := .inl (by
          show (columnInsert Node.name (setAll t raw (c :: cs) recs)).2 ≠ []
          rw [hdata]
          simpa using hr)
        constraintAllowed := fun h => (h rfl).elim
        returningAllowed := fun _ => returning_dialect b hm })
    (((Adds.text _).append ((adds_src _ t _).append (Adds.cons _ ((adds_columns t raw _ _ hn).append (Adds.cons _ (Adds.cons _ (adds_rows recs))))))).append (adds_ret b t raw ret hn))
    (Flat.append (Flat.cons _ ((srcParts_flat _ _).append (Flat.cons _ (Flat.append (flat_listed _ _ fun c _ => Flat.text _) (Flat.cons _ (Flat.cons _
      (flat_listed _ _ fun r _ => Flat.cons _ (Flat.append (flat_listed _ _ fun c _ => Flat.value _) (Flat.text _))))))))) (retParts_flat _ _ _))
  have ht := fun i => flat_texts b.lang.dialect i (quoteIdentifier b.lang.dialect) (c :: cs)
  have hv := fun i => flat_rows b.lang (c :: cs).length i recs hlen
  refine ⟨h.1, h.2.1.trans ?_, h.2.2.trans ?_⟩ <;> clear h
  · rw [flat_append, flat_ret]
    unfold Returning.insertText Store.insertText
    generalize "INSERT INTO ".toList = k0
    generalize " (".toList = k1
    rw [show ") VALUES ".toList = ")".toList ++ " VALUES ".toList by decide +kernel]
    generalize ")".toList = k2
    generalize " VALUES ".toList = k3
    simp only [List.cons_append, List.nil_append, flat_text, flat_append, vals_src, flat_src, List.append_assoc, List.length_nil, Nat.add_zero, (ht _).1, (ht 0).2, (hv _).1, Nat.zero_add]
  · rw [vals_append, vals_ret, List.append_nil]
    simp only [List.cons_append, List.nil_append, vals_text, vals_append, vals_src, (ht 0).2, (hv 0).2]

/-- **C85 (partial), the DELETE statement.** As `C80_delete_partial`, with what is given back at the end. -/
theorem C85_delete_partial (b : Builder) (t : Tab) (raw : Str → Bool) (cs : List (Cond Str)) (h : Choosing.Sound b.lang t cs) (ret : List Str) (hr : ret ≠ []) (hm : b.lang ≠ .mysql) :
    ∃ w e, (ownSQL (Returning.deleteQuery b t raw cs ret)).status = .ok ∧
      (ownSQL (Returning.deleteQuery b t raw cs ret)).query = Returning.deleteText b.lang t w ret ∧
      readWhere b.lang t.label (ownSQL (Returning.deleteQuery b t raw cs ret)).args 0 w = some e ∧
      ∀ C r, truthOf C r e = allTrue C r cs := by
  obtain ⟨xs, vs, e, p1, p2, p3, p4, p5⟩ := where_parts b.lang t raw cs b.env h []
  have hne : nodes (mapAll (t.field raw) cs) ≠ [] := fun e => h.ne ((isEmpty_nodes (t.field raw) cs).1 e)
  have h := own (n := Returning.deleteQuery b t raw cs ret) (l := b.lang) rfl
    (xs := ([.text "DELETE FROM ".toList] ++ (srcParts b.lang.dialect t ++ (.text " WHERE ".toList :: xs))) ++ retParts b.lang t ret)
    (ps := ([.text "DELETE FROM ".toList] ++ (source { d := b.lang.dialect, env := b.env } t.node ++
        condition { d := b.lang.dialect, env := b.env } " WHERE ".toList (and_ (nodes (mapAll (t.field raw) cs))))) ++ asked b t raw ret)
    (construct_delete _ _ _ _ _ _ _ _ _ (show ret.map (t.field raw) ≠ [] by simpa using hr) <| show Spec.construct _ (deleteWhere b t raw cs) = _ by
        obtain ⟨p, ps, hp⟩ := List.exists_cons_of_ne_nil hne
        simp [deleteWhere, hp, Chain.delete, DeleteCall.run, DeleteStart.run, DeleteQ.node, Spec.construct, deleteParts, deleted, and_, with_, joined,
        ifAny, filtered, condition, number, ifTable, Tab.node, effEnv, Node.kind]
        rfl)
    (show DeleteNeeds _ _ _ [t.node] .nil [] [] (ret.map (t.field raw)) from
      { table := ⟨t.node, [], rfl, node_ne t, fun h => (h rfl).elim⟩
        usingAllowed := fun h => (h rfl).elim
        joinable := fun h => (h rfl).elim
        hooksAnswer := fun x hx => by
          rw [List.mem_singleton.1 hx]
          exact node_answers t _
        limitsAllowed := ⟨fun h => by simp [Chain.delete, DeleteCall.run, DeleteStart.run] at h, fun h => by simp [Chain.delete, DeleteCall.run, DeleteStart.run] at h⟩
        single := fun h => by simp [Chain.delete, DeleteCall.run, DeleteStart.run] at h
        returningAllowed := fun _ => returning_dialect b hm })
    (((Adds.text _).append ((adds_src _ t _).append p1)).append (adds_ret b t raw ret h.named))
    (Flat.append (Flat.cons _ ((srcParts_flat _ _).append (Flat.cons _ p2))) (retParts_flat _ _ _))
  refine ⟨flat b.lang.dialect 0 xs, e, h.1, h.2.1.trans ?_, ?_, p5⟩
  · clear h
    rw [flat_append, flat_ret]
    unfold Returning.deleteText Where.deleteText
    generalize "DELETE FROM ".toList = k0
    generalize " WHERE ".toList = k2
    simp only [List.cons_append, List.nil_append, flat_text, flat_append, vals_src, flat_src, List.append_assoc, List.length_nil, Nat.add_zero]
  · rw [h.2.2, vals_append, vals_ret, List.append_nil]
    simp only [List.cons_append, List.nil_append, vals_text, vals_append, vals_src, p3]
    exact p4

/-- **C85 (partial), the UPDATE statement.** -/
theorem C85_update_partial (b : Builder) (t : Tab) (raw : Str → Bool) (cols : List Str) (rec : List Scalar) (cs : List (Cond Str)) (h : Choosing.Sound b.lang t cs)
    (hc : cols ≠ []) (ret : List Str) (hr : ret ≠ []) (hm : b.lang ≠ .mysql) (hlen : rec.length = cols.length) :
    ∃ w e vs, (ownSQL (Returning.updateQuery b t raw cols rec cs ret)).status = .ok ∧
      (ownSQL (Returning.updateQuery b t raw cols rec cs ret)).query = Returning.updateText b.lang t cols w ret ∧
      (ownSQL (Returning.updateQuery b t raw cols rec cs ret)).args = rec.map .val ++ vs ∧
      readWhere b.lang t.label (rec.map .val ++ vs) cols.length w = some e ∧
      ∀ C r, truthOf C r e = allTrue C r cs := by
  obtain ⟨xs, vs, e, p1, p2, p3, p4, p5⟩ := where_parts b.lang t raw cs b.env h rec
  have hnn := h.named
  have hne' : nodes (mapAll (t.field raw) cs) ≠ [] := fun e => h.ne ((isEmpty_nodes (t.field raw) cs).1 e)
  let ex : List Str := if b.lang = .mysql then [] else [t.label]
  have hset : setAll t raw cols [rec] = (cols.map (t.field raw)).zip (rec.map Node.scalar) := by simp [setAll]
  have hne : (cols.map (t.field raw)).zip (rec.map Node.scalar) ≠ [] := by
    cases cols with
    | nil => exact (hc rfl).elim
    | cons c cs => cases rec with
      | nil => simp at hlen
      | cons v vs => simp
  have h := own (n := Returning.updateQuery b t raw cols rec cs ret) (l := b.lang) rfl
    (xs := ([.text "UPDATE ".toList] ++ (srcParts b.lang.dialect t ++ (.text " SET ".toList :: (listed ", ".toList ((cols.zip rec).map (setPart fun c => if isExcluded ex t.label then quoteIdentifier b.lang.dialect c else t.column b.lang.dialect c)) ++ (.text " WHERE ".toList :: xs))))) ++ retParts b.lang t ret)
    (ps := ([.text "UPDATE ".toList] ++ (source { d := b.lang.dialect, env := b.env } t.node ++ (.text " SET ".toList ::
        (assignments { d := b.lang.dialect, env := b.env, ex := ex } ((cols.map (t.field raw)).zip (rec.map Node.scalar)) ++
        condition { d := b.lang.dialect, env := b.env } " WHERE ".toList (and_ (nodes (mapAll (t.field raw) cs))))))) ++ asked b t raw ret)
    (construct_update _ _ _ _ _ _ _ _ _ _ _ (show ret.map (t.field raw) ≠ [] by simpa using hr) <| show Spec.construct _ (updateWhere b t raw cols rec cs) = _ by
      have hq : Spec.qualifier t.node = t.label := rfl
      obtain ⟨p, ps, hp⟩ := List.exists_cons_of_ne_nil hne'
      obtain ⟨l, env⟩ := b
      cases l <;> simp [updateWhere, hp, Chain.update, UpdateCall.run, UpdateStart.run, UpdateQ.node, Spec.construct, and_, with_, joined,
        ifAny, condition, number, ifTable, effEnv, Lang.dialect, hset, ex, hq])
    (show UpdateNeeds _ _ _ t.node .nil [] [] (setAll t raw cols [rec]) [] (ret.map (t.field raw)) from
      { mapperWorks := fun _ => ⟨rfl, fun s hs => by
          rw [hset] at hs
          obtain ⟨c, _, hc'⟩ := List.mem_map.1 (List.of_mem_zip (show (s.1, s.2) ∈ _ from hs)).1
          rw [← hc']
          simp [Tab.field]⟩
        someTable := node_ne t
        something := by
          rw [hset]
          exact hne
        fromAllowed := fun h => (h rfl).elim
        joinable := fun h => (h rfl).elim
        hooksAnswer := fun x hx => by
          rcases List.mem_cons.1 hx with rfl | hx
          · exact node_answers t _
          · rw [List.mem_singleton.1 hx]
            exact id
        limitsAllowed := ⟨fun h => by simp [Chain.update, UpdateCall.run, UpdateStart.run] at h, fun h => by simp [Chain.update, UpdateCall.run, UpdateStart.run] at h⟩
        returningAllowed := fun _ => returning_dialect b hm })
    (((Adds.text _).append ((adds_src _ t _).append (Adds.cons _ ((adds_sets t raw cols rec { d := b.lang.dialect, env := b.env, ex := ex } rfl hnn).append p1)))).append (adds_ret b t raw ret hnn))
    (Flat.append (Flat.cons _ ((srcParts_flat _ _).append (Flat.cons _ (Flat.append (flat_listed _ _ fun c _ => Flat.cons _ (Flat.cons _ (Flat.value _))) (Flat.cons _ p2))))) (retParts_flat _ _ _))
  have htg : (fun c => if isExcluded ex t.label then quoteIdentifier b.lang.dialect c else t.column b.lang.dialect c) = target b.lang t := by
    funext c
    unfold target
    by_cases hm : b.lang = .mysql
    · rw [if_pos hm, if_neg (by simp [ex, hm, excluded_nil])]
    · rw [if_neg hm, if_pos (by simp [ex, hm, excluded_self])]
  rw [htg] at h
  have ht := fun i => flat_sets b.lang (target b.lang t) i cols rec hlen
  refine ⟨flat b.lang.dialect rec.length xs, e, vs.map .val, h.1, h.2.1.trans ?_, h.2.2.trans ?_, ?_, p5⟩ <;> clear h
  · rw [flat_append, flat_ret]
    unfold Returning.updateText Where.updateText
    generalize "UPDATE ".toList = k0
    generalize " SET ".toList = k1
    generalize " WHERE ".toList = k2
    simp only [List.cons_append, List.nil_append, flat_text, flat_append, vals_src, flat_src, List.append_assoc, List.length_nil, Nat.add_zero, (ht _).1, (ht 0).2, Nat.zero_add, List.length_map]
  · rw [vals_append, vals_ret, List.append_nil]
    simp only [List.cons_append, List.nil_append, vals_text, vals_append, vals_src, p3, (ht 0).2]
  · rw [← hlen]
    exact p4


/-! ### Fetching -/

section RoundTrip
open Sq.Sending Sq.Fetching.Spec Sq.Spec.Send

variable {Ctx V : Type}

/-- What a mapper that reads columns of one table collects, and what was sent. -/
theorem fetch_tells (D : Database) (s : D.State) (source : Logging.LogSource) (hs : source.Usable) (o : Outside V) (zero : Fetching.Kind → V)
    (conv : Fetching.Kind → Scalar → Option V) (get : Fetching.Kind → Scalar → V) (t : Tab) (raw : Str → Bool) (kind : Str → Fetching.Kind)
    (cols : List Str) (hc : cols ≠ []) (ctx : Ctx) (q q' : Node) (d : Dialect) (hd : Dial.getDialect o.own q = .ok d) (ho : Own q)
    (hq' : WithFields q (cols.map (t.field raw)) q') (hu : ∀ q'', WithFields q (cols.map (t.field raw)) q'' → q'' = q')
    (hok : (toSQL d q').status = .ok) (rows : List Row)
    (hans : D.query (toSQL d q').query (toSQL d q').args s = rows.map fun r => cols.map r)
    (hconv : ∀ r ∈ rows, ∀ c ∈ cols, conv (kind c) (r c) = some (get (kind c) (r c))) :
    let f := fetch o (D.conn source s Ctx) q zero conv (reads t raw kind cols) ctx []
    f.fin = .ok ∧ f.count = rows.length ∧ f.trace = rows.map (fun r => cols.map fun c => get (kind c) (r c)) ∧
      D.after s f.sent = (D.exec (toSQL d q').query (toSQL d q').args s).1 := by
  intro f
  obtain ⟨h1, h2, h3, _⟩ := fetch_reads D s source hs o zero conv get t raw kind cols hc ctx q q' d hd ho hq' hok rows hans hconv
  refine ⟨h1, h2, h3, ?_⟩
  have hsnd : (cols.map fun c => (kind c, t.field raw c)).map Prod.snd = cols.map (t.field raw) := by simp [List.map_map, Function.comp_def]
  have h := (C75_fetch_sends o (D.conn source s Ctx) q zero conv (reads t raw kind cols) ctx [] d hd ho hs (cols.map fun c => (kind c, t.field raw c))
    (reader_calls _ _ _ _).symm (by
      intro q'' h''
      rw [hsnd] at h''
      rw [hu q'' h'', hok]
      exact nofun) ctx (toSQL d q').query (toSQL d q').args).2
    ⟨rfl, by rw [show register zero (reads t raw kind cols []) false [] = _ from reader_register zero _ [] []], q', by rw [hsnd]; exact hq', hok, rfl, rfl⟩
  rw [show f.sent = _ from h]
  rfl

/-- **C85.** Fetching through an INSERT, on PostgreSQL and SQLite: the records are stored as by `Exec`, and what is fetched are the columns asked for of exactly the
records stored, also of columns that the database filled itself. -/
theorem C85_stored (D : Database) (C : Compare) (b : Builder) (t : Tab) (raw : Str → Bool) (c : Str) (cs ret : List Str)
    (hD : Returning.Understands D C b.lang t (c :: cs) ret) (s : D.State) (source : Logging.LogSource) (hs : source.Usable) (o : Outside V) (ctx : Ctx)
    (zero : Fetching.Kind → V) (conv : Fetching.Kind → Scalar → Option V) (get : Fetching.Kind → Scalar → V) (kind : Str → Fetching.Kind)
    (hm : b.lang ≠ .mysql) (hn : t.name ≠ []) (hd : c ∉ cs) (hret : ret ≠ []) (recs : List (List Scalar)) (hr : recs ≠ [])
    (hlen : ∀ r ∈ recs, r.length = (c :: cs).length)
    (hconv : ∀ r : Row, (ret.map r) ∈ D.query (Returning.insertText b.lang t (c :: cs) recs.length ret) (recs.flatten.map .val) s →
      ∀ x ∈ ret, conv (kind x) (r x) = some (get (kind x) (r x))) :
    let f := fetch o (D.conn source s Ctx) (Store.insertQuery b t raw (c :: cs) recs) zero conv (reads t raw kind ret) ctx []
    f.fin = .ok ∧ ∃ new told : List Row, D.rows (D.after s f.sent) = D.rows s ++ new ∧ new.map (fun r => (c :: cs).map r) = recs ∧
      told.Perm new ∧ f.count = recs.length ∧ f.trace = told.map fun r => ret.map fun x => get (kind x) (r x) := by
  intro f
  obtain ⟨q1, q2, q3⟩ := C85_insert b t raw c cs recs hn hd ret hret hm hr hlen
  obtain ⟨new, told, k1, k2, k3, k4⟩ := hD.insert s recs hr hlen
  have h := fetch_tells D s source hs o zero conv get t raw kind ret hret ctx (Store.insertQuery b t raw (c :: cs) recs)
    (Returning.insertQuery b t raw (c :: cs) recs ret) b.lang.dialect (by simp only [Store.insertQuery, InsertQ.node, Dial.getDialect]; rfl) trivial
    (.insert _ _ _ _ _ _ _ _ _ _ _ _ _ (returning_dialect b hm)) (fun q'' h'' => by cases h''; rfl) q1 told
    (by
      rw [show (toSQL b.lang.dialect (Returning.insertQuery b t raw (c :: cs) recs ret)).query = _ from q2,
        show (toSQL b.lang.dialect (Returning.insertQuery b t raw (c :: cs) recs ret)).args = _ from q3]
      exact k4)
    (fun r hr => hconv r (by rw [k4]; exact List.mem_map_of_mem hr))
  obtain ⟨h1, h2, h3, h4⟩ := h
  rw [show (toSQL b.lang.dialect (Returning.insertQuery b t raw (c :: cs) recs ret)).query = _ from q2,
    show (toSQL b.lang.dialect (Returning.insertQuery b t raw (c :: cs) recs ret)).args = _ from q3] at h4
  refine ⟨h1, new, told, ?_, k2, k3, ?_, h3⟩
  · rw [h4]
    exact k1
  · rw [show f.count = _ from h2, k3.length_eq, ← k2, List.length_map]

/-- **C85 (partial), UPDATE.** The records that the conditions describe are changed as by `Exec`, and what is fetched are these records, as they are then.
Missing: conditions as in `C80_update_partial`. -/
theorem C85_changed_partial (D : Database) (C : Compare) (b : Builder) (t : Tab) (raw : Str → Bool) (cols ret : List Str)
    (hD : Returning.Understands D C b.lang t cols ret) (s : D.State) (source : Logging.LogSource) (hs : source.Usable) (o : Outside V) (ctx : Ctx)
    (zero : Fetching.Kind → V) (conv : Fetching.Kind → Scalar → Option V) (get : Fetching.Kind → Scalar → V) (kind : Str → Fetching.Kind)
    (hm : b.lang ≠ .mysql) (hc : cols ≠ []) (hret : ret ≠ []) (rec : List Scalar) (hlen : rec.length = cols.length) (cs : List (Cond Str))
    (h : Choosing.Sound b.lang t cs)
    (hconv : ∀ r ∈ D.rows s, ∀ x ∈ ret, conv (kind x) (Row.set r (cols.zip rec) x) = some (get (kind x) (Row.set r (cols.zip rec) x))) :
    let f := fetch o (D.conn source s Ctx) (updateWhere b t raw cols rec cs) zero conv (reads t raw kind ret) ctx []
    f.fin = .ok ∧ D.rows (D.after s f.sent) = (D.rows s).map (fun r => if described C cs r then Row.set r (cols.zip rec) else r) ∧
      f.count = ((D.rows s).filter (described C cs)).length ∧
      ∃ told : List Row, told.Perm (((D.rows s).filter (described C cs)).map fun r => Row.set r (cols.zip rec)) ∧
        f.trace = told.map fun r => ret.map fun x => get (kind x) (r x) := by
  intro f
  obtain ⟨w, e, vs, q1, q2, q3, q4, q5⟩ := C85_update_partial b t raw cols rec cs h hc ret hret hm hlen
  obtain ⟨k1, told, k2, k3⟩ := hD.update s rec vs w e hlen q4
  rw [chosen_described C cs e q5] at k1 k2
  have hf := fetch_tells D s source hs o zero conv get t raw kind ret hret ctx (updateWhere b t raw cols rec cs)
    (Returning.updateQuery b t raw cols rec cs ret) b.lang.dialect (by simp only [updateWhere, UpdateQ.node, Dial.getDialect]; rfl) trivial
    (.update _ _ _ _ _ _ _ _ _ _ _ (returning_dialect b hm)) (fun q'' h'' => by cases h''; rfl) q1 told
    (by
      rw [show (toSQL b.lang.dialect (Returning.updateQuery b t raw cols rec cs ret)).query = _ from q2,
        show (toSQL b.lang.dialect (Returning.updateQuery b t raw cols rec cs ret)).args = _ from q3]
      exact k3)
    (fun r hr => by
      obtain ⟨r', hr', rfl⟩ := List.mem_map.1 (k2.mem_iff.1 hr)
      exact hconv r' (List.mem_filter.1 hr').1)
  obtain ⟨h1, h2, h3, h4⟩ := hf
  rw [show (toSQL b.lang.dialect (Returning.updateQuery b t raw cols rec cs ret)).query = _ from q2,
    show (toSQL b.lang.dialect (Returning.updateQuery b t raw cols rec cs ret)).args = _ from q3] at h4
  refine ⟨h1, ?_, ?_, told, k2, h3⟩
  · rw [h4]
    exact k1
  · rw [show f.count = _ from h2, k2.length_eq, List.length_map]

/-- **C85 (partial), DELETE.** The records that the conditions describe are removed, and what is fetched are exactly the removed ones.  Missing: as above. -/
theorem C85_removed_partial (D : Database) (C : Compare) (b : Builder) (t : Tab) (raw : Str → Bool) (cols ret : List Str)
    (hD : Returning.Understands D C b.lang t cols ret) (s : D.State) (source : Logging.LogSource) (hs : source.Usable) (o : Outside V) (ctx : Ctx)
    (zero : Fetching.Kind → V) (conv : Fetching.Kind → Scalar → Option V) (get : Fetching.Kind → Scalar → V) (kind : Str → Fetching.Kind)
    (hm : b.lang ≠ .mysql) (hret : ret ≠ []) (cs : List (Cond Str)) (h : Choosing.Sound b.lang t cs)
    (hconv : ∀ r ∈ D.rows s, ∀ x ∈ ret, conv (kind x) (r x) = some (get (kind x) (r x))) :
    let f := fetch o (D.conn source s Ctx) (deleteWhere b t raw cs) zero conv (reads t raw kind ret) ctx []
    f.fin = .ok ∧ D.rows (D.after s f.sent) = (D.rows s).filter (fun r => !described C cs r) ∧
      f.count = ((D.rows s).filter (described C cs)).length ∧
      ∃ told : List Row, told.Perm ((D.rows s).filter (described C cs)) ∧ f.trace = told.map fun r => ret.map fun x => get (kind x) (r x) := by
  intro f
  obtain ⟨w, e, q1, q2, q3, q4⟩ := C85_delete_partial b t raw cs h ret hret hm
  obtain ⟨k1, told, k2, k3⟩ := hD.delete s _ w e q3
  rw [chosen_described C cs e q4] at k1 k2
  have hf := fetch_tells D s source hs o zero conv get t raw kind ret hret ctx (deleteWhere b t raw cs)
    (Returning.deleteQuery b t raw cs ret) b.lang.dialect (by simp only [deleteWhere, DeleteQ.node, Dial.getDialect]; rfl) trivial
    (.delete _ _ _ _ _ _ _ _ _ (returning_dialect b hm)) (fun q'' h'' => by cases h''; rfl) q1 told
    (by
      rw [show (toSQL b.lang.dialect (Returning.deleteQuery b t raw cs ret)).query = _ from q2]
      exact k3)
    (fun r hr => hconv r (List.mem_filter.1 (k2.mem_iff.1 hr)).1)
  obtain ⟨h1, h2, h3, h4⟩ := hf
  rw [show (toSQL b.lang.dialect (Returning.deleteQuery b t raw cs ret)).query = _ from q2] at h4
  refine ⟨h1, ?_, ?_, told, k2, h3⟩
  · rw [h4]
    exact k1
  · rw [show f.count = _ from h2, k2.length_eq]

/-- **C85, MySQL.** MySQL has no RETURNING: fetching through an INSERT, UPDATE or DELETE fails, and nothing is sent. -/
theorem C85_mysql (D : Database) (env : Env) (t : Tab) (raw : Str → Bool) (cols ret : List Str) (s : D.State) (source : Logging.LogSource) (hs : source.Usable)
    (o : Outside V) (ctx : Ctx) (zero : Fetching.Kind → V) (conv : Fetching.Kind → Scalar → Option V) (kind : Str → Fetching.Kind)
    (recs : List (List Scalar)) (rec : List Scalar) (cs : List (Cond Str)) (q : Node)
    (hq : q = Store.insertQuery { lang := .mysql, env := env } t raw cols recs ∨ q = updateWhere { lang := .mysql, env := env } t raw cols rec cs ∨
      q = deleteWhere { lang := .mysql, env := env } t raw cs) :
    let f := fetch o (D.conn source s Ctx) q zero conv (reads t raw kind ret) ctx []
    f.fin ≠ .ok ∧ f.sent = none ∧ D.rows (D.after s f.sent) = D.rows s := by
  intro f
  have hno : ∀ fs q', ¬ WithFields q fs q' := by
    intro fs q' h
    rcases hq with rfl | rfl | rfl <;> cases h <;> rename_i hd <;> rcases hd with hd | hd <;> cases hd
  have hdia : Dial.getDialect o.own q = .ok .mysql ∧ Own q := by
    rcases hq with rfl | rfl | rfl
    · exact ⟨by simp only [Store.insertQuery, InsertQ.node, Dial.getDialect]; rfl, trivial⟩
    · exact ⟨by simp only [updateWhere, UpdateQ.node, Dial.getDialect]; rfl, trivial⟩
    · exact ⟨by simp only [deleteWhere, DeleteQ.node, Dial.getDialect]; rfl, trivial⟩
  have hsent : f.sent = none := by
    cases hx : f.sent with
    | none => rfl
    | some x =>
      obtain ⟨c, text, args⟩ := x
      obtain ⟨_, _, q', hq', _⟩ := (C75_fetch_sends o (D.conn source s Ctx) q zero conv (reads t raw kind ret) ctx [] .mysql hdia.1 hdia.2 hs
        _ rfl (fun q' h => absurd h (hno _ q')) c text args).1 hx
      exact absurd hq' (hno _ q')
  exact ⟨(C75_fetch_refused o _ q zero conv _ ctx [] hsent).1, hsent, by rw [hsent]; rfl⟩

end RoundTrip

/-! ### A database with RETURNING -/

/-- What stands between the text before WHERE and RETURNING. -/
def between (pre post text : Str) : Str := (text.drop pre.length).take (text.length - pre.length - post.length)
theorem between_eq (pre w post : Str) : between pre post (pre ++ w ++ post) = w := by
  unfold between
  rw [List.append_assoc, List.drop_left, show (pre ++ (w ++ post)).length - pre.length - post.length = w.length by simp only [List.length_append]; omega, List.take_left]

/-- What a statement does to the table, and what it tells: the records stored (columns without value are NULL), changed or removed. -/
def memoryDoes (C : Compare) (l : Lang) (t : Tab) (cols ret : List Str) (text : Str) (args : List Arg) (s : List Row) : List Row × List Row :=
  match text.head? with
  | some 'I' =>
    let new := (Storing.pieces (cols.length - 1) ((scalars args).length / cols.length) (scalars args)).map fun rec => Row.set (fun _ => .nil) (cols.zip rec)
    (s ++ new, new)
  | some 'U' =>
    match readWhere l t.label args cols.length (between (Where.updateText l t cols []) (Returning.returningText l t ret) text) with
    | some e =>
      let set := fun r : Row => Row.set r (cols.zip (scalars (args.take cols.length)))
      (s.map fun r => if chosen C e r then set r else r, (s.filter (chosen C e)).map set)
    | none => (s, [])
  | _ =>
    match readWhere l t.label args 0 (between (Where.deleteText l t []) (Returning.returningText l t ret) text) with
    | some e => (s.filter fun r => !chosen C e r, s.filter (chosen C e))
    | none => (s, [])
def memory (C : Compare) (l : Lang) (t : Tab) (cols ret : List Str) : Database :=
  { State := List Row
    exec := fun text args s => ((memoryDoes C l t cols ret text args s).1, 0, 0)
    query := fun text args s => (memoryDoes C l t cols ret text args s).2.map fun r => ret.map r
    rows := id
    eq := fun x y => decide (x = y) }

theorem does_insert (C : Compare) (l : Lang) (t : Tab) (c : Str) (cs ret : List Str) (s : List Row) (recs : List (List Scalar))
    (hlen : ∀ r ∈ recs, r.length = (c :: cs).length) :
    memoryDoes C l t (c :: cs) ret (Returning.insertText l t (c :: cs) recs.length ret) (recs.flatten.map .val) s =
      (s ++ recs.map (fun rec => Row.set (fun _ => .nil) ((c :: cs).zip rec)), recs.map fun rec => Row.set (fun _ => .nil) ((c :: cs).zip rec)) := by
  have hh : (Returning.insertText l t (c :: cs) recs.length ret).head? = some 'I' := by
    unfold Returning.insertText Store.insertText
    rw [show "INSERT INTO ".toList = 'I' :: "NSERT INTO ".toList by decide +kernel]
    rfl
  have hn : recs.flatten.length / (c :: cs).length = recs.length := by
    have : recs.flatten.length = recs.length * (c :: cs).length := by
      clear hh
      induction recs with
      | nil => simp
      | cons r rs ih =>
        rw [List.flatten_cons, List.length_append, ih fun x hx => hlen x (List.mem_cons_of_mem _ hx), hlen r (List.mem_cons_self ..),
          List.length_cons (as := rs), Nat.add_mul, Nat.one_mul, Nat.add_comm]
    rw [this, Nat.mul_div_cancel _ (by simp)]
  unfold memoryDoes
  rw [hh]
  rw [scalars_vals, hn, show (c :: cs).length - 1 = cs.length by simp, pieces_flatten _ _ (by simpa using hlen)]
  rfl
theorem does_update (C : Compare) (l : Lang) (t : Tab) (cols ret : List Str) (s : List Row) (rec : List Scalar) (args : List Arg) (w : Str)
    (e : BExp (Test Str)) (hlen : rec.length = cols.length) (h : readWhere l t.label (rec.map .val ++ args) cols.length w = some e) :
    memoryDoes C l t cols ret (Returning.updateText l t cols w ret) (rec.map .val ++ args) s =
      (s.map fun r => if chosen C e r then Row.set r (cols.zip rec) else r, (s.filter (chosen C e)).map fun r => Row.set r (cols.zip rec)) := by
  have hh : (Returning.updateText l t cols w ret).head? = some 'U' := by
    unfold Returning.updateText Where.updateText
    rw [show "UPDATE ".toList = 'U' :: "PDATE ".toList by decide +kernel]
    rfl
  have hb : between (Where.updateText l t cols []) (Returning.returningText l t ret) (Returning.updateText l t cols w ret) = w := by
    unfold Returning.updateText
    rw [update_prefix l t cols w, between_eq]
  unfold memoryDoes
  rw [hh]
  simp only [hb, h]
  rw [show (rec.map Arg.val ++ args).take cols.length = rec.map .val by rw [← hlen, List.take_append_of_le_length (by simp), List.take_of_length_le (by simp)], scalars_vals]
theorem does_delete (C : Compare) (l : Lang) (t : Tab) (cols ret : List Str) (s : List Row) (args : List Arg) (w : Str)
    (e : BExp (Test Str)) (h : readWhere l t.label args 0 w = some e) :
    memoryDoes C l t cols ret (Returning.deleteText l t w ret) args s = (s.filter fun r => !chosen C e r, s.filter (chosen C e)) := by
  have hh : (Returning.deleteText l t w ret).head? = some 'D' := by
    unfold Returning.deleteText Where.deleteText
    rw [show "DELETE FROM ".toList = 'D' :: "ELETE FROM ".toList by decide +kernel]
    rfl
  have hb : between (Where.deleteText l t []) (Returning.returningText l t ret) (Returning.deleteText l t w ret) = w := by
    unfold Returning.deleteText
    rw [delete_prefix l t w, between_eq]
  unfold memoryDoes
  rw [hh]
  simp only [hb, h]
  rfl

/-- The hypothesis of the theorems is met. -/
theorem memory_understands (C : Compare) (l : Lang) (t : Tab) (c : Str) (cs ret : List Str) (hd : (c :: cs).Nodup) :
    Returning.Understands (memory C l t (c :: cs) ret) C l t (c :: cs) ret where
  insert := by
    intro (s : List Row) recs hr hlen
    have h := does_insert C l t c cs ret s recs hlen
    refine ⟨recs.map fun rec => Row.set (fun _ => .nil) ((c :: cs).zip rec), _, congrArg Prod.fst h, ?_, .refl _, ?_⟩
    · rw [List.map_map]
      conv => rhs; rw [← List.map_id recs]
      exact List.map_congr_left fun rec hrec => map_set _ hd rec (hlen rec hrec) _
    · exact congrArg (fun x : List Row × List Row => x.2.map fun r => ret.map r) h
  update := by
    intro (s : List Row) rec args w e hlen hw
    have h := does_update C l t (c :: cs) ret s rec args w e hlen hw
    exact ⟨congrArg Prod.fst h, _, .refl _, congrArg (fun x : List Row × List Row => x.2.map fun r => ret.map r) h⟩
  delete := by
    intro (s : List Row) args w e hw
    have h := does_delete C l t (c :: cs) ret s args w e hw
    exact ⟨congrArg Prod.fst h, _, .refl _, congrArg (fun x : List Row × List Row => x.2.map fun r => ret.map r) h⟩

section Examples
open Sq.Sending Sq.Fetching.Spec

def someUsers : List Row := [user (.int 1) (.int 7), user (.int 2) (.int 7), user (.int 3) .nil, user (.int 4) (.int 7)]
def told (q : Node) : Option (Str × List Arg) × List (List Scalar) × List (List Scalar) :=
  let D := memory plainCompare .postgres users ["id".toList, "age".toList] ["age".toList, "id".toList]
  let f := fetch outside (D.conn .noLogger someUsers Unit) q (fun _ => Scalar.nil) (fun _ v => some v)
    (reads users (fun _ => false) (fun _ => .custom 0) ["age".toList, "id".toList]) () []
  (f.sent.map Prod.snd, f.trace, (D.rows (D.after someUsers f.sent)).map fun r => ["id".toList, "age".toList].map r)

example : told (Store.insertQuery { lang := .postgres, env := none } users (fun _ => false) ["id".toList, "age".toList] [[.int 5, .nil], [.int 6, .int 9]]) =
    (some ("INSERT INTO users AS u (id, age) VALUES ($1, $2), ($3, $4) RETURNING u.age, u.id".toList, [.val (.int 5), .val .nil, .val (.int 6), .val (.int 9)]),
     [[.nil, .int 5], [.int 9, .int 6]],
     [[.int 1, .int 7], [.int 2, .int 7], [.int 3, .nil], [.int 4, .int 7], [.int 5, .nil], [.int 6, .int 9]]) := by decide +kernel
example : told (updateWhere { lang := .postgres, env := none } users (fun _ => false) ["id".toList, "age".toList] [.int 8, .int 8] someConds) =
    (some ("UPDATE users AS u SET id = $1, age = $2 WHERE u.id > $3 AND (u.age IS NULL OR NOT (u.age = $4 AND u.id IN ($5, $6))) RETURNING u.age, u.id".toList,
      [.val (.int 8), .val (.int 8), .val (.int 1), .val (.int 7), .val (.int 2), .val (.int 3)]),
     [[.int 8, .int 8], [.int 8, .int 8]], [[.int 1, .int 7], [.int 2, .int 7], [.int 8, .int 8], [.int 8, .int 8]]) := by decide +kernel
example : told (deleteWhere { lang := .postgres, env := none } users (fun _ => false) someConds) =
    (some ("DELETE FROM users AS u WHERE u.id > $1 AND (u.age IS NULL OR NOT (u.age = $2 AND u.id IN ($3, $4))) RETURNING u.age, u.id".toList,
      [.val (.int 1), .val (.int 7), .val (.int 2), .val (.int 3)]),
     [[.nil, .int 3], [.int 7, .int 4]], [[.int 1, .int 7], [.int 2, .int 7]]) := by decide +kernel

/-- **C85 (violated), FetchExists.** Asking whether a DELETE removes anything is sent as a DELETE inside of `EXISTS (...)`, which PostgreSQL and SQLite do not take
for a query (a statement that changes records may not stand there). -/
theorem C85_exists_violated :
    let D := memory plainCompare .postgres users ["id".toList, "age".toList] []
    (fetchExists outside (D.conn .noLogger someUsers Unit) (deleteWhere { lang := .postgres, env := none } users (fun _ => false) someConds) (fun _ => none) ()).sent =
      some ((), "SELECT EXISTS (DELETE FROM users AS u WHERE u.id > $1 AND (u.age IS NULL OR NOT (u.age = $2 AND u.id IN ($3, $4))) RETURNING 1)".toList,
        [.val (.int 1), .val (.int 7), .val (.int 2), .val (.int 3)]) := by decide +kernel

end Examples

end Sq.Returns
