import Verif.Proof.Seq
import Verif.Proof.Tree
import Verif.Model.Examples
/-
C25: qualifiers of columns.  C26: the column mapper.
-/
namespace Sq

/-! ### C25 -/

/-- Bytewise lexicographic order, non-strict. -/
def strLe (a b : Str) : Prop := strLt b a = false

theorem strLt_irrefl (a : Str) : strLt a a = false := by
  induction a with
  | nil => rfl
  | cons c cs ih => simp [strLt, ih]

theorem strLt_antisymm (a b : Str) (h1 : strLt a b = false) (h2 : strLt b a = false) : a = b := by
  induction a generalizing b with
  | nil => cases b with
    | nil => rfl
    | cons c cs => simp [strLt] at h1
  | cons c cs ih =>
    cases b with
    | nil => simp [strLt] at h2
    | cons d ds =>
      simp only [strLt] at h1 h2
      split at h1
      · simp at h1
      · split at h1
        · rename_i h; simp [h] at h2
        · rename_i hn hm
          simp only [hn, hm, if_false] at h2
          have : c = d := by
            apply Char.ext
            exact UInt32.le_antisymm (UInt32.not_lt.1 hm) (UInt32.not_lt.1 hn)
          rw [this, ih ds h1 h2]

theorem strLt_trans (a b c : Str) (h1 : strLt a b = true) (h2 : strLt b c = true) : strLt a c = true := by
  induction a generalizing b c with
  | nil =>
    cases c with
    | nil => cases b <;> simp [strLt] at h2
    | cons z zs => rfl
  | cons x xs ih =>
    cases b with
    | nil => simp [strLt] at h1
    | cons y ys =>
      cases c with
      | nil => simp [strLt] at h2
      | cons z zs =>
        simp only [strLt] at h1 h2 ⊢
        simp only [UInt32.lt_iff_toNat_lt] at *
        split
        · rfl
        · split
          · exfalso
            split at h1
            · split at h2
              · omega
              · split at h2
                · simp at h2
                · omega
            · split at h1
              · simp at h1
              · split at h2
                · omega
                · split at h2
                  · simp at h2
                  · omega
          · split at h1
            · split at h2
              · omega
              · split at h2
                · simp at h2
                · omega
            · split at h1
              · simp at h1
              · split at h2
                · omega
                · split at h2
                  · simp at h2
                  · exact ih ys zs h1 h2

/-- A list of strings sorted in byte order, as `sort.Strings` leaves it. -/
def SortedStrs (l : List Str) : Prop := ∀ i j : Nat, i < j → ∀ a b, l[i]? = some a → l[j]? = some b → strLt b a = false

/-- `sort.Search` finds the first index at which a monotone predicate holds. -/
theorem searchLoop_spec (f : Nat → Bool) (i j : Nat) (hij : i ≤ j)
    (mono : ∀ a b, a ≤ b → f a = true → f b = true) (hlo : ∀ a, a < i → f a = false) (hhi : ∀ a, j ≤ a → f a = true) :
    (∀ a, a < searchLoop f i j → f a = false) ∧ f (searchLoop f i j) = true := by
  induction i, j using searchLoop.induct (f := f) with
  | case1 i j h m hf ih =>
    rw [searchLoop, dif_pos h]
    simp only
    rw [if_pos hf]
    exact ih (by omega) hlo (fun a ha => mono _ _ ha hf)
  | case2 i j h m hf ih =>
    rw [searchLoop, dif_pos h]
    simp only
    rw [if_neg hf]
    refine ih (by omega) (fun a ha => ?_) hhi
    cases hfa : f a with
    | false => rfl
    | true => exact absurd (mono a m (by omega) hfa) hf
  | case3 i j h =>
    rw [searchLoop, dif_neg h]
    exact ⟨hlo, hhi i (by omega)⟩

/-- The code's membership test is membership, for sorted lists. -/
theorem isExcluded_iff (ex : List Str) (hs : SortedStrs ex) (q : Str) : isExcluded ex q = true ↔ q ∈ ex := by
  let f : Nat → Bool := fun i => match ex[i]? with | some y => !(strLt y q) | none => true
  have mono : ∀ a b, a ≤ b → f a = true → f b = true := by
    intro a b hab ha
    simp only [f] at ha ⊢
    cases hb : ex[b]? with
    | none => rfl
    | some y =>
      have hlt : b < ex.length := by
        rcases Nat.lt_or_ge b ex.length with h | h
        · exact h
        · rw [List.getElem?_eq_none h] at hb; simp at hb
      rcases Nat.eq_or_lt_of_le hab with rfl | hlt'
      · rw [hb] at ha; exact ha
      · have hx : ex[a]? = some (ex[a]'(by omega)) := List.getElem?_eq_getElem (by omega)
        rw [hx] at ha
        have hle := hs a b hlt' _ _ hx hb
        cases hyq : strLt y q with
        | false => simp [hyq]
        | true =>
          -- y < q, ex[a] ≥ q, so ex[a] > y, contradiction
          exfalso
          have hxq : strLt (ex[a]'(by omega)) q = false := by simpa using ha
          cases hqx : strLt q (ex[a]'(by omega)) with
          | true =>
            have := strLt_trans _ _ _ hyq hqx
            rw [this] at hle; simp at hle
          | false =>
            have := strLt_antisymm _ _ hxq hqx
            rw [← this] at hyq
            rw [hyq] at hle; simp at hle
  have hi : ∀ a, ex.length ≤ a → f a = true := by
    intro a ha; simp only [f]; rw [List.getElem?_eq_none ha]
  have sp := searchLoop_spec f 0 ex.length (by omega) mono (by intro a ha; omega) hi
  have hss : searchStrings ex q = searchLoop f 0 ex.length := rfl
  rw [isExcluded, hss]
  constructor
  · intro h
    split at h
    · rename_i y hy
      have : y = q := by simpa using h
      subst this
      exact List.mem_of_getElem? hy
    · simp at h
  · intro hq
    obtain ⟨k, hk⟩ := List.getElem?_of_mem hq
    have hfk : f k = true := by simp only [f]; rw [hk]; simp [strLt_irrefl]
    have hle : searchLoop f 0 ex.length ≤ k := by
      rcases Nat.lt_or_ge k (searchLoop f 0 ex.length) with h | h
      · have := sp.1 k h; rw [this] at hfk; simp at hfk
      · exact h
    have hkl : k < ex.length := by
      rcases Nat.lt_or_ge k ex.length with h | h
      · exact h
      · rw [List.getElem?_eq_none h] at hk; simp at hk
    have hg : ex[searchLoop f 0 ex.length]? = some (ex[searchLoop f 0 ex.length]'(by omega)) :=
      List.getElem?_eq_getElem (by omega)
    rw [hg]
    have h1 : strLt (ex[searchLoop f 0 ex.length]'(by omega)) q = false := by
      have := sp.2; simp only [f] at this; rw [hg] at this; simpa using this
    rcases Nat.eq_or_lt_of_le hle with he | hl
    · rw [← he, hg] at hk
      simpa using hk
    · have h2 := hs _ k hl _ _ hg hk
      simp [strLt_antisymm _ _ h1 h2]

/-- The qualifier of a column: its table's alias, or else its table's name. -/
def qualifier (fi : FInfo) : Str := if fi.tableAlias = [] then fi.tableName else fi.tableAlias

/-- **C25.** A plain column (no format) in any dialect, in a context that excludes a sorted list of qualifiers: the text
written is the quoted name, preceded by the quoted qualifier and a dot exactly when the column has a qualifier that is
not in the list. -/
theorem C25_qualifier_dropped_iff_excluded (fi : FInfo) (hf : fi.formats = []) (he : fi.err = none) (raw : Bool) (m : Mode)
    (hs : SortedStrs m.ex) :
    ren (.field fi raw false []) m [] = (.wr ((if qualifier fi = [] ∨ qualifier fi ∈ m.ex then []
      else quoteIdentifier m.d (qualifier fi) ++ ".".toList) ++ quoteIdentifier m.d fi.name) ⨟ .wr (fieldSuffix m.d fi)) := by
  have hm : ∀ mm : Mode, mm.d = m.d → mm.ex = m.ex → fieldInfoAppend mm fi [] =
      (.wr ((if qualifier fi = [] ∨ qualifier fi ∈ m.ex then []
      else quoteIdentifier m.d (qualifier fi) ++ ".".toList) ++ quoteIdentifier m.d fi.name) ⨟ .wr (fieldSuffix m.d fi)) := by
    intro mm hd hx
    simp only [fieldInfoAppend, he, hf, ne_eq, not_true_eq_false, if_false, columnName, hd, hx]
    simp only [isExcluded_iff m.ex hs]
    rfl
  simp only [ren, when_false, ok_seq, objs, List.map_nil]
  cases raw
  · exact hm _ rfl rfl
  · exact hm _ rfl rfl

/-- The lists the package passes itself (INSERT, UPDATE: one qualifier) are sorted. -/
theorem C25_own_lists_sorted (t : Obj) : SortedStrs (qualifierOf t) ∧ SortedStrs [] := by
  refine ⟨?_, ?_⟩
  · intro i j hij a b ha hb
    have : j < 1 := by
      rcases Nat.lt_or_ge j 1 with h | h
      · exact h
      · rw [List.getElem?_eq_none (by simpa [qualifierOf] using h)] at hb; simp at hb
    omega
  · intro i j hij a b ha hb; simp at ha

example : SortedStrs ["a".toList, "b".toList, "b2".toList] ∧ isExcluded ["a".toList, "b".toList, "b2".toList] "b" = true := by
  refine ⟨?_, by decide +kernel⟩
  intro i j hij a b ha hb
  match j with
  | 0 => omega
  | 1 =>
    obtain rfl : i = 0 := by omega
    simp at ha hb; subst ha; subst hb; decide
  | 2 =>
    rcases (by omega : i = 0 ∨ i = 1) with rfl | rfl <;> simp at ha hb <;> subst ha <;> subst hb <;> decide
  | j + 3 => simp at hb

/-- With an unsorted list the binary search can miss a member: the sortedness hypothesis is needed. -/
theorem C25_unsorted_list_missed : "a".toList ∈ ["b".toList, "a".toList] ∧ isExcluded ["b".toList, "a".toList] "a" = false := by
  decide +kernel


/-! ### C26 -/

section
variable {F V : Type} (nm : F → Str)

/-- Running the calls. -/
def Col.run (c : Col F V) (calls : List (F × V)) : Col F V := calls.foldl (fun c p => c.set nm p.1 p.2) c

/-- The `Set` calls of a mapper that goes through the rows and sets every column in order. -/
def rowCalls (cols : List F) (row : List V) : List (F × V) := cols.zip row
def mapperCalls (cols : List F) (rows : List (List V)) : List (F × V) := (rows.map (rowCalls cols)).flatten

theorem appendLast_snoc (v : V) (rs : List (List V)) (r : List V) : appendLast v (rs ++ [r]) = rs ++ [r ++ [v]] := by
  induction rs with
  | nil => rfl
  | cons x xs ih =>
    cases hx : xs ++ [r] with
    | nil => simp at hx
    | cons y ys =>
      rw [List.cons_append, hx, appendLast, ← hx, ih]
      · rfl
      · simp

/-- The rest of a row, after its first column. -/
theorem run_rest (cols : List F) (row : List V) (hl : cols.length = row.length) (c : Col F V) (first : Str)
    (hs : c.rowStarted = true) (hf : c.firstField = first) (hd : ∀ f ∈ cols, nm f ≠ first)
    (rs : List (List V)) (r : List V) (hr : c.rowValues = rs ++ [r]) :
    c.run nm (cols.zip row) = { c with
      insertColumns := if c.rowEnded then c.insertColumns else c.insertColumns ++ cols
      rowValues := rs ++ [r ++ row] } := by
  induction cols generalizing row c r with
  | nil =>
    cases row with
    | cons _ _ => simp at hl
    | nil => simp only [Col.run, List.zip_nil_left, List.foldl_nil, List.append_nil, ← hr, ite_self]
  | cons f fs ih =>
    cases row with
    | nil => simp at hl
    | cons v vs =>
      have hne : nm f ≠ c.firstField := by rw [hf]; exact hd f (by simp)
      have hset : c.set nm f v = { c with
          insertColumns := if c.rowEnded then c.insertColumns else c.insertColumns ++ [f]
          rowValues := rs ++ [r ++ [v]] } := by
        unfold Col.set
        rw [if_neg (by simp [hs]), if_neg hne, hr, appendLast_snoc]
      simp only [Col.run, List.zip_cons_cons, List.foldl_cons]
      rw [hset]
      have := ih vs (by simpa using hl) { c with
          insertColumns := if c.rowEnded then c.insertColumns else c.insertColumns ++ [f]
          rowValues := rs ++ [r ++ [v]] } hs hf (fun g hg => hd g (by simp [hg])) (r ++ [v]) rfl
      simp only [Col.run] at this
      rw [this]
      cases c.rowEnded <;> simp

/-- **C26.** For any number of rows over any list of columns (the first column's name being different from the names of the
others), a mapper that sets every column of every row in order produces exactly those columns and exactly those rows. -/
theorem C26_rectangular (f : F) (fs : List F) (hd : ∀ g ∈ fs, nm g ≠ nm f) (rows : List (List V)) (hne : rows ≠ [])
    (hlen : ∀ r ∈ rows, r.length = (f :: fs).length) :
    columnInsert nm (mapperCalls (f :: fs) rows) = (f :: fs, rows) := by
  have later : ∀ (rs done : List (List V)) (c : Col F V), (∀ r ∈ rs, r.length = (f :: fs).length) → c.rowStarted = true →
      c.firstField = nm f → c.insertColumns = f :: fs → c.rowValues = done →
      (c.run nm (mapperCalls (f :: fs) rs)).insertColumns = f :: fs ∧
      (c.run nm (mapperCalls (f :: fs) rs)).rowValues = done ++ rs := by
    intro rs
    induction rs with
    | nil => intro done c _ _ _ hc hr; simp [mapperCalls, Col.run, hc, hr]
    | cons r rs ih =>
      intro done c hl hs hff hc hr
      cases r with
      | nil => have := hl [] (by simp); simp at this
      | cons v vs =>
        have hlv : fs.length = vs.length := by have := hl (v :: vs) (by simp); simpa using this.symm
        have h1 : c.set nm f v = { c with rowEnded := true, rowValues := done ++ [[v]] } := by
          unfold Col.set
          rw [if_neg (by simp [hs]), if_pos hff.symm, hr]
        have h2 := run_rest nm fs vs hlv { c with rowEnded := true, rowValues := done ++ [[v]] } (nm f) hs hff hd done [v] rfl
        have hrun : c.run nm (mapperCalls (f :: fs) ((v :: vs) :: rs)) =
            (Col.run nm { c with rowEnded := true, rowValues := done ++ [[v]] } (fs.zip vs)).run nm (mapperCalls (f :: fs) rs) := by
          simp only [mapperCalls, List.map_cons, List.flatten_cons, rowCalls, List.zip_cons_cons, Col.run, List.cons_append,
            List.foldl_cons, List.foldl_append, h1]
        rw [hrun, h2]
        have := ih (done ++ [v :: vs]) { c with rowEnded := true, rowValues := done ++ [[v] ++ vs] }
          (fun r hr => hl r (by simp [hr])) hs hff hc (by simp)
        simp only [if_true]
        simpa using this
  match rows, hne with
  | r :: rs, _ =>
    cases r with
    | nil => have := hlen [] (by simp); simp at this
    | cons v vs =>
      have hlv : fs.length = vs.length := by have := hlen (v :: vs) (by simp); simpa using this.symm
      let c0 : Col F V := {}
      let c1 : Col F V := { rowStarted := true, firstField := nm f, insertColumns := [f], rowValues := [[v]] }
      have h1 : c0.set nm f v = c1 := by simp [Col.set, c0, c1]
      have h2 := run_rest nm fs vs hlv c1 (nm f) rfl rfl hd [] [v] rfl
      have hrun : c0.run nm (mapperCalls (f :: fs) ((v :: vs) :: rs)) =
          (c1.run nm (fs.zip vs)).run nm (mapperCalls (f :: fs) rs) := by
        simp only [mapperCalls, List.map_cons, List.flatten_cons, rowCalls, List.zip_cons_cons, Col.run, List.cons_append,
          List.foldl_cons, List.foldl_append, h1]
      have h3 := later rs [v :: vs] { c1 with insertColumns := f :: fs, rowValues := [v :: vs] }
        (fun r hr => hlen r (by simp [hr])) rfl rfl rfl rfl
      show ((c0.run nm _).insertColumns, (c0.run nm _).rowValues) = _
      rw [hrun, h2]
      have e : ({ c1 with insertColumns := if c1.rowEnded then c1.insertColumns else c1.insertColumns ++ fs,
                          rowValues := [] ++ [[v] ++ vs] } : Col F V) =
          { c1 with insertColumns := f :: fs, rowValues := [v :: vs] } := by simp [c1]
      rw [e, h3.1, h3.2]
      rfl

/-- **C26, UPDATE mode.** One assignment per call, in order. -/
theorem C26_update_assignments (calls : List (F × V)) : columnUpdate calls = calls := by
  have key : ∀ (calls acc : List (F × V)), calls.foldl (fun as p => as ++ [p]) acc = acc ++ calls := by
    intro calls
    induction calls with
    | nil => simp
    | cons p ps ih => intro acc; simp [ih]
  unfold columnUpdate
  rw [key]; rfl
end

/-- **C26, as SQL.** An INSERT whose column mapper sets every column of every row renders exactly as the INSERT built with
that column list and those rows. -/
theorem C26_insert_renders_as_values (q : InsMeta) (hm : q.hasMapper = true) (he : q.mapErr = none) (ctes : List Node)
    (into f : Node) (fs : List Node) (rows : List (List Node)) (hne : rows ≠ []) (hd : ∀ g ∈ fs, g.name ≠ f.name)
    (hnil : ∀ g ∈ f :: fs, g ≠ .nil) (hlen : ∀ r ∈ rows, r.length = (f :: fs).length) (sel : Node)
    (cf : List Node) (cp : Node) (res : List (Node × Node)) (rp : Node) (ret : List Node) (m : Mode) (pn : Str) :
    ren (.insert q ctes into [] [] (mapperCalls (f :: fs) rows) sel cf cp res rp ret) m pn =
    ren (.insert { q with hasMapper := false } ctes into (f :: fs) rows [] sel cf cp res rp ret) m pn := by
  have hz : ∀ (cs : List Node) (r : List Node), pairs (cs.zip r) =
      (cs.map (fun n => (obj n).toObj)).zip (r.map (fun n => (obj n).toObj)) := by
    intro cs
    induction cs with
    | nil => intro r; simp [pairs]
    | cons c cs ih =>
      intro r
      cases r with
      | nil => simp [pairs]
      | cons x xs => simp only [List.zip_cons_cons, pairs, ih xs, List.map_cons, obj]
  have hp : ∀ (rows : List (List Node)), pairs (mapperCalls (f :: fs) rows) =
      mapperCalls ((f :: fs).map (fun n => (obj n).toObj)) (rows.map (fun r => r.map (fun n => (obj n).toObj))) := by
    intro rows
    have happ : ∀ a b : List (Node × Node), pairs (a ++ b) = pairs a ++ pairs b := by
      intro a b; rw [pairs_eq, pairs_eq, pairs_eq, List.map_append]
    induction rows with
    | nil => simp [mapperCalls, pairs]
    | cons r rs ih =>
      simp only [mapperCalls, List.map_cons, List.flatten_cons, rowCalls] at ih ⊢
      rw [happ, ih]
      have := hz (f :: fs) r
      simp only [List.map_cons] at this
      rw [this]
  have hcols : insertColumnsRows q ((objs []).map PV.toObj) (objss []) (pairs (mapperCalls (f :: fs) rows)) =
      .ok ((objs (f :: fs)).map PV.toObj, objss rows) := by
    unfold insertColumnsRows
    rw [if_pos hm]
    have hany : (pairs (mapperCalls (f :: fs) rows)).any (fun p => p.1.kind.isNil) = false := by
      rw [List.any_eq_false]
      intro p hp'
      rw [pairs_eq] at hp'
      obtain ⟨x, hx, rfl⟩ := List.mem_map.1 hp'
      have hmem : x.1 ∈ f :: fs := by
        simp only [mapperCalls, List.mem_flatten, List.mem_map] at hx
        obtain ⟨l, ⟨r, _, rfl⟩, hx⟩ := hx
        exact (List.of_mem_zip hx).1
      intro hk
      exact hnil _ hmem ((Node.kind_isNil _).1 hk)
    rw [if_neg (by simp [hany])]
    simp only [he]
    rw [hp]
    congr 1
    simp only [List.map_cons]
    rw [C26_rectangular (fun o : Obj => o.name) (obj f).toObj (fs.map (fun n => (obj n).toObj)) (by
        intro g hg
        obtain ⟨n, hn, rfl⟩ := List.mem_map.1 hg
        exact hd n hn) _ (by simpa using hne) (by
        intro r hr
        obtain ⟨r', hr', rfl⟩ := List.mem_map.1 hr
        simpa using hlen r' hr')]
    rw [objs_eq, objss_eq]
    simp
  have hcols2 : insertColumnsRows { q with hasMapper := false } ((objs (f :: fs)).map PV.toObj) (objss rows) (pairs []) =
      .ok ((objs (f :: fs)).map PV.toObj, objss rows) := by
    unfold insertColumnsRows
    rw [if_neg (by simp)]
  simp only [ren, insertAppend, hcols, hcols2, W.ofRes]
  rfl

example : columnInsert (fun n : Nat => [Char.ofNat n]) (mapperCalls [1, 2, 3] [["a", "b", "c"], ["d", "e", "f"]]) =
    ([1, 2, 3], [["a", "b", "c"], ["d", "e", "f"]]) := by decide

/-- **C26 (limits).** A row that sets its columns in another order is not detected: the values end up under the wrong
columns. -/
theorem C26_reordered_row_undetected :
    columnInsert (fun n : Nat => [Char.ofNat n]) [(1, "a1"), (2, "b1"), (3, "c1"), (1, "a2"), (3, "c2"), (2, "b2")] =
    ([1, 2, 3], [["a1", "b1", "c1"], ["a2", "c2", "b2"]]) := by decide

/-- **C26 (limits).** A row that omits a column gives a short row value. -/
theorem C26_short_row_undetected :
    columnInsert (fun n : Nat => [Char.ofNat n]) [(1, "a1"), (2, "b1"), (1, "a2")] = ([1, 2], [["a1", "b1"], ["a2"]]) := by
  decide

end Sq
