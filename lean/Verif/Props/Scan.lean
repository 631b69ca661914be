import Verif.Model.Scan
import Verif.Model.Command
import Verif.Spec.Scan
import Verif.Props.Ident
import Verif.Props.SplitArgs
/-
C52: index and constraint rows read from the catalogs.
-/
namespace Ddl.Scan
open Ddl Ddl.Spec
open _root_.Spec (blanks)

theorem splitComma_nocomma : (x : Str) → ',' ∉ x → splitComma x = [x]
  | [], _ => rfl
  | c :: cs, h => by
    have hc : c ≠ ',' := fun e => h (by simp [e])
    simp [splitComma, hc, splitComma_nocomma cs (fun hm => h (by simp [hm]))]

theorem splitComma_cons (x : Str) (hx : ',' ∉ x) (t : Str) : splitComma (x ++ ',' :: t) = x :: splitComma t := by
  induction x with
  | nil => simp [splitComma]
  | cons c cs ih =>
    have hc : c ≠ ',' := fun e => hx (by simp [e])
    simp [splitComma, hc, ih (fun hm => hx (by simp [hm]))]

theorem splitComma_join (xs : List Str) (hne : xs ≠ []) (h : ∀ x ∈ xs, ',' ∉ x) : splitComma (join xs) = xs := by
  induction xs with
  | nil => exact absurd rfl hne
  | cons a as ih =>
    cases as with
    | nil => simpa [join] using splitComma_nocomma a (h a (by simp))
    | cons b bs =>
      rw [join, splitComma_cons _ (h a (by simp)), ih (by simp) (fun x hx => h x (by simp [hx]))]

theorem join_nil (xs : List Str) (h : join xs = []) : xs = [] ∨ xs = [[]] := by
  cases xs with
  | nil => exact .inl rfl
  | cons a as =>
    cases as with
    | nil => right; simpa [join] using h
    | cons b bs => simp [join] at h

/-- Names joined with commas are read back, unless there is but one and it is empty. -/
theorem readColumns_join (xs : List Str) (h : ∀ x ∈ xs, ',' ∉ x) (h1 : xs ≠ [[]]) : readColumns (join xs) = xs := by
  unfold readColumns
  by_cases he : join xs = []
  · rw [if_pos he]
    rcases join_nil xs he with h2 | h2
    · exact h2.symm
    · exact absurd h2 h1
  · rw [if_neg he]
    apply splitComma_join xs _ h
    rintro rfl
    exact he rfl

theorem names_nocomma {ks : List Key} (hok : ∀ k ∈ ks, k.Ok) : ∀ x ∈ ks.map Key.name, ',' ∉ x := by
  intro x hx
  obtain ⟨k, hk, rfl⟩ := List.mem_map.1 hx
  cases k with
  | column n => exact (hok _ hk).2
  | expr g p => simp [Key.name]

theorem names_notsingle {ks : List Key} (hok : ∀ k ∈ ks, k.Ok) (h1 : ∀ k, ks = [k] → k.isExpr = false) : ks.map Key.name ≠ [[]] := by
  intro h
  cases ks with
  | nil => simp at h
  | cons k t =>
    cases t with
    | cons b bs => simp at h
    | nil =>
      have := h1 k rfl
      cases k with
      | expr => simp [Key.isExpr] at this
      | column n =>
        simp [Key.name] at h
        exact (hok (.column n) (by simp)).1 h

theorem columns_read {ks : List Key} (hok : ∀ k ∈ ks, k.Ok) (h1 : ∀ k, ks = [k] → k.isExpr = false) :
    readColumns (reportedColumns ks) = ks.map Key.name :=
  readColumns_join _ (names_nocomma hok) (names_notsingle hok h1)

/-! ### Arguments with blanks around them -/

theorem write_plain (g : Str) : writeArg (g.map Piece.plain) = g := by
  induction g with
  | nil => rfl
  | cons c cs ih =>
    show [c] ++ writeArg (cs.map Piece.plain) = _
    rw [ih]; rfl

theorem writeArg_append (a b : List Piece) : writeArg (a ++ b) = writeArg a ++ writeArg b := by simp [writeArg]

theorem argOk_plain (g : Str) (hg : ∀ c ∈ g, c ≠ ',' ∧ c ≠ '\'' ∧ c ≠ '(' ∧ c ≠ '[') : ArgOk (g.map Piece.plain) := by
  induction g with
  | nil => exact trivial
  | cons c cs ih => exact ⟨hg c (by simp), by simp [Piece.isStr], ih fun x hx => hg x (by simp [hx])⟩

theorem argOk_append : (a b : List Piece) → ArgOk a → ArgOk b → (∀ q, b.head? = some q → q.isStr = false) → ArgOk (a ++ b)
  | [], b, _, hb, _ => hb
  | p :: a, b, ha, hb, hh => by
    obtain ⟨h1, h2, h3⟩ := ha
    refine ⟨h1, ?_, argOk_append a b h3 hb hh⟩
    intro hs q hq
    cases a with
    | nil => exact hh q hq
    | cons x xs => exact h2 hs q hq

theorem argOk_append' (a b : List Piece) (ha : ArgOk a) (hb : ArgOk b) (hh : ∀ q ∈ a, q.isStr = false) : ArgOk (a ++ b) := by
  induction a with
  | nil => exact hb
  | cons p a ih =>
    obtain ⟨h1, h2, h3⟩ := ha
    refine ⟨h1, ?_, ih h3 fun q hq => hh q (by simp [hq])⟩
    intro hs
    rw [hh p (by simp)] at hs; simp at hs

theorem blank_plain : ∀ c ∈ blanks, c ≠ ',' ∧ c ≠ '\'' ∧ c ≠ '(' ∧ c ≠ '[' := by decide

/-- An argument with blanks around it is an argument. -/
theorem argOk_blanks (g : Str) (hg : ∀ c ∈ g, c ∈ blanks) (p : List Piece) (hp : ArgOk p) (g' : Str) (hg' : ∀ c ∈ g', c ∈ blanks) :
    ArgOk (g.map Piece.plain ++ p ++ g'.map Piece.plain) := by
  have plain : ∀ (g : Str), ∀ q ∈ g.map Piece.plain, q.isStr = false := by
    intro g q hq
    obtain ⟨c, _, rfl⟩ := List.mem_map.1 hq
    rfl
  apply argOk_append
  · apply argOk_append'
    · exact argOk_plain g fun c hc => blank_plain c (hg c hc)
    · exact hp
    · exact plain g
  · exact argOk_plain g' fun c hc => blank_plain c (hg' c hc)
  · intro q hq
    exact plain g' q (List.mem_of_head? hq)

theorem split_texts (l : List (Str × List Piece × Str)) (hne : l ≠ [])
    (h : ∀ x ∈ l, (∀ c ∈ x.1, c ∈ blanks) ∧ ArgOk x.2.1 ∧ (∀ c ∈ x.2.2, c ∈ blanks)) :
    splitArgs (join (l.map fun x => x.1 ++ writeArg x.2.1 ++ x.2.2)) = l.map fun x => x.1 ++ writeArg x.2.1 ++ x.2.2 := by
  have := C31_split_partial (l.map fun x => x.1.map Piece.plain ++ x.2.1 ++ x.2.2.map Piece.plain) (by simpa using hne) (by
    intro a ha
    obtain ⟨x, hx, rfl⟩ := List.mem_map.1 ha
    obtain ⟨h1, h2, h3⟩ := h x hx
    exact argOk_blanks _ h1 _ h2 _ h3)
  have e : (l.map fun x => x.1.map Piece.plain ++ x.2.1 ++ x.2.2.map Piece.plain).map writeArg = l.map fun x => x.1 ++ writeArg x.2.1 ++ x.2.2 := by
    rw [List.map_map]
    apply List.map_congr_left
    intro x _
    simp only [Function.comp, writeArg_append, write_plain]
  rw [e] at this
  exact this

/-! ### PostgreSQL -/

def exprsOf (ks : List Key) : List (Str × List Piece × Str) :=
  ks.filterMap fun k => match k with | .column _ => none | .expr g p => some (g, p, [])

theorem fill_pg (wrap : Str → Str) : (ks : List Key) → (∀ k ∈ ks, k.Ok) → (more : List Str) →
    fillExprs wrap (ks.map Key.name) ((exprsOf ks).map (fun x => x.1 ++ writeArg x.2.1 ++ x.2.2) ++ more) =
      ks.map fun k => match k with | .column _ => [] | .expr _ p => wrap (writeArg p)
  | [], _, _ => rfl
  | .column n :: ks, h, more => by
    have hn := (h (.column n) (by simp)).1
    have ih := fill_pg wrap ks (fun k hk => h k (by simp [hk])) more
    simp only [List.map_cons, Key.name, fillExprs, if_neg hn]
    have : exprsOf (.column n :: ks) = exprsOf ks := rfl
    rw [this, ih]
  | .expr g p :: ks, h, more => by
    obtain ⟨hg, hp, hne, hed⟩ := h (.expr g p) (by simp)
    have ih := fill_pg wrap ks (fun k hk => h k (by simp [hk])) more
    have : exprsOf (.expr g p :: ks) = (g, p, []) :: exprsOf ks := rfl
    rw [this]
    simp only [List.map_cons, Key.name, fillExprs, if_pos, List.cons_append, ih]
    rw [trim_edges g (writeArg p) [] hg (by simp) hed]

theorem exprs_split (ks : List Key) (hok : ∀ k ∈ ks, k.Ok) : ∃ more,
    splitArgs (reportedExprs ks) = (exprsOf ks).map (fun x => x.1 ++ writeArg x.2.1 ++ x.2.2) ++ more := by
  have e : reportedExprs ks = join ((exprsOf ks).map (fun x => x.1 ++ writeArg x.2.1 ++ x.2.2)) := by
    unfold reportedExprs exprsOf
    rw [List.map_filterMap]
    congr 2
    funext k
    cases k <;> simp
  by_cases hne : exprsOf ks = []
  · exact ⟨splitArgs (reportedExprs ks), by rw [hne]; rfl⟩
  · refine ⟨[], ?_⟩
    rw [e, split_texts _ hne, List.append_nil]
    intro x hx
    unfold exprsOf at hx
    obtain ⟨k, hk, hx⟩ := List.mem_filterMap.1 hx
    cases k with
    | column n => simp at hx
    | expr g p =>
      simp at hx; subst hx
      obtain ⟨hg, hp, _, _⟩ := hok _ hk
      exact ⟨hg, hp, by simp⟩

/-- C52 (partial), PostgreSQL: the row of an index is read back into its key columns, its included columns and its expressions, each at the
place of its key and in brackets.  Missing: column names with commas, an index whose only key is an expression (`C52_postgres_panic_violated`),
and expressions with quoted brackets. -/
theorem C52_postgres_partial (index : Index) (ks : List Key) (hok : ∀ k ∈ ks, k.Ok) (h1 : ∀ k, ks = [k] → k.isExpr = false) (n : Nat)
    (hn : n ≤ ks.length) :
    readIndexPg index n (reportedColumns ks) (reportedExprs ks) = .ok { index with
      columns := (ks.map Key.name).take n, includeColumns := (ks.map Key.name).drop n, exprs := ks.map Key.bracketed } := by
  obtain ⟨more, hs⟩ := exprs_split ks hok
  unfold readIndexPg
  simp only [columns_read hok h1, hs, fill_pg bracketed ks hok more]
  rw [if_neg (by simpa using hn)]
  have : (ks.map fun k => match k with | .column _ => [] | .expr _ p => bracketed (writeArg p)) = ks.map Key.bracketed :=
    List.map_congr_left fun k _ => by cases k <;> rfl
  rw [this]

/-! ### MySQL -/

theorem drop_escape : (s : Str) → dropBackslash (escapeQuotes s) = s
  | [] => rfl
  | [c] => by
    unfold escapeQuotes
    split
    · rename_i h; subst h; rfl
    · rename_i h
      unfold dropBackslash
      split
      · rename_i e; simp [escapeQuotes] at e
      · rename_i e; simp [escapeQuotes] at e; obtain ⟨rfl, rfl⟩ := e; simp [dropBackslash]
      · rename_i e; simp at e
  | c :: c' :: cs => by
    have ih := drop_escape (c' :: cs)
    rw [escapeQuotes]
    split
    · rename_i h; subst h
      rw [dropBackslash, ih]
    · rename_i h
      have hh : ∀ x xs, escapeQuotes (c' :: cs) = x :: xs → x ≠ '\'' := by
        intro x xs e
        rw [escapeQuotes] at e
        split at e
        · injection e with e _; subst e; decide
        · rename_i h'; injection e with e _; subst e; exact h'
      unfold dropBackslash
      split
      · rename_i e
        injection e with e1 e2
        exact absurd rfl (hh _ _ e2)
      · rename_i e
        injection e with e1 e2
        subst e1 e2
        rw [ih]
      · rename_i e; simp at e

theorem fill_mysql : (ks : List Key) → (∀ k ∈ ks, k.Ok) →
    fillMySQL (ks.map Key.name) (ks.map Key.text) = .ok (ks.map Key.bracketed)
  | [], _ => rfl
  | .column n :: ks, h => by
    have hn := (h (.column n) (by simp)).1
    simp [Key.name, Key.text, fillMySQL, fill_mysql ks (fun k hk => h k (by simp [hk])), Res.map, hn, Key.bracketed]
  | .expr g p :: ks, h => by
    obtain ⟨_, _, _, hed⟩ := h (.expr g p) (by simp)
    have := trim_edges [] (writeArg p) [] (by simp) (by simp) hed
    simp at this
    simp [Key.name, Key.text, fillMySQL, fill_mysql ks (fun k hk => h k (by simp [hk])), Res.map, Key.bracketed, this, bracketed]

theorem join_head : (xs : List Str) → (∀ x ∈ xs, NoEdge x) → ∀ c, (join xs).head? = some c → Sq.isSpace c = false
  | [], _, c, h => by simp [join] at h
  | [a], ha, c, h => ha a (by simp) c (.inl (by simpa [join] using h))
  | a :: b :: bs, ha, c, h => by
    rw [join] at h
    cases a with
    | nil => simp at h; subst h; decide
    | cons x xs => exact ha (x :: xs) (by simp) c (.inl (by simpa using h))

theorem join_last : (xs : List Str) → (∀ x ∈ xs, NoEdge x) → ∀ c, (join xs).getLast? = some c → Sq.isSpace c = false
  | [], _, c, h => by simp [join] at h
  | [a], ha, c, h => ha a (by simp) c (.inr (by simpa [join] using h))
  | a :: b :: bs, ha, c, h => by
    rw [join] at h
    cases hj : join (b :: bs) with
    | nil =>
      rw [hj] at h
      simp at h; subst h; decide
    | cons y ys =>
      rw [hj] at h
      have : (a ++ ',' :: y :: ys).getLast? = (y :: ys).getLast? := by simp [List.getLast?_append, List.getLast?_cons]
      rw [this, ← hj] at h
      exact join_last (b :: bs) (fun x hx => ha x (by simp [hx])) c h

/-- C52 (partial), MySQL: the row of an index is read back into its columns and its expressions, each at the place of its key. -/
theorem C52_mysql_partial (index : Index) (ks : List Key) (hok : ∀ k ∈ ks, k.Ok) (hne : ks ≠ []) (h1 : ∀ k, ks = [k] → k.isExpr = false) :
    readIndexMySQL index (reportedColumns ks) (reportedExprsMySQL ks) = .ok { index with
      columns := ks.map Key.name, exprs := ks.map Key.bracketed } := by
  have hed : ∀ x ∈ ks.map Key.text, NoEdge x := by
    intro x hx
    obtain ⟨k, hk, rfl⟩ := List.mem_map.1 hx
    cases k with
    | column n => intro c hc; simp [Key.text] at hc
    | expr g p => exact (hok _ hk).2.2.2
  have ht := trim_edges [] (join (ks.map Key.text)) [] (by simp) (by simp) (by
    intro c hc
    rcases hc with hc | hc
    · exact join_head _ hed c hc
    · exact join_last _ hed c hc)
  simp only [List.nil_append, List.append_nil] at ht
  have hs : splitArgs (join (ks.map Key.text)) = ks.map Key.text := by
    have := C31_split_partial (ks.map fun k => match k with | .column _ => [] | .expr _ p => p) (by simpa using hne) (by
      intro a ha
      obtain ⟨k, hk, rfl⟩ := List.mem_map.1 ha
      cases k with
      | column n => exact trivial
      | expr g p => exact (hok _ hk).2.1)
    have e2 : (ks.map fun k => match k with | .column _ => [] | .expr _ p => p).map writeArg = ks.map Key.text := by
      rw [List.map_map]
      apply List.map_congr_left
      intro k _; cases k <;> rfl
    rw [e2] at this
    exact this
  unfold readIndexMySQL reportedExprsMySQL
  simp only [drop_escape, ht, hs, columns_read hok h1, fill_mysql ks hok]
  rfl

/-! ### SQLite -/

theorem cutLast_some (c : Char) (a b : Str) (h : c ∉ b) : cutLast c (a ++ c :: b) = some (a, b) := by
  unfold cutLast
  rw [List.reverse_append, List.reverse_cons, List.append_assoc]
  rw [show [c] ++ a.reverse = c :: a.reverse from rfl, cutAt_some c b.reverse a.reverse (by simpa using h)]
  simp

theorem fill_sqlite : (ks : List Key) → (gaps : List (Str × Str)) → gaps.length = ks.length →
    (∀ g ∈ gaps, (∀ c ∈ g.1, c ∈ blanks) ∧ (∀ c ∈ g.2, c ∈ blanks)) → (∀ k ∈ ks, k.Ok ∧ ∀ n, k = .column n → PlainName n) →
    fillSQLite (ks.map Key.name) ((ks.zip gaps).map fun p => p.1.inSQL p.2.1 p.2.2) = .ok (ks.map Key.text)
  | [], _, _, _, _ => rfl
  | k :: ks, [], h, _, _ => by simp at h
  | k :: ks, g :: gaps, h, hg, hk => by
    have ih := fill_sqlite ks gaps (by simpa using h) (fun x hx => hg x (by simp [hx])) (fun x hx => hk x (by simp [hx]))
    obtain ⟨h1, h2⟩ := hg g (by simp)
    obtain ⟨hok, hpl⟩ := hk k (by simp)
    cases k with
    | column n =>
      have hp := hpl n rfl
      have ht : trim (Key.inSQL (.column n) g.1 g.2) = n := by
        apply trim_edges _ _ _ h1 h2
        intro c hc
        rcases hc with hc | hc
        · exact (hp c (List.mem_of_head? hc)).2.2.2.2
        · exact (hp c (List.mem_of_getLast? hc)).2.2.2.2
      simp only [List.map_cons, List.zip_cons_cons, fillSQLite, Key.name]
      rw [if_pos hok.1, ht, if_neg (by simp), ih]
      rfl
    | expr gg p =>
      have ht : trim (Key.inSQL (.expr gg p) g.1 g.2) = writeArg p := trim_edges _ _ _ h1 h2 hok.2.2.2
      simp only [List.map_cons, List.zip_cons_cons, fillSQLite, Key.name]
      rw [if_neg (by simp), ht, ih]
      rfl

theorem split_sqlite (ks : List Key) (gaps : List (Str × Str)) (hne : ks ≠ []) (hl : gaps.length = ks.length)
    (hg : ∀ g ∈ gaps, (∀ c ∈ g.1, c ∈ blanks) ∧ (∀ c ∈ g.2, c ∈ blanks)) (hk : ∀ k ∈ ks, k.Ok ∧ ∀ n, k = .column n → PlainName n) :
    splitArgs (join ((ks.zip gaps).map fun p => p.1.inSQL p.2.1 p.2.2)) = (ks.zip gaps).map fun p => p.1.inSQL p.2.1 p.2.2 := by
  let l : List (Str × List Piece × Str) := (ks.zip gaps).map fun p =>
    (p.2.1, (match p.1 with | .column n => n.map Piece.plain | .expr _ q => q), p.2.2)
  have e : (ks.zip gaps).map (fun p => p.1.inSQL p.2.1 p.2.2) = l.map fun x => x.1 ++ writeArg x.2.1 ++ x.2.2 := by
    rw [List.map_map]
    apply List.map_congr_left
    intro p _
    obtain ⟨k, g⟩ := p
    cases k <;> simp [Key.inSQL, write_plain]
  rw [e]
  apply split_texts
  · intro h
    have : (ks.zip gaps) = [] := by simpa [l] using h
    cases ks with
    | nil => exact hne rfl
    | cons k t =>
      cases gaps with
      | nil => simp at hl
      | cons => simp at this
  · intro x hx
    obtain ⟨p, hp, rfl⟩ := List.mem_map.1 hx
    have hg' := hg p.2 (List.of_mem_zip hp).2
    have hk' := hk p.1 (List.of_mem_zip hp).1
    refine ⟨hg'.1, ?_, hg'.2⟩
    obtain ⟨k, g⟩ := p
    cases k with
    | column n =>
      apply argOk_plain
      intro c hc
      have := hk'.2 n rfl c hc
      exact ⟨this.1, this.2.1, this.2.2.1, this.2.2.2.1⟩
    | expr gg q => exact hk'.1.2.1

theorem fold_where (w : Str) : equalFold w "WHERE" = true ↔ _root_.Spec.sameKeyword w "WHERE" := equalFold_iff w _ (by decide)

/-- C52 (partial), SQLite: columns, expressions (each at the place of its key, as written) and the predicate of a partial index are read
back.  Missing: quoted column names, sort orders and collations, brackets in the predicate (all rejected, `C52_sqlite_rejects_violated`), an
index whose only key is an expression (lost, `C52_expression_lost_violated`). -/
theorem C52_sqlite_partial (index : Index) (ks : List Key) (predicate : Str) (h : IndexText index.sql ks predicate) (hne : ks ≠ [])
    (h1 : ∀ k, ks = [k] → k.isExpr = false) :
    readIndexSQLite index (reportedColumns ks) = .ok { index with
      columns := ks.map Key.name, exprs := ks.map Key.text, predicate := predicate } := by
  have hok : ∀ k ∈ ks, k.Ok := fun k hk => (h.hkeys k hk).1
  let body := join ((ks.zip h.gaps).map fun p => p.1.inSQL p.2.1 p.2.2)
  have hsql : index.sql = h.pre ++ '(' :: (body ++ ')' :: h.post) := h.text
  have c1 : cutAt '(' index.sql = some (h.pre, body ++ ')' :: h.post) := by
    refine (congrArg (cutAt '(') hsql).trans ?_
    rw [cutAt_some _ _ _ h.hpre]
  have c2 : cutLast ')' index.sql = some (h.pre ++ '(' :: body, h.post) := by
    refine (congrArg (cutLast ')') hsql).trans ?_
    rw [show h.pre ++ '(' :: (body ++ ')' :: h.post) = (h.pre ++ '(' :: body) ++ ')' :: h.post by simp, cutLast_some _ _ _ h.hpost]
  have hd : (h.pre ++ '(' :: body).drop (h.pre.length + 1) = body := by
    rw [show h.pre ++ '(' :: body = (h.pre ++ ['(']) ++ body by simp]
    rw [List.drop_append_of_le_length (by simp)]
    simp
  have e1 : sqliteExprs (ks.map Key.name) index.sql = .ok (ks.map Key.text) := by
    unfold sqliteExprs
    rw [c1, c2]
    simp only
    rw [if_pos (by simp), hd, split_sqlite ks h.gaps hne h.hlen h.hgaps h.hkeys, fill_sqlite ks h.gaps h.hlen h.hgaps h.hkeys]
  have e2 : sqlitePredicate index.sql = predicate := by
    unfold sqlitePredicate
    rw [c2]
    simp only
    rcases h.hwhere with ⟨hp, hq⟩ | ⟨s, kw, t, u, hp, hs, hkw, ht, hu, hpne, hed⟩
    · rw [hp, hq]
      have : popToken .sqlite [] = ([], []) := rfl
      rw [this, if_neg (by decide)]
    · have hw := keyword_word .sqlite kw "WHERE" hkw (by decide) (by decide)
      have hpop := popToken_word .sqlite s hs.2 hw.1 hw.2 (t ++ (predicate ++ u)) (sep_ends ht _)
      rw [hp, hpop]
      simp only
      rw [if_pos ((fold_where kw).2 hkw)]
      have := trim_edges t predicate u ht.2 hu hed
      simpa using this
  unfold readIndexSQLite
  simp only [columns_read hok h1, e1, e2]
  rw [if_neg (fun e => by have := hsql.symm.trans e; simp at this)]
  rfl

/-! ### Constraints -/

/-- C52: the columns of a constraint and the columns it references are read back in order (names without commas; a constraint has columns
with names), on every dialect. -/
theorem C52_constraint_columns_partial (d : Dialect) (con : Constraint) (cols refs : List Str) (rawExprs rawOps : Str)
    (hc : ∀ x ∈ cols, x ≠ [] ∧ ',' ∉ x) (hr : ∀ x ∈ refs, x ≠ [] ∧ ',' ∉ x) :
    (readConstraint d con (join cols) rawExprs (join refs) rawOps).columns = cols ∧
    (readConstraint d con (join cols) rawExprs (join refs) rawOps).referencesColumns = refs ∧
    (readConstraint d con (join cols) rawExprs (join refs) rawOps).exprs.length = cols.length := by
  have key : ∀ xs : List Str, (∀ x ∈ xs, x ≠ [] ∧ ',' ∉ x) → readColumns (join xs) = xs := by
    intro xs hx
    apply readColumns_join xs (fun x h => (hx x h).2)
    rintro rfl
    exact (hx [] (by simp)).1 rfl
  have hlen : ∀ (w : Str → Str) (cs es : List Str), (fillExprs w cs es).length = cs.length := by
    intro w cs
    induction cs with
    | nil => intro es; rfl
    | cons c cs ih =>
      intro es
      unfold fillExprs
      split
      · split <;> simp [ih]
      · simp [ih]
  refine ⟨key cols hc, key refs hr, ?_⟩
  show (if d = .postgres then _ else _ : List Str).length = _
  rw [key cols hc]
  split
  · exact hlen _ _ _
  · simp

/-- C52 (partial), exclusion constraints (PostgreSQL): columns, expressions and operators, each at its place. -/
theorem C52_exclude_partial (con : Constraint) (ks : List Key) (ops : List Str) (hok : ∀ k ∈ ks, k.Ok)
    (h1 : ∀ k, ks = [k] → k.isExpr = false) (ho : ∀ x ∈ ops, x ≠ [] ∧ ',' ∉ x) :
    let r := readConstraint .postgres con (reportedColumns ks) (reportedExprs ks) [] (join ops)
    r.columns = ks.map Key.name ∧ r.exprs = ks.map Key.text ∧ r.exclusionOperators = ops := by
  obtain ⟨more, hs⟩ := exprs_split ks hok
  refine ⟨columns_read hok h1, ?_, ?_⟩
  · show (if Dialect.postgres = .postgres then fillExprs id (readColumns (reportedColumns ks)) (splitArgs (reportedExprs ks)) else (readColumns (reportedColumns ks)).map fun _ => []) = _
    rw [if_pos rfl, columns_read hok h1, hs, fill_pg id ks hok more]
    apply List.map_congr_left
    intro k _; cases k <;> rfl
  · show (if Dialect.postgres = .postgres then readColumns (join ops) else con.exclusionOperators) = _
    rw [if_pos rfl]
    apply readColumns_join ops (fun x h => (ho x h).2)
    rintro rfl
    exact (ho [] (by simp)).1 rfl

/-- C52: the brackets the catalog puts around a CHECK expression are removed, and nothing else: `CHECK (expr)` on PostgreSQL, `(expr)` on
MySQL. -/
theorem C52_check_partial (e : Str) (he : e ≠ []) :
    readCheck .postgres ("CHECK (".toList ++ e ++ ")".toList) = e ∧ readCheck .mysql ("(".toList ++ e ++ ")".toList) = e := by
  have key : ∀ t : Str, t = '(' :: (e ++ [')']) → (if t.length > 2 ∧ t.head? = some '(' ∧ t.getLast? = some ')' then t.tail.dropLast else t) = e := by
    rintro t rfl
    have hlen : 0 < e.length := by cases e with
      | nil => exact absurd rfl he
      | cons => simp
    rw [if_pos ⟨by simp; omega, rfl, by simp [List.getLast?_cons]⟩]
    simp
  constructor
  · unfold readCheck
    apply key
    rw [if_pos ⟨rfl, by simp⟩]
    unfold trimPrefix
    have : "CHECK (".toList ++ e ++ ")".toList = "CHECK ".toList ++ '(' :: (e ++ [')']) := by
      rw [show "CHECK (".toList = "CHECK ".toList ++ ['('] from rfl, show ")".toList = [')'] from rfl]
      simp only [List.append_assoc, List.cons_append, List.nil_append]
    rw [this, if_pos (by simp), List.drop_left]
  · unfold readCheck
    apply key
    rw [if_neg (by simp)]
    rfl

/-! ### What goes wrong -/

/-- An index on an expression alone, such as `CREATE INDEX ON t (lower(email))`: the single empty column name is reported as the empty text,
and cutting the key columns panics. -/
theorem C52_postgres_panic_violated :
    readIndexPg {} 1 (reportedColumns [.expr [] ("lower".toList.map Piece.plain ++ [.paren "email"])]) "lower(email)".toList = .panic := by
  decide +kernel

/-- On MySQL and SQLite the same index is read without any key. -/
theorem C52_expression_lost_violated :
    readIndexMySQL {} [] "lower(`email`)".toList = .ok {} ∧
    readIndexSQLite { sql := "CREATE INDEX i ON t (lower(email))".toList } [] = .ok { sql := "CREATE INDEX i ON t (lower(email))".toList } := by
  decide +kernel

/-- On SQLite the statement this package itself writes for an index on a column that needs quotes is rejected on introspection; so are sort
orders and predicates with brackets; and a bracket in a string panics. -/
theorem C52_sqlite_rejects_violated :
    (∃ q, CreateIndexCommand.sql .sqlite { index := { tableName := "t", indexName := "i", columns := ["Name"], exprs := [[]] } } = .ok q ∧
      readIndexSQLite { sql := q } "Name".toList = .err "column mismatch".toList) ∧
    readIndexSQLite { sql := "CREATE INDEX i ON t (a DESC)".toList } "a".toList = .err "column mismatch".toList ∧
    readIndexSQLite { sql := "CREATE INDEX i ON t (a) WHERE (b > 0)".toList } "a".toList = .err "column mismatch".toList ∧
    readIndexSQLite { sql := "CREATE INDEX i ON t (f(')'), b)".toList } ",b".toList = .panic := by
  refine ⟨⟨"CREATE INDEX i ON t (\"Name\")".toList, ?_, ?_⟩, ?_, ?_, ?_⟩ <;> decide +kernel

/-- A column name with a comma is read as two columns. -/
theorem C52_comma_violated :
    (readConstraint .postgres {} (join ["a,b".toList]) [] [] []).columns = ["a".toList, "b".toList] := by
  decide +kernel

/-- A constraint that is not validated yet keeps its brackets and NOT VALID in the expression. -/
theorem C52_check_violated : readCheck .postgres "CHECK (a > 0) NOT VALID".toList = "(a > 0) NOT VALID".toList := by
  decide +kernel

/-! ### The hypotheses are met -/

/-- Keys `a`, `lower(b)`, `c`. -/
def exampleKeys : List Key := [.column "a", .expr " ".toList ("lower".toList.map Piece.plain ++ [.paren "b"]), .column "c"]

theorem exampleKeys_ok : ∀ k ∈ exampleKeys, k.Ok := by
  intro k hk
  simp only [exampleKeys, List.mem_cons, List.not_mem_nil, or_false] at hk
  rcases hk with rfl | rfl | rfl
  · exact ⟨by decide, by decide⟩
  · refine ⟨by decide, ?_, by decide, ?_⟩
    · exact argOk_append _ _ (argOk_plain _ (by decide)) ⟨by simp [Piece.Ok, Ddl.Spec.depth], by simp [Piece.isStr], trivial⟩ (by simp [Piece.isStr])
    · intro c hc
      have h1 : (writeArg ("lower".toList.map Piece.plain ++ [.paren "b"])).head? = some 'l' := by decide
      have h2 : (writeArg ("lower".toList.map Piece.plain ++ [.paren "b"])).getLast? = some ')' := by decide
      rw [h1, h2] at hc
      rcases hc with hc | hc <;> (injection hc with hc; subst hc; decide)
  · exact ⟨by decide, by decide⟩

theorem exampleKeys_two : ∀ k, exampleKeys = [k] → k.isExpr = false := by
  intro k h; simp [exampleKeys] at h

/-- The row PostgreSQL reports for `(a, lower(b)) INCLUDE (c)`. -/
example : reportedColumns exampleKeys = "a,,c".toList ∧ reportedExprs exampleKeys = " lower(b)".toList := by decide
example := C52_postgres_partial {} exampleKeys exampleKeys_ok exampleKeys_two 2 (by decide)
example := C52_mysql_partial {} exampleKeys exampleKeys_ok (by decide) exampleKeys_two
example := C52_exclude_partial {} exampleKeys ["=".toList, "&&".toList, "=".toList] exampleKeys_ok exampleKeys_two (by decide)

/-- `CREATE INDEX i ON t (a, lower(b) ,c) WHERE a > 0`. -/
def exampleIndexText : IndexText "CREATE INDEX i ON t (a, lower(b) ,c) WHERE a > 0".toList exampleKeys "a > 0".toList where
  pre := "CREATE INDEX i ON t ".toList
  gaps := [([], []), (" ".toList, " ".toList), ([], [])]
  post := " WHERE a > 0".toList
  text := by decide
  hpre := by decide
  hpost := by decide
  hlen := rfl
  hgaps := by decide
  hkeys := by
    intro k hk
    refine ⟨exampleKeys_ok k hk, ?_⟩
    intro n e
    subst e
    simp only [exampleKeys, List.mem_cons, List.not_mem_nil, or_false, Key.column.injEq, reduceCtorEq, false_or] at hk
    rcases hk with rfl | rfl <;> (unfold PlainName; decide)
  hwhere := .inr ⟨" ".toList, "WHERE".toList, " ".toList, [], rfl, ⟨by decide, by decide⟩, by unfold _root_.Spec.sameKeyword; decide,
    ⟨by decide, by decide⟩, by decide, by decide, by
      intro c hc
      have h1 : "a > 0".toList.head? = some 'a' := rfl
      have h2 : "a > 0".toList.getLast? = some '0' := rfl
      rw [h1, h2] at hc
      rcases hc with hc | hc <;> (injection hc with hc; subst hc; decide)⟩

example := C52_sqlite_partial { sql := "CREATE INDEX i ON t (a, lower(b) ,c) WHERE a > 0".toList } exampleKeys _ exampleIndexText (by decide) exampleKeys_two

end Ddl.Scan
