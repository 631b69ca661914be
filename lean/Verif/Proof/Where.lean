import Verif.Spec.Where
import Verif.Props.Store
import Verif.Props.Boolean
import Verif.Proof.Lexer
/-
How conditions on fields are written, and how the text is read back (for C80 and C81).
-/
namespace Sq.Choosing
open Sq Sq.Spec Sq.Chain Sq.Exprs Sq.Exprs.Writing Sq.Spec.Store Sq.Storing Sq.Spec.Where
open _root_.Spec (Tok tokens BTok BExp readBool identClose isBareIdent)

/-! ### Columns -/

/-- The label of a field: the alias of its table, or its name. -/
def labelOf : Node → Str
  | .field fi _ _ _ => if fi.tableAlias = [] then fi.tableName else fi.tableAlias
  | _ => []
/-- `label.name` -/
def colText (d : Dialect) (c : Node) : Str := quoteIdentifier d (labelOf c) ++ ".".toList ++ quoteIdentifier d c.name
/-- A column of a table with a name. -/
def IsCol (c : Node) : Prop := ∃ (t : Tab) (raw : Str → Bool) (n : Str), t.name ≠ [] ∧ c = t.field raw n

theorem label_field (t : Tab) (raw : Str → Bool) (n : Str) : labelOf (t.field raw n) = t.label ∧ (t.field raw n).name = n := ⟨rfl, rfl⟩
theorem colText_field (d : Dialect) (t : Tab) (raw : Str → Bool) (n : Str) : colText d (t.field raw n) = t.column d n := rfl

/-! ### What a test adds -/

/-- An operand is placed on its own. -/
def place (d : Dialect) : Part → Part
  | .operand n => .placed n { d := d }
  | p => p

theorem appendParts_place (d : Dialect) (ps : List Part) (s : St) : appendParts d (ps.map (place d)) s = appendParts d ps s := by
  induction ps generalizing s with
  | nil => rfl
  | cons p ps ih =>
    show appendParts d (ps.map (place d)) ((place d p).append d s) = appendParts d ps (p.append d s)
    rw [ih]
    cases p <;> rfl

theorem Adds.call {d : Dialect} (c : Call) {xs : List Part} (h : Adds d ((form c).map (place d)) xs) : Adds d [.placed c.node { d := d }] xs := by
  have hw := fun s => C54_written d c (fun p hp => by
    have hm := List.mem_map_of_mem (f := place d) hp
    cases p with
    | text t => trivial
    | value a => trivial
    | operand n => exact h.ok n { d := d } hm
    | placed n m => exact h.ok n m hm) s
  refine ⟨fun k m' hk => ?_, fun s u hst => ?_⟩
  · simp only [List.mem_singleton, Part.placed.injEq] at hk
    rw [hk.1, hk.2]
    exact (hw {}).1
  · refine Eq.trans (hw s).2 ?_
    rw [← appendParts_place]
    exact h.eq s u hst

def Op.word : Op → Str
  | .eq => " = ".toList | .ne => " <> ".toList | .gt => " > ".toList | .ge => " >= ".toList | .lt => " < ".toList | .le => " <= ".toList
  | .like => " LIKE ".toList | .ilike => " ILIKE ".toList

def rhsPart (d : Dialect) : Rhs Node → Part
  | .col c => .text (colText d c)
  | .val v => .value (.val v)

def testParts (d : Dialect) : Test Node → List Part
  | .cmp op c x => [.text (colText d c), .text (Op.word op), rhsPart d x]
  | .null c => [.text (colText d c), .text " IS NULL".toList]
  | .notNull c => [.text (colText d c), .text " IS NOT NULL".toList]
  | .among c vs => .text (colText d c) :: .text " IN (".toList :: (listed ", ".toList (vs.map fun v => [.value (.val v)]) ++ [.text ")".toList])

theorem rhsPart_flat (d : Dialect) (x : Rhs Node) : Flat [rhsPart d x] := by
  cases x
  · exact Flat.text _
  · exact Flat.value _

theorem testParts_flat (d : Dialect) (x : Test Node) : Flat (testParts d x) := by
  cases x
  · exact Flat.cons _ (Flat.cons _ (rhsPart_flat d _))
  · exact Flat.cons _ (Flat.text _)
  · exact Flat.cons _ (Flat.text _)
  · exact Flat.cons _ (Flat.cons _ (Flat.append (flat_listed _ _ fun _ _ => Flat.value _) (Flat.text _)))

theorem adds_column {d : Dialect} (c : Node) (h : IsCol c) : Adds d [.placed c { d := d }] [.text (colText d c)] := by
  obtain ⟨t, raw, n, hn, rfl⟩ := h
  have hf := Adds.field (d := d) t raw n { d := d } rfl hn
  rw [show isExcluded (({ d := d } : Mode).ex) t.label = false from excluded_nil _] at hf
  exact hf

theorem adds_slice {d : Dialect} (i : Nat) (vs : List Scalar) :
    Adds d [.placed (.slice i (vs.map .scalar)) { d := d }] (listed ", ".toList (vs.map fun v => [.value (.val v)])) := by
  refine Adds.construct (n := .slice i (vs.map .scalar)) (m := { d := d }) (ps := listed ", ".toList ((vs.map Node.scalar).map (element { d := d }))) rfl rfl trivial ?_
  rw [List.map_map]
  exact Adds.listed _ _ _ vs fun v _ => Adds.scalar v _ rfl

theorem adds_test {d : Dialect} (x : Test Node) (hx : ∀ c ∈ x.columns, IsCol c) : Adds d [.placed x.node { d := d }] (testParts d x) := by
  have hs := fun v => Adds.scalar (d := d) v { d := d } rfl
  cases x with
  | cmp op c x =>
    have hc := adds_column (d := d) c (hx c (by simp [Test.columns]))
    obtain ⟨t, raw, n, _, rfl⟩ := hx c (by simp [Test.columns])
    cases x with
    | col c' =>
      have hc' := adds_column (d := d) c' (hx c' (by simp [Test.columns, Rhs.columns]))
      obtain ⟨t', raw', n', _, rfl⟩ := hx c' (by simp [Test.columns, Rhs.columns])
      refine Adds.call (op.call (t.field raw n) (t'.field raw' n')) ?_
      cases op <;> exact hc.append (Adds.cons _ hc')
    | val v =>
      refine Adds.call (op.call (t.field raw n) (.scalar v)) ?_
      cases op <;> exact hc.append (Adds.cons _ (hs v))
  | null c =>
    have hc := adds_column (d := d) c (hx c (by simp [Test.columns]))
    obtain ⟨t, raw, n, _, rfl⟩ := hx c (by simp [Test.columns])
    exact Adds.call (.isNull (t.field raw n)) (hc.append (Adds.text _))
  | notNull c =>
    have hc := adds_column (d := d) c (hx c (by simp [Test.columns]))
    obtain ⟨t, raw, n, _, rfl⟩ := hx c (by simp [Test.columns])
    exact Adds.call (.isNotNull (t.field raw n)) (hc.append (Adds.text _))
  | among c vs =>
    have hc := adds_column (d := d) c (hx c (by simp [Test.columns]))
    obtain ⟨t, raw, n, _, rfl⟩ := hx c (by simp [Test.columns])
    refine Adds.call (.in_ (t.field raw n) (.slice 0 (vs.map .scalar))) ?_
    exact hc.append (Adds.cons _ ((adds_slice 0 vs).append (Adds.text _)))

/-! ### What a clause adds -/

def tokParts (d : Dialect) : BTok (Test Node) → List Part
  | .atom x => testParts d x
  | .and => [.text " AND ".toList]
  | .or => [.text " OR ".toList]
  | .not => [.text "NOT ".toList]
  | .lp => [.text "(".toList]
  | .rp => [.text ")".toList]

def BTok.map {α β : Type} (f : α → β) : BTok α → BTok β
  | .atom a => .atom (f a)
  | .and => .and | .or => .or | .not => .not | .lp => .lp | .rp => .rp

theorem tokParts_flat (d : Dialect) (b : BTok (Test Node)) : Flat (tokParts d b) := by
  cases b
  · exact testParts_flat d _
  all_goals exact Flat.text _

theorem clause_flat (d : Dialect) (ts : List (BTok (Test Node))) : Flat (ts.flatMap (tokParts d)) := fun p hp => by
  obtain ⟨b, _, hb⟩ := List.mem_flatMap.1 hp
  exact tokParts_flat d b p hb

/-- The tokens printed one after another. -/
theorem adds_toks {m : Mode} (hx : m.ex = []) (ts : List (BTok (Test Node))) (hc : ∀ x, .atom x ∈ ts → ∀ c ∈ x.columns, IsCol c) :
    (printToks m (ts.map (BTok.map Test.node))).st = .ok ∧
    ∀ s u, Same m.d s u → Same m.d (exec m.d (printToks m (ts.map (BTok.map Test.node))).code s) (appendParts m.d (ts.flatMap (tokParts m.d)) u) := by
  have h1 : ∀ b : BTok (Test Node), (∀ x, b = .atom x → ∀ c ∈ x.columns, IsCol c) → (printTok m (BTok.map Test.node b)).st = .ok ∧
      ∀ s u, Same m.d s u → Same m.d (exec m.d (printTok m (BTok.map Test.node b)).code s) (appendParts m.d (tokParts m.d b) u) := by
    intro b hb
    cases b with
    | atom x =>
      have h := adds_test (d := m.d) x (hb x rfl)
      have hm : m.call none m.ex = { d := m.d } := by rw [hx]; rfl
      refine ⟨?_, fun s u hst => ?_⟩
      · show (ren (x.node) (m.call none m.ex) []).st = .ok
        rw [hm]
        exact h.ok (x.node) { d := m.d } (List.mem_singleton.2 rfl)
      · show Same m.d (exec m.d (ren (x.node) (m.call none m.ex) []).code s) _
        rw [hm]
        exact h.eq s u hst
    | _ => exact ⟨rfl, fun s u hst => append_same (.text _) (.inl ⟨_, rfl⟩) hst⟩
  induction ts with
  | nil => exact ⟨rfl, fun s u h => h⟩
  | cons b ts ih =>
    obtain ⟨a1, a2⟩ := h1 b fun x hx => hc x (hx ▸ List.mem_cons_self ..)
    have ih := ih fun x hx => hc x (List.mem_cons_of_mem _ hx)
    have e : printToks m ((b :: ts).map (BTok.map Test.node)) =
        (printTok m (BTok.map Test.node b) ⨟ printToks m (ts.map (BTok.map Test.node))) := rfl
    rw [e]
    generalize printTok m (BTok.map Test.node b) = W at a1 a2
    obtain ⟨code, st⟩ := W
    simp only at a1
    subst a1
    refine ⟨ih.1, fun s u hst => ?_⟩
    show Same m.d (exec m.d (code ++ _) s) _
    rw [exec_append, List.flatMap_cons, appendParts_append]
    exact ih.2 _ _ (a2 s u hst)


/-! ### Reading expressions over other atoms -/

section Read
open _root_.Spec (readOr readAnd readNot readPrim)

def BExp.map {α β : Type} (f : α → β) : BExp α → BExp β
  | .atom a => .atom (f a)
  | .not e => .not (map f e)
  | .and e g => .and (map f e) (map f g)
  | .or e g => .or (map f e) (map f g)

def BExp.atoms {α : Type} : BExp α → List α
  | .atom a => [a]
  | .not e => atoms e
  | .and e g | .or e g => atoms e ++ atoms g

theorem BExp.atoms_map {α β : Type} (f : α → β) (e : BExp α) : BExp.atoms (BExp.map f e) = (BExp.atoms e).map f := by
  induction e with
  | atom a => rfl
  | not e ih => exact ih
  | and e g ih ih' => simp [BExp.map, BExp.atoms, ih, ih']
  | or e g ih ih' => simp [BExp.map, BExp.atoms, ih, ih']

variable {α β : Type}

def mapRes (f : α → β) (x : BExp α × List (BTok α)) : BExp β × List (BTok β) := (BExp.map f x.1, x.2.map (BTok.map f))

theorem read_map (f : α → β) (k : Nat) :
    (∀ ts : List (BTok α), readOr k (ts.map (BTok.map f)) = (readOr k ts).map (mapRes f)) ∧
    (∀ ts : List (BTok α), readAnd k (ts.map (BTok.map f)) = (readAnd k ts).map (mapRes f)) ∧
    (∀ ts : List (BTok α), readNot k (ts.map (BTok.map f)) = (readNot k ts).map (mapRes f)) ∧
    (∀ ts : List (BTok α), readPrim k (ts.map (BTok.map f)) = (readPrim k ts).map (mapRes f)) := by
  induction k with
  | zero => exact ⟨fun _ => rfl, fun _ => rfl, fun _ => rfl, fun _ => rfl⟩
  | succ k ih =>
    obtain ⟨i1, i2, i3, i4⟩ := ih
    refine ⟨fun ts => ?_, fun ts => ?_, fun ts => ?_, fun ts => ?_⟩
    · simp only [readOr]
      rw [i2]
      cases readAnd k ts with
      | none => rfl
      | some x =>
        obtain ⟨e, r⟩ := x
        cases r with
        | nil => rfl
        | cons b r =>
          cases b <;> try rfl
          simp only [Option.map_some, mapRes, List.map_cons, BTok.map]
          rw [i1]
          cases readOr k r with
          | none => rfl
          | some y => rfl
    · simp only [readAnd]
      rw [i3]
      cases readNot k ts with
      | none => rfl
      | some x =>
        obtain ⟨e, r⟩ := x
        cases r with
        | nil => rfl
        | cons b r =>
          cases b <;> try rfl
          simp only [Option.map_some, mapRes, List.map_cons, BTok.map]
          rw [i2]
          cases readAnd k r with
          | none => rfl
          | some y => rfl
    · cases ts with
      | nil => simp only [readNot, List.map_nil]; exact i4 []
      | cons b r =>
        cases b with
        | not =>
          simp only [readNot, List.map_cons, BTok.map]
          rw [i3]
          cases readNot k r with
          | none => rfl
          | some y => rfl
        | atom a => simp only [readNot, List.map_cons, BTok.map]; exact i4 (.atom a :: r)
        | and => simp only [readNot, List.map_cons, BTok.map]; exact i4 (.and :: r)
        | or => simp only [readNot, List.map_cons, BTok.map]; exact i4 (.or :: r)
        | lp => simp only [readNot, List.map_cons, BTok.map]; exact i4 (.lp :: r)
        | rp => simp only [readNot, List.map_cons, BTok.map]; exact i4 (.rp :: r)
    · cases ts with
      | nil => rfl
      | cons b r =>
        cases b <;> try rfl
        simp only [readPrim, List.map_cons, BTok.map]
        rw [i1]
        cases readOr k r with
        | none => rfl
        | some x =>
          obtain ⟨e, r⟩ := x
          cases r with
          | nil => rfl
          | cons b r => cases b <;> rfl

theorem readBool_map (f : α → β) (ts : List (BTok α)) : readBool (ts.map (BTok.map f)) = (readBool ts).map (BExp.map f) := by
  unfold readBool
  rw [List.length_map, (read_map f _).1]
  cases readOr (4 * ts.length + 4) ts with
  | none => rfl
  | some x =>
    obtain ⟨e, r⟩ := x
    cases r <;> rfl

/-- No test is followed directly by a test or a NOT. -/
def Adj : List (BTok α) → Prop
  | .atom _ :: .atom _ :: _ => False
  | .atom _ :: .not :: _ => False
  | _ :: ts => Adj ts
  | [] => True

theorem adj_cons {b : BTok α} (hb : ∀ a, b ≠ .atom a) (ts : List (BTok α)) : Adj (b :: ts) ↔ Adj ts := by
  cases b with
  | atom a => exact absurd rfl (hb a)
  | _ => exact Iff.rfl

theorem adj_append {a b : List (BTok α)} {x : BTok α} (hx : ∀ c, x ≠ .atom c) (hx' : x ≠ .not) (ha : Adj a) (hb : Adj b) : Adj (a ++ x :: b) := by
  induction a with
  | nil => exact (adj_cons hx b).2 hb
  | cons y a ih =>
    cases y with
    | atom c =>
      cases a with
      | nil =>
        cases x with
        | atom d => exact absurd rfl (hx d)
        | not => exact absurd rfl hx'
        | _ => exact hb
      | cons z a =>
        cases z with
        | atom d => exact ha.elim
        | not => exact ha.elim
        | _ => exact ih ha
    | _ => exact ih ha

/-- What was read: a piece of the tokens, whose atoms are those of the expression. -/
def Took (ts : List (BTok α)) (e : BExp α) (r : List (BTok α)) : Prop :=
  ∃ pre, ts = pre ++ r ∧ Adj pre ∧ ∀ a, .atom a ∈ pre → a ∈ BExp.atoms e

theorem took_join {ts : List (BTok α)} {e f g : BExp α} {r r' : List (BTok α)} {x : BTok α} (hx : ∀ c, x ≠ .atom c) (hx' : x ≠ .not)
    (h : Took ts e (x :: r)) (h' : Took r f r') (hg : BExp.atoms g = BExp.atoms e ++ BExp.atoms f) : Took ts g r' := by
  obtain ⟨p, rfl, a1, m1⟩ := h
  obtain ⟨q, rfl, a2, m2⟩ := h'
  refine ⟨p ++ x :: q, by simp, adj_append hx hx' a1 a2, fun a ha => ?_⟩
  rw [hg]
  rcases List.mem_append.1 ha with h | h
  · exact List.mem_append_left _ (m1 a h)
  · rcases List.mem_cons.1 h with h | h
    · exact absurd h.symm (hx a)
    · exact List.mem_append_right _ (m2 a h)

theorem read_took (k : Nat) :
    (∀ (ts : List (BTok α)) e r, readOr k ts = some (e, r) → Took ts e r) ∧
    (∀ (ts : List (BTok α)) e r, readAnd k ts = some (e, r) → Took ts e r) ∧
    (∀ (ts : List (BTok α)) e r, readNot k ts = some (e, r) → Took ts e r) ∧
    (∀ (ts : List (BTok α)) e r, readPrim k ts = some (e, r) → Took ts e r) := by
  induction k with
  | zero => exact ⟨fun _ _ _ h => by simp [readOr] at h, fun _ _ _ h => by simp [readAnd] at h, fun _ _ _ h => by simp [readNot] at h, fun _ _ _ h => by simp [readPrim] at h⟩
  | succ k ih =>
    obtain ⟨i1, i2, i3, i4⟩ := ih
    refine ⟨fun ts e r h => ?_, fun ts e r h => ?_, fun ts e r h => ?_, fun ts e r h => ?_⟩
    · simp only [readOr] at h
      split at h
      · rename_i e1 r1 h1
        split at h
        · rename_i f r' h2
          simp only [Option.some.injEq, Prod.mk.injEq] at h
          obtain ⟨rfl, rfl⟩ := h
          exact took_join (by simp) (by simp) (i2 _ _ _ h1) (i1 _ _ _ h2) rfl
        · cases h
      · exact i2 _ _ _ h
    · simp only [readAnd] at h
      split at h
      · rename_i e1 r1 h1
        split at h
        · rename_i f r' h2
          simp only [Option.some.injEq, Prod.mk.injEq] at h
          obtain ⟨rfl, rfl⟩ := h
          exact took_join (by simp) (by simp) (i3 _ _ _ h1) (i2 _ _ _ h2) rfl
        · cases h
      · exact i3 _ _ _ h
    · unfold readNot at h
      split at h
      · cases h
      · rename_i k' r0 hk
        cases hk
        split at h
        · rename_i e1 r1 h1
          simp only [Option.some.injEq, Prod.mk.injEq] at h
          obtain ⟨rfl, rfl⟩ := h
          obtain ⟨p, rfl, a1, m1⟩ := i3 _ _ _ h1
          exact ⟨.not :: p, rfl, a1, fun a ha => m1 a (by simpa using ha)⟩
        · cases h
      · rename_i hk _
        cases hk
        exact i4 _ _ _ h
    · unfold readPrim at h
      split at h
      · cases h
      · simp only [Option.some.injEq, Prod.mk.injEq] at h
        obtain ⟨rfl, rfl⟩ := h
        exact ⟨[.atom _], rfl, trivial, fun a ha => by simpa [BExp.atoms] using ha⟩
      · rename_i k' r0 hk
        cases hk
        split at h
        · rename_i e1 r1 h1
          simp only [Option.some.injEq, Prod.mk.injEq] at h
          obtain ⟨rfl, rfl⟩ := h
          obtain ⟨p, rfl, a1, m1⟩ := i1 _ _ _ h1
          refine ⟨.lp :: (p ++ [.rp]), by simp, adj_append (b := []) (by simp) (by simp) a1 trivial, fun a ha => m1 a (by simpa using ha)⟩
        · cases h
      · cases h

theorem readBool_took {ts : List (BTok α)} {e : BExp α} (h : readBool ts = some e) : Adj ts ∧ ∀ a, .atom a ∈ ts → a ∈ BExp.atoms e := by
  unfold readBool at h
  split at h
  · rename_i e' h1
    cases h
    obtain ⟨p, hp, a1, m1⟩ := (read_took _).1 _ _ _ h1
    rw [List.append_nil] at hp
    subst hp
    exact ⟨a1, m1⟩
  · cases h

end Read

/-! ### The expression of a condition -/

mutual
def exp : Cond Node → Option (BExp (Test Node))
  | .test n x => some (if n then .not (.atom x) else .atom x)
  | .group o n cs => (exps cs).bind fun es => (BExp.join (if o then .or else .and) es).map fun e => if n then .not e else e
def exps : List (Cond Node) → Option (List (BExp (Test Node)))
  | [] => some []
  | c :: cs => (exp c).bind fun e => (exps cs).map (e :: ·)
end

theorem cmp_shape (a b : Node) (op : String) : ∃ f vs, cmp a b op = .cpred [] f false vs := by
  unfold cmp
  split
  · exact ⟨_, _, rfl⟩
  · split
    · exact ⟨_, _, rfl⟩
    · split <;> exact ⟨_, _, rfl⟩

theorem test_shape (x : Test Node) : ∃ f vs, x.node = .cpred [] f false vs := by
  cases x with
  | cmp op c x => cases x <;> cases op <;> first | exact cmp_shape _ _ _ | exact ⟨_, _, rfl⟩
  | null c => exact ⟨_, _, rfl⟩
  | notNull c => exact ⟨_, _, rfl⟩
  | among c vs => exact ⟨_, _, rfl⟩

theorem join_map (f : Test Node → Node) (o : Bool) (es : List (BExp (Test Node))) :
    BExp.join (if o then .or else .and) (es.map (BExp.map f)) = (BExp.join (if o then .or else .and) es).map (BExp.map f) := by
  induction es with
  | nil => rfl
  | cons e es ih =>
    cases es with
    | nil => rfl
    | cons e' es =>
      simp only [List.map_cons, BExp.join] at ih ⊢
      rw [ih]
      cases o <;> simp [Function.comp_def, BExp.map]

mutual
theorem meaning_node : (c : Cond Node) → meaning (c.node) = (exp c).map (BExp.map Test.node)
  | .test n x => by
    obtain ⟨f, vs, h⟩ := test_shape x
    cases n <;> simp [Cond.node, exp, h, meaning, BExp.map, negate]
  | .group o n cs => by
    simp only [Cond.node, exp, meaning, meanings_nodes cs]
    cases exps cs with
    | none => rfl
    | some es =>
      simp only [Option.map_some, Option.bind_some, join_map]
      cases BExp.join (if o then .or else .and) es with
      | none => rfl
      | some e => cases n <;> rfl
theorem meanings_nodes : (cs : List (Cond Node)) → meanings (nodes cs) = (exps cs).map (·.map (BExp.map Test.node))
  | [] => rfl
  | c :: cs => by
    simp only [nodes, meanings, exps, meaning_node c, meanings_nodes cs]
    cases exp c with
    | none => rfl
    | some e =>
      cases exps cs with
      | none => rfl
      | some es => rfl
end

theorem and3_true (x : Option Bool) : and3 x (some true) = x := by cases x with | none => rfl | some b => cases b <;> rfl
theorem or3_false (x : Option Bool) : or3 x (some false) = x := by cases x with | none => rfl | some b => cases b <;> rfl

theorem truth_signed (C : Compare) (r : Node → Scalar) (n : Bool) (e : BExp (Test Node)) : truthOf C r (if n then .not e else e) = signed n (truthOf C r e) := by
  cases n <;> rfl

mutual
theorem truth_exp (C : Compare) (r : Node → Scalar) : (c : Cond Node) → (e : BExp (Test Node)) → exp c = some e → truthOf C r e = c.truth C r
  | .test n x, e, h => by
    simp only [exp, Option.some.injEq] at h
    subst h
    rw [truth_signed]
    rfl
  | .group o n cs, e, h => by
    simp only [exp, Option.bind_eq_some_iff, Option.map_eq_some_iff] at h
    obtain ⟨es, h1, e', h2, rfl⟩ := h
    rw [truth_signed]
    obtain ⟨t1, t2⟩ := truth_exps C r cs es h1 e'
    cases o with
    | false => rw [t1 h2]; rfl
    | true => rw [t2 h2]; rfl
theorem truth_exps (C : Compare) (r : Node → Scalar) : (cs : List (Cond Node)) → (es : List (BExp (Test Node))) → exps cs = some es → (e : BExp (Test Node)) →
    (BExp.join .and es = some e → truthOf C r e = allTrue C r cs) ∧ (BExp.join .or es = some e → truthOf C r e = oneTrue C r cs)
  | [], es, h, e => by
    cases h
    exact ⟨nofun, nofun⟩
  | c :: cs, es, h, e => by
    simp only [exps, Option.bind_eq_some_iff, Option.map_eq_some_iff] at h
    obtain ⟨e1, h1, es', h2, rfl⟩ := h
    have t1 := truth_exp C r c e1 h1
    cases es' with
    | nil =>
      cases cs with
      | nil =>
        refine ⟨fun h => ?_, fun h => ?_⟩ <;> cases h
        · rw [t1, allTrue, allTrue, and3_true]
        · rw [t1, oneTrue, oneTrue, or3_false]
      | cons c' cs =>
        exfalso
        simp only [exps, Option.bind_eq_some_iff, Option.map_eq_some_iff] at h2
        obtain ⟨_, _, _, _, h⟩ := h2
        cases h
    | cons e2 es =>
      refine ⟨fun h => ?_, fun h => ?_⟩
      · simp only [BExp.join, Option.map_eq_some_iff] at h
        obtain ⟨g, hg, rfl⟩ := h
        rw [allTrue, ← t1, ← (truth_exps C r cs _ h2 g).1 hg]
        rfl
      · simp only [BExp.join, Option.map_eq_some_iff] at h
        obtain ⟨g, hg, rfl⟩ := h
        rw [oneTrue, ← t1, ← (truth_exps C r cs _ h2 g).2 hg]
        rfl
end

/-! ### Fine conditions are groups whose parentheses are written -/

theorem node_group (c : Cond Node) : (c.node).isGroup = c.isGroup ∧
    (∀ tt a o n qs, c.node = .vpred tt a o n qs → tt = false) ∧ c.node ≠ .nil := by
  cases c with
  | test n x =>
    obtain ⟨f, vs, h⟩ := test_shape x
    cases n <;> simp [Cond.node, h, negate, Node.isGroup, Cond.isGroup]
  | group o n cs =>
    refine ⟨rfl, fun tt a o n qs h => ?_, by simp [Cond.node]⟩
    simp only [Cond.node, Node.vpred.injEq] at h
    exact h.1.symm

mutual
theorem fine_grouped : (c : Cond Node) → (top : Bool) → c.fine top → Grouped top (c.node) ∧ (exp c).isSome = true
  | .test n x, top, _ => by
    obtain ⟨f, vs, h⟩ := test_shape x
    cases n <;> simp [Cond.node, h, negate, Grouped, exp]
  | .group o n [], top, h => by simp [Cond.fine] at h
  | .group o n [c], top, h => by
    simp only [Cond.fine] at h
    obtain ⟨g1, g2⟩ := fine_grouped c true h.2
    obtain ⟨e, he⟩ := Option.isSome_iff_exists.1 g2
    refine ⟨?_, by simp [exp, exps, he, BExp.join]⟩
    simp only [Cond.node, nodes, Grouped, GroupedOps]
    rw [(node_group c).1]
    exact ⟨h.1, g1⟩
  | .group o n (c :: c' :: cs), top, h => by
    simp only [Cond.fine] at h
    obtain ⟨g1, g2⟩ := fine_grouped c false h.2.1
    obtain ⟨g3, g4⟩ := fine_grouped c' false h.2.2.1
    obtain ⟨g5, g6⟩ := fine_all cs h.2.2.2
    obtain ⟨e, he⟩ := Option.isSome_iff_exists.1 g2
    obtain ⟨e', he'⟩ := Option.isSome_iff_exists.1 g4
    obtain ⟨es, hes⟩ := Option.isSome_iff_exists.1 g6
    refine ⟨?_, ?_⟩
    · simp only [Cond.node, nodes, Grouped, GroupedOps, GroupedAll]
      exact ⟨h.1, (node_group c).2.1, g1, (node_group c').2.1, g3, g5⟩
    · have : ∀ (es : List (BExp (Test Node))) (op : BExp (Test Node) → BExp (Test Node) → BExp (Test Node)), es ≠ [] → (BExp.join op es).isSome = true := by
        intro es op hne
        induction es with
        | nil => exact absurd rfl hne
        | cons x xs ih =>
          cases xs with
          | nil => rfl
          | cons y ys => simpa [BExp.join] using ih (by simp)
      simp only [exp, exps, he, he', hes, Option.bind_some, Option.map_some, Option.isSome_map]
      exact this _ _ (by simp)
theorem fine_all : (cs : List (Cond Node)) → allFine cs → GroupedAll (nodes cs) ∧ (exps cs).isSome = true
  | [], _ => ⟨by simp [nodes, GroupedAll], rfl⟩
  | c :: cs, h => by
    simp only [allFine] at h
    obtain ⟨g1, g2⟩ := fine_grouped c false h.1
    obtain ⟨g5, g6⟩ := fine_all cs h.2
    obtain ⟨e, he⟩ := Option.isSome_iff_exists.1 g2
    obtain ⟨es, hes⟩ := Option.isSome_iff_exists.1 g6
    refine ⟨?_, by simp [exps, he, hes]⟩
    simp only [nodes, GroupedAll]
    exact ⟨(node_group c).2.1, g1, g5⟩
end


/-! ### The tests of a condition -/

mutual
def tests : Cond Node → List (Test Node)
  | .test _ x => [x]
  | .group _ _ cs => testsAll cs
def testsAll : List (Cond Node) → List (Test Node)
  | [] => []
  | c :: cs => tests c ++ testsAll cs
end

theorem join_atoms (o : Bool) (es : List (BExp (Test Node))) (e : BExp (Test Node)) (h : BExp.join (if o then .or else .and) es = some e) (x : Test Node)
    (hx : x ∈ BExp.atoms e) : ∃ e' ∈ es, x ∈ BExp.atoms e' := by
  induction es generalizing e with
  | nil => cases h
  | cons e1 es ih =>
    cases es with
    | nil =>
      cases h
      exact ⟨e1, by simp, hx⟩
    | cons e2 es =>
      simp only [BExp.join, Option.map_eq_some_iff] at h ih
      obtain ⟨g, hg, rfl⟩ := h
      have hx' : x ∈ BExp.atoms e1 ++ BExp.atoms g := by cases o <;> exact hx
      rcases List.mem_append.1 hx' with hx' | hx'
      · exact ⟨e1, by simp, hx'⟩
      · obtain ⟨e', h1, h2⟩ := ih g hg hx'
        exact ⟨e', List.mem_cons_of_mem _ h1, h2⟩

mutual
theorem atoms_tests : (c : Cond Node) → (e : BExp (Test Node)) → exp c = some e → ∀ x ∈ BExp.atoms e, x ∈ tests c
  | .test n x, e, h, y, hy => by
    simp only [exp, Option.some.injEq] at h
    subst h
    cases n <;> simpa [BExp.atoms, tests] using hy
  | .group o n cs, e, h, y, hy => by
    simp only [exp, Option.bind_eq_some_iff, Option.map_eq_some_iff] at h
    obtain ⟨es, h1, e', h2, rfl⟩ := h
    have hy' : y ∈ BExp.atoms e' := by cases n <;> exact hy
    obtain ⟨e1, h3, h4⟩ := join_atoms o es e' h2 y hy'
    rw [tests]
    exact atoms_testsAll cs es h1 e1 h3 y h4
theorem atoms_testsAll : (cs : List (Cond Node)) → (es : List (BExp (Test Node))) → exps cs = some es → ∀ e ∈ es, ∀ x ∈ BExp.atoms e, x ∈ testsAll cs
  | [], es, h, e, he, x, hx => by cases h; cases he
  | c :: cs, es, h, e, he, x, hx => by
    simp only [exps, Option.bind_eq_some_iff, Option.map_eq_some_iff] at h
    obtain ⟨e1, h1, es', h2, rfl⟩ := h
    rw [testsAll]
    rcases List.mem_cons.1 he with rfl | he
    · exact List.mem_append_left _ (atoms_tests c e h1 x hx)
    · exact List.mem_append_right _ (atoms_testsAll cs es' h2 e he x hx)
end

/-- A list of values is not empty. -/
def Filled : Test Node → Prop
  | .among _ vs => vs ≠ []
  | _ => True

mutual
theorem fine_filled : (c : Cond Node) → (top : Bool) → c.fine top → ∀ x ∈ tests c, Filled x
  | .test n x, top, h, y, hy => by
    simp only [tests, List.mem_singleton] at hy
    subst hy
    cases y <;> simp_all [Cond.fine, Filled]
  | .group o n [], top, h, y, hy => by simp [tests, testsAll] at hy
  | .group o n [c], top, h, y, hy => by
    simp only [Cond.fine] at h
    simp only [tests, testsAll, List.append_nil] at hy
    exact fine_filled c true h.2 y hy
  | .group o n (c :: c' :: cs), top, h, y, hy => by
    simp only [Cond.fine] at h
    simp only [tests, testsAll, List.mem_append] at hy
    rcases hy with hy | hy | hy
    · exact fine_filled c false h.2.1 y hy
    · exact fine_filled c' false h.2.2.1 y hy
    · exact fine_filledAll cs h.2.2.2 y hy
theorem fine_filledAll : (cs : List (Cond Node)) → allFine cs → ∀ x ∈ testsAll cs, Filled x
  | [], _, y, hy => by simp [testsAll] at hy
  | c :: cs, h, y, hy => by
    simp only [allFine] at h
    simp only [testsAll, List.mem_append] at hy
    rcases hy with hy | hy
    · exact fine_filled c false h.1 y hy
    · exact fine_filledAll cs h.2 y hy
end

mutual
theorem tests_columns : (c : Cond Node) → ∀ x ∈ tests c, ∀ a ∈ x.columns, a ∈ c.columns
  | .test n x, y, hy, a, ha => by
    simp only [tests, List.mem_singleton] at hy
    subst hy
    rwa [Cond.columns]
  | .group o n cs, y, hy, a, ha => by
    rw [tests] at hy
    rw [Cond.columns]
    exact tests_columnsAll cs y hy a ha
theorem tests_columnsAll : (cs : List (Cond Node)) → ∀ x ∈ testsAll cs, ∀ a ∈ x.columns, a ∈ columns cs
  | [], y, hy, _, _ => by simp [testsAll] at hy
  | c :: cs, y, hy, a, ha => by
    simp only [testsAll, List.mem_append] at hy
    rw [columns]
    rcases hy with hy | hy
    · exact List.mem_append_left _ (tests_columns c y hy a ha)
    · exact List.mem_append_right _ (tests_columnsAll cs y hy a ha)
end

/-! ### From predicates back to tests -/

def opOf (f : Str) : Op :=
  if f = "{} = {}".toList then .eq else if f = "{} <> {}".toList then .ne else if f = "{} > {}".toList then .gt
  else if f = "{} >= {}".toList then .ge else if f = "{} < {}".toList then .lt else if f = "{} <= {}".toList then .le
  else if f = "{} LIKE {}".toList then .like else .ilike

def scalarOf : Node → Scalar
  | .scalar v => v
  | _ => .nil

/-- The test that a predicate is. -/
def decode : Node → Test Node
  | .cpred _ f _ [a, .scalar v] => .cmp (opOf f) a (.val v)
  | .cpred _ _ _ [a, .slice _ vs] => .among a (vs.map scalarOf)
  | .cpred _ f _ [a, b] => .cmp (opOf f) a (.col b)
  | .cpred _ f _ [a] => if f = "{} IS NULL".toList then .null a else .notNull a
  | _ => .null .nil

theorem decode_node (x : Test Node) (hx : ∀ c ∈ x.columns, IsCol c) : decode x.node = x := by
  have ho : ∀ op : Op, opOf (match op with
      | .eq => "{} = {}".toList | .ne => "{} <> {}".toList | .gt => "{} > {}".toList | .ge => "{} >= {}".toList | .lt => "{} < {}".toList
      | .le => "{} <= {}".toList | .like => "{} LIKE {}".toList | .ilike => "{} ILIKE {}".toList) = op := by
    intro op
    cases op <;> decide +kernel
  cases x with
  | cmp op c x =>
    obtain ⟨t, raw, n, _, rfl⟩ := hx c (by simp [Test.columns])
    have := ho op
    cases x with
    | col c' =>
      obtain ⟨t', raw', n', _, rfl⟩ := hx c' (by simp [Test.columns, Rhs.columns])
      cases op <;> exact congrArg (fun o => Test.cmp o (t.field raw n) (.col (t'.field raw' n'))) this
    | val v =>
      cases op <;> exact congrArg (fun o => Test.cmp o (t.field raw n) (.val v)) this
  | null c =>
    show (if "{} IS NULL".toList = "{} IS NULL".toList then Test.null c else .notNull c) = _
    rw [if_pos rfl]
  | notNull c =>
    show (if "{} IS NOT NULL".toList = "{} IS NULL".toList then Test.null c else .notNull c) = _
    rw [if_neg (by decide +kernel)]
  | among c vs =>
    show Test.among c ((vs.map Node.scalar).map scalarOf) = _
    rw [List.map_map]
    congr 1
    conv => rhs; rw [← List.map_id vs]
    exact List.map_congr_left fun _ _ => rfl

/-! ### The clause -/

theorem clause_adds {d : Dialect} (env : Env) (cs : List (Cond Node)) (hcol : ∀ c ∈ columns cs, IsCol c)
    (hf : (Cond.group false false cs).fine true) :
    ∃ ts e, Adds d [.placed (and_ (nodes cs)) { d := d, env := env, meth := .top true }] (ts.flatMap (tokParts d)) ∧
      exp (.group false false cs) = some e ∧ readBool ts = some e ∧ Adj ts ∧ ∀ x, .atom x ∈ ts → x ∈ testsAll cs := by
  obtain ⟨g1, g2⟩ := fine_grouped (.group false false cs) true hf
  obtain ⟨e, he⟩ := Option.isSome_iff_exists.1 g2
  have hm := meaning_node (.group false false cs)
  rw [he] at hm
  obtain ⟨ts, h1, h2⟩ := C17_clause_reads_back_partial _ rfl _ hm g1 { d := d, env := env }
  obtain ⟨h3, h4⟩ := readBool_took h2
  have hd : ∀ x ∈ testsAll cs, decode x.node = x := fun x hx => decode_node x fun c hc => hcol c (tests_columnsAll cs x hx c hc)
  have h5 : ∀ n, .atom n ∈ ts → ∃ x ∈ testsAll cs, n = x.node := by
    intro n hn
    have := h4 n hn
    rw [BExp.atoms_map] at this
    obtain ⟨x, hx, rfl⟩ := List.mem_map.1 this
    exact ⟨x, atoms_tests _ _ he x hx, rfl⟩
  have h6 : (ts.map (BTok.map decode)).map (BTok.map Test.node) = ts := by
    rw [List.map_map]
    conv => rhs; rw [← List.map_id ts]
    refine List.map_congr_left fun b hb => ?_
    cases b with
    | atom n =>
      obtain ⟨x, hx, rfl⟩ := h5 n hb
      show BTok.atom ((decode (x.node)).node) = .atom (x.node)
      rw [hd x hx]
    | _ => rfl
  have h7 : readBool (ts.map (BTok.map decode)) = some e := by
    rw [readBool_map, h2, Option.map_some]
    congr 1
    have : ∀ e : BExp (Test Node), (∀ x ∈ BExp.atoms e, x ∈ testsAll cs) → BExp.map decode (BExp.map Test.node e) = e := by
      intro e he
      induction e with
      | atom x => simp [BExp.map, hd x (he x (by simp [BExp.atoms]))]
      | not e ih => simp [BExp.map, ih he]
      | and e f ih ih' => simp [BExp.map, ih fun x hx => he x (List.mem_append_left _ hx), ih' fun x hx => he x (List.mem_append_right _ hx)]
      | or e f ih ih' => simp [BExp.map, ih fun x hx => he x (List.mem_append_left _ hx), ih' fun x hx => he x (List.mem_append_right _ hx)]
    exact this e fun x hx => atoms_tests _ _ he x hx
  have hin : ∀ x, .atom x ∈ ts.map (BTok.map decode) → x ∈ testsAll cs := fun x hx => by
    obtain ⟨b, hb, hx⟩ := List.mem_map.1 hx
    cases b with
    | atom n =>
      obtain ⟨y, hy, rfl⟩ := h5 n hb
      simp only [BTok.map, BTok.atom.injEq, hd y hy] at hx
      exact hx ▸ hy
    | _ => cases hx
  have ha := adds_toks (m := { d := d, env := env }) rfl (ts.map (BTok.map decode)) fun x hx c hc => hcol c (tests_columnsAll cs x (hin x hx) c hc)
  rw [h6, ← h1] at ha
  refine ⟨ts.map (BTok.map decode), e, ⟨fun k m' hk => ?_, ha.2⟩, he, h7, (readBool_took h7).1, hin⟩
  · simp only [List.mem_singleton, Part.placed.injEq] at hk
    rw [hk.1, hk.2]
    exact ha.1

/-! ### The tokens of the clause -/

section Lexing
open Ddl (Ends Breaks nameTok tokens_ident tokens_append_ends tokens_append_breaks ends_append_breaks tokens_of_ends tokens_word ends_append)

instance (d : Dialect) (t : Str) (x : List Tok) : Decidable (Ends d t x) := inferInstanceAs (Decidable (_ = _))

theorem quote_lexing (l : Lang) (x : Str) : quoteIdentifier l.dialect x = quoteIdentifier (lexing l) x := by cases l <;> rfl

def nameT (l : Lang) (x : Str) : Tok := nameTok (lexing l) x
def colT (l : Lang) (c : Node) : List Tok := [nameT l (labelOf c), .sym '.', nameT l c.name]
def slotT (l : Lang) (i : Nat) : List Tok := if l = .mysql then [.sym '?'] else [.sym '$', .word (toString i).toList]

theorem breaks_cons {c : Char} {cs : Str} (h : Ddl.isBreak c = true) : Breaks (c :: cs) := .inr ⟨c, cs, rfl, h⟩

theorem tokens_column (l : Lang) (c : Node) : tokens (lexing l) (colText l.dialect c) = some (colT l c) := by
  unfold colText
  rw [quote_lexing, quote_lexing]
  have h1 : Ends (lexing l) ".".toList [.sym '.'] := by cases l <;> decide +kernel
  have h2 := ends_append_breaks (tokens_ident (lexing l) (labelOf c)) h1 (breaks_cons (c := '.') (cs := []) (by decide)) (by decide)
  exact tokens_append_ends h2 (tokens_ident (lexing l) c.name)

theorem digit_word {i : Nat} : ((toString i).toList).all _root_.Spec.isWord = true ∧ (toString i).toList ≠ [] ∧
    ((toString i).toList).all Char.isDigit = true ∧ Nat.ofDigitChars 10 (toString i).toList 0 = i := by
  have e : (toString i).toList = Nat.toDigits 10 i := by simp [toString, Nat.repr]
  rw [e]
  refine ⟨List.all_eq_true.2 fun c hc => ?_, Nat.toDigits_ne_nil, List.all_eq_true.2 fun c hc => ?_, Nat.ofDigitChars_toDigits (by decide) (by decide)⟩
  · have := Nat.isDigit_of_mem_toDigits (by decide) (by decide) hc
    simp [_root_.Spec.isWord, Char.isAlphanum, this]
  · exact Nat.isDigit_of_mem_toDigits (by decide) (by decide) hc

theorem tokens_slot (l : Lang) (i : Nat) : tokens (lexing l) (slot l i) = some (slotT l i) := by
  have h : tokens .sqlite ("$".toList ++ (toString i).toList) = some ([.sym '$'] ++ [.word (toString i).toList]) :=
    tokens_append_ends (show Ends .sqlite "$".toList [.sym '$'] by decide +kernel) (tokens_word _ _ digit_word.2.1 digit_word.1)
  cases l with
  | mysql => exact (by decide +kernel : tokens .mysql "?".toList = some [.sym '?'])
  | postgres => exact h
  | sqlite => exact h

def opT : Op → List Tok
  | .eq => [.sym '='] | .ne => [.sym '<', .sym '>'] | .gt => [.sym '>'] | .ge => [.sym '>', .sym '='] | .lt => [.sym '<']
  | .le => [.sym '<', .sym '='] | .like => [.word "LIKE".toList] | .ilike => [.word "ILIKE".toList]

theorem ends_op (l : Lang) (op : Op) : Ends (lexing l) (Op.word op) (opT op) ∧ Breaks (Op.word op) ∧ Op.word op ≠ [] := by
  refine ⟨?_, ?_, ?_⟩
  · cases l <;> cases op <;> decide +kernel
  · cases op <;> exact breaks_cons (c := ' ') (by decide)
  · cases op <;> decide +kernel

def rhsT (l : Lang) (i : Nat) : Rhs Node → List Tok
  | .col c => colT l c
  | .val _ => slotT l (i + 1)

/-- The slots of a list of `k` values. -/
def slotsT (l : Lang) : Nat → Nat → List Tok
  | _, 0 => []
  | i, 1 => slotT l (i + 1)
  | i, k + 2 => slotT l (i + 1) ++ .sym ',' :: slotsT l (i + 1) (k + 1)

def testT (l : Lang) (i : Nat) : Test Node → List Tok
  | .cmp op c x => colT l c ++ opT op ++ rhsT l i x
  | .null c => colT l c ++ [.word "IS".toList, .word "NULL".toList]
  | .notNull c => colT l c ++ [.word "IS".toList, .word "NOT".toList, .word "NULL".toList]
  | .among c vs => colT l c ++ [.word "IN".toList, .sym '('] ++ slotsT l i vs.length ++ [.sym ')']

theorem tokens_slots (l : Lang) (i : Nat) (vs : List Scalar) :
    tokens (lexing l) (flat l.dialect i (listed ", ".toList (vs.map fun v => [.value (.val v)]))) = some (slotsT l i vs.length) := by
  induction vs generalizing i with
  | nil => rfl
  | cons v vs ih =>
    cases vs with
    | nil =>
      show tokens (lexing l) (ph l.dialect (i + 1) ++ []) = _
      rw [List.append_nil, slot_ph]
      exact tokens_slot l (i + 1)
    | cons v' vs =>
      have ih := ih (i + 1)
      show tokens (lexing l) (ph l.dialect (i + 1) ++ (", ".toList ++ flat l.dialect (i + 1) (listed ", ".toList ((v' :: vs).map fun v => [.value (.val v)])))) = _
      rw [slot_ph, ← List.append_assoc]
      have h1 : Ends (lexing l) ", ".toList [.sym ','] := by cases l <;> decide +kernel
      have h2 := ends_append_breaks (tokens_slot l (i + 1)) h1 (breaks_cons (c := ',') (cs := [' ']) (by decide)) (by decide)
      have h3 := tokens_append_ends h2 ih
      refine h3.trans ?_
      simp [slotsT]

theorem tokens_test (l : Lang) (i : Nat) (x : Test Node) : tokens (lexing l) (flat l.dialect i (testParts l.dialect x)) = some (testT l i x) := by
  cases x with
  | cmp op c x =>
    obtain ⟨o1, o2, o3⟩ := ends_op l op
    have h := ends_append_breaks (tokens_column l c) o1 o2 o3
    have hr : tokens (lexing l) (flat l.dialect i [rhsPart l.dialect x]) = some (rhsT l i x) := by
      cases x with
      | col c' =>
        show tokens (lexing l) (colText l.dialect c' ++ []) = _
        rw [List.append_nil]
        exact tokens_column l c'
      | val v =>
        show tokens (lexing l) (ph l.dialect (i + 1) ++ []) = _
        rw [List.append_nil, slot_ph]
        exact tokens_slot l (i + 1)
    have := tokens_append_ends h hr
    rw [List.append_assoc] at this
    exact this
  | null c =>
    have h2 : tokens (lexing l) " IS NULL".toList = some [.word "IS".toList, .word "NULL".toList] := by cases l <;> decide +kernel
    have := tokens_append_breaks (tokens_column l c) h2 (breaks_cons (c := ' ') (by decide))
    show tokens (lexing l) (colText l.dialect c ++ (" IS NULL".toList ++ [])) = _
    rw [List.append_nil]
    exact this
  | notNull c =>
    have h2 : tokens (lexing l) " IS NOT NULL".toList = some [.word "IS".toList, .word "NOT".toList, .word "NULL".toList] := by cases l <;> decide +kernel
    have := tokens_append_breaks (tokens_column l c) h2 (breaks_cons (c := ' ') (by decide))
    show tokens (lexing l) (colText l.dialect c ++ (" IS NOT NULL".toList ++ [])) = _
    rw [List.append_nil]
    exact this
  | among c vs =>
    have h1 : Ends (lexing l) " IN (".toList [.word "IN".toList, .sym '('] := by cases l <;> decide +kernel
    have h2 := ends_append_breaks (tokens_column l c) h1 (breaks_cons (c := ' ') (by decide)) (by decide)
    have h3 : tokens (lexing l) ")".toList = some [.sym ')'] := by cases l <;> decide +kernel
    have h4 := tokens_append_breaks (tokens_slots l i vs) h3 (breaks_cons (c := ')') (by decide))
    have h5 := tokens_append_ends h2 h4
    show tokens (lexing l) (colText l.dialect c ++ (" IN (".toList ++ flat l.dialect i (listed ", ".toList (vs.map fun v => [.value (.val v)]) ++ [.text ")".toList]))) = _
    rw [flat_append, ← List.append_assoc]
    refine Eq.trans ?_ (h5.trans ?_)
    · simp only [flat, List.append_nil]
    · simp [testT, List.append_assoc]

def tokT (l : Lang) (i : Nat) : BTok (Test Node) → List Tok
  | .atom x => testT l i x
  | .and => [.word "AND".toList]
  | .or => [.word "OR".toList]
  | .not => [.word "NOT".toList]
  | .lp => [.sym '(']
  | .rp => [.sym ')']

def used : BTok (Test Node) → List Scalar
  | .atom (.cmp _ _ (.val v)) => [v]
  | .atom (.among _ vs) => vs
  | _ => []

theorem vals_tok (d : Dialect) (b : BTok (Test Node)) : vals (tokParts d b) = (used b).map .val := by
  cases b with
  | atom x =>
    cases x with
    | cmp op c x => cases x <;> rfl
    | null c => rfl
    | notNull c => rfl
    | among c vs =>
      show vals (listed ", ".toList (vs.map fun v => [.value (.val v)]) ++ [.text ")".toList]) = vs.map .val
      rw [vals_append, (flat_values .mysql 0 vs).2]
      simp [vals]
  | _ => rfl

theorem vals_clause (d : Dialect) (ts : List (BTok (Test Node))) : vals (ts.flatMap (tokParts d)) = (ts.flatMap used).map .val := by
  induction ts with
  | nil => rfl
  | cons b ts ih => rw [List.flatMap_cons, vals_append, ih, vals_tok, List.flatMap_cons, List.map_append]

def clauseT (l : Lang) : Nat → List (BTok (Test Node)) → List Tok
  | _, [] => []
  | i, b :: ts => tokT l i b ++ clauseT l (i + (used b).length) ts

theorem tokens_clause (l : Lang) (ts : List (BTok (Test Node))) (i : Nat) (h : Adj ts) :
    tokens (lexing l) (flat l.dialect i (ts.flatMap (tokParts l.dialect))) = some (clauseT l i ts) := by
  induction ts generalizing i with
  | nil => rfl
  | cons b ts ih =>
    rw [List.flatMap_cons, flat_append, vals_tok, List.length_map]
    cases b with
    | atom x =>
      have hts : Adj ts := by
        cases ts with
        | nil => trivial
        | cons c ts => cases c <;> first | exact h.elim | exact h
      have ih := ih (i + (used (.atom x)).length) hts
      refine tokens_append_breaks (tokens_test l i x) ih ?_
      cases ts with
      | nil => exact .inl rfl
      | cons c ts =>
        cases c with
        | atom y => exact h.elim
        | not => exact h.elim
        | and => exact breaks_cons (c := ' ') (by decide)
        | or => exact breaks_cons (c := ' ') (by decide)
        | lp => exact breaks_cons (c := '(') (by decide)
        | rp => exact breaks_cons (c := ')') (by decide)
    | and =>
      refine tokens_append_ends (?_ : Ends (lexing l) _ [.word "AND".toList]) (ih _ h)
      show Ends (lexing l) (" AND ".toList ++ []) _
      cases l <;> decide +kernel
    | or =>
      refine tokens_append_ends (?_ : Ends (lexing l) _ [.word "OR".toList]) (ih _ h)
      show Ends (lexing l) (" OR ".toList ++ []) _
      cases l <;> decide +kernel
    | not =>
      refine tokens_append_ends (?_ : Ends (lexing l) _ [.word "NOT".toList]) (ih _ h)
      show Ends (lexing l) ("NOT ".toList ++ []) _
      cases l <;> decide +kernel
    | lp =>
      refine tokens_append_ends (?_ : Ends (lexing l) _ [.sym '(']) (ih _ h)
      show Ends (lexing l) ("(".toList ++ []) _
      cases l <;> decide +kernel
    | rp =>
      refine tokens_append_ends (?_ : Ends (lexing l) _ [.sym ')']) (ih _ h)
      show Ends (lexing l) (")".toList ++ []) _
      cases l <;> decide +kernel

end Lexing


/-! ### The values of the placeholders -/

/-- From the `i`-th on, the arguments are these values. -/
def Has (args : List Arg) (i : Nat) (vs : List Scalar) : Prop := ∀ k v, vs[k]? = some v → args[i + k]? = some (.val v)

theorem Has.append {args : List Arg} {i : Nat} {a b : List Scalar} (h : Has args i (a ++ b)) : Has args i a ∧ Has args (i + a.length) b := by
  refine ⟨fun k v hk => h k v ?_, fun k v hk => ?_⟩
  · rw [List.getElem?_append_left (by
      rcases Nat.lt_or_ge k a.length with h | h
      · exact h
      · rw [List.getElem?_eq_none h] at hk; cases hk)]
    exact hk
  · rw [Nat.add_assoc]
    refine h _ v ?_
    rw [List.getElem?_append_right (by omega)]
    simpa using hk

/-- `X`, read when `i` values were used before, is `Y`; then `j` values are used. -/
def Turns (l : Lang) (args : List Arg) (i : Nat) (X : List Tok) (Y : List Lex) (j : Nat) : Prop :=
  ∀ n, (l = .mysql → n = i) → ∃ n', (l = .mysql → n' = j) ∧ ∀ ts, resolve l args n (X ++ ts) = (resolve l args n' ts).map (Y ++ ·)

theorem Turns.comp {l : Lang} {args : List Arg} {i j k : Nat} {X X' : List Tok} {Y Y' : List Lex} (h : Turns l args i X Y j) (h' : Turns l args j X' Y' k) :
    Turns l args i (X ++ X') (Y ++ Y') k := by
  intro n hn
  obtain ⟨n1, h1, e1⟩ := h n hn
  obtain ⟨n2, h2, e2⟩ := h' n1 h1
  refine ⟨n2, h2, fun ts => ?_⟩
  rw [List.append_assoc, e1, e2, Option.map_map]
  congr 1
  funext z
  simp

/-- No placeholder. -/
def Plain : Tok → Prop
  | .sym c => c ≠ '?' ∧ c ≠ '$'
  | _ => True

theorem resolve_tok (l : Lang) (args : List Arg) (n : Nat) (t : Tok) (h : Plain t) (ts : List Tok) :
    resolve l args n (t :: ts) = (resolve l args n ts).map (.tok t :: ·) := by
  cases t with
  | word w => simp [Where.resolve]
  | quoted q s => simp [Where.resolve]
  | sym c =>
    obtain ⟨h1, h2⟩ := h
    conv => lhs; unfold Where.resolve
    split
    · rename_i he; cases he
    · rename_i he; simp only [List.cons.injEq, Tok.sym.injEq] at he; exact absurd he.1 h1
    · rename_i he; simp only [List.cons.injEq, Tok.sym.injEq] at he; exact absurd he.1 h2
    · rename_i he
      simp only [List.cons.injEq] at he
      obtain ⟨rfl, rfl⟩ := he
      rw [if_neg (by simpa using h2)]

theorem Turns.plain (l : Lang) (args : List Arg) (i : Nat) (xs : List Tok) (h : ∀ x ∈ xs, Plain x) : Turns l args i xs (xs.map .tok) i := by
  intro n hn
  refine ⟨n, hn, fun ts => ?_⟩
  induction xs with
  | nil => simp
  | cons x xs ih =>
    rw [List.cons_append, resolve_tok _ _ _ _ (h x (List.mem_cons_self ..)), ih fun y hy => h y (List.mem_cons_of_mem _ hy), Option.map_map]
    rfl

theorem Turns.slot (l : Lang) (args : List Arg) (i : Nat) (v : Scalar) (h : args[i]? = some (.val v)) : Turns l args i (slotT l (i + 1)) [.val v] (i + 1) := by
  intro n hn
  by_cases hl : l = .mysql
  · obtain rfl := hn hl
    subst hl
    refine ⟨n + 1, fun _ => rfl, fun ts => ?_⟩
    show resolve .mysql args n (.sym '?' :: ts) = _
    simp [Where.resolve, h, argValue]
  · refine ⟨n, fun e => absurd e hl, fun ts => ?_⟩
    have e : slotT l (i + 1) = [.sym '$', .word (toString (i + 1)).toList] := by simp [slotT, hl]
    rw [e]
    show resolve l args n (.sym '$' :: .word (toString (i + 1)).toList :: ts) = _
    obtain ⟨_, _, d1, d2⟩ := @digit_word (i + 1)
    simp only [Where.resolve]
    rw [if_pos ⟨hl, d1, by rw [d2]; omega⟩, d2]
    simp [h, argValue]

def colL (l : Lang) (c : Node) : List Lex := (colT l c).map .tok
def rhsL (l : Lang) : Rhs Node → List Lex
  | .col c => colL l c
  | .val v => [.val v]
def valsL : List Scalar → List Lex
  | [] => []
  | [v] => [.val v]
  | v :: v' :: vs => .val v :: .tok (.sym ',') :: valsL (v' :: vs)
def testL (l : Lang) : Test Node → List Lex
  | .cmp op c x => colL l c ++ (opT op).map .tok ++ rhsL l x
  | .null c => colL l c ++ [.tok (.word "IS".toList), .tok (.word "NULL".toList)]
  | .notNull c => colL l c ++ [.tok (.word "IS".toList), .tok (.word "NOT".toList), .tok (.word "NULL".toList)]
  | .among c vs => colL l c ++ [.tok (.word "IN".toList), .tok (.sym '(')] ++ valsL vs ++ [.tok (.sym ')')]
def tokL (l : Lang) : BTok (Test Node) → List Lex
  | .atom x => testL l x
  | .and => [.tok (.word "AND".toList)]
  | .or => [.tok (.word "OR".toList)]
  | .not => [.tok (.word "NOT".toList)]
  | .lp => [.tok (.sym '(')]
  | .rp => [.tok (.sym ')')]

theorem name_cases (l : Lang) (x : Str) : nameT l x = .word x ∨ ∃ y, nameT l x = .quoted (identClose (lexing l)) y := by
  unfold nameT Ddl.nameTok
  split
  · exact .inr ⟨_, rfl⟩
  · exact .inl rfl

theorem plain_name (l : Lang) (x : Str) : Plain (nameT l x) := by
  rcases name_cases l x with h | ⟨y, h⟩ <;> rw [h] <;> trivial

theorem turns_col (l : Lang) (args : List Arg) (i : Nat) (c : Node) : Turns l args i (colT l c) (colL l c) i := by
  refine Turns.plain l args i _ fun x hx => ?_
  simp only [colT, List.mem_cons, List.not_mem_nil, or_false] at hx
  rcases hx with rfl | rfl | rfl
  · exact plain_name ..
  · exact ⟨by decide, by decide⟩
  · exact plain_name ..

theorem turns_vals (l : Lang) (args : List Arg) (i : Nat) (vs : List Scalar) (h : Has args i vs) :
    Turns l args i (slotsT l i vs.length) (valsL vs) (i + vs.length) := by
  induction vs generalizing i with
  | nil => exact Turns.plain l args i [] (by simp)
  | cons v vs ih =>
    have h0 : args[i]? = some (.val v) := h 0 v rfl
    cases vs with
    | nil => exact Turns.slot l args i v h0
    | cons v' vs =>
      have ih := ih (i + 1) (Has.append (a := [v]) h).2
      have h1 := Turns.plain l args (i + 1) [.sym ','] (by simp [Plain])
      have := (Turns.slot l args i v h0).comp (h1.comp ih)
      rw [show i + 1 + (v' :: vs).length = i + (v :: v' :: vs).length by simp; omega] at this
      exact this

theorem plain_op (op : Op) : ∀ x ∈ opT op, Plain x := by
  intro x hx
  cases op <;> simp only [opT, List.mem_cons, List.not_mem_nil, or_false] at hx <;> (try rcases hx with rfl | rfl) <;> (try subst hx) <;> (try trivial) <;> exact ⟨by decide, by decide⟩

theorem turns_tok (l : Lang) (args : List Arg) (i : Nat) (b : BTok (Test Node)) (h : Has args i (used b)) :
    Turns l args i (tokT l i b) (tokL l b) (i + (used b).length) := by
  have hp : ∀ xs : List Tok, (∀ x ∈ xs, Plain x) → Turns l args i xs (xs.map .tok) i := fun xs => Turns.plain l args i xs
  cases b with
  | atom x =>
    cases x with
    | cmp op c x =>
      have h1 := (turns_col l args i c).comp (hp _ (plain_op op))
      cases x with
      | col c' => exact h1.comp (turns_col l args i c')
      | val v => exact h1.comp (Turns.slot l args i v (h 0 v rfl))
    | null c => exact (turns_col l args i c).comp (hp [.word "IS".toList, .word "NULL".toList] (by simp [Plain]))
    | notNull c => exact (turns_col l args i c).comp (hp [.word "IS".toList, .word "NOT".toList, .word "NULL".toList] (by simp [Plain]))
    | among c vs =>
      have h1 := (turns_col l args i c).comp (hp [.word "IN".toList, .sym '('] (by simp [Plain]))
      exact (h1.comp (turns_vals l args i vs h)).comp (Turns.plain l args _ [.sym ')'] (by simp [Plain]))
  | and => exact hp [.word "AND".toList] (by simp [Plain])
  | or => exact hp [.word "OR".toList] (by simp [Plain])
  | not => exact hp [.word "NOT".toList] (by simp [Plain])
  | lp => exact hp [.sym '('] (by simp [Plain])
  | rp => exact hp [.sym ')'] (by simp [Plain])

theorem turns_clause (l : Lang) (args : List Arg) (ts : List (BTok (Test Node))) (i : Nat) (h : Has args i (ts.flatMap used)) :
    Turns l args i (clauseT l i ts) (ts.flatMap (tokL l)) (i + (ts.flatMap used).length) := by
  induction ts generalizing i with
  | nil => exact Turns.plain l args i [] (by simp)
  | cons b ts ih =>
    rw [List.flatMap_cons] at h
    obtain ⟨h1, h2⟩ := h.append
    have := (turns_tok l args i b h1).comp (ih _ h2)
    rw [show i + (used b).length + (ts.flatMap used).length = i + ((b :: ts).flatMap used).length by
      rw [List.flatMap_cons, List.length_append, Nat.add_assoc]] at this
    exact this

/-! ### The expression -/

theorem name_read (l : Lang) (x : Str) (h : Readable l.dialect x) : name? l.dialect (nameT l x) = some x ∧ connective? (κ := κ) (nameT l x) = none := by
  have hc : identClose (lexing l) = identClose l.dialect := by cases l <;> rfl
  have hd := Ddl.nameTok_denotes (lexing l) x (by rw [hc]; exact h.1)
  rcases hd with e | ⟨e, hb⟩
  · rw [show nameT l x = _ from e, hc]
    exact ⟨by simp [name?], rfl⟩
  · rw [show nameT l x = _ from e]
    have hk := h.2 hb
    refine ⟨by simp only [name?]; rw [if_pos ⟨hb, hk⟩], ?_⟩
    simp only [connective?]
    simp only [keywords, List.mem_cons, not_or] at hk
    rw [if_neg hk.1, if_neg hk.2.1, if_neg hk.2.2.1]

/-- The column can be read, and is `p c` then. -/
structure CanRead (l : Lang) (sc : Scope κ) (p : Node → κ) (c : Node) : Prop where
  label : Readable l.dialect (labelOf c)
  name : Readable l.dialect c.name
  scope : sc (labelOf c) c.name = some (p c)

theorem column_read (l : Lang) (sc : Scope κ) (p : Node → κ) (c : Node) (h : CanRead l sc p c) (r : List Lex) :
    column? l.dialect sc (colL l c ++ r) = some (p c, r) := by
  show column? l.dialect sc (.tok (nameT l (labelOf c)) :: .tok (.sym '.') :: .tok (nameT l c.name) :: r) = _
  simp only [column?]
  rw [(name_read (κ := κ) l _ h.label).1, Option.bind_some, (name_read (κ := κ) l _ h.name).1, Option.bind_some, h.scope]
  rfl

theorem op_read (op : Op) (r : List Lex) (hr : ∀ c r', r ≠ .tok (.sym c) :: r') : op? ((opT op).map .tok ++ r) = some (op, r) := by
  cases op with
  | eq => rfl
  | ne => rfl
  | ge => rfl
  | le => rfl
  | gt =>
    show op? (.tok (.sym '>') :: r) = _
    unfold op?
    split <;> rename_i he <;> simp_all
  | lt =>
    show op? (.tok (.sym '<') :: r) = _
    unfold op?
    split <;> rename_i he <;> simp_all
  | like =>
    show (if upper "LIKE".toList = "LIKE".toList then some (Op.like, r) else if upper "LIKE".toList = "ILIKE".toList then some (Op.ilike, r) else none) = _
    rw [if_pos (by decide +kernel)]
  | ilike =>
    show (if upper "ILIKE".toList = "LIKE".toList then some (Op.like, r) else if upper "ILIKE".toList = "ILIKE".toList then some (Op.ilike, r) else none) = _
    rw [if_neg (by decide +kernel), if_pos (by decide +kernel)]

theorem values_read (vs : List Scalar) (h : vs ≠ []) (r : List Lex) : values? (valsL vs ++ .tok (.sym ')') :: r) = some (vs, r) := by
  induction vs with
  | nil => exact absurd rfl h
  | cons v vs ih =>
    cases vs with
    | nil => rfl
    | cons v' vs =>
      show values? (.val v :: .tok (.sym ',') :: (valsL (v' :: vs) ++ .tok (.sym ')') :: r)) = _
      simp only [values?]
      rw [ih (by simp)]
      rfl

theorem no_op (w : Str) (h1 : upper w ≠ "LIKE".toList) (h2 : upper w ≠ "ILIKE".toList) (r : List Lex) : op? (.tok (.word w) :: r) = none := by
  show (if upper w = "LIKE".toList then some (Op.like, r) else if upper w = "ILIKE".toList then some (Op.ilike, r) else none) = _
  rw [if_neg h1, if_neg h2]

theorem test_read (l : Lang) (sc : Scope κ) (p : Node → κ) (x : Test Node) (hx : ∀ c ∈ x.columns, CanRead l sc p c) (hf : Filled x) (r : List Lex) :
    ∃ c r', column? l.dialect sc (testL l x ++ r) = some (c, r') ∧ test? l.dialect sc c r' = some (x.map p, r) := by
  cases x with
  | cmp op c x =>
    refine ⟨p c, (opT op).map .tok ++ (rhsL l x ++ r), ?_, ?_⟩
    · rw [← column_read l sc p c (hx c (by simp [Test.columns]))]
      simp [testL]
    · have hr : rhs? l.dialect sc (rhsL l x ++ r) = some (x.map p, r) := by
        cases x with
        | val v => rfl
        | col c' =>
          have := column_read l sc p c' (hx c' (by simp [Test.columns, Rhs.columns])) r
          show (column? l.dialect sc (colL l c' ++ r)).map (fun x => (Rhs.col x.1, x.2)) = _
          rw [this]
          rfl
      have ho := op_read op (rhsL l x ++ r) (by
        intro s r' he
        cases x with
        | val v => cases he
        | col c' =>
          simp only [rhsL, colL, colT, List.map_cons, List.cons_append, List.cons.injEq, Lex.tok.injEq] at he
          rcases name_cases l (labelOf c') with h | ⟨y, h⟩ <;> rw [h] at he <;> cases he.1)
      unfold test?
      rw [ho]
      simp only
      rw [hr]
      rfl
  | null c =>
    refine ⟨p c, [.tok (.word "IS".toList), .tok (.word "NULL".toList)] ++ r, ?_, ?_⟩
    · rw [← column_read l sc p c (hx c (by simp [Test.columns]))]
      simp [testL]
    · unfold test?
      rw [show [Lex.tok (.word "IS".toList), .tok (.word "NULL".toList)] ++ r = .tok (.word "IS".toList) :: .tok (.word "NULL".toList) :: r from rfl,
        no_op _ (by decide +kernel) (by decide +kernel)]
      simp only
      rw [if_pos (by decide +kernel), if_pos (by decide +kernel)]
      rfl
  | notNull c =>
    refine ⟨p c, [.tok (.word "IS".toList), .tok (.word "NOT".toList), .tok (.word "NULL".toList)] ++ r, ?_, ?_⟩
    · rw [← column_read l sc p c (hx c (by simp [Test.columns]))]
      simp [testL]
    · unfold test?
      rw [show [Lex.tok (.word "IS".toList), .tok (.word "NOT".toList), .tok (.word "NULL".toList)] ++ r =
          .tok (.word "IS".toList) :: .tok (.word "NOT".toList) :: .tok (.word "NULL".toList) :: r from rfl,
        no_op _ (by decide +kernel) (by decide +kernel)]
      simp only
      rw [if_pos (by decide +kernel), if_neg (by decide +kernel), if_pos (by decide +kernel), if_pos (by decide +kernel)]
      rfl
  | among c vs =>
    refine ⟨p c, [.tok (.word "IN".toList), .tok (.sym '(')] ++ (valsL vs ++ .tok (.sym ')') :: r), ?_, ?_⟩
    · rw [← column_read l sc p c (hx c (by simp [Test.columns]))]
      simp [testL]
    · unfold test?
      rw [show [Lex.tok (.word "IN".toList), .tok (.sym '(')] ++ (valsL vs ++ .tok (.sym ')') :: r) =
          .tok (.word "IN".toList) :: .tok (.sym '(') :: (valsL vs ++ .tok (.sym ')') :: r) from rfl,
        no_op _ (by decide +kernel) (by decide +kernel)]
      simp only
      rw [if_pos (by decide +kernel), values_read vs hf]
      rfl

theorem group_read (l : Lang) (sc : Scope κ) (p : Node → κ) (ts : List (BTok (Test Node))) (k : Nat) (hk : ts.length ≤ k)
    (hx : ∀ x, .atom x ∈ ts → (∀ c ∈ x.columns, CanRead l sc p c) ∧ Filled x) :
    group l.dialect sc k (ts.flatMap (tokL l)) = some (ts.map (BTok.map (Test.map p))) := by
  induction ts generalizing k with
  | nil => simp [group]
  | cons b ts ih =>
    obtain ⟨k, rfl⟩ : ∃ k', k = k' + 1 := ⟨k - 1, by simp at hk; omega⟩
    have ih := ih k (by simpa using hk) fun x h => hx x (List.mem_cons_of_mem _ h)
    rw [List.flatMap_cons]
    have hconn : ∀ tk b', connective? tk = some b' → group l.dialect sc (k + 1) (.tok tk :: ts.flatMap (tokL l)) = some (b' :: ts.map (BTok.map (Test.map p))) := by
      intro tk b' h
      simp only [group]
      rw [h]
      simp only
      rw [ih]
      rfl
    cases b with
    | atom x =>
      obtain ⟨h1, h2⟩ := hx x (List.mem_cons_self ..)
      obtain ⟨c, r', e1, e2⟩ := test_read l sc p x h1 h2 (ts.flatMap (tokL l))
      obtain ⟨n, rest, hrest, hn⟩ : ∃ n rest, testL l x ++ ts.flatMap (tokL l) = .tok (nameT l n) :: rest ∧ Readable l.dialect n := by
        cases x with
        | cmp op c x => exact ⟨_, _, rfl, (h1 c (by simp [Test.columns])).label⟩
        | null c => exact ⟨_, _, rfl, (h1 c (by simp [Test.columns])).label⟩
        | notNull c => exact ⟨_, _, rfl, (h1 c (by simp [Test.columns])).label⟩
        | among c vs => exact ⟨_, _, rfl, (h1 c (by simp [Test.columns])).label⟩
      show group l.dialect sc (k + 1) (testL l x ++ ts.flatMap (tokL l)) = _
      rw [hrest] at e1 ⊢
      simp only [group]
      rw [(name_read l _ hn).2]
      simp only
      rw [e1, Option.bind_some, e2, Option.bind_some, ih]
      rfl
    | and =>
      refine hconn _ _ ?_
      simp only [connective?]
      rw [if_pos (by decide +kernel)]
      rfl
    | or =>
      refine hconn _ _ ?_
      simp only [connective?]
      rw [if_neg (by decide +kernel), if_pos (by decide +kernel)]
      rfl
    | not =>
      refine hconn _ _ ?_
      simp only [connective?]
      rw [if_neg (by decide +kernel), if_neg (by decide +kernel), if_pos (by decide +kernel)]
      rfl
    | lp => exact hconn _ _ rfl
    | rp => exact hconn _ _ rfl

theorem flatMap_length (l : Lang) (ts : List (BTok (Test Node))) : ts.length ≤ (ts.flatMap (tokL l)).length := by
  induction ts with
  | nil => simp
  | cons b ts ih =>
    have : 0 < (tokL l b).length := by
      cases b with
      | atom x => cases x <;> simp [tokL, testL, colL, colT]
      | _ => simp [tokL]
    rw [List.flatMap_cons, List.length_append, List.length_cons]
    omega

/-- What the tokens of a clause are read as. -/
theorem expression_read (l : Lang) (sc : Scope κ) (p : Node → κ) (ts : List (BTok (Test Node))) (e : BExp (Test Node)) (hts : readBool ts = some e)
    (hx : ∀ x, .atom x ∈ ts → (∀ c ∈ x.columns, CanRead l sc p c) ∧ Filled x) :
    expression l.dialect sc (ts.flatMap (tokL l)) = some (BExp.map (Test.map p) e) := by
  unfold expression
  rw [group_read l sc p ts _ (flatMap_length l ts) hx, Option.bind_some, readBool_map, hts]
  rfl

theorem truth_map (C : Compare) (p : Node → κ) (r : κ → Scalar) (e : BExp (Test Node)) :
    truthOf C r (BExp.map (Test.map p) e) = truthOf C (fun c => r (p c)) e := by
  induction e with
  | atom x =>
    cases x with
    | cmp op c x => cases x <;> rfl
    | null c => rfl
    | notNull c => rfl
    | among c vs => rfl
  | not e ih => simp [BExp.map, truthOf, ih]
  | and e f ih ih' => simp [BExp.map, truthOf, ih, ih']
  | or e f ih ih' => simp [BExp.map, truthOf, ih, ih']

/-! ### Conditions on other columns -/

variable (f : κ → Node)

theorem test_truth_map (C : Compare) (r : Node → Scalar) (x : Test κ) : (x.map f).truth C r = x.truth C (fun c => r (f c)) := by
  cases x with
  | cmp op c x => cases x <;> rfl
  | null c => rfl
  | notNull c => rfl
  | among c vs => rfl

mutual
theorem cond_truth_map (C : Compare) (r : Node → Scalar) : (c : Cond κ) → (c.map f).truth C r = c.truth C (fun c => r (f c))
  | .test n x => by simp only [Cond.map, Cond.truth, test_truth_map]
  | .group false n cs => by simp only [Cond.map, Cond.truth, (truth_mapAll C r cs).1]
  | .group true n cs => by simp only [Cond.map, Cond.truth, (truth_mapAll C r cs).2]
theorem truth_mapAll (C : Compare) (r : Node → Scalar) : (cs : List (Cond κ)) →
    allTrue C r (mapAll f cs) = allTrue C (fun c => r (f c)) cs ∧ oneTrue C r (mapAll f cs) = oneTrue C (fun c => r (f c)) cs
  | [] => ⟨rfl, rfl⟩
  | c :: cs => by
    simp only [mapAll, allTrue, oneTrue, cond_truth_map C r c, truth_mapAll C r cs, and_self]
end

theorem isGroup_map (c : Cond κ) : (c.map f).isGroup = c.isGroup := by
  cases c <;> simp [Cond.map, Cond.isGroup]

mutual
theorem fine_map : (c : Cond κ) → (top : Bool) → ((c.map f).fine top ↔ c.fine top)
  | .test n x, top => by cases x <;> simp [Cond.map, Test.map, Cond.fine]
  | .group o n [], top => by simp [Cond.map, mapAll, Cond.fine]
  | .group o n [c], top => by simp only [Cond.map, mapAll, Cond.fine, fine_map c, isGroup_map]
  | .group o n (c :: c' :: cs), top => by simp only [Cond.map, mapAll, Cond.fine, fine_map c, fine_map c', fine_mapAll cs]
theorem fine_mapAll : (cs : List (Cond κ)) → (allFine (mapAll f cs) ↔ allFine cs)
  | [] => by simp [mapAll, allFine]
  | c :: cs => by simp only [mapAll, allFine, fine_map c, fine_mapAll cs]
end

theorem test_columns_map (x : Test κ) : (x.map f).columns = x.columns.map f := by
  cases x with
  | cmp op c x => cases x <;> rfl
  | null c => rfl
  | notNull c => rfl
  | among c vs => rfl

mutual
theorem columns_map : (c : Cond κ) → (c.map f).columns = c.columns.map f
  | .test n x => by simp only [Cond.map, Cond.columns, test_columns_map]
  | .group o n cs => by simp only [Cond.map, Cond.columns, columns_mapAll cs]
theorem columns_mapAll : (cs : List (Cond κ)) → columns (mapAll f cs) = (columns cs).map f
  | [] => rfl
  | c :: cs => by simp only [mapAll, columns, columns_map c, columns_mapAll cs, List.map_append]
end

theorem isEmpty_nodes (cs : List (Cond κ)) : (nodes (mapAll f cs) = []) ↔ cs = [] := by
  cases cs <;> simp [nodes, mapAll]

/-! ### The clause as text, its values and its meaning -/

/-- The conditions can be written and read: there are some, each is fine, and the columns are read as `p` says. -/
structure Clear (l : Lang) (sc : Scope κ') (p : Node → κ') (f : κ → Node) (cs : List (Cond κ)) : Prop where
  fine : (Cond.group false false cs).fine true
  column : ∀ c ∈ columns cs, IsCol (f c)
  read : ∀ c ∈ columns cs, CanRead l sc p (f c)

/-- What a clause adds, the tokens of its text, and what they are read as when the values are there. -/
theorem clause_parts (l : Lang) (sc : Scope κ') (p : Node → κ') (cs : List (Cond κ)) (env : Env) (h : Clear l sc p f cs) :
    ∃ (ts : List (BTok (Test Node))) (e : BExp (Test κ')),
      Adds l.dialect [.placed (and_ (nodes (mapAll f cs))) { d := l.dialect, env := env, meth := .top true }] (ts.flatMap (tokParts l.dialect)) ∧ Adj ts ∧
      expression l.dialect sc (ts.flatMap (tokL l)) = some e ∧
      (∀ C r, truthOf C r e = allTrue C (fun c => r (p (f c))) cs) ∧ ∀ x, .atom x ∈ ts → ∀ c ∈ x.columns, CanRead l sc p c := by
  have hcol : ∀ c ∈ columns (mapAll f cs), IsCol c := by
    rw [columns_mapAll]
    intro c hc
    obtain ⟨a, ha, rfl⟩ := List.mem_map.1 hc
    exact h.column a ha
  have hread : ∀ c ∈ columns (mapAll f cs), CanRead l sc p c := by
    rw [columns_mapAll]
    intro c hc
    obtain ⟨a, ha, rfl⟩ := List.mem_map.1 hc
    exact h.read a ha
  have hfine : (Cond.group false false (mapAll f cs)).fine true := by
    have := (fine_map f (.group false false cs) true).2 h.fine
    rwa [Cond.map] at this
  obtain ⟨ts, e, h1, h2, h3, h4, h5⟩ := clause_adds (d := l.dialect) env (mapAll f cs) hcol hfine
  refine ⟨ts, BExp.map (Test.map p) e, h1, h4, expression_read l sc p ts e h3 fun x hx => ?_, fun C r => ?_, fun x hx c hc => hread c (tests_columnsAll _ x (h5 x hx) c hc)⟩
  · have hx := h5 x hx
    exact ⟨fun c hc => hread c (tests_columnsAll _ x hx c hc), fine_filled _ true hfine x (by rwa [tests])⟩
  · rw [truth_map, truth_exp C _ _ e h2, Cond.truth]
    exact (truth_mapAll f C _ cs).1

end Sq.Choosing
