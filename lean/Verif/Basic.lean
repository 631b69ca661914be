/-
Shared conventions of the model.

A Go `string` / `[]byte` is modelled as `Str = List Char`, one `Char` per *byte*.
All bytes that the modelled code compares against are ASCII, so a non-ASCII byte is
just an opaque character.
-/

/-- A Go byte string. -/
abbrev Str := List Char

/-- Short notation for literals: `s!"..."` is interpolation, so we use a coercion. -/
instance : Coe String Str := ⟨String.toList⟩

/-- Outcome of a Go function that returns `(T, error)`, may panic, and may loop forever. -/
inductive Res (α : Type) where
  | ok (a : α)
  | err (msg : Str)
  | panic
  | hang
  deriving DecidableEq, Repr

namespace Res

def bind {α β : Type} : Res α → (α → Res β) → Res β
  | ok a, f => f a
  | err e, _ => err e
  | panic, _ => panic
  | hang, _ => hang

def map {α β : Type} (f : α → β) : Res α → Res β
  | ok a => ok (f a)
  | err e => err e
  | panic => panic
  | hang => hang

def isOk {α : Type} : Res α → Bool
  | ok _ => true
  | _ => false

@[simp] theorem bind_ok {α β : Type} (a : α) (f : α → Res β) : (ok a).bind f = f a := rfl
@[simp] theorem bind_err {α β : Type} (e : Str) (f : α → Res β) : (err e : Res α).bind f = err e := rfl
@[simp] theorem bind_panic {α β : Type} (f : α → Res β) : (panic : Res α).bind f = panic := rfl
@[simp] theorem bind_hang {α β : Type} (f : α → Res β) : (hang : Res α).bind f = hang := rfl
@[simp] theorem map_ok {α β : Type} (a : α) (f : α → β) : (ok a).map f = ok (f a) := rfl

theorem bind_eq_ok {α β : Type} (x : Res α) (f : α → Res β) (b : β) :
    x.bind f = ok b ↔ ∃ a, x = ok a ∧ f a = ok b := by
  cases x <;> simp [bind]

end Res

/-- The dialects the package knows (sq.go:22-28). `other` stands for any other string,
including the empty dialect; every `switch dialect` in the code treats those as `default`. -/
inductive Dialect where
  | sqlite | postgres | mysql | sqlserver | oracle | other
  deriving DecidableEq, Repr
