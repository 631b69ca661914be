import Verif.Model.Field
import Verif.Spec.Parts
/-
Specification for the modifiers, formats and methods of fields.
-/
namespace Sq.Spec

/-- The last `Asc` or `Desc`. -/
def sortOf (xs : List Modifier) : Option Bool :=
  (xs.filterMap fun | .asc => some false | .desc => some true | _ => none).getLast?

/-- The last `NullsFirst` or `NullsLast`. -/
def nullsOf (xs : List Modifier) : Option Bool :=
  (xs.filterMap fun | .nullsFirst => some true | .nullsLast => some false | _ => none).getLast?

def collationOf (xs : List Modifier) : Str :=
  ((xs.filterMap fun | .collate c => some c | _ => none).getLast?).getD []

def aliasOf (xs : List Modifier) : Option Str := (xs.filterMap fun | .as_ a => some a | _ => none).getLast?

def nots (xs : List Modifier) : Nat := xs.countP fun | .not_ => true | _ => false

/-- The collation as an identifier: PostgreSQL's are case sensitive, so always quoted there. -/
def collationText (d : Dialect) (c : Str) : Str :=
  if c = [] then [] else " COLLATE ".toList ++ (if d = .postgres then '"' :: escapeQuote '"' c ++ ['"'] else quoteIdentifier d c)

/-- What the modifiers add after the field. -/
def modifierText (d : Dialect) (xs : List Modifier) : Str :=
  collationText d (collationOf xs) ++
  (match sortOf xs with | some true => " DESC".toList | some false => " ASC".toList | none => []) ++
  (match nullsOf xs with | some true => " NULLS FIRST".toList | some false => " NULLS LAST".toList | none => [])

/-- A field without modifiers. -/
def Unmodified : Node → Prop
  | .field fi _ neg _ => neg = false ∧ fi.collation = [] ∧ fi.desc = none ∧ fi.nullsFirst = none
  | .checkedField _ _ fi => fi.collation = [] ∧ fi.desc = none ∧ fi.nullsFirst = none
  | _ => False

/-- Fields that have a `Not` method are ordinary fields. -/
def HasNot : Node → Prop
  | .field .. => True
  | _ => False

/-- The function a method is named after: `GeFloat64` after `Ge`, and so on. -/
def namedAfter (name : String) : Option (Node → Node → Call) :=
  let suffixes := ["", "Bool", "Int", "Int64", "Float64", "String", "Time", "Blob"]
  if name = "IsNull" then some fun f _ => .isNull f
  else if name = "IsNotNull" then some fun f _ => .isNotNull f
  else
    (([("Eq", .eq), ("Ne", .ne), ("Gt", .gt), ("Ge", .ge), ("Lt", .lt), ("Le", .le), ("In", .in_), ("Like", .like), ("ILike", .ilike),
      ("Set", .assign)] : List (String × (Node → Node → Call))).find? fun p => suffixes.any fun s => p.1 ++ s = name).map (·.2)

/-- The format to use: the dialect's own, else the default; the default must be there. -/
def Chosen (formats : List (Str × Str)) (d : Dialect) (f : Str) : Prop :=
  (∃ dflt, ("default".toList, dflt) ∈ formats) ∧
  ((d.nm, f) ∈ formats ∨ (∀ g, (d.nm, g) ∉ formats) ∧ ("default".toList, f) ∈ formats)

end Sq.Spec
