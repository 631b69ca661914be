import Verif.Basic
/-
Model of `generateName` (ddl/ddl.go:43-75).
-/
namespace Ddl

/-- The constraint/index kinds of ddl/ddl.go:21-28; `other` is any other string. -/
inductive NameKind where
  | primaryKey | foreignKey | unique | index | check | exclude | other
  deriving DecidableEq

/-- `strings.ReplaceAll(s, " ", "_")`. -/
def underscored (s : Str) : Str := s.map fun c => if c = ' ' then '_' else c

/-- ddl/ddl.go:53-67: the suffix. -/
def nameSuffix : NameKind → Str
  | .primaryKey => "_pkey"
  | .foreignKey => "_fkey"
  | .unique => "_key"
  | .index => "_idx"
  | .check => "_check"
  | .exclude => "_excl"
  | .other => ""

/-- ddl/ddl.go:43-75 `generateName`.  `take` is the slice expression `[:len-excess]` (in range, as a suffix is shorter than
63 bytes). -/
def generateName (kind : NameKind) (tableName : Str) (columnNames : List Str) : Str :=
  let buf := underscored tableName ++ columnNames.flatMap fun c => "_".toList ++ underscored c
  let suffix := nameSuffix kind
  let excess : Int := buf.length + suffix.length - 63
  if excess > 0 then buf.take (buf.length - excess.toNat) ++ suffix else buf ++ suffix

end Ddl
