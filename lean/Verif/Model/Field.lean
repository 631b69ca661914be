import Verif.Model.Expr
/-
Model of the typed fields: their constructors, modifiers (`As`, `Asc`, `Desc`, `NullsFirst`, `NullsLast`, `Collate`, `Not`),
formats per dialect, and the predicate and assignment methods of every field type.
-/
namespace Sq

/-- TableInfo (table_info.go:9-13) as far as a field remembers it. -/
structure TInfo where
  schema : Str := []
  name : Str := []
  alias : Str := []
  deriving DecidableEq

/-- blob_field.go:11-18, boolean_field.go:14-21, number_field.go:21-28, string_field.go:19-26, time_field.go:22-29,
uuid_field.go:9-16, json_field.go:9-16, custom_field.go:14-21: `NewXField(fieldName, tableInfo)`.  The schema is kept in the
struct but never read (field_info.go:39-105), so the model's `FInfo` has no place for it. -/
def newField (name : Str) (t : TInfo) : Node := .field { tableName := t.name, tableAlias := t.alias, name := name } false false []

/-- A call of a modifier method. -/
inductive Modifier where
  | as_ (alias : Str) | asc | desc | nullsFirst | nullsLast | collate (c : Str) | not_

/-- The effect on FieldInfo: blob_field.go:28-55, boolean_field.go:34-37, 44-66, number_field.go:37-64, string_field.go:35-67,
time_field.go:38-65, uuid_field.go:28-31, json_field.go:28-55, custom_field.go:49-76, cte.go:226-253, subquery.go:115-142
(the bodies are the same for all types; UUIDField only has `As`, only StringField has `Collate`). -/
def FInfo.modify (fi : FInfo) : Modifier → FInfo
  | .as_ a => { fi with alias := a }
  | .asc => { fi with desc := some false }
  | .desc => { fi with desc := some true }
  | .nullsFirst => { fi with nullsFirst := some true }
  | .nullsLast => { fi with nullsFirst := some false }
  | .collate c => { fi with collation := c }
  | .not_ => fi

/-- A modifier called on a field; the receiver is a copy. `Not` (boolean_field.go:39-42) flips Negative. -/
def modify (x : Modifier) : Node → Node
  | .field fi raw neg vals => .field (fi.modify x) raw (match x with | .not_ => !neg | _ => neg) vals
  | .checkedField sub avail fi => .checkedField sub avail (fi.modify x)
  | n => n

/-- A chain of modifier calls. -/
def modified (f : Node) (xs : List Modifier) : Node := xs.foldl (fun f x => modify x f) f

/-- custom_field.go:38-47 `FieldfDialect`: `formats` is the map in the order in which `range` visits it. -/
def fieldfDialect (formats : List (Str × Str)) (vals : List Node) : Node := .field { formats := formats } false false vals

/-- A predicate or assignment method of a field type: receiver type, method, function of receiver and argument. -/
structure Method where
  type : String
  name : String
  call : Node → Node → Node

/-- All of them. -/
def methods : List Method := [
  ⟨"BinaryField", "IsNull", fun f _ => Call.node (.isNull f)⟩,  -- blob_field.go:57
  ⟨"BinaryField", "IsNotNull", fun f _ => Call.node (.isNotNull f)⟩,  -- blob_field.go:59
  ⟨"BinaryField", "Set", fun f v => Call.node (.assign f v)⟩,  -- blob_field.go:61
  ⟨"BinaryField", "SetBlob", fun f v => Call.node (.assign f v)⟩,  -- blob_field.go:63
  ⟨"BooleanField", "IsNull", fun f _ => Call.node (.isNull f)⟩,  -- boolean_field.go:68
  ⟨"BooleanField", "IsNotNull", fun f _ => Call.node (.isNotNull f)⟩,  -- boolean_field.go:70
  ⟨"BooleanField", "Eq", fun f v => Call.node (.eq f v)⟩,  -- boolean_field.go:72
  ⟨"BooleanField", "Ne", fun f v => Call.node (.ne f v)⟩,  -- boolean_field.go:74
  ⟨"BooleanField", "EqBool", fun f v => Call.node (.eq f v)⟩,  -- boolean_field.go:76
  ⟨"BooleanField", "NeBool", fun f v => Call.node (.ne f v)⟩,  -- boolean_field.go:78
  ⟨"BooleanField", "Set", fun f v => Call.node (.assign f v)⟩,  -- boolean_field.go:80
  ⟨"BooleanField", "SetBool", fun f v => Call.node (.assign f v)⟩,  -- boolean_field.go:82
  ⟨"NumberField", "IsNull", fun f _ => Call.node (.isNull f)⟩,  -- number_field.go:66
  ⟨"NumberField", "IsNotNull", fun f _ => Call.node (.isNotNull f)⟩,  -- number_field.go:68
  ⟨"NumberField", "In", fun f v => Call.node (.in_ f v)⟩,  -- number_field.go:70
  ⟨"NumberField", "Eq", fun f v => Call.node (.eq f v)⟩,  -- number_field.go:72
  ⟨"NumberField", "Ne", fun f v => Call.node (.ne f v)⟩,  -- number_field.go:74
  ⟨"NumberField", "Gt", fun f v => Call.node (.gt f v)⟩,  -- number_field.go:76
  ⟨"NumberField", "Ge", fun f v => Call.node (.ge f v)⟩,  -- number_field.go:78
  ⟨"NumberField", "Lt", fun f v => Call.node (.lt f v)⟩,  -- number_field.go:80
  ⟨"NumberField", "Le", fun f v => Call.node (.le f v)⟩,  -- number_field.go:82
  ⟨"NumberField", "EqInt", fun f v => Call.node (.eq f v)⟩,  -- number_field.go:84
  ⟨"NumberField", "NeInt", fun f v => Call.node (.ne f v)⟩,  -- number_field.go:86
  ⟨"NumberField", "GtInt", fun f v => Call.node (.gt f v)⟩,  -- number_field.go:88
  ⟨"NumberField", "GeInt", fun f v => Call.node (.ge f v)⟩,  -- number_field.go:90
  ⟨"NumberField", "LtInt", fun f v => Call.node (.lt f v)⟩,  -- number_field.go:92
  ⟨"NumberField", "LeInt", fun f v => Call.node (.le f v)⟩,  -- number_field.go:94
  ⟨"NumberField", "EqInt64", fun f v => Call.node (.eq f v)⟩,  -- number_field.go:96
  ⟨"NumberField", "NeInt64", fun f v => Call.node (.ne f v)⟩,  -- number_field.go:98
  ⟨"NumberField", "GtInt64", fun f v => Call.node (.gt f v)⟩,  -- number_field.go:100
  ⟨"NumberField", "GeInt64", fun f v => Call.node (.ge f v)⟩,  -- number_field.go:102
  ⟨"NumberField", "LtInt64", fun f v => Call.node (.lt f v)⟩,  -- number_field.go:104
  ⟨"NumberField", "LeInt64", fun f v => Call.node (.le f v)⟩,  -- number_field.go:106
  ⟨"NumberField", "EqFloat64", fun f v => Call.node (.eq f v)⟩,  -- number_field.go:108
  ⟨"NumberField", "NeFloat64", fun f v => Call.node (.ne f v)⟩,  -- number_field.go:110
  ⟨"NumberField", "GtFloat64", fun f v => Call.node (.gt f v)⟩,  -- number_field.go:112
  ⟨"NumberField", "GeFloat64", fun f v => Call.node (.ge f v)⟩,  -- number_field.go:114
  ⟨"NumberField", "LtFloat64", fun f v => Call.node (.lt f v)⟩,  -- number_field.go:116
  ⟨"NumberField", "LeFloat64", fun f v => Call.node (.le f v)⟩,  -- number_field.go:118
  ⟨"NumberField", "Set", fun f v => Call.node (.assign f v)⟩,  -- number_field.go:120
  ⟨"NumberField", "SetInt", fun f v => Call.node (.assign f v)⟩,  -- number_field.go:122
  ⟨"NumberField", "SetInt64", fun f v => Call.node (.assign f v)⟩,  -- number_field.go:124
  ⟨"NumberField", "SetFloat64", fun f v => Call.node (.assign f v)⟩,  -- number_field.go:126
  ⟨"StringField", "IsNull", fun f _ => Call.node (.isNull f)⟩,  -- string_field.go:69
  ⟨"StringField", "IsNotNull", fun f _ => Call.node (.isNotNull f)⟩,  -- string_field.go:71
  ⟨"StringField", "In", fun f v => Call.node (.in_ f v)⟩,  -- string_field.go:73
  ⟨"StringField", "Eq", fun f v => Call.node (.eq f v)⟩,  -- string_field.go:75
  ⟨"StringField", "Ne", fun f v => Call.node (.ne f v)⟩,  -- string_field.go:77
  ⟨"StringField", "EqString", fun f v => Call.node (.eq f v)⟩,  -- string_field.go:79
  ⟨"StringField", "NeString", fun f v => Call.node (.ne f v)⟩,  -- string_field.go:81
  ⟨"StringField", "LikeString", fun f v => predicatef "{} LIKE {}" [f, v]⟩,  -- string_field.go:83
  ⟨"StringField", "ILikeString", fun f v => predicatef "{} ILIKE {}" [f, v]⟩,  -- string_field.go:85
  ⟨"StringField", "Set", fun f v => Call.node (.assign f v)⟩,  -- string_field.go:87
  ⟨"StringField", "SetString", fun f v => Call.node (.assign f v)⟩,  -- string_field.go:89
  ⟨"TimeField", "IsNull", fun f _ => Call.node (.isNull f)⟩,  -- time_field.go:67
  ⟨"TimeField", "IsNotNull", fun f _ => Call.node (.isNotNull f)⟩,  -- time_field.go:69
  ⟨"TimeField", "In", fun f v => Call.node (.in_ f v)⟩,  -- time_field.go:71
  ⟨"TimeField", "Eq", fun f v => Call.node (.eq f v)⟩,  -- time_field.go:73
  ⟨"TimeField", "Ne", fun f v => Call.node (.ne f v)⟩,  -- time_field.go:75
  ⟨"TimeField", "Gt", fun f v => Call.node (.gt f v)⟩,  -- time_field.go:77
  ⟨"TimeField", "Ge", fun f v => Call.node (.ge f v)⟩,  -- time_field.go:79
  ⟨"TimeField", "Lt", fun f v => Call.node (.lt f v)⟩,  -- time_field.go:81
  ⟨"TimeField", "Le", fun f v => Call.node (.le f v)⟩,  -- time_field.go:83
  ⟨"TimeField", "EqTime", fun f v => Call.node (.eq f v)⟩,  -- time_field.go:85
  ⟨"TimeField", "NeTime", fun f v => Call.node (.ne f v)⟩,  -- time_field.go:87
  ⟨"TimeField", "GtTime", fun f v => Call.node (.gt f v)⟩,  -- time_field.go:89
  ⟨"TimeField", "GeTime", fun f v => Call.node (.ge f v)⟩,  -- time_field.go:91
  ⟨"TimeField", "LtTime", fun f v => Call.node (.lt f v)⟩,  -- time_field.go:93
  ⟨"TimeField", "LeTime", fun f v => Call.node (.le f v)⟩,  -- time_field.go:95
  ⟨"TimeField", "Set", fun f v => Call.node (.assign f v)⟩,  -- time_field.go:97
  ⟨"TimeField", "SetTime", fun f v => Call.node (.assign f v)⟩,  -- time_field.go:99
  ⟨"CustomField", "IsNull", fun f _ => Call.node (.isNull f)⟩,  -- custom_field.go:78
  ⟨"CustomField", "IsNotNull", fun f _ => Call.node (.isNotNull f)⟩,  -- custom_field.go:80
  ⟨"CustomField", "In", fun f v => Call.node (.in_ f v)⟩,  -- custom_field.go:82
  ⟨"CustomField", "Eq", fun f v => Call.node (.eq f v)⟩,  -- custom_field.go:84
  ⟨"CustomField", "Ne", fun f v => Call.node (.ne f v)⟩,  -- custom_field.go:86
  ⟨"CustomField", "Gt", fun f v => Call.node (.gt f v)⟩,  -- custom_field.go:88
  ⟨"CustomField", "Ge", fun f v => Call.node (.ge f v)⟩,  -- custom_field.go:90
  ⟨"CustomField", "Lt", fun f v => Call.node (.lt f v)⟩,  -- custom_field.go:92
  ⟨"CustomField", "Le", fun f v => Call.node (.le f v)⟩,  -- custom_field.go:94
  ⟨"CTEField", "IsNull", fun f _ => Call.node (.isNull f)⟩,  -- cte.go:255
  ⟨"CTEField", "IsNotNull", fun f _ => Call.node (.isNotNull f)⟩,  -- cte.go:257
  ⟨"CTEField", "In", fun f v => Call.node (.in_ f v)⟩,  -- cte.go:259
  ⟨"CTEField", "Eq", fun f v => Call.node (.eq f v)⟩,  -- cte.go:261
  ⟨"CTEField", "Ne", fun f v => Call.node (.ne f v)⟩,  -- cte.go:263
  ⟨"CTEField", "Gt", fun f v => Call.node (.gt f v)⟩,  -- cte.go:265
  ⟨"CTEField", "Ge", fun f v => Call.node (.ge f v)⟩,  -- cte.go:267
  ⟨"CTEField", "Lt", fun f v => Call.node (.lt f v)⟩,  -- cte.go:269
  ⟨"CTEField", "Le", fun f v => Call.node (.le f v)⟩,  -- cte.go:271
  ⟨"SubqueryField", "IsNull", fun f _ => Call.node (.isNull f)⟩,  -- subquery.go:144
  ⟨"SubqueryField", "IsNotNull", fun f _ => Call.node (.isNotNull f)⟩,  -- subquery.go:146
  ⟨"SubqueryField", "In", fun f v => Call.node (.in_ f v)⟩,  -- subquery.go:148
  ⟨"SubqueryField", "Eq", fun f v => Call.node (.eq f v)⟩,  -- subquery.go:150
  ⟨"SubqueryField", "Ne", fun f v => Call.node (.ne f v)⟩,  -- subquery.go:152
  ⟨"SubqueryField", "Gt", fun f v => Call.node (.gt f v)⟩,  -- subquery.go:154
  ⟨"SubqueryField", "Ge", fun f v => Call.node (.ge f v)⟩,  -- subquery.go:156
  ⟨"SubqueryField", "Lt", fun f v => Call.node (.lt f v)⟩,  -- subquery.go:158
  ⟨"SubqueryField", "Le", fun f v => Call.node (.le f v)⟩  -- subquery.go:160
]

end Sq
