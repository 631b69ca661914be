import Verif.Conform.Dsl
/-
Generated by tools/gotest.py from number_field_test.go, string_field_test.go, boolean_field_test.go, blob_field_test.go, time_field_test.go, json_field_test.go, custom_field_test.go, assignment_test.go of /repo: tests of the model, not proofs.
-/
namespace Conform.Fields
open Sq Conform Sq.Deriving

/-! number_field_test.go -/
/-- NumberField -/
example : gives .other (app .other (newField c!"field" { name := c!"tbl", «alias» := c!"" }) [])
    c!"tbl.field" [] = true := by decide +kernel
/-- NumberField with alias -/
example : gives .other (app .other (modify (.as_ c!"f") (newField c!"field" { name := c!"tbl", «alias» := c!"" })) [])
    c!"tbl.field" [] = true := by decide +kernel
/-- NumberField ASC NULLS LAST -/
example : gives .other (app .other (modify (.nullsLast) (modify (.asc) (newField c!"field" { name := c!"tbl", «alias» := c!"" }))) [])
    c!"tbl.field ASC NULLS LAST" [] = true := by decide +kernel
/-- NumberField DESC NULLS FIRST -/
example : gives .other (app .other (modify (.nullsFirst) (modify (.desc) (newField c!"field" { name := c!"tbl", «alias» := c!"" }))) [])
    c!"tbl.field DESC NULLS FIRST" [] = true := by decide +kernel
/-- NumberField IS NULL -/
example : gives .other (app .other (Call.isNull (newField c!"field" { name := c!"tbl", «alias» := c!"" })).node [])
    c!"tbl.field IS NULL" [] = true := by decide +kernel
/-- NumberField IS NOT NULL -/
example : gives .other (app .other (Call.isNotNull (newField c!"field" { name := c!"tbl", «alias» := c!"" })).node [])
    c!"tbl.field IS NOT NULL" [] = true := by decide +kernel
/-- NumberFieldf in (slice) -/
example : gives .other (app .other (Call.in_ (Conform.fieldf c!"(MAX(AVG({avg1}), AVG({avg2}), SUM({sum})) + {incr})" [(param c!"avg1" (newField c!"user_id" { name := c!"", «alias» := c!"" })), (param c!"avg2" (newField c!"age" { name := c!"", «alias» := c!"" })), (param c!"incr" (.scalar (.int 1))), (param c!"sum" (newField c!"age" { name := c!"", «alias» := c!"" }))]) (sl [(.scalar (.int 1)), (.scalar (.int 2)), (.scalar (.int 3)), (.scalar (.int 4))])).node [])
    c!"(MAX(AVG(user_id), AVG(age), SUM(age)) + ?) IN (?, ?, ?, ?)" [1, 1, 2, 3, 4] [(c!"incr", [0])] = true := by decide +kernel
/-- NumberFieldf in (rowvalue) -/
example : gives .other (app .other (Call.in_ (Conform.fieldf c!"(MAX(AVG({avg1}), AVG({avg2}), SUM({sum})) + {incr})" [(param c!"avg1" (newField c!"user_id" { name := c!"", «alias» := c!"" })), (param c!"avg2" (newField c!"age" { name := c!"", «alias» := c!"" })), (param c!"incr" (.scalar (.int 1))), (param c!"sum" (newField c!"age" { name := c!"", «alias» := c!"" }))]) (.rowValue [(newField c!"age" { name := c!"", «alias» := c!"" }), (newField c!"user_id" { name := c!"", «alias» := c!"" })])).node [])
    c!"(MAX(AVG(user_id), AVG(age), SUM(age)) + ?) IN (age, user_id)" [1] [(c!"incr", [0])] = true := by decide +kernel
/-- NumberField Eq -/
example : gives .other (app .other (Call.eq (newField c!"field" { name := c!"tbl", «alias» := c!"" }) (newField c!"field" { name := c!"tbl", «alias» := c!"" })).node [])
    c!"tbl.field = tbl.field" [] = true := by decide +kernel
/-- NumberField Ne -/
example : gives .other (app .other (Call.ne (newField c!"field" { name := c!"tbl", «alias» := c!"" }) (newField c!"field" { name := c!"tbl", «alias» := c!"" })).node [])
    c!"tbl.field <> tbl.field" [] = true := by decide +kernel
/-- NumberField Gt -/
example : gives .other (app .other (Call.gt (newField c!"field" { name := c!"tbl", «alias» := c!"" }) (newField c!"field" { name := c!"tbl", «alias» := c!"" })).node [])
    c!"tbl.field > tbl.field" [] = true := by decide +kernel
/-- NumberField Ge -/
example : gives .other (app .other (Call.ge (newField c!"field" { name := c!"tbl", «alias» := c!"" }) (newField c!"field" { name := c!"tbl", «alias» := c!"" })).node [])
    c!"tbl.field >= tbl.field" [] = true := by decide +kernel
/-- NumberField Lt -/
example : gives .other (app .other (Call.lt (newField c!"field" { name := c!"tbl", «alias» := c!"" }) (newField c!"field" { name := c!"tbl", «alias» := c!"" })).node [])
    c!"tbl.field < tbl.field" [] = true := by decide +kernel
/-- NumberField Le -/
example : gives .other (app .other (Call.le (newField c!"field" { name := c!"tbl", «alias» := c!"" }) (newField c!"field" { name := c!"tbl", «alias» := c!"" })).node [])
    c!"tbl.field <= tbl.field" [] = true := by decide +kernel
/-- NumberField EqInt -/
example : gives .other (app .other (Call.eq (newField c!"field" { name := c!"tbl", «alias» := c!"" }) (.scalar (.int 22))).node [])
    c!"tbl.field = ?" [22] = true := by decide +kernel
/-- NumberField NeInt -/
example : gives .other (app .other (Call.ne (newField c!"field" { name := c!"tbl", «alias» := c!"" }) (.scalar (.int 22))).node [])
    c!"tbl.field <> ?" [22] = true := by decide +kernel
/-- NumberField GtInt -/
example : gives .other (app .other (Call.gt (newField c!"field" { name := c!"tbl", «alias» := c!"" }) (.scalar (.int 22))).node [])
    c!"tbl.field > ?" [22] = true := by decide +kernel
/-- NumberField GeInt -/
example : gives .other (app .other (Call.ge (newField c!"field" { name := c!"tbl", «alias» := c!"" }) (.scalar (.int 22))).node [])
    c!"tbl.field >= ?" [22] = true := by decide +kernel
/-- NumberField LtInt -/
example : gives .other (app .other (Call.lt (newField c!"field" { name := c!"tbl", «alias» := c!"" }) (.scalar (.int 22))).node [])
    c!"tbl.field < ?" [22] = true := by decide +kernel
/-- NumberField LeInt -/
example : gives .other (app .other (Call.le (newField c!"field" { name := c!"tbl", «alias» := c!"" }) (.scalar (.int 22))).node [])
    c!"tbl.field <= ?" [22] = true := by decide +kernel
/-- NumberField EqInt64 -/
example : gives .other (app .other (Call.eq (newField c!"field" { name := c!"tbl", «alias» := c!"" }) (.scalar (.int 22))).node [])
    c!"tbl.field = ?" [22] = true := by decide +kernel
/-- NumberField NeInt64 -/
example : gives .other (app .other (Call.ne (newField c!"field" { name := c!"tbl", «alias» := c!"" }) (.scalar (.int 22))).node [])
    c!"tbl.field <> ?" [22] = true := by decide +kernel
/-- NumberField GtInt64 -/
example : gives .other (app .other (Call.gt (newField c!"field" { name := c!"tbl", «alias» := c!"" }) (.scalar (.int 22))).node [])
    c!"tbl.field > ?" [22] = true := by decide +kernel
/-- NumberField GeInt64 -/
example : gives .other (app .other (Call.ge (newField c!"field" { name := c!"tbl", «alias» := c!"" }) (.scalar (.int 22))).node [])
    c!"tbl.field >= ?" [22] = true := by decide +kernel
/-- NumberField LtInt64 -/
example : gives .other (app .other (Call.lt (newField c!"field" { name := c!"tbl", «alias» := c!"" }) (.scalar (.int 22))).node [])
    c!"tbl.field < ?" [22] = true := by decide +kernel
/-- NumberField LeInt64 -/
example : gives .other (app .other (Call.le (newField c!"field" { name := c!"tbl", «alias» := c!"" }) (.scalar (.int 22))).node [])
    c!"tbl.field <= ?" [22] = true := by decide +kernel
/-- NumberField EqFloat64 -/
example : gives .other (app .other (Call.eq (newField c!"field" { name := c!"tbl", «alias» := c!"" }) (.scalar (.opaque 0))).node [])
    c!"tbl.field = ?" [.val (.opaque 0)] = true := by decide +kernel
/-- NumberField NeFloat64 -/
example : gives .other (app .other (Call.ne (newField c!"field" { name := c!"tbl", «alias» := c!"" }) (.scalar (.opaque 0))).node [])
    c!"tbl.field <> ?" [.val (.opaque 0)] = true := by decide +kernel
/-- NumberField GtFloat64 -/
example : gives .other (app .other (Call.gt (newField c!"field" { name := c!"tbl", «alias» := c!"" }) (.scalar (.opaque 0))).node [])
    c!"tbl.field > ?" [.val (.opaque 0)] = true := by decide +kernel
/-- NumberField GeFloat64 -/
example : gives .other (app .other (Call.ge (newField c!"field" { name := c!"tbl", «alias» := c!"" }) (.scalar (.opaque 0))).node [])
    c!"tbl.field >= ?" [.val (.opaque 0)] = true := by decide +kernel
/-- NumberField LtFloat64 -/
example : gives .other (app .other (Call.lt (newField c!"field" { name := c!"tbl", «alias» := c!"" }) (.scalar (.opaque 0))).node [])
    c!"tbl.field < ?" [.val (.opaque 0)] = true := by decide +kernel
/-- NumberField LeFloat64 -/
example : gives .other (app .other (Call.le (newField c!"field" { name := c!"tbl", «alias» := c!"" }) (.scalar (.opaque 0))).node [])
    c!"tbl.field <= ?" [.val (.opaque 0)] = true := by decide +kernel
/-- NumberField SetInt -/
example : gives .other (app .other (.assign (newField c!"field" { name := c!"tbl", «alias» := c!"" }) (.scalar (.int 22))) [])
    c!"tbl.field = ?" [22] = true := by decide +kernel
/-- NumberField SetInt64 -/
example : gives .other (app .other (.assign (newField c!"field" { name := c!"tbl", «alias» := c!"" }) (.scalar (.int 22))) [])
    c!"tbl.field = ?" [22] = true := by decide +kernel
/-- NumberField SetFloat64 -/
example : gives .other (app .other (.assign (newField c!"field" { name := c!"tbl", «alias» := c!"" }) (.scalar (.opaque 0))) [])
    c!"tbl.field = ?" [.val (.opaque 0)] = true := by decide +kernel
/-! string_field_test.go -/
/-- StringField -/
example : gives .other (app .other (newField c!"field" { name := c!"tbl", «alias» := c!"" }) [])
    c!"tbl.field" [] = true := by decide +kernel
/-- StringField with alias -/
example : gives .other (app .other (modify (.as_ c!"f") (newField c!"field" { name := c!"tbl", «alias» := c!"" })) [])
    c!"tbl.field" [] = true := by decide +kernel
/-- StringField ASC NULLS FIRST -/
example : gives .other (app .other (modify (.nullsFirst) (modify (.asc) (newField c!"field" { name := c!"tbl", «alias» := c!"" }))) [])
    c!"tbl.field ASC NULLS FIRST" [] = true := by decide +kernel
/-- StringField DESC NULLS LAST -/
example : gives .other (app .other (modify (.nullsLast) (modify (.desc) (newField c!"field" { name := c!"tbl", «alias» := c!"" }))) [])
    c!"tbl.field DESC NULLS LAST" [] = true := by decide +kernel
/-- StringField IS NULL -/
example : gives .other (app .other (Call.isNull (newField c!"field" { name := c!"tbl", «alias» := c!"" })).node [])
    c!"tbl.field IS NULL" [] = true := by decide +kernel
/-- StringField IS NOT NULL -/
example : gives .other (app .other (Call.isNotNull (newField c!"field" { name := c!"tbl", «alias» := c!"" })).node [])
    c!"tbl.field IS NOT NULL" [] = true := by decide +kernel
/-- StringFieldf in (slice) -/
example : gives .other (app .other (Call.in_ (Conform.fieldf c!"{name} || {delim} || {email}" [(param c!"name" (newField c!"name" { name := c!"", «alias» := c!"" })), (param c!"delim" (.scalar (.str c!": "))), (param c!"email" (newField c!"email" { name := c!"", «alias» := c!"" }))]) (sl [(.scalar (.str c!"a")), (.scalar (.str c!"b")), (.scalar (.str c!"c"))])).node [])
    c!"name || ? || email IN (?, ?, ?)" [.val (.str c!": "), .val (.str c!"a"), .val (.str c!"b"), .val (.str c!"c")] [(c!"delim", [0])] = true := by decide +kernel
/-- StringFieldf in (rowvalue) -/
example : gives .other (app .other (Call.in_ (Conform.fieldf c!"{name} || {delim} || {email}" [(param c!"name" (newField c!"name" { name := c!"", «alias» := c!"" })), (param c!"delim" (.scalar (.str c!": "))), (param c!"email" (newField c!"email" { name := c!"", «alias» := c!"" }))]) (.rowValue [(newField c!"name" { name := c!"", «alias» := c!"" }), (newField c!"email" { name := c!"", «alias» := c!"" })])).node [])
    c!"name || ? || email IN (name, email)" [.val (.str c!": ")] [(c!"delim", [0])] = true := by decide +kernel
/-- StringField Eq -/
example : gives .other (app .other (Call.eq (newField c!"field" { name := c!"tbl", «alias» := c!"" }) (newField c!"field" { name := c!"tbl", «alias» := c!"" })).node [])
    c!"tbl.field = tbl.field" [] = true := by decide +kernel
/-- StringField Ne -/
example : gives .other (app .other (Call.ne (newField c!"field" { name := c!"tbl", «alias» := c!"" }) (newField c!"field" { name := c!"tbl", «alias» := c!"" })).node [])
    c!"tbl.field <> tbl.field" [] = true := by decide +kernel
/-- StringField EqString -/
example : gives .other (app .other (Call.eq (newField c!"field" { name := c!"tbl", «alias» := c!"" }) (.scalar (.str c!"abc"))).node [])
    c!"tbl.field = ?" [.val (.str c!"abc")] = true := by decide +kernel
/-- StringField NeString -/
example : gives .other (app .other (Call.ne (newField c!"field" { name := c!"tbl", «alias» := c!"" }) (.scalar (.str c!"abc"))).node [])
    c!"tbl.field <> ?" [.val (.str c!"abc")] = true := by decide +kernel
/-- StringField SetString -/
example : gives .other (app .other (.assign (newField c!"field" { name := c!"tbl", «alias» := c!"" }) (.scalar (.str c!"abc"))) [])
    c!"tbl.field = ?" [.val (.str c!"abc")] = true := by decide +kernel
/-! boolean_field_test.go -/
/-- BooleanField -/
example : gives .other (app .other (newField c!"field" { name := c!"tbl", «alias» := c!"" }) [])
    c!"tbl.field" [] = true := by decide +kernel
/-- BooleanField with alias -/
example : gives .other (app .other (modify (.as_ c!"f") (newField c!"field" { name := c!"tbl", «alias» := c!"" })) [])
    c!"tbl.field" [] = true := by decide +kernel
/-- BooleanField ASC NULLS LAST -/
example : gives .other (app .other (modify (.nullsLast) (modify (.asc) (newField c!"field" { name := c!"tbl", «alias» := c!"" }))) [])
    c!"tbl.field ASC NULLS LAST" [] = true := by decide +kernel
/-- BooleanField DESC NULLS FIRST -/
example : gives .other (app .other (modify (.nullsFirst) (modify (.desc) (newField c!"field" { name := c!"tbl", «alias» := c!"" }))) [])
    c!"tbl.field DESC NULLS FIRST" [] = true := by decide +kernel
/-- BooleanField NOT -/
example : gives .other (app .other (modify .not_ (newField c!"field" { name := c!"tbl", «alias» := c!"" })) [])
    c!"NOT tbl.field" [] = true := by decide +kernel
/-- BooleanField IS NULL -/
example : gives .other (app .other (Call.isNull (newField c!"field" { name := c!"tbl", «alias» := c!"" })).node [])
    c!"tbl.field IS NULL" [] = true := by decide +kernel
/-- BooleanField IS NOT NULL -/
example : gives .other (app .other (Call.isNotNull (newField c!"field" { name := c!"tbl", «alias» := c!"" })).node [])
    c!"tbl.field IS NOT NULL" [] = true := by decide +kernel
/-- BooleanField Eq -/
example : gives .other (app .other (Call.eq (newField c!"field" { name := c!"tbl", «alias» := c!"" }) (newField c!"field" { name := c!"tbl", «alias» := c!"" })).node [])
    c!"tbl.field = tbl.field" [] = true := by decide +kernel
/-- BooleanField Ne -/
example : gives .other (app .other (Call.ne (newField c!"field" { name := c!"tbl", «alias» := c!"" }) (newField c!"field" { name := c!"tbl", «alias» := c!"" })).node [])
    c!"tbl.field <> tbl.field" [] = true := by decide +kernel
/-- BooleanField EqBool -/
example : gives .other (app .other (Call.eq (newField c!"field" { name := c!"tbl", «alias» := c!"" }) tt).node [])
    c!"tbl.field = ?" [argTrue] = true := by decide +kernel
/-- BooleanField NeBool -/
example : gives .other (app .other (Call.ne (newField c!"field" { name := c!"tbl", «alias» := c!"" }) tt).node [])
    c!"tbl.field <> ?" [argTrue] = true := by decide +kernel
/-- BooleanField SetBool -/
example : gives .other (app .other (.assign (newField c!"field" { name := c!"tbl", «alias» := c!"" }) tt) [])
    c!"tbl.field = ?" [argTrue] = true := by decide +kernel
/-! blob_field_test.go -/
/-- BlobField -/
example : gives .other (app .other (newField c!"field" { name := c!"tbl", «alias» := c!"" }) [])
    c!"tbl.field" [] = true := by decide +kernel
/-- BlobField with alias -/
example : gives .other (app .other (modify (.as_ c!"f") (newField c!"field" { name := c!"tbl", «alias» := c!"" })) [])
    c!"tbl.field" [] = true := by decide +kernel
/-- ASC NULLS FIRST -/
example : gives .other (app .other (modify (.nullsFirst) (modify (.asc) (newField c!"field" { name := c!"tbl", «alias» := c!"" }))) [])
    c!"tbl.field ASC NULLS FIRST" [] = true := by decide +kernel
/-- DESC NULLS LAST -/
example : gives .other (app .other (modify (.nullsLast) (modify (.desc) (newField c!"field" { name := c!"tbl", «alias» := c!"" }))) [])
    c!"tbl.field DESC NULLS LAST" [] = true := by decide +kernel
/-- BlobField IS NULL -/
example : gives .other (app .other (Call.isNull (newField c!"field" { name := c!"tbl", «alias» := c!"" })).node [])
    c!"tbl.field IS NULL" [] = true := by decide +kernel
/-- BlobField IS NOT NULL -/
example : gives .other (app .other (Call.isNotNull (newField c!"field" { name := c!"tbl", «alias» := c!"" })).node [])
    c!"tbl.field IS NOT NULL" [] = true := by decide +kernel
/-- SetBlob -/
example : gives .other (app .other (.assign (newField c!"field" { name := c!"tbl", «alias» := c!"" }) (.scalar (.opaque 1))) [c!"tbl"])
    c!"field = ?" [.val (.opaque 1)] = true := by decide +kernel
/-! time_field_test.go -/
/-- TimeField -/
example : gives .other (app .other (newField c!"field" { name := c!"tbl", «alias» := c!"" }) [])
    c!"tbl.field" [] = true := by decide +kernel
/-- TimeField with alias -/
example : gives .other (app .other (modify (.as_ c!"f") (newField c!"field" { name := c!"tbl", «alias» := c!"" })) [])
    c!"tbl.field" [] = true := by decide +kernel
/-- TimeField ASC NULLS FIRST -/
example : gives .other (app .other (modify (.nullsFirst) (modify (.asc) (newField c!"field" { name := c!"tbl", «alias» := c!"" }))) [])
    c!"tbl.field ASC NULLS FIRST" [] = true := by decide +kernel
/-- TimeField DESC NULLS LAST -/
example : gives .other (app .other (modify (.nullsLast) (modify (.desc) (newField c!"field" { name := c!"tbl", «alias» := c!"" }))) [])
    c!"tbl.field DESC NULLS LAST" [] = true := by decide +kernel
/-- TimeField IS NULL -/
example : gives .other (app .other (Call.isNull (newField c!"field" { name := c!"tbl", «alias» := c!"" })).node [])
    c!"tbl.field IS NULL" [] = true := by decide +kernel
/-- TimeField IS NOT NULL -/
example : gives .other (app .other (Call.isNotNull (newField c!"field" { name := c!"tbl", «alias» := c!"" })).node [])
    c!"tbl.field IS NOT NULL" [] = true := by decide +kernel
/-- TimeFieldf in (slice) -/
example : gives .other (app .other (Call.in_ (Conform.fieldf c!"date_trunc('day', {timestamp})" [(param c!"timestamp" (.scalar (.opaque 2)))]) (sl [(.scalar (.opaque 2)), (.scalar (.opaque 2)), (.scalar (.opaque 2))])).node [])
    c!"date_trunc('day', ?) IN (?, ?, ?)" [.val (.opaque 2), .val (.opaque 2), .val (.opaque 2), .val (.opaque 2)] [(c!"timestamp", [0])] = true := by decide +kernel
/-- TimeFieldf in (rowvalue) -/
example : gives .other (app .other (Call.in_ (Conform.fieldf c!"date_trunc('day', {timestamp})" [(param c!"timestamp" (.scalar (.opaque 2)))]) (.rowValue [(newField c!"name" { name := c!"", «alias» := c!"" }), (newField c!"email" { name := c!"", «alias» := c!"" })])).node [])
    c!"date_trunc('day', ?) IN (name, email)" [.val (.opaque 2)] [(c!"timestamp", [0])] = true := by decide +kernel
/-- TimeField Eq -/
example : gives .other (app .other (Call.eq (newField c!"field" { name := c!"tbl", «alias» := c!"" }) (newField c!"field" { name := c!"tbl", «alias» := c!"" })).node [])
    c!"tbl.field = tbl.field" [] = true := by decide +kernel
/-- TimeField Ne -/
example : gives .other (app .other (Call.ne (newField c!"field" { name := c!"tbl", «alias» := c!"" }) (newField c!"field" { name := c!"tbl", «alias» := c!"" })).node [])
    c!"tbl.field <> tbl.field" [] = true := by decide +kernel
/-- TimeField Gt -/
example : gives .other (app .other (Call.gt (newField c!"field" { name := c!"tbl", «alias» := c!"" }) (newField c!"field" { name := c!"tbl", «alias» := c!"" })).node [])
    c!"tbl.field > tbl.field" [] = true := by decide +kernel
/-- TimeField Ge -/
example : gives .other (app .other (Call.ge (newField c!"field" { name := c!"tbl", «alias» := c!"" }) (newField c!"field" { name := c!"tbl", «alias» := c!"" })).node [])
    c!"tbl.field >= tbl.field" [] = true := by decide +kernel
/-- TimeField Lt -/
example : gives .other (app .other (Call.lt (newField c!"field" { name := c!"tbl", «alias» := c!"" }) (newField c!"field" { name := c!"tbl", «alias» := c!"" })).node [])
    c!"tbl.field < tbl.field" [] = true := by decide +kernel
/-- TimeField Le -/
example : gives .other (app .other (Call.le (newField c!"field" { name := c!"tbl", «alias» := c!"" }) (newField c!"field" { name := c!"tbl", «alias» := c!"" })).node [])
    c!"tbl.field <= tbl.field" [] = true := by decide +kernel
/-- TimeField EqTime -/
example : gives .other (app .other (Call.eq (newField c!"field" { name := c!"tbl", «alias» := c!"" }) (.scalar (.opaque 2))).node [])
    c!"tbl.field = ?" [.val (.opaque 2)] = true := by decide +kernel
/-- TimeField NeTime -/
example : gives .other (app .other (Call.ne (newField c!"field" { name := c!"tbl", «alias» := c!"" }) (.scalar (.opaque 2))).node [])
    c!"tbl.field <> ?" [.val (.opaque 2)] = true := by decide +kernel
/-- TimeField GtTime -/
example : gives .other (app .other (Call.gt (newField c!"field" { name := c!"tbl", «alias» := c!"" }) (.scalar (.opaque 2))).node [])
    c!"tbl.field > ?" [.val (.opaque 2)] = true := by decide +kernel
/-- TimeField GeTime -/
example : gives .other (app .other (Call.ge (newField c!"field" { name := c!"tbl", «alias» := c!"" }) (.scalar (.opaque 2))).node [])
    c!"tbl.field >= ?" [.val (.opaque 2)] = true := by decide +kernel
/-- TimeField LtTime -/
example : gives .other (app .other (Call.lt (newField c!"field" { name := c!"tbl", «alias» := c!"" }) (.scalar (.opaque 2))).node [])
    c!"tbl.field < ?" [.val (.opaque 2)] = true := by decide +kernel
/-- TimeField LeTime -/
example : gives .other (app .other (Call.le (newField c!"field" { name := c!"tbl", «alias» := c!"" }) (.scalar (.opaque 2))).node [])
    c!"tbl.field <= ?" [.val (.opaque 2)] = true := by decide +kernel
/-- TimeField SetTime -/
example : gives .other (app .other (.assign (newField c!"field" { name := c!"tbl", «alias» := c!"" }) (.scalar (.opaque 2))) [])
    c!"tbl.field = ?" [.val (.opaque 2)] = true := by decide +kernel
/-! json_field_test.go -/
/-- JSONField -/
example : gives .other (app .other (newField c!"field" { name := c!"tbl", «alias» := c!"" }) [])
    c!"tbl.field" [] = true := by decide +kernel
/-- JSONField with alias -/
example : gives .other (app .other (modify (.as_ c!"f") (newField c!"field" { name := c!"tbl", «alias» := c!"" })) [])
    c!"tbl.field" [] = true := by decide +kernel
/-- JSONField ASC NULLS LAST -/
example : gives .other (app .other (modify (.nullsLast) (modify (.asc) (newField c!"field" { name := c!"tbl", «alias» := c!"" }))) [])
    c!"tbl.field ASC NULLS LAST" [] = true := by decide +kernel
/-- JSONField DESC NULLS FIRST -/
example : gives .other (app .other (modify (.nullsFirst) (modify (.desc) (newField c!"field" { name := c!"tbl", «alias» := c!"" }))) [])
    c!"tbl.field DESC NULLS FIRST" [] = true := by decide +kernel
/-! custom_field_test.go -/
/-- FieldValue -/
example : gives .other (app .other (.value (.scalar (.str c!"abcd")) []) [])
    c!"?" [.val (.str c!"abcd")] = true := by decide +kernel
/-- Fieldf -/
example : gives .other (app .other (Conform.fieldf c!"lorem ipsum {} {}" [(.scalar (.int 1)), (.scalar (.str c!"a"))]) [])
    c!"lorem ipsum ? ?" [1, .val (.str c!"a")] = true := by decide +kernel
/-- CustomField alias -/
example : gives .other (app .other (modify (.as_ c!"ggggggg") (Conform.fieldf c!"my_field" [])) [])
    c!"my_field" [] = true := by decide +kernel
/-- CustomField ASC NULLS LAST -/
example : gives .other (app .other (modify (.nullsLast) (modify (.asc) (Conform.fieldf c!"my_field" []))) [])
    c!"my_field ASC NULLS LAST" [] = true := by decide +kernel
/-- CustomField DESC NULLS FIRST -/
example : gives .other (app .other (modify (.nullsFirst) (modify (.desc) (Conform.fieldf c!"my_field" []))) [])
    c!"my_field DESC NULLS FIRST" [] = true := by decide +kernel
/-- CustomField IS NULL -/
example : gives .other (app .other (Call.isNull (Conform.fieldf c!"my_field" [])).node [])
    c!"my_field IS NULL" [] = true := by decide +kernel
/-- CustomField IS NOT NULL -/
example : gives .other (app .other (Call.isNotNull (Conform.fieldf c!"my_field" [])).node [])
    c!"my_field IS NOT NULL" [] = true := by decide +kernel
/-- CustomField IN (rowvalue) -/
example : gives .other (app .other (Call.in_ (Conform.fieldf c!"my_field" []) (.rowValue [(newField c!"user_id" { name := c!"", «alias» := c!"" }), (newField c!"name" { name := c!"", «alias» := c!"" }), (newField c!"email" { name := c!"", «alias» := c!"" })])).node [])
    c!"my_field IN (user_id, name, email)" [] = true := by decide +kernel
/-- CustomField IN (slice) -/
example : gives .other (app .other (Call.in_ (Conform.fieldf c!"my_field" []) (sl [(.scalar (.int 5)), (.scalar (.int 6)), (.scalar (.int 7))])).node [])
    c!"my_field IN (?, ?, ?)" [5, 6, 7] = true := by decide +kernel
/-- CustomField Eq -/
example : gives .other (app .other (Call.eq (Conform.fieldf c!"my_field" []) (.scalar (.int 123))).node [])
    c!"my_field = ?" [123] = true := by decide +kernel
/-- CustomField Ne -/
example : gives .other (app .other (Call.ne (Conform.fieldf c!"my_field" []) (.scalar (.int 123))).node [])
    c!"my_field <> ?" [123] = true := by decide +kernel
/-- CustomField Gt -/
example : gives .other (app .other (Call.gt (Conform.fieldf c!"my_field" []) (.scalar (.int 123))).node [])
    c!"my_field > ?" [123] = true := by decide +kernel
/-- CustomField Ge -/
example : gives .other (app .other (Call.ge (Conform.fieldf c!"my_field" []) (.scalar (.int 123))).node [])
    c!"my_field >= ?" [123] = true := by decide +kernel
/-- CustomField Lt -/
example : gives .other (app .other (Call.lt (Conform.fieldf c!"my_field" []) (.scalar (.int 123))).node [])
    c!"my_field < ?" [123] = true := by decide +kernel
/-- CustomField Le -/
example : gives .other (app .other (Call.le (Conform.fieldf c!"my_field" []) (.scalar (.int 123))).node [])
    c!"my_field <= ?" [123] = true := by decide +kernel
/-- FieldLiteral -/
example : gives .other (app .other (.literal c!"lorem ipsum dolor sit amet COUNT(*)" []) [])
    c!"lorem ipsum dolor sit amet COUNT(*)" [] = true := by decide +kernel
/-- empty -/
example : gives .other (app .other (.fields []) [])
    c!"" [] = true := by decide +kernel
/-- Fields -/
example : gives .other (app .other (.fields [(newField c!"user_id" { name := c!"", «alias» := c!"" }), .nil, (.value (.scalar (.int 456)) [])]) [])
    c!"user_id, ?, ?" [argNil, 456] = true := by decide +kernel
/-- AliasFields -/
example : gives .other (appAlias .other [(modify (.as_ c!"uid") (newField c!"user_id" { name := c!"", «alias» := c!"" })), .nil, (asOf (.value (.scalar (.int 456)) []) c!"some_number")])
    c!"user_id AS uid, ?, ? AS some_number" [argNil, 456] = true := by decide +kernel
/-! assignment_test.go -/
/-- field assign field -/
example : gives .other (app .other (.assign (tmpfield c!"users" c!"user_id") (tmpfield c!"users" c!"name")) [c!"users"])
    c!"user_id = name" [] = true := by decide +kernel
/-- field assign value -/
example : gives .other (app .other (.assign (tmpfield c!"users" c!"user_id") (.scalar (.int 5))) [c!"users"])
    c!"user_id = ?" [5] = true := by decide +kernel
/-- field assign query -/
example : gives .other (app .other (.assign (tmpfield c!"users" c!"user_id") (Chain.select ⟨.sqlite, none⟩ (.select [(tmpfield c!"users" c!"user_id")]) [.from (tmptable c!"" c!"users"), .limit 1]).node) [c!"users"])
    c!"user_id = (SELECT users.user_id FROM users LIMIT ?)" [1] = true := by decide +kernel
/-- assign excluded -/
example : gives .other (app .other (.assign (pairOf (assignExcluded c!"user_id")).1 (pairOf (assignExcluded c!"user_id")).2) [])
    c!"user_id = EXCLUDED.user_id" [] = true := by decide +kernel
/-- assign alias -/
example : gives .other (app .other (.assign (pairOf (assignAlias c!"user_id" c!"NEW")).1 (pairOf (assignAlias c!"user_id" c!"NEW")).2) [])
    c!"user_id = NEW.user_id" [] = true := by decide +kernel
/-- self assign -/
example : gives .other (app .other (.assign (pairOf (assignSelf c!"user_id")).1 (pairOf (assignSelf c!"user_id")).2) [])
    c!"user_id = user_id" [] = true := by decide +kernel
/-- multiple assignments -/
example : gives .other (app .other (.assigns [((tmpfield c!"" c!"user_id"), (tmpfield c!"" c!"name")), ((tmpfield c!"" c!"age"), (.scalar (.int 123456))), ((tmpfield c!"" c!"email"), (.scalar (.str c!"bob@email.com")))]) [])
    c!"user_id = name, age = ?, email = ?" [123456, .val (.str c!"bob@email.com")] = true := by decide +kernel

end Conform.Fields
