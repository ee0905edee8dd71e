import Verif.Doc.Api

/-!
# Formats, headers and the property parser

Models `/repo/v0/internal/raml/enum-{date,integer,number}-format.go`,
`fn-sorting-hat-{date,integer,number}-format.go`, `fn-sorting-hat-property.go`,
`/repo/v0/pkg/raml/rmod/ex-const-types.go` and `/repo/v0/pkg/raml/rmeta/headers.go`.

The three format types are defined strings (`type DateFormat string`), so a value is a `String`.
An `UnmarshalYAML` method has a pointer receiver: it is given the value that is there and leaves
one, also when it fails.
-/

namespace Verif.Doc

/-! ### The format types -/

/-- The constants of enum-date-format.go:10-13. -/
def dateFormats : List String := ["rfc3339", "rfc2616"]

/-- `validIntFormats` (enum-integer-format.go:10-26). -/
def integerFormats : List String := ["int", "int8", "int16", "int32", "int64", "long"]

/-- `validNumForms` (enum-number-format.go:10-30). -/
def numberFormats : List String :=
  ["int", "int8", "int16", "int32", "int64", "long", "float", "double"]

/-- `String` (enum-date-format.go:15-17, enum-integer-format.go:28-30,
enum-number-format.go:32-34). -/
def formatString (d : String) : String := d

/-- `DateFormat.UnmarshalYAML` (enum-date-format.go:19-35). -/
def dateUnmarshal (y : Node) (d : String) : Res Unit × String :=
  match asString y with
  | .ok s =>
    (.ok (), if s = "rfc3339" then "rfc3339" else if s = "rfc2616" then "rfc2616" else s)
  | .err e => (.err e, d)
  | .panic c => (.panic c, d)

/-- `IntegerFormat.UnmarshalYAML` (enum-integer-format.go:32-48): the loop returns at a match. -/
def integerUnmarshal (y : Node) (d : String) : Res Unit × String :=
  match asString y with
  | .ok conv => (.ok (), match integerFormats.find? fun v => v == conv with
    | some v => v
    | none => conv)
  | .err e => (.err e, d)
  | .panic c => (.panic c, d)

/-- `NumberFormat.UnmarshalYAML` (enum-number-format.go:36-51): the loop assigns at a match and
goes on; the value is assigned once more after it. -/
def numberUnmarshal (y : Node) (d : String) : Res Unit × String :=
  match asString y with
  | .ok f =>
    let _ := numberFormats.foldl (fun d v => if v = f then v else d) d
    (.ok (), f)
  | .err e => (.err e, d)
  | .panic c => (.panic c, d)

/-- `MarshalYAML` and `ToYAML` (enum-date-format.go:37-43, enum-integer-format.go:50-56,
enum-number-format.go:53-59). -/
def formatToYAML (d : String) : Node := .str d

/-- `IntegerFormatSortingHat` (fn-sorting-hat-integer-format.go:12-38). -/
def integerFormatHat (v : Node) : Res String :=
  (asString v).bind fun df =>
    if df ∈ integerFormats then .ok df else .ok df

/-- `NumberFormatSortingHat` (fn-sorting-hat-number-format.go:12-42). -/
def numberFormatHat (v : Node) : Res String :=
  (asString v).bind fun df =>
    if df ∈ numberFormats then .ok df else .ok df

/-- `PropertySortingHat` (fn-sorting-hat-property.go:8-14), with the interface conversion
`val.(raml.Property)`. -/
def propertyHat (X : Xyml) (v : Node) : Res DT :=
  (hat X v).bind fun t => if t.isProperty then .ok t else .panic .notProperty

/-! ### Headers -/

/-- `headerBase` (rmod/ex-const-types.go:3, rmeta/headers.go:6). -/
def headerBase : String := "#%RAML 1.0"

/-- The constants of type `ModuleType` (rmod/ex-const-types.go:9-17). -/
def moduleTypes : List String :=
  ["root", "DataType", "Extension", "Library", "ResourceType", "Trait"]

/-- `ModuleType.ToHeader` (rmod/ex-const-types.go:19-25). -/
def toHeader (m : String) : String :=
  if m = "root" then headerBase else headerBase ++ " " ++ m

/-- `headerFoot` (rmeta/headers.go:7). -/
def headerFoot : String := "\n---\n"

/-- The exported constants of rmeta/headers.go:8-13, with the part of their name after
`Header`. -/
def headers : List (String × String) :=
  [("Root", headerBase ++ headerFoot),
   ("DataType", headerBase ++ " DataType" ++ headerFoot),
   ("Extension", headerBase ++ " Extension" ++ headerFoot),
   ("Library", headerBase ++ " Library" ++ headerFoot),
   ("Overlay", headerBase ++ " Overlay" ++ headerFoot),
   ("Trait", headerBase ++ " Trait" ++ headerFoot)]

end Verif.Doc
