import Verif.Doc.Base

/-!
# Examples and XML settings

Models the 14 generated example types `/repo/v0/internal/raml/x-gen-ex-*.go` (same text except
for the type of the value; line numbers are those of `x-gen-ex-string.go`) and `type-xml.go`.
-/

namespace Verif.Doc

/-- `rmeta.DataTypeKind` (v0/pkg/raml/rmeta/type-names.go:5-25); `TypeMulti` is never used. -/
inductive Kind where
  | any | array | boolean | dateOnly | datetime | datetimeOnly | file | integer
  | nil | number | object | string | timeOnly | union | custom | «include»
deriving DecidableEq, Repr

/-- The text of a kind (type-names.go:6-24). -/
def Kind.name : Kind → String
  | .any => "any"
  | .array => "array"
  | .boolean => "boolean"
  | .dateOnly => "date-only"
  | .datetime => "datetime"
  | .datetimeOnly => "datetime-only"
  | .file => "file"
  | .integer => "integer"
  | .nil => "nil"
  | .number => "number"
  | .object => "object"
  | .string => "string"
  | .timeOnly => "time-only"
  | .union => "union"
  | .custom => "custom"
  | .include => "include"

/-- A value of an example or an element of an enum: `interface{}` holding a YAML node,
`[]interface{}`, `string`, `bool`, `int64` or `float64` (the `value` and `enum` fields of the
generated types, e.g. x-gen-ex-array.go:30, x-gen-type-bool.go:39). -/
inductive Val where
  | node (n : Node)
  | list (ns : List Node)
  | str (s : String)
  | bool (b : Bool)
  | int (i : Int)
  | flt (f : Flt)
deriving Repr

/-- What `xyml.ToYamlNode` makes of such a value. -/
def Val.render (X : Xyml) : Val → Node
  | .node n => n
  | .list ns => .seq seqTag ns
  | .str s => .str s
  | .bool b => X.ofBool b
  | .int i => X.ofInt i
  | .flt f => X.ofFlt f

/-- A generated example type (x-gen-ex-string.go:26-33).  The `kind` is which of the 14 types it
is. -/
structure Example where
  kind : Kind
  displayName : Option String
  description : Option String
  annotations : OM String Ann
  value : Option Val
  strict : Bool
  extra : OM Scalar Node
deriving Repr

/-- `New*Example()` (x-gen-ex-string.go:16-22). -/
def Example.new (k : Kind) : Example :=
  { kind := k, displayName := none, description := none, annotations := OM.empty false,
    value := none, strict := true, extra := OM.empty false }

/-- `assignVal` (191-198 in the example files) for each kind: a string for string-like kinds
(x-gen-ex-string.go, -dateonly, -datetime, -datetimeonly, -timeonly), `ToBoolean`, `ToInt`,
`ToFloat`, the elements of a sequence (-array), otherwise the node itself. -/
def exampleVal (X : Xyml) (kd : Kind) (v : Node) : Res Val :=
  match kd with
  | .string | .dateOnly | .datetime | .datetimeOnly | .timeOnly => (asString v).map .str
  | .boolean => (asBool X v).map .bool
  | .integer => (asInt X v).map .int
  | .number => (asFlt X v).map .flt
  | .array => match v with
    | .seq _ ns => .ok (.list ns)
    | _ => .err .notSeq
  | _ => .ok (.node v)

/-- The fallback of `assign`: an extra facet under the scalar value of the key (145-152 and
174-178). -/
def Example.putExtra (X : Xyml) (k v : Node) (e : Example) : Res Example :=
  (asScalar X k).map fun s => { e with extra := e.extra.put s v }

/-- `assign` (144-181). -/
def Example.assign (X : Xyml) (k v : Node) (e : Example) : Res Example :=
  if !k.isStr then e.putExtra X k v
  else match firstChar k.value with
  | none => .panic .emptyKey
  | some c =>
    if c = '(' then
      (loadAnn v).map fun a => { e with annotations := e.annotations.put k.value a }
    else if k.value = "displayName" then
      (asString v).map fun s => { e with displayName := some s }
    else if k.value = "description" then
      (asString v).map fun s => { e with description := some s }
    else if k.value = "strict" then
      (asBool X v).map fun b => { e with strict := b }
    else if k.value = "value" then
      (exampleVal X e.kind v).map fun x => { e with value := some x }
    else e.putExtra X k v

/-- `UnmarshalRAML` (115-122). -/
def Example.unmarshal (X : Xyml) (v : Node) (e : Example) : Res Example :=
  match v with
  | .map ps => forPairs (Example.assign X) ps e
  | _ => (exampleVal X e.kind v).map fun x => { e with value := some x }

/-- `expand` (183-189). -/
def Example.expand (e : Example) : Bool :=
  e.displayName.isSome || e.description.isSome || decide (e.annotations.len > 0) ||
    decide (e.extra.len > 0) || !e.strict

/-- A null node: what `ToYamlNode` makes of a nil pointer or nil slice (the value in the short
form, line 140, when no value is set). -/
def nullNode : Node := .scalar "!!null" "null"

/-- An annotation map as a list of puts for the enclosing map: `ForEach(func(k, v) { out.Put(k,
v) })` (line 134; in-components.go:22-24).  The value renders through `UntypedMap.ToYAML`. -/
def annEnts (m : OM String Ann) : List (Scalar × Node) :=
  m.ents.map fun e => (.str e.1, renderStrMap id e.2)

/-- `MarshalRAML` (124-142) into an empty map. -/
def Example.marshal (X : Xyml) (e : Example) : OM Scalar Node :=
  if e.expand then
    let out := (((OM.empty false : OM Scalar Node).putOpt (.str "displayName") (e.displayName.map .str)).putOpt
      (.str "description") (e.description.map .str)).putOpt (.str "value") (e.value.map (Val.render X))
    let out := if e.strict then out else out.put (.str "strict") (X.ofBool e.strict)
    (out.putAll (annEnts e.annotations)).putAll e.extra.ents
  else
    (OM.empty false).put (.str "") ((e.value.map (Val.render X)).getD nullNode)

/-- `ToYAML` (107-113): the flag returned by `MarshalRAML` is ignored. -/
def Example.toYAML (X : Xyml) (e : Example) : Node := renderAny X (e.marshal X)

/-- `ExampleSortingHat` (fn-sorting-hat-example.go:12-45): no example for `any`; nil and include
types have no examples at all. -/
def exampleSortingHat (kd : Kind) : Res Example :=
  match kd with
  | .any | .nil | .include => .err .noExample
  | _ => .ok (Example.new kd)

/-- The `example` case of every generated `assign` (x-gen-type-string.go:250-258). -/
def loadExample (X : Xyml) (kd : Kind) (v : Node) : Res Example :=
  (exampleSortingHat kd).bind fun e => e.unmarshal X v

/-- `Unmarshal*ExampleMapRAML` (util-ex-map.go:9-26 and its 13 copies). -/
def loadExamples (X : Xyml) (kd : Kind) (m : OM String Example) (v : Node) :
    Res (OM String Example) :=
  mapForEach (fun k v m => (asString k).bind fun s =>
    ((Example.new kd).unmarshal X v).map fun e => m.put s e) v m

/-- XML settings (type-xml.go:18-25).  Simplification: `extra` is a Go map; the order kept here
is not observable. -/
structure XML where
  isAttr : Option Bool
  isWrap : Option Bool
  name : Option String
  ns : Option String
  pref : Option String
  extra : OM Scalar Node
deriving Repr

/-- `NewXML` (type-xml.go:12-16). -/
def XML.new : XML := ⟨none, none, none, none, none, OM.empty false⟩

/-- `XML.assign` (type-xml.go:111-132). -/
def XML.assign (X : Xyml) (k v : Node) (x : XML) : Res XML :=
  if k.value = "attribute" then (asBool X v).map fun b => { x with isAttr := some b }
  else if k.value = "wrapped" then (asBool X v).map fun b => { x with isWrap := some b }
  else if k.value = "name" then (asString v).map fun s => { x with name := some s }
  else if k.value = "namespace" then (asString v).map fun s => { x with ns := some s }
  else if k.value = "prefix" then (asString v).map fun s => { x with pref := some s }
  else (asScalar X k).map fun s => { x with extra := x.extra.put s v }

/-- `NewXML()` and `UnmarshalRAML` (type-xml.go:97-99, type-datatype-ext.go:83-88). -/
def loadXML (X : Xyml) (v : Node) : Res XML := mapForEach (XML.assign X) v XML.new

/-- What is written for XML settings: the struct has no exported fields and no YAML marshaler
(`MarshalRAML`, type-xml.go:101-109, is not called by anything), so it renders as an empty
mapping (type-datatype-ext.go:70). -/
def XML.toYAML (_ : XML) : Node := .map []

end Verif.Doc
