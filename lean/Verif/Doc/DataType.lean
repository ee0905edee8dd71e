import Verif.Doc.Example

/-!
# Data types: parser and writer

Models `/repo/v0/internal/raml/fn-sorting-hat-type.go`, `DataType.go`, `type-datatype-ext.go`,
`in-components.go`, `util-dt-map.go`, `util-facet-map.go` and the 16 generated
`x-gen-type-*.go`.
-/

namespace Verif.Doc

/-! ### State -/

/-- String facets (x-gen-type-string.go:35-45). -/
structure StringF where
  pattern : Option String
  minLength : Nat
  maxLength : Option Nat
deriving DecidableEq, Repr

/-- File facets (x-gen-type-file.go:36-46); a nil list is `none`. -/
structure FileF where
  fileTypes : Option (List String)
  minLength : Nat
  maxLength : Nat
deriving DecidableEq, Repr

/-- Array facets (x-gen-type-array.go:36-47) except `items`. -/
structure ArrayF where
  uniqueItems : Bool
  minItems : Nat
  maxItems : Nat
deriving DecidableEq, Repr

/-- Object facets (x-gen-type-object.go:36-49) except `properties`. -/
structure ObjectF where
  minProps : Option Nat
  maxProps : Option Nat
  addtlProps : Bool
  discrim : Option String
  discrimVal : Option Node
deriving Repr

/-- Number facets (x-gen-type-number.go:33-44). -/
structure NumberF where
  format : Option String
  minimum : Option Flt
  maximum : Option Flt
  multipleOf : Option Flt
deriving DecidableEq, Repr

/-- Integer facets (x-gen-type-integer.go:33-44). -/
structure IntegerF where
  format : Option String
  minimum : Option Int
  maximum : Option Int
  multipleOf : Option Flt
deriving DecidableEq, Repr

/-- Which of the 14 generated extended types, with its own fields (datetime has only a format,
x-gen-type-datetime.go:33-41). -/
inductive Body where
  | any | boolean | dateOnly | datetimeOnly | timeOnly | union | custom
  | datetime (format : Option String)
  | string (f : StringF)
  | file (f : FileF)
  | array (f : ArrayF)
  | object (f : ObjectF)
  | number (f : NumberF)
  | integer (f : IntegerF)
deriving Repr

/-- The kind each constructor was given (second argument of `NewExtendedDataType` in the
`New*Type` functions). -/
def Body.kind : Body → Kind
  | .any => .any
  | .boolean => .boolean
  | .dateOnly => .dateOnly
  | .datetimeOnly => .datetimeOnly
  | .timeOnly => .timeOnly
  | .union => .union
  | .custom => .custom
  | .datetime _ => .datetime
  | .string _ => .string
  | .file _ => .file
  | .array _ => .array
  | .object _ => .object
  | .number _ => .number
  | .integer _ => .integer

/-- Fields shared by the extended types that do not contain data types: `DataType`
(DataType.go:21-28), `ExtendedDataType` (type-datatype-ext.go:21-30) and the generated `def`,
`example`, `examples`, `enum` (x-gen-type-string.go:35-40).  Simplification: values that a user
puts into `extra` or `def` are kept as the YAML node they render to. -/
structure Hdr where
  schema : String
  extra : OM Scalar Node
  displayName : Option String
  description : Option String
  annotations : OM String Ann
  xml : Option XML
  required : Bool
  dflt : Option Node
  enum : Option (List Val)
  «example» : Option Example
  examples : OM String Example
deriving Repr

/-- `raml.DataType`: the basic types nil and include (x-gen-type-nil.go, x-gen-type-include.go),
which have only a schema and extra facets, and the extended types.  `facets` is the `FacetMap`
(a facet is a `DataTypeMap`, type-facet.go:7-9), `props` the properties of an object type,
`items` the item type of an array type; for other kinds these two stay empty. -/
inductive DT where
  | basic (incl : Bool) (schema : String) (extra : OM Scalar Node)
  | ext (h : Hdr) (b : Body) (facets : OM String (OM String DT)) (props : OM String DT)
      (items : Option DT)

/-- `Kind()` (DataType.go:42-44). -/
def DT.kind : DT → Kind
  | .basic incl _ _ => if incl then .include else .nil
  | .ext _ b _ _ _ => b.kind

/-- `Type()` / `Schema()` (DataType.go:30-36). -/
def DT.type : DT → String
  | .basic _ s _ => s
  | .ext h _ _ _ _ => h.schema

/-- `ExtraFacets()` (in-components.go:54-56). -/
def DT.extra : DT → OM Scalar Node
  | .basic _ _ x => x
  | .ext h _ _ _ _ => h.extra

/-! ### Constructors -/

/-- `NewExtendedDataType` (type-datatype-ext.go:12-19), `NewDataType` (DataType.go:12-19) and the
`examples` map of the `New*Type` functions. -/
def Hdr.new (k : Kind) : Hdr :=
  { schema := k.name, extra := OM.empty true, displayName := none, description := none,
    annotations := OM.empty true, xml := none, required := true, dflt := none, enum := none,
    «example» := none, examples := OM.empty false }

/-- An extended type with the given body and everything else fresh. -/
def DT.newExt (b : Body) : DT :=
  .ext (Hdr.new b.kind) b (OM.empty true) (OM.empty false) none

/-- `NewStringType` … `NewIncludeType` (x-gen-type-*.go:16-30 in each file). -/
def DT.new : Kind → DT
  | .any => .newExt .any
  | .array => .newExt (.array ⟨false, 0, 2147483647⟩)
  | .boolean => .newExt .boolean
  | .dateOnly => .newExt .dateOnly
  | .datetime => .newExt (.datetime none)
  | .datetimeOnly => .newExt .datetimeOnly
  | .file => .newExt (.file ⟨none, 0, 2147483647⟩)
  | .integer => .newExt (.integer ⟨none, none, none, none⟩)
  | .nil => .basic false Kind.nil.name (OM.empty true)
  | .number => .newExt (.number ⟨none, none, none, none⟩)
  | .object => .newExt (.object ⟨none, none, true, none, none⟩)
  | .string => .newExt (.string ⟨none, 0, none⟩)
  | .timeOnly => .newExt .timeOnly
  | .union => .newExt .union
  | .custom => .newExt .custom
  | .include => .basic true Kind.include.name (OM.empty true)

/-- `out.schema = val` after construction (fn-sorting-hat-type.go:49, :94, :100, :105). -/
def DT.setSchema (s : String) : DT → DT
  | .basic i _ x => .basic i s x
  | .ext h b f p it => .ext { h with schema := s } b f p it

/-! ### Choosing the kind -/

/-- `typeToKind` (fn-sorting-hat-type.go:60-107). -/
def typeToKind (val : String) : DT :=
  if val = "any" then DT.new .any
  else if val = "array" then DT.new .array
  else if val = "boolean" then DT.new .boolean
  else if val = "date-only" then DT.new .dateOnly
  else if val = "datetime" then DT.new .datetime
  else if val = "datetime-only" then DT.new .datetimeOnly
  else if val = "file" then DT.new .file
  else if val = "integer" then DT.new .integer
  else if val = "nil" then DT.new .nil
  else if val = "number" then DT.new .number
  else if val = "object" then DT.new .object
  else if val = "string" then DT.new .string
  else if val = "time-only" then DT.new .timeOnly
  else if "!include ".toList.isPrefixOf val.toList then (DT.new .include).setSchema val
  else if val.toList.contains '|' then (DT.new .union).setSchema val
  else (DT.new .custom).setSchema val

/-- The loop of `siftType` (fn-sorting-hat-type.go:118-133): the value of the first entry whose
key text is `type` or `schema`, and whether `properties` / `items` came before. -/
def siftScan : List (Node × Node) → Bool → Bool → Option Node × Bool × Bool
  | [], p, i => (none, p, i)
  | (k, v) :: ps, p, i =>
    if k.value = "type" ∨ k.value = "schema" then (some v, p, i)
    else siftScan ps (p || k.value == "properties") (i || k.value == "items")

/-- `siftType` (fn-sorting-hat-type.go:113-157).  `LongTag() == TagString` is `isStr`; a node that
is neither a string nor a sequence and is tagged `!include` is a scalar here. -/
def siftType (ps : List (Node × Node)) : Res DT :=
  match siftScan ps false false with
  | (some t, _, _) =>
    if t.isStr then .ok (typeToKind t.value)
    else match t with
      | .seq _ _ => .err .multiType
      | .scalar tag _ => if tag = "!include" then .ok (DT.new .include) else .err .badTypeKey
      | .map _ => .err .badTypeKey
  | (none, p, i) =>
    if p then .ok (DT.new .object)
    else if i then .ok (DT.new .array)
    else .ok (DT.new .string)

/-! ### Assigning one entry -/

/-- Element conversion of the `enum` case (e.g. x-gen-type-string.go:262-272): `ToString` for
string-like kinds, `ToBoolean`, `ToInt`, `ToFloat`, otherwise the node itself. -/
def enumVal (X : Xyml) (kd : Kind) (v : Node) : Res Val :=
  match kd with
  | .string | .dateOnly | .datetime | .datetimeOnly | .timeOnly =>
    match X.toStr v with | some s => .ok (.str s) | none => .err .notText
  | .boolean => (asBool X v).map .bool
  | .integer => (asInt X v).map .int
  | .number => (asFlt X v).map .flt
  | _ => .ok (.node v)

/-- `o.enum = append(o.enum, val)`: appending to a nil slice makes it non-nil. -/
def pushEnum (x : Val) (l : Option (List Val)) : Option (List Val) := some (l.getD [] ++ [x])

/-- The `enum` case (x-gen-type-string.go:262-272). -/
def loadEnum (X : Xyml) (kd : Kind) (l : Option (List Val)) (v : Node) :
    Res (Option (List Val)) :=
  seqForEach (fun n l => (enumVal X kd n).map fun x => pushEnum x l) v l

/-- The first switch of every generated `assign` (x-gen-type-string.go:249-276); `none` when the
key is not one of its cases. -/
def Hdr.assignCommon (X : Xyml) (kd : Kind) (k : String) (v : Node) (h : Hdr) :
    Option (Res Hdr) :=
  if k = "example" then some ((loadExample X kd v).map fun e => { h with «example» := some e })
  else if k = "examples" then
    some ((loadExamples X kd h.examples v).map fun m => { h with examples := m })
  else if k = "enum" then some ((loadEnum X kd h.enum v).map fun l => { h with enum := l })
  else if k = "required" then some ((asBool X v).map fun b => { h with required := b })
  else none

/-- `DateFormatSortingHat` (fn-sorting-hat-date-format.go:15-31): any string is accepted. -/
def loadDateFormat (v : Node) : Res String := if v.isStr then .ok v.value else .err .badFormat

/-- The kind-specific switch of the generated `assign` without `properties` and `items`:
x-gen-type-string.go:278-285, x-gen-type-file.go:273-280, x-gen-type-array.go:289-295,
x-gen-type-object.go:332-344, x-gen-type-datetime.go:247-255, x-gen-type-number.go:294-307,
x-gen-type-integer.go:295-308.  `none` when the key is not one of the cases. -/
def Body.assign (X : Xyml) (k : String) (v : Node) : Body → Option (Res Body)
  | .string f =>
    if k = "pattern" then some ((asString v).map fun s => .string { f with pattern := some s })
    else if k = "minLength" then some ((asUint X v).map fun n => .string { f with minLength := n })
    else if k = "maxLength" then
      some ((asUint X v).map fun n => .string { f with maxLength := some n })
    else none
  | .file f =>
    if k = "fileTypes" then
      some ((asStringList v).map fun l => .file { f with fileTypes := some l })
    else if k = "minLength" then some ((asUint X v).map fun n => .file { f with minLength := n })
    else if k = "maxLength" then some ((asUint X v).map fun n => .file { f with maxLength := n })
    else none
  | .array f =>
    if k = "uniqueItems" then some ((asBool X v).map fun b => .array { f with uniqueItems := b })
    else if k = "minItems" then some ((asUint X v).map fun n => .array { f with minItems := n })
    else if k = "maxItems" then some ((asUint X v).map fun n => .array { f with maxItems := n })
    else none
  | .object f =>
    if k = "minProperties" then
      some ((asUint X v).map fun n => .object { f with minProps := some n })
    else if k = "maxProperties" then
      some ((asUint X v).map fun n => .object { f with maxProps := some n })
    else if k = "additionalProperties" then
      some ((asBool X v).map fun b => .object { f with addtlProps := b })
    else if k = "discriminator" then
      some ((asString v).map fun s => .object { f with discrim := some s })
    else if k = "discriminatorValue" then some (.ok (.object { f with discrimVal := some v }))
    else none
  | .datetime _ =>
    if k = "format" then some ((loadDateFormat v).map fun s => .datetime (some s)) else none
  | .number f =>
    if k = "minimum" then some ((asFlt X v).map fun x => .number { f with minimum := some x })
    else if k = "maximum" then some ((asFlt X v).map fun x => .number { f with maximum := some x })
    else if k = "format" then some ((asString v).map fun s => .number { f with format := some s })
    else if k = "multipleOf" then
      some ((asFlt X v).map fun x => .number { f with multipleOf := some x })
    else none
  | .integer f =>
    if k = "minimum" then some ((asInt X v).map fun x => .integer { f with minimum := some x })
    else if k = "maximum" then some ((asInt X v).map fun x => .integer { f with maximum := some x })
    else if k = "format" then some ((asString v).map fun s => .integer { f with format := some s })
    else if k = "multipleOf" then
      some ((asFlt X v).map fun x => .integer { f with multipleOf := some x })
    else none
  | _ => none

/-- `DataType.assign` (DataType.go:100-113) with `hasExtra.in` (in-components.go:62-64). -/
def assignBase (k v : Node) (schema : String) (extra : OM Scalar Node) :
    Res (String × OM Scalar Node) :=
  if k.value = "type" ∨ k.value = "schema" then (asString v).map fun s => (s, extra)
  else .ok (schema, extra.put (.str k.value) v)

/-- `hasAnnotations.in` (in-components.go:26-40); `none` means not used. -/
def annIn (k : String) (v : Node) (m : OM String Ann) : Res (Option (OM String Ann)) :=
  match firstChar k with
  | none => .panic .emptyKey
  | some c => if c = '(' then (loadAnn v).map fun a => some (m.put k a) else .ok none

/-- `DataType.assign` on the header (DataType.go:100-113). -/
def Hdr.assignBase (k v : Node) (h : Hdr) : Res Hdr :=
  (Doc.assignBase k v h.schema h.extra).map fun r => { h with schema := r.1, extra := r.2 }

/-- `ExtendedDataType.assign` (type-datatype-ext.go:75-101) without the `facets` case. -/
def Hdr.assignExt (X : Xyml) (k v : Node) (h : Hdr) : Res Hdr :=
  if k.value = "displayName" then (asString v).map fun s => { h with displayName := some s }
  else if k.value = "description" then (asString v).map fun s => { h with description := some s }
  else if k.value = "xml" then (loadXML X v).map fun x => { h with xml := some x }
  else if k.isStr then
    (annIn k.value v h.annotations).bind fun
      | some m => .ok { h with annotations := m }
      | none => h.assignBase k v
  else h.assignBase k v

/-- The generated `assign` of an extended type (e.g. x-gen-type-string.go:248-288) for every key
but `facets`, `properties` and `items`. -/
def assignFlat (X : Xyml) (k v : Node) (h : Hdr) (b : Body) : Res (Hdr × Body) :=
  match h.assignCommon X b.kind k.value v with
  | some r => r.map fun h' => (h', b)
  | none => match b.assign X k.value v with
    | some r => r.map fun b' => (h, b')
    | none => (h.assignExt X k v).map fun h' => (h', b)

/-- Is this the object type? (`properties` is a case of its `assign` only,
x-gen-type-object.go:333) -/
def Body.isObject : Body → Bool
  | .object _ => true
  | _ => false

/-- Is this the array type? (`items` is a case of its `assign` only, x-gen-type-array.go:296) -/
def Body.isArray : Body → Bool
  | .array _ => true
  | _ => false

/-- Does the dynamic type implement `raml.Property`?  All extended types do; nil and include
types do not (v0/pkg/raml/Property.go against x-gen-type-nil.go, x-gen-type-include.go). -/
def DT.isProperty : DT → Bool
  | .basic _ _ _ => false
  | .ext _ _ _ _ _ => true

mutual

/-- `TypeSortingHat` (fn-sorting-hat-type.go:26-58).  The `IsNil` branch (line 53) is dead: a nil
node would already have crashed in `IsString`. -/
def hat (X : Xyml) : Node → Res DT
  | .scalar t v =>
    if t = "!!str" then .ok (typeToKind v)
    else if t = "!include" then .ok ((DT.new .include).setSchema v)
    else .err .badTypeDef
  | .seq _ _ => .err .multiType
  | .map ps => (siftType ps).bind fun t => assignAll X ps t

/-- `DataType.UnmarshalRAML` on a mapping (DataType.go:87-89): the `MapForEach` loop over the
entries with the type's own `assign`. -/
def assignAll (X : Xyml) : List (Node × Node) → DT → Res DT
  | [], t => .ok t
  | p :: ps, t => (assign X p t).bind (assignAll X ps)

/-- The generated `assign` (x-gen-type-*.go).  The cases `facets` (type-datatype-ext.go:81),
`properties` (x-gen-type-object.go:333) and `items` (x-gen-type-array.go:296-302) are tested
first here; in Go they sit among other cases of switches on the same key text, so the order of
tests makes no difference. -/
def assign (X : Xyml) : Node × Node → DT → Res DT
  | (k, v), .basic i s x => (assignBase k v s x).map fun r => .basic i r.1 r.2
  | (k, v), .ext h b fs ps it =>
    if k.value = "facets" then (loadFacets X v fs).map fun fs' => .ext h b fs' ps it
    else if k.value = "properties" ∧ b.isObject then
      (loadProps X v ps).map fun ps' => .ext h b fs ps' it
    else if k.value = "items" ∧ b.isArray then
      (hat X v).map fun t => .ext h b fs ps (some t)
    else (assignFlat X k v h b).map fun r => .ext r.1 r.2 fs ps it

/-- `UnmarshalPropertyMapRAML` (util-dt-map.go:25-39). -/
def loadProps (X : Xyml) : Node → OM String DT → Res (OM String DT)
  | .map ps, m => loadPropsL X ps m
  | _, _ => .err .notMap

/-- The loop of `UnmarshalPropertyMapRAML` (util-dt-map.go:26-38). -/
def loadPropsL (X : Xyml) : List (Node × Node) → OM String DT → Res (OM String DT)
  | [], m => .ok m
  | p :: ps, m => (loadProp X p m).bind (loadPropsL X ps)

/-- The body of that loop, with the interface conversion `val.(raml.Property)`. -/
def loadProp (X : Xyml) : Node × Node → OM String DT → Res (OM String DT)
  | (k, v), m => (asString k).bind fun s => (hat X v).bind fun t =>
    if t.isProperty then .ok (m.put s t) else .panic .notProperty

/-- `UnmarshalDataTypeMapRAML` (util-dt-map.go:9-23). -/
def loadTypes (X : Xyml) : Node → OM String DT → Res (OM String DT)
  | .map ps, m => loadTypesL X ps m
  | _, _ => .err .notMap

/-- The loop of `UnmarshalDataTypeMapRAML` (util-dt-map.go:10-22). -/
def loadTypesL (X : Xyml) : List (Node × Node) → OM String DT → Res (OM String DT)
  | [], m => .ok m
  | p :: ps, m => (loadType X p m).bind (loadTypesL X ps)

/-- The body of that loop. -/
def loadType (X : Xyml) : Node × Node → OM String DT → Res (OM String DT)
  | (k, v), m => (asString k).bind fun s => (hat X v).bind fun t => .ok (m.put s t)

/-- `UnmarshalFacetMapRAML` (util-facet-map.go:9-23). -/
def loadFacets (X : Xyml) : Node → OM String (OM String DT) → Res (OM String (OM String DT))
  | .map ps, m => loadFacetsL X ps m
  | _, _ => .err .notMap

/-- The loop of `UnmarshalFacetMapRAML` (util-facet-map.go:10-22). -/
def loadFacetsL (X : Xyml) :
    List (Node × Node) → OM String (OM String DT) → Res (OM String (OM String DT))
  | [], m => .ok m
  | p :: ps, m => (loadFacet X p m).bind (loadFacetsL X ps)

/-- The body of that loop; `NewFacet()` is an ordered-output map (type-facet.go:7-9). -/
def loadFacet (X : Xyml) :
    Node × Node → OM String (OM String DT) → Res (OM String (OM String DT))
  | (k, v), m => (asString k).bind fun s =>
    (loadTypes X v (OM.empty true)).bind fun f => .ok (m.put s f)

end

/-! ### Writing -/

/-- The kind-specific puts of the generated `marshal`: x-gen-type-string.go:233-237,
x-gen-type-file.go:229-237, x-gen-type-array.go:240-252, x-gen-type-object.go:283-294,
x-gen-type-datetime.go:206, x-gen-type-number.go:251-254, x-gen-type-integer.go:251-254.
`props` is the rendered `properties` (absent when empty), `items` the rendered item type. -/
def Body.marshal (X : Xyml) (props items : Option Node) (b : Body) (out : OM Scalar Node) :
    OM Scalar Node :=
  match b with
  | .string f =>
    ((out.putOpt (.str "pattern") (f.pattern.map .str)).putOpt (.str "minLength")
      (if f.minLength > 0 then some (X.ofInt f.minLength) else none)).putOpt (.str "maxLength")
      (f.maxLength.map fun n : Nat => X.ofInt n)
  | .file f =>
    ((out.putOpt (.str "fileTypes") (f.fileTypes.map (renderList .str))).putOpt (.str "minLength")
      (if f.minLength ≠ 0 then some (X.ofInt f.minLength) else none)).putOpt (.str "maxLength")
      (if f.maxLength ≠ 2147483647 then some (X.ofInt f.maxLength) else none)
  | .array f =>
    (((out.putOpt (.str "uniqueItems")
      (if f.uniqueItems ≠ false then some (X.ofBool f.uniqueItems) else none)).putOpt
      (.str "minItems") (if f.minItems ≠ 0 then some (X.ofInt f.minItems) else none)).putOpt
      (.str "maxItems")
      (if f.maxItems ≠ 2147483647 then some (X.ofInt f.maxItems) else none)).putOpt
      (.str "items") items
  | .object f =>
    (((((out.putOpt (.str "additionalProperties")
      (if f.addtlProps then none else some (X.ofBool f.addtlProps))).putOpt
      (.str "minProperties") (f.minProps.map fun n : Nat => X.ofInt n)).putOpt
      (.str "maxProperties") (f.maxProps.map fun n : Nat => X.ofInt n)).putOpt
      (.str "discriminator") (f.discrim.map .str)).putOpt
      (.str "discriminatorValue") f.discrimVal).putOpt
      (.str "properties") props
  | .datetime f => out.putOpt (.str "format") (f.map .str)
  | .number f =>
    (((out.putOpt (.str "format") (f.format.map .str)).putOpt (.str "minimum")
      (f.minimum.map X.ofFlt)).putOpt (.str "maximum") (f.maximum.map X.ofFlt)).putOpt
      (.str "multipleOf") (f.multipleOf.map X.ofFlt)
  | .integer f =>
    (((out.putOpt (.str "format") (f.format.map .str)).putOpt (.str "minimum")
      (f.minimum.map X.ofInt)).putOpt (.str "maximum") (f.maximum.map X.ofInt)).putOpt
      (.str "multipleOf") (f.multipleOf.map X.ofFlt)
  | _ => out

/-- `DataType.marshal` (DataType.go:94-98). -/
def marshalBase (schema : Node) (extra : OM Scalar Node) (out : OM Scalar Node) :
    OM Scalar Node :=
  (out.put (.str "type") schema).putAll extra.ents

/-- `ExtendedDataType.marshal` (type-datatype-ext.go:52-73); `facets` is the rendered facet map,
absent when empty. -/
def Hdr.marshalExt (X : Xyml) (facets : Option Node) (h : Hdr) (out : OM Scalar Node) :
    OM Scalar Node :=
  let out := (out.putOpt (.str "displayName") (h.displayName.map .str)).putOpt
    (.str "description") (h.description.map .str)
  let out := marshalBase (.str h.schema) h.extra out
  let out := if h.required then out else out.put (.str "required") (X.ofBool h.required)
  let out := out.putAll (annEnts h.annotations)
  (out.putOpt (.str "facets") facets).putOpt (.str "xml") (h.xml.map XML.toYAML)

/-- The generated `marshal` of an extended type (e.g. x-gen-type-string.go:226-246) into an empty
map. -/
def marshalDT (X : Xyml) (h : Hdr) (b : Body) (facets props items : Option Node) :
    OM Scalar Node :=
  let out := (OM.empty false : OM Scalar Node).putOpt (.str "default") h.dflt
  let out := h.marshalExt X facets out
  let out := b.marshal X props items out
  let out := (out.putOpt (.str "enum") (h.enum.map (renderList (Val.render X)))).putOpt
    (.str "example") (h.example.map (Example.toYAML X))
  out.putOpt (.str "examples")
    (if h.examples.len > 0 then some (renderStrMap (Example.toYAML X) h.examples) else none)

/-- `ToYAML` (DataType.go:50-61) once the map is filled: the short form is taken when the map has
the `type` entry only (`MarshalRAML`, DataType.go:67-75). -/
def finish (X : Xyml) (out : OM Scalar Node) : Node :=
  if out.len = 1 ∧ out.has (.str "type") then (out.get (.str "type")).getD nullNode
  else renderAny X out

mutual

/-- `DataType.ToYAML` (DataType.go:50-61); the nil type marshals through `DataType.marshal`, the
include type through its own (x-gen-type-include.go:29-38). -/
def DT.toYAML (X : Xyml) : DT → Node
  | .basic incl s x =>
    finish X (marshalBase (if incl then .scalar "!include" s else .str s) x (OM.empty false))
  | .ext h b fs ps it =>
    finish X (marshalDT X h b (facetsNode X fs) (propsNode X ps) (itemsNode X it))

/-- `out.PutIfNotNil(rmeta.KeyItems, o.items)` (x-gen-type-array.go:252). -/
def itemsNode (X : Xyml) : Option DT → Option Node
  | none => none
  | some t => some (t.toYAML X)

/-- The `properties` value, absent when the map is empty (x-gen-type-object.go:292-294). -/
def propsNode (X : Xyml) : OM String DT → Option Node
  | ⟨es, b⟩ => if es.length > 0 then some (renderPairs b (typeEnts X es)) else none

/-- The entries of a `DataTypeMap` or `PropertyMap` as `ToYAML` renders them. -/
def typeEnts (X : Xyml) : List (String × DT) → List (Node × Node)
  | [] => []
  | e :: es => typeEnt X e :: typeEnts X es

/-- One such entry. -/
def typeEnt (X : Xyml) : String × DT → Node × Node
  | (k, t) => (Node.str k, t.toYAML X)

/-- The `facets` value, absent when the map is empty (type-datatype-ext.go:66-68). -/
def facetsNode (X : Xyml) : OM String (OM String DT) → Option Node
  | ⟨es, b⟩ => if es.length > 0 then some (renderPairs b (facetEnts X es)) else none

/-- The entries of a `FacetMap`. -/
def facetEnts (X : Xyml) : List (String × OM String DT) → List (Node × Node)
  | [] => []
  | e :: es => facetEnt X e :: facetEnts X es

/-- One such entry: a facet is rendered as a `DataTypeMap`. -/
def facetEnt (X : Xyml) : String × OM String DT → Node × Node
  | (k, m) => (Node.str k, typeMapNode X m)

/-- `DataTypeMap.ToYAML` (DataTypeMap.go, as AnyMap.go:131-157). -/
def typeMapNode (X : Xyml) : OM String DT → Node
  | ⟨es, b⟩ => renderPairs b (typeEnts X es)

end

end Verif.Doc
