import Verif.Doc.Api

/-!
# Specification vocabulary for documents

Small definitions used in the statements of the property theorems.  They do not use the parser
or the writer; `Node`, `Kind` and the fields of the parsed objects are the only things shared
with the model.
-/

namespace Verif.Doc.Spec
open Verif Verif.Doc

/-! ### Lists of entries -/

/-- One entry per key: the last one, in the order of the last occurrences. -/
def lastWins {K V : Type} [DecidableEq K] : List (K × V) → List (K × V)
  | [] => []
  | e :: es => if e.1 ∈ es.map Prod.fst then lastWins es else e :: lastWins es

/-- The value of the last entry with the given property. -/
def lastBy (q : Node × Node → Bool) (ps : List (Node × Node)) : Option Node :=
  (ps.reverse.find? q).map (·.2)

/-- The value of the last entry whose key text is `k`. -/
def lastVal (k : String) (ps : List (Node × Node)) : Option Node :=
  lastBy (fun p => p.1.value == k) ps

/-- The values of all entries whose key text is `k`, in order. -/
def allVals (k : String) (ps : List (Node × Node)) : List Node :=
  (ps.filter fun p => p.1.value == k).map (·.2)

/-- The elements of a sequence node. -/
def seqItems : Node → List Node
  | .seq _ ns => ns
  | _ => []

/-- The entries of a mapping node. -/
def mapEntries : Node → List (Node × Node)
  | .map ps => ps
  | _ => []

/-- Is it a sequence node? -/
def isSeq : Node → Bool
  | .seq _ _ => true
  | _ => false

/-- Is it a mapping node? -/
def isMap : Node → Bool
  | .map _ => true
  | _ => false

/-- Is the key a string starting with the given character? -/
def startsWith (c : Char) (k : Node) : Bool := k.isStr && k.value.toList.head? == some c

/-- An element list is `none` when it was never set. -/
def listOf {α : Type} (o : Option (List α)) : List α := o.getD []

/-! ### Kinds -/

/-- The built-in type names of RAML. -/
def builtins : List (String × Kind) :=
  [("any", .any), ("array", .array), ("boolean", .boolean), ("date-only", .dateOnly),
   ("datetime", .datetime), ("datetime-only", .datetimeOnly), ("file", .file),
   ("integer", .integer), ("nil", .nil), ("number", .number), ("object", .object),
   ("string", .string), ("time-only", .timeOnly)]

/-- The kind a type expression denotes. -/
def classify (s : String) : Kind :=
  match builtins.lookup s with
  | some k => k
  | none =>
    if "!include ".toList <+: s.toList then .include
    else if '|' ∈ s.toList then .union
    else .custom

/-- An entry that names the type of a definition. -/
def isTypeEntry (p : Node × Node) : Bool := p.1.value == "type" || p.1.value == "schema"

/-- The kind of a mapping without a `type`/`schema` entry. -/
def impliedKind (ps : List (Node × Node)) : Kind :=
  if ps.any (fun p => p.1.value == "properties") then .object
  else if ps.any (fun p => p.1.value == "items") then .array
  else .string

/-- The kind of an expanded definition: the first `type`/`schema` entry decides, else the implied
kind.  Entries that are not strings are not classified. -/
def kindOf (ps : List (Node × Node)) : Option Kind :=
  match ps.find? isTypeEntry with
  | some p => if p.2.isStr then some (classify p.2.value) else none
  | none => some (impliedKind ps)

/-- nil and include types have no facets besides `type`. -/
def isBasic (k : Kind) : Bool := k == .nil || k == .include

/-- The facets of each kind, by key text. -/
def facetNames : Kind → List String
  | .nil | .include => ["type", "schema"]
  | .string => common ++ ["pattern", "minLength", "maxLength"]
  | .file => common ++ ["fileTypes", "minLength", "maxLength"]
  | .array => common ++ ["uniqueItems", "minItems", "maxItems", "items"]
  | .object => common ++ ["properties", "minProperties", "maxProperties",
      "additionalProperties", "discriminator", "discriminatorValue"]
  | .datetime => common ++ ["format"]
  | .number | .integer => common ++ ["minimum", "maximum", "format", "multipleOf"]
  | _ => common
where
  common := ["type", "schema", "displayName", "description", "facets", "xml", "example",
    "examples", "enum", "required"]

/-- Is the entry an extra facet of a type of this kind? -/
def isExtra (kd : Kind) (p : Node × Node) : Bool :=
  !(facetNames kd).contains p.1.value && (isBasic kd || !startsWith '(' p.1)

/-! ### Reading a data type -/

/-- `DisplayName()`. -/
def displayName : DT → Option String
  | .ext h _ _ _ _ => h.displayName
  | _ => none

/-- `Description()`. -/
def description : DT → Option String
  | .ext h _ _ _ _ => h.description
  | _ => none

/-- `Required()`; basic types have no such facet. -/
def required : DT → Bool
  | .ext h _ _ _ _ => h.required
  | _ => true

/-- `Enum()`. -/
def enum : DT → Option (List Val)
  | .ext h _ _ _ _ => h.enum
  | _ => none

/-- `Default()`. -/
def dflt : DT → Option Node
  | .ext h _ _ _ _ => h.dflt
  | _ => none

/-- `Example()`. -/
def exampleOf : DT → Option Example
  | .ext h _ _ _ _ => h.example
  | _ => none

/-- `Examples()`. -/
def examples : DT → List (String × Example)
  | .ext h _ _ _ _ => h.examples.ents
  | _ => []

/-- `Annotations()`. -/
def annotations : DT → List (String × Ann)
  | .ext h _ _ _ _ => h.annotations.ents
  | _ => []

/-- `XML()`. -/
def xml : DT → Option XML
  | .ext h _ _ _ _ => h.xml
  | _ => none

/-- `FacetDefinitions()`. -/
def facets : DT → OM String (OM String DT)
  | .ext _ _ f _ _ => f
  | _ => OM.empty true

/-- `Properties()`. -/
def properties : DT → OM String DT
  | .ext _ _ _ p _ => p
  | _ => OM.empty false

/-- `Items()`. -/
def items : DT → Option DT
  | .ext _ _ _ _ i => i
  | _ => none

/-- The kind-specific facets. -/
def body : DT → Option Body
  | .ext _ b _ _ _ => some b
  | _ => none

/-- The kind-specific facets of a fresh type. -/
def isDefaultBody : Body → Prop
  | .string f => f.pattern = none ∧ f.minLength = 0 ∧ f.maxLength = none
  | .file f => f.fileTypes = none ∧ f.minLength = 0 ∧ f.maxLength = 2147483647
  | .array f => f.uniqueItems = false ∧ f.minItems = 0 ∧ f.maxItems = 2147483647
  | .object f => f.minProps = none ∧ f.maxProps = none ∧ f.addtlProps = true ∧ f.discrim = none ∧
      f.discrimVal = none
  | .datetime f => f = none
  | .number f => f.format = none ∧ f.minimum = none ∧ f.maximum = none ∧ f.multipleOf = none
  | .integer f => f.format = none ∧ f.minimum = none ∧ f.maximum = none ∧ f.multipleOf = none
  | _ => True

/-! ### Values -/

/-- An element of an `enum`: text for the string-like kinds, a boolean, integer or float for
those kinds, the YAML node itself otherwise; `none` when it does not convert. -/
def enumElem (X : Xyml) (kd : Kind) (n : Node) : Option Val :=
  match kd with
  | .string | .dateOnly | .datetime | .datetimeOnly | .timeOnly => (X.toStr n).map .str
  | .boolean => (X.toBool n).map .bool
  | .integer => (X.toInt n).map .int
  | .number => (X.toFlt n).map .flt
  | _ => some (.node n)

/-- The value of an example: as for enums, but string-like kinds insist on a YAML string and
array examples on a sequence. -/
def exampleElem (X : Xyml) (kd : Kind) (n : Node) : Option Val :=
  match kd with
  | .string | .dateOnly | .datetime | .datetimeOnly | .timeOnly =>
    if n.isStr then some (.str n.value) else none
  | .boolean => (X.toBool n).map .bool
  | .integer => (X.toInt n).map .int
  | .number => (X.toFlt n).map .flt
  | .array => if isSeq n then some (.list (seqItems n)) else none
  | _ => some (.node n)

/-! ### Facets -/

/-- The facets a data type can have: the named ones, its annotations, and the extra facets. -/
inductive Facet where
  | type | displayName | description | required | enum | «example» | examples | xml | facets
  | annotations | extra
  | properties | items
  | pattern | minLength | maxLength | fileTypes | uniqueItems | minItems | maxItems
  | minProperties | maxProperties | additionalProperties | discriminator | discriminatorValue
  | minimum | maximum | format | multipleOf
deriving DecidableEq, Repr

/-- The facet with the given key text. -/
def facetNamed : List (String × Facet) :=
  [("type", .type), ("schema", .type), ("displayName", .displayName),
   ("description", .description), ("required", .required), ("enum", .enum),
   ("example", .example), ("examples", .examples), ("xml", .xml), ("facets", .facets),
   ("properties", .properties), ("items", .items), ("pattern", .pattern),
   ("minLength", .minLength), ("maxLength", .maxLength), ("fileTypes", .fileTypes),
   ("uniqueItems", .uniqueItems), ("minItems", .minItems), ("maxItems", .maxItems),
   ("minProperties", .minProperties), ("maxProperties", .maxProperties),
   ("additionalProperties", .additionalProperties), ("discriminator", .discriminator),
   ("discriminatorValue", .discriminatorValue), ("minimum", .minimum), ("maximum", .maximum),
   ("format", .format), ("multipleOf", .multipleOf)]

/-- The facet of a type of kind `kd` that an entry belongs to. -/
def facetOf (kd : Kind) (p : Node × Node) : Facet :=
  if (facetNames kd).contains p.1.value then (facetNamed.lookup p.1.value).getD .extra
  else if !isBasic kd && startsWith '(' p.1 then .annotations
  else .extra

/-- A number facet: `float64` bounds of number types, `int64` bounds of integer types. -/
inductive Bound where
  | none
  | flt (f : Option Flt)
  | int (i : Option Int)
deriving DecidableEq, Repr

/-- The type of a facet's value. -/
def Facet.Ty : Facet → Type
  | .type => String
  | .displayName | .description => Option String
  | .required => Bool
  | .enum => Option (List Val)
  | .example => Option Example
  | .examples => OM String Example
  | .xml => Option XML
  | .facets => OM String (OM String DT)
  | .annotations => OM String Ann
  | .extra => OM Scalar Node
  | .properties => OM String DT
  | .items => Option DT
  | .pattern | .discriminator | .format => Option String
  | .minLength | .maxLength | .minItems | .maxItems | .minProperties | .maxProperties =>
    Option Nat
  | .fileTypes => Option (List String)
  | .uniqueItems | .additionalProperties => Option Bool
  | .discriminatorValue => Option Node
  | .minimum | .maximum => Bound
  | .multipleOf => Option Flt

/-- `Examples()` as a map. -/
def examplesMap : DT → OM String Example
  | .ext h _ _ _ _ => h.examples
  | _ => OM.empty false

/-- `Annotations()` as a map. -/
def annotationMap : DT → OM String Ann
  | .ext h _ _ _ _ => h.annotations
  | _ => OM.empty true

/-- `Pattern()` of a string type. -/
def pattern (t : DT) : Option String :=
  match body t with
  | some (.string f) => f.pattern
  | _ => none

/-- `MinLength()` of a string or file type. -/
def minLength (t : DT) : Option Nat :=
  match body t with
  | some (.string f) => some f.minLength
  | some (.file f) => some f.minLength
  | _ => none

/-- `MaxLength()` of a string or file type. -/
def maxLength (t : DT) : Option Nat :=
  match body t with
  | some (.string f) => f.maxLength
  | some (.file f) => some f.maxLength
  | _ => none

/-- `FileTypes()` of a file type. -/
def fileTypes (t : DT) : Option (List String) :=
  match body t with
  | some (.file f) => f.fileTypes
  | _ => none

/-- `UniqueItems()` of an array type. -/
def uniqueItems (t : DT) : Option Bool :=
  match body t with
  | some (.array f) => some f.uniqueItems
  | _ => none

/-- `MinItems()` of an array type. -/
def minItems (t : DT) : Option Nat :=
  match body t with
  | some (.array f) => some f.minItems
  | _ => none

/-- `MaxItems()` of an array type. -/
def maxItems (t : DT) : Option Nat :=
  match body t with
  | some (.array f) => some f.maxItems
  | _ => none

/-- `MinProperties()` of an object type. -/
def minProperties (t : DT) : Option Nat :=
  match body t with
  | some (.object f) => f.minProps
  | _ => none

/-- `MaxProperties()` of an object type. -/
def maxProperties (t : DT) : Option Nat :=
  match body t with
  | some (.object f) => f.maxProps
  | _ => none

/-- `AdditionalProperties()` of an object type. -/
def additionalProperties (t : DT) : Option Bool :=
  match body t with
  | some (.object f) => some f.addtlProps
  | _ => none

/-- `Discriminator()` of an object type. -/
def discriminator (t : DT) : Option String :=
  match body t with
  | some (.object f) => f.discrim
  | _ => none

/-- `DiscriminatorValue()` of an object type. -/
def discriminatorValue (t : DT) : Option Node :=
  match body t with
  | some (.object f) => f.discrimVal
  | _ => none

/-- `Minimum()` of a number or integer type. -/
def minimum (t : DT) : Bound :=
  match body t with
  | some (.number f) => .flt f.minimum
  | some (.integer f) => .int f.minimum
  | _ => .none

/-- `Maximum()` of a number or integer type. -/
def maximum (t : DT) : Bound :=
  match body t with
  | some (.number f) => .flt f.maximum
  | some (.integer f) => .int f.maximum
  | _ => .none

/-- `Format()` of a datetime, number or integer type. -/
def format (t : DT) : Option String :=
  match body t with
  | some (.datetime f) => f
  | some (.number f) => f.format
  | some (.integer f) => f.format
  | _ => none

/-- `MultipleOf()` of a number or integer type. -/
def multipleOf (t : DT) : Option Flt :=
  match body t with
  | some (.number f) => f.multipleOf
  | some (.integer f) => f.multipleOf
  | _ => none

/-- The value of a facet, as the getters of the type report it; for a kind without the facet some
fixed value. -/
def look : (f : Facet) → DT → f.Ty
  | .type, t => t.type
  | .displayName, t => displayName t
  | .description, t => description t
  | .required, t => required t
  | .enum, t => enum t
  | .example, t => exampleOf t
  | .examples, t => examplesMap t
  | .xml, t => xml t
  | .facets, t => facets t
  | .annotations, t => annotationMap t
  | .extra, t => t.extra
  | .properties, t => properties t
  | .items, t => items t
  | .pattern, t => pattern t
  | .minLength, t => minLength t
  | .maxLength, t => maxLength t
  | .fileTypes, t => fileTypes t
  | .uniqueItems, t => uniqueItems t
  | .minItems, t => minItems t
  | .maxItems, t => maxItems t
  | .minProperties, t => minProperties t
  | .maxProperties, t => maxProperties t
  | .additionalProperties, t => additionalProperties t
  | .discriminator, t => discriminator t
  | .discriminatorValue, t => discriminatorValue t
  | .minimum, t => minimum t
  | .maximum, t => maximum t
  | .format, t => format t
  | .multipleOf, t => multipleOf t

/-- Nothing but the type is set. -/
structure Bare (t : DT) : Prop where
  extra : t.extra.ents = []
  displayName : displayName t = none
  description : description t = none
  required : required t = true
  enum : enum t = none
  dflt : dflt t = none
  exampleOf : exampleOf t = none
  examples : examples t = []
  annotations : annotations t = []
  xml : xml t = none
  facets : (facets t).ents = []
  properties : (properties t).ents = []
  items : items t = none
  body : ∀ b, body t = some b → isDefaultBody b

end Verif.Doc.Spec
