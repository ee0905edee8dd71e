import Verif.Doc.ApiSpec

/-!
# Where the texts of objects and written documents come from

Vocabulary of C102.  A source says which texts, keys and numbers there are; an object is made of
a source when everything it holds is in the source.
-/

namespace Verif.Doc.Spec
open Verif Verif.Doc

mutual

/-- A tree and all trees in it, keys included. -/
def nodesOf : Node → List Node
  | .scalar t s => [.scalar t s]
  | .seq t ns => .seq t ns :: nodesIn ns
  | .map ps => .map ps :: nodesInPairs ps

/-- The trees in a list of trees. -/
def nodesIn : List Node → List Node
  | [] => []
  | n :: ns => nodesOf n ++ nodesIn ns

/-- The trees in a list of entries. -/
def nodesInPairs : List (Node × Node) → List Node
  | [] => []
  | p :: ps => nodesInPair p ++ nodesInPairs ps

/-- The trees in an entry. -/
def nodesInPair : Node × Node → List Node
  | (k, v) => nodesOf k ++ nodesOf v

end

/-- The text of a scalar. -/
def scalarText : Node → Option String
  | .scalar _ s => some s
  | _ => none

/-- The texts of all scalars in a tree, keys included. -/
def texts (n : Node) : List String := (nodesOf n).filterMap scalarText

/-- Every text in a tree has a property. -/
def textsAll (p : String → Prop) (n : Node) : Prop := ∀ s ∈ texts n, p s

/-- Which texts, keys, integers and floats there are. -/
structure Source where
  text : String → Prop
  key : Scalar → Prop
  int : Int → Prop
  flt : Flt → Prop

/-- What the conversions find in one node. -/
structure AtomFrom (X : Xyml) (S : Source) (m : Node) : Prop where
  text : ∀ s, scalarText m = some s → S.text s
  str : ∀ s, X.toStr m = some s → S.text s
  value : S.key (.str m.value)
  key : ∀ k, X.toScalar m = some k → S.key k
  int : ∀ i, X.toInt m = some i → S.int i
  flt : ∀ f, X.toFlt m = some f → S.flt f

/-- An input in which the conversions find nothing but what is in the source. -/
def inputFrom (X : Xyml) (S : Source) (n : Node) : Prop := ∀ m ∈ nodesOf n, AtomFrom X S m

/-- What the conversions find in an input. -/
def sourceOf (X : Xyml) (n : Node) : Source where
  text s := s ∈ texts n ∨ ∃ m ∈ nodesOf n, X.toStr m = some s
  key k := ∃ m ∈ nodesOf n, X.toScalar m = some k ∨ k = .str m.value
  int i := ∃ m ∈ nodesOf n, X.toInt m = some i
  flt f := ∃ m ∈ nodesOf n, X.toFlt m = some f

/-- The names of the types that are chosen when a definition does not name its type. -/
def impliedWords : List String := ["string", "object", "array", "include"]

/-- The keys that are written for a data type or an example, the names of the implied types, and
the text of a null. -/
def typeWords : List String :=
  ["default", "displayName", "description", "type", "required", "facets", "xml", "pattern",
   "minLength", "maxLength", "fileTypes", "uniqueItems", "minItems", "maxItems", "items",
   "additionalProperties", "minProperties", "maxProperties", "discriminator",
   "discriminatorValue", "properties", "format", "minimum", "maximum", "multipleOf", "enum",
   "example", "examples", "value", "strict", "", "null"] ++ impliedWords

/-- The keys of an API document and of what is in it. -/
def apiWords : List String :=
  ["title", "version", "baseUri", "description", "protocols", "mediaType", "documentation",
   "securedBy", "uses", "securitySchemes", "baseUriParameters", "traits", "annotationTypes",
   "resourceTypes", "types"] ++ typeWords

/-- The keys of a library and of what is in it. -/
def libWords : List String :=
  ["usage", "uses", "securitySchemes", "traits", "annotationTypes", "resourceTypes", "types"] ++
    typeWords

/-- A text that may be written for an object made of a source: one of the fixed words, a text of
the source, a key of the source, an integer of the source, as it is or modulo 2^64, a float of the
source, or a boolean. -/
def Written (X : Xyml) (words : List String) (S : Source) (s : String) : Prop :=
  s ∈ words ∨ S.text s ∨ (∃ k, S.key k ∧ s ∈ texts (X.ofKey k)) ∨
    (∃ i, S.int i ∧ (s ∈ texts (X.ofInt i) ∨ s ∈ texts (X.ofInt (i % 18446744073709551616)))) ∨
    (∃ f, S.flt f ∧ s ∈ texts (X.ofFlt f)) ∨ ∃ b, s ∈ texts (X.ofBool b)

/-- An input with no numbers: every scalar that converts is a text and converts to itself. -/
def TextOnly (X : Xyml) (n : Node) : Prop := ∀ m ∈ nodesOf n, X.toInt m = none ∧ X.toFlt m = none ∧
  (∀ s, X.toStr m = some s → scalarText m = some s) ∧
  ∀ k, X.toScalar m = some k → ∃ s, k = .str s ∧ scalarText m = some s

/-! ### Objects made of a source -/

/-- Every key and every value of a dictionary has a property. -/
def mapFrom {K V : Type} (p : K → Prop) (q : V → Prop) (m : OM K V) : Prop :=
  ∀ e ∈ m.ents, p e.1 ∧ q e.2

/-- Something that may be absent. -/
def optFrom {V : Type} (q : V → Prop) (o : Option V) : Prop := ∀ x, o = some x → q x

/-- Every element of a list that may be nil. -/
def listFrom {V : Type} (q : V → Prop) (o : Option (List V)) : Prop := ∀ l, o = some l → ∀ x ∈ l, q x

/-- A number read without sign. -/
def natFrom (S : Source) (n : Nat) : Prop := ∃ i, S.int i ∧ (n : Int) = i % 18446744073709551616

/-- A tree all of whose texts are in the source. -/
abbrev nodeFrom (S : Source) (n : Node) : Prop := textsAll S.text n

/-- Annotations. -/
abbrev annsFrom (S : Source) (m : OM String Ann) : Prop :=
  mapFrom (fun k => S.key (.str k)) (mapFrom S.text (nodeFrom S)) m

/-- Extra facets. -/
abbrev extraFrom (S : Source) (m : OM Scalar Node) : Prop := mapFrom S.key (nodeFrom S) m

/-- A value of an example or an enum. -/
def valFrom (S : Source) : Val → Prop
  | .node n => nodeFrom S n
  | .list ns => ∀ n ∈ ns, nodeFrom S n
  | .str s => S.text s
  | .bool _ => True
  | .int i => S.int i
  | .flt f => S.flt f

/-- An example. -/
structure ExampleFrom (S : Source) (e : Example) : Prop where
  displayName : optFrom S.text e.displayName
  description : optFrom S.text e.description
  annotations : annsFrom S e.annotations
  value : optFrom (valFrom S) e.value
  extra : extraFrom S e.extra

/-- XML settings. -/
structure XMLFrom (S : Source) (x : XML) : Prop where
  name : optFrom S.text x.name
  ns : optFrom S.text x.ns
  pref : optFrom S.text x.pref
  extra : extraFrom S x.extra

/-- The shared fields of a type.  The type text may be the name of an implied type. -/
structure HdrFrom (S : Source) (h : Hdr) : Prop where
  schema : S.text h.schema ∨ h.schema ∈ impliedWords
  extra : extraFrom S h.extra
  displayName : optFrom S.text h.displayName
  description : optFrom S.text h.description
  annotations : annsFrom S h.annotations
  xml : optFrom (XMLFrom S) h.xml
  dflt : optFrom (nodeFrom S) h.dflt
  enum : listFrom (valFrom S) h.enum
  «example» : optFrom (ExampleFrom S) h.example
  examples : mapFrom S.text (ExampleFrom S) h.examples

/-- The fields of one kind; the numbers may be the defaults. -/
def bodyFrom (S : Source) : Body → Prop
  | .string f => optFrom S.text f.pattern ∧ (f.minLength = 0 ∨ natFrom S f.minLength) ∧
      optFrom (natFrom S) f.maxLength
  | .file f => listFrom S.text f.fileTypes ∧ (f.minLength = 0 ∨ natFrom S f.minLength) ∧
      (f.maxLength = 2147483647 ∨ natFrom S f.maxLength)
  | .array f => (f.minItems = 0 ∨ natFrom S f.minItems) ∧
      (f.maxItems = 2147483647 ∨ natFrom S f.maxItems)
  | .object f => optFrom (natFrom S) f.minProps ∧ optFrom (natFrom S) f.maxProps ∧
      optFrom S.text f.discrim ∧ optFrom (nodeFrom S) f.discrimVal
  | .datetime f => optFrom S.text f
  | .number f => optFrom S.text f.format ∧ optFrom S.flt f.minimum ∧ optFrom S.flt f.maximum ∧
      optFrom S.flt f.multipleOf
  | .integer f => optFrom S.text f.format ∧ optFrom S.int f.minimum ∧ optFrom S.int f.maximum ∧
      optFrom S.flt f.multipleOf
  | _ => True

mutual

/-- A data type, with all data types in it. -/
def typeFrom (S : Source) : DT → Prop
  | .basic _ s x => (S.text s ∨ s ∈ impliedWords) ∧ extraFrom S x
  | .ext h b ⟨fs, _⟩ ⟨ps, _⟩ it =>
    HdrFrom S h ∧ bodyFrom S b ∧ facetListFrom S fs ∧ typeListFrom S ps ∧ itemsFrom S it

/-- The item type. -/
def itemsFrom (S : Source) : Option DT → Prop
  | none => True
  | some t => typeFrom S t

/-- Data types with their names. -/
def typeListFrom (S : Source) : List (String × DT) → Prop
  | [] => True
  | (k, t) :: es => S.text k ∧ typeFrom S t ∧ typeListFrom S es

/-- Facet declarations with their names. -/
def facetListFrom (S : Source) : List (String × OM String DT) → Prop
  | [] => True
  | (k, ⟨ts, _⟩) :: es => S.text k ∧ typeListFrom S ts ∧ facetListFrom S es

end

/-- A documentation entry. -/
structure DocFrom (S : Source) (d : Documentation) : Prop where
  title : S.key (.str d.title) ∨ d.title = ""
  content : S.key (.str d.content) ∨ d.content = ""
  extra : extraFrom S d.extra

/-- Named trees. -/
abbrev untypedFrom (S : Source) (m : OM String Node) : Prop := mapFrom S.text (nodeFrom S) m

/-- An API document. -/
structure ApiFrom (S : Source) (a : APISpec) : Prop where
  title : S.text a.title ∨ a.title = ""
  description : optFrom S.text a.description
  version : optFrom S.text a.version
  baseURI : optFrom S.text a.baseURI
  baseURIParameters : untypedFrom S a.baseURIParameters
  protocols : listFrom S.text a.protocols
  mediaType : listFrom S.text a.mediaType
  documentation : listFrom (DocFrom S) a.documentation
  types : mapFrom S.text (typeFrom S) a.types
  traits : untypedFrom S a.traits
  resourceTypes : untypedFrom S a.resourceTypes
  annotationTypes : untypedFrom S a.annotationTypes
  annotations : annsFrom S a.annotations
  securitySchemes : untypedFrom S a.securitySchemes
  securedBy : listFrom S.text a.securedBy
  uses : mapFrom S.text S.text a.uses
  resources : mapFrom (fun k => S.key (.str k)) (nodeFrom S) a.resources
  extra : extraFrom S a.extra

/-- A library.  An annotation read under `annotationTypes` keeps its name, so the names are texts
or keys. -/
structure LibFrom (S : Source) (l : Library) : Prop where
  annotations : mapFrom (fun k => S.key (.str k) ∨ S.text k) (mapFrom S.text (nodeFrom S))
    l.annotations
  annotationTypes : untypedFrom S l.annotationTypes
  extra : extraFrom S l.extra
  uses : mapFrom S.text S.text l.uses
  resourceTypes : untypedFrom S l.resourceTypes
  securitySchemes : untypedFrom S l.securitySchemes
  traits : untypedFrom S l.traits
  types : mapFrom S.text (typeFrom S) l.types
  usage : optFrom S.text l.usage

end Verif.Doc.Spec
