import Verif.Doc.LiveType
import Verif.Doc.ApiSpec

/-!
# Renaming the texts of inputs and objects

Vocabulary of C103.  A renaming replaces every text in a tree or in an object; the words the
library looks for stay as they are.
-/

namespace Verif.Doc.Spec
open Verif Verif.Doc

/-- The words that the library looks for or writes. -/
def reservedWords : List String :=
  ["", "null", "any", "array", "boolean", "date-only", "datetime", "datetime-only", "file",
   "integer", "nil", "number", "object", "string", "time-only", "union", "custom", "include",
   "default", "displayName", "description", "type", "schema", "required", "facets", "xml",
   "pattern", "minLength", "maxLength", "fileTypes", "uniqueItems", "minItems", "maxItems",
   "items", "additionalProperties", "minProperties", "maxProperties", "discriminator",
   "discriminatorValue", "properties", "format", "minimum", "maximum", "multipleOf", "enum",
   "example", "examples", "value", "strict", "attribute", "wrapped", "name", "namespace", "prefix",
   "title", "content", "version", "baseUri", "protocols", "mediaType", "documentation",
   "securedBy", "uses", "securitySchemes", "baseUriParameters", "traits", "annotationTypes",
   "resourceTypes", "types", "schemas", "usage"]

/-- A renaming: different texts stay different, the words of the library stay as they are, and a
text keeps what else the library looks at: an opening parenthesis or a slash at its front, `!include `
at its front, and a bar in it. -/
structure Renaming (r : String → String) : Prop where
  inj : ∀ {s t}, r s = r t → s = t
  word : ∀ s ∈ reservedWords, r s = s
  paren : ∀ s, firstChar (r s) = some '(' ↔ firstChar s = some '('
  slash : ∀ s, firstChar (r s) = some '/' ↔ firstChar s = some '/'
  incl : ∀ s, "!include ".toList.isPrefixOf (r s).toList = "!include ".toList.isPrefixOf s.toList
  bar : ∀ s, (r s).toList.contains '|' = s.toList.contains '|'

/-- Exchange two texts. -/
def swapText (a b s : String) : String := if s = a then b else if s = b then a else s

/-- A name that means nothing to the library: no word of it, beginning with a letter, without a bar,
and no boolean. -/
def Ordinary (s : String) : Prop :=
  s ∉ reservedWords ∧ (∃ c, firstChar s = some c ∧ c.isAlpha = true) ∧
    s.toList.contains '|' = false ∧ s ≠ "true" ∧ s ≠ "false"

mutual

/-- Rename the scalars of a tree, keys included. -/
def renNode (r : String → String) : Node → Node
  | .scalar t s => .scalar t (r s)
  | .seq t ns => .seq t (renNodes r ns)
  | .map ps => .map (renPairs r ps)

/-- Rename the scalars of a list of trees. -/
def renNodes (r : String → String) : List Node → List Node
  | [] => []
  | n :: ns => renNode r n :: renNodes r ns

/-- Rename the scalars of entries. -/
def renPairs (r : String → String) : List (Node × Node) → List (Node × Node)
  | [] => []
  | p :: ps => renPair r p :: renPairs r ps

/-- Rename the scalars of an entry. -/
def renPair (r : String → String) : Node × Node → Node × Node
  | (k, v) => (renNode r k, renNode r v)

end

/-- Rename a key. -/
def renKey (r : String → String) : Scalar → Scalar
  | .str s => .str (r s)
  | k => k

/-- The conversions do not tell a text from its renaming: texts are converted to texts, and
numbers, booleans and nulls keep their notation. -/
structure Blind (X : Xyml) (r : String → String) : Prop where
  toInt : ∀ n, X.toInt (renNode r n) = X.toInt n
  toFlt : ∀ n, X.toFlt (renNode r n) = X.toFlt n
  toBool : ∀ n, X.toBool (renNode r n) = X.toBool n
  toStr : ∀ n, X.toStr (renNode r n) = (X.toStr n).map r
  toScalar : ∀ n, X.toScalar (renNode r n) = (X.toScalar n).map (renKey r)
  ofInt : ∀ i, renNode r (X.ofInt i) = X.ofInt i
  ofFlt : ∀ f, renNode r (X.ofFlt f) = X.ofFlt f
  ofBool : ∀ b, renNode r (X.ofBool b) = X.ofBool b
  ofKey : ∀ k, X.ofKey (renKey r k) = renNode r (X.ofKey k)

/-! ### Objects -/

/-- Rename the keys and the values of a dictionary. -/
def renMap {K V : Type} (f : K → K) (g : V → V) (m : OM K V) : OM K V :=
  ⟨m.ents.map fun e => (f e.1, g e.2), m.omap⟩

/-- Annotations. -/
abbrev renAnns (r : String → String) (m : OM String Ann) : OM String Ann :=
  renMap r (renMap r (renNode r)) m

/-- Extra facets. -/
abbrev renExtra (r : String → String) (m : OM Scalar Node) : OM Scalar Node :=
  renMap (renKey r) (renNode r) m

/-- A value of an example or an enum. -/
def renVal (r : String → String) : Val → Val
  | .node n => .node (renNode r n)
  | .list ns => .list (ns.map (renNode r))
  | .str s => .str (r s)
  | v => v

/-- An example. -/
def renExample (r : String → String) (e : Example) : Example where
  kind := e.kind
  displayName := e.displayName.map r
  description := e.description.map r
  annotations := renAnns r e.annotations
  value := e.value.map (renVal r)
  strict := e.strict
  extra := renExtra r e.extra

/-- XML settings. -/
def renXML (r : String → String) (x : XML) : XML where
  isAttr := x.isAttr
  isWrap := x.isWrap
  name := x.name.map r
  ns := x.ns.map r
  pref := x.pref.map r
  extra := renExtra r x.extra

/-- The shared fields of a type. -/
def renHdr (r : String → String) (h : Hdr) : Hdr where
  schema := r h.schema
  extra := renExtra r h.extra
  displayName := h.displayName.map r
  description := h.description.map r
  annotations := renAnns r h.annotations
  xml := h.xml.map (renXML r)
  required := h.required
  dflt := h.dflt.map (renNode r)
  enum := h.enum.map fun l => l.map (renVal r)
  «example» := h.example.map (renExample r)
  examples := renMap r (renExample r) h.examples

/-- The fields of one kind. -/
def renBody (r : String → String) : Body → Body
  | .datetime f => .datetime (f.map r)
  | .string f => .string { f with pattern := f.pattern.map r }
  | .file f => .file { f with fileTypes := f.fileTypes.map fun l => l.map r }
  | .object f => .object { f with discrim := f.discrim.map r, discrimVal := f.discrimVal.map (renNode r) }
  | .number f => .number { f with format := f.format.map r }
  | .integer f => .integer { f with format := f.format.map r }
  | b => b

mutual

/-- A data type, with all data types in it. -/
def renType (r : String → String) : DT → DT
  | .basic i s x => .basic i (r s) (renExtra r x)
  | .ext h b ⟨fs, o⟩ ⟨ps, q⟩ it =>
    .ext (renHdr r h) (renBody r b) ⟨renFacetList r fs, o⟩ ⟨renTypeList r ps, q⟩ (renItems r it)

/-- The item type. -/
def renItems (r : String → String) : Option DT → Option DT
  | none => none
  | some t => some (renType r t)

/-- Data types with their names. -/
def renTypeList (r : String → String) : List (String × DT) → List (String × DT)
  | [] => []
  | (k, t) :: es => (r k, renType r t) :: renTypeList r es

/-- Facet declarations with their names. -/
def renFacetList (r : String → String) : List (String × OM String DT) → List (String × OM String DT)
  | [] => []
  | (k, ⟨ts, o⟩) :: es => (r k, ⟨renTypeList r ts, o⟩) :: renFacetList r es

end

/-- A documentation entry. -/
def renDoc (r : String → String) (d : Documentation) : Documentation where
  title := r d.title
  content := r d.content
  extra := renExtra r d.extra

/-- A list of texts that may be nil. -/
abbrev renTexts (r : String → String) (o : Option (List String)) : Option (List String) :=
  o.map fun l => l.map r

/-- Named trees. -/
abbrev renUntyped (r : String → String) (m : OM String Node) : OM String Node :=
  renMap r (renNode r) m

/-- An API document. -/
def renApi (r : String → String) (a : APISpec) : APISpec where
  title := r a.title
  description := a.description.map r
  version := a.version.map r
  baseURI := a.baseURI.map r
  baseURIParameters := renUntyped r a.baseURIParameters
  protocols := renTexts r a.protocols
  mediaType := renTexts r a.mediaType
  documentation := a.documentation.map fun l => l.map (renDoc r)
  types := renMap r (renType r) a.types
  traits := renUntyped r a.traits
  resourceTypes := renUntyped r a.resourceTypes
  annotationTypes := renUntyped r a.annotationTypes
  annotations := renAnns r a.annotations
  securitySchemes := renUntyped r a.securitySchemes
  securedBy := renTexts r a.securedBy
  uses := renMap r r a.uses
  resources := renUntyped r a.resources
  extra := renExtra r a.extra

/-- A library. -/
def renLib (r : String → String) (l : Library) : Library where
  annotations := renAnns r l.annotations
  annotationTypes := renUntyped r l.annotationTypes
  extra := renExtra r l.extra
  uses := renMap r r l.uses
  resourceTypes := renUntyped r l.resourceTypes
  securitySchemes := renUntyped r l.securitySchemes
  traits := renUntyped r l.traits
  types := renMap r (renType r) l.types
  usage := l.usage.map r

end Verif.Doc.Spec
