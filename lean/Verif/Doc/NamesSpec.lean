import Verif.Doc.LiveType
import Verif.Doc.ApiSpec

/-!
# Renaming the entries of dictionaries

Vocabulary of C111.  Only the names in dictionaries change, each dictionary in its own way, and a
new name may be any text, also one that means something elsewhere.
-/

namespace Verif.Doc.Spec
open Verif Verif.Doc

/-- A key with a new text. -/
def rekey (r : String → String) : Node → Node
  | .scalar tag s => .scalar tag (r s)
  | n => n

/-- A mapping with new keys. -/
def rekeyedMap (r : String → String) : Node → Node
  | .map ps => .map (ps.map fun p => (rekey r p.1, p.2))
  | n => n

/-- A mapping with new keys, or an ordered mapping, which is a sequence of mappings. -/
def rekeyed (r : String → String) : Node → Node
  | .seq tag ns => .seq tag (ns.map (rekeyedMap r))
  | n => rekeyedMap r n

/-- A dictionary with new names, in the same order. -/
def renamed {V : Type} (r : String → String) (m : OM String V) : OM String V :=
  ⟨m.ents.map fun e => (r e.1, e.2), m.omap⟩

/-- Is this part of an API document a dictionary of named things? -/
def ApiSection.isDict : ApiSection → Bool
  | .uses | .securitySchemes | .baseUriParameters | .traits | .annotationTypes | .resourceTypes
  | .types => true
  | _ => false

/-- Is this part of a library a dictionary of named things?  Annotation types are not: they share
a dictionary with the annotations of the library. -/
def LibSection.isDict : LibSection → Bool
  | .uses | .types | .resourceTypes | .traits | .securitySchemes => true
  | _ => false

/-- Is this facet of a type a dictionary of named things? -/
def Facet.isDict : Facet → Bool
  | .properties | .examples | .facets => true
  | _ => false

/-- The text of an API document with new names. -/
def renamedApiDoc (r : ApiSection → String → String) : Node → Node
  | .map ps => .map (ps.map fun p =>
      (p.1, if (apiSectionOf p).isDict then rekeyed (r (apiSectionOf p)) p.2 else p.2))
  | n => n

/-- An API document with new names. -/
def renamedApi (r : ApiSection → String → String) (a : APISpec) : APISpec :=
  { a with uses := renamed (r .uses) a.uses,
           securitySchemes := renamed (r .securitySchemes) a.securitySchemes,
           baseURIParameters := renamed (r .baseUriParameters) a.baseURIParameters,
           traits := renamed (r .traits) a.traits,
           annotationTypes := renamed (r .annotationTypes) a.annotationTypes,
           resourceTypes := renamed (r .resourceTypes) a.resourceTypes,
           types := renamed (r .types) a.types }

/-- The text of a library with new names. -/
def renamedLibDoc (r : LibSection → String → String) : Node → Node
  | .map ps => .map (ps.map fun p =>
      (p.1, if (libSectionOf p).isDict then rekeyed (r (libSectionOf p)) p.2 else p.2))
  | n => n

/-- A library with new names. -/
def renamedLib (r : LibSection → String → String) (l : Library) : Library :=
  { l with uses := renamed (r .uses) l.uses, types := renamed (r .types) l.types,
           resourceTypes := renamed (r .resourceTypes) l.resourceTypes,
           traits := renamed (r .traits) l.traits,
           securitySchemes := renamed (r .securitySchemes) l.securitySchemes }

/-- The definition of a type of a kind, with new names. -/
def renamedTypeDef (kd : Kind) (r : Facet → String → String) : Node → Node
  | .map ps => .map (ps.map fun p =>
      (p.1, if (facetOf kd p).isDict then rekeyed (r (facetOf kd p)) p.2 else p.2))
  | n => n

/-- A type with new names for its properties, examples and facet declarations. -/
def renamedType (r : Facet → String → String) : DT → DT
  | .basic i s x => .basic i s x
  | .ext h b fs ps it =>
    .ext { h with examples := renamed (r .examples) h.examples } b (renamed (r .facets) fs)
      (renamed (r .properties) ps) it

/-! ### Writing -/

/-- The keys under which dictionaries are written. -/
def apiDictKeys : List String := ["uses", "securitySchemes", "baseUriParameters", "traits",
  "annotationTypes", "resourceTypes", "types", "schemas"]

/-- The same for a library. -/
def libDictKeys : List String := ["uses", "types", "schemas", "resourceTypes", "traits", "securitySchemes"]

/-- The same for a type, and the key of the type itself. -/
def typeDictKeys : List String := ["type", "properties", "examples", "facets"]

/-- No annotation, resource or unknown entry of an API document is written under the key of a
dictionary. -/
structure ApiKeysFree (a : APISpec) : Prop where
  annotations : ∀ e ∈ a.annotations.ents, e.1 ∉ apiDictKeys
  resources : ∀ e ∈ a.resources.ents, e.1 ∉ apiDictKeys
  extra : ∀ e ∈ a.extra.ents, ∀ s, e.1 = .str s → s ∉ apiDictKeys

/-- The same for a library. -/
structure LibKeysFree (l : Library) : Prop where
  annotations : ∀ e ∈ l.annotations.ents, e.1 ∉ libDictKeys
  extra : ∀ e ∈ l.extra.ents, ∀ s, e.1 = .str s → s ∉ libDictKeys

/-- The same for a type: the kinds differ in their dictionaries. -/
structure TypeKeysFree (X : Xyml) (t : DT) : Prop where
  annotations : ∀ e ∈ (annotationMap t).ents, e.1 ∉ typeDictKeys
  extra : ∀ e ∈ t.extra.ents, (X.ofKey e.1).value ∈ typeDictKeys →
    (X.ofKey e.1).value ∉ facetNames t.kind

end Verif.Doc.Spec
