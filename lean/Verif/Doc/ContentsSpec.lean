import Verif.Doc.LiveType
import Verif.Doc.ApiSpec

/-!
# Changing what the library does not look into

Vocabulary of C113.  Traits, resource types, security schemes, base URI parameters, annotation
types, resources, the values of annotations and everything unknown are kept as YAML nodes.  Here
those nodes change, in any way, and nothing else does.
-/

namespace Verif.Doc.Spec
open Verif Verif.Doc

/-- A mapping with new values. -/
def revaluedMap (g : Node → Node) : Node → Node
  | .map ps => .map (ps.map fun p => (p.1, g p.2))
  | n => n

/-- A mapping with new values, or an ordered mapping, which is a sequence of mappings. -/
def revalued (g : Node → Node) : Node → Node
  | .seq tag ns => .seq tag (ns.map (revaluedMap g))
  | n => revaluedMap g n

/-- A dictionary with new values, in the same order. -/
def filled {K V : Type} (g : V → V) (m : OM K V) : OM K V :=
  ⟨m.ents.map fun e => (e.1, g e.2), m.omap⟩

/-- The new value of an entry of an API document. -/
def apiFill (g : ApiSection → Node → Node) : ApiSection → Node → Node
  | .securitySchemes, v => revalued (g .securitySchemes) v
  | .baseUriParameters, v => revalued (g .baseUriParameters) v
  | .traits, v => revalued (g .traits) v
  | .annotationTypes, v => revalued (g .annotationTypes) v
  | .resourceTypes, v => revalued (g .resourceTypes) v
  | .annotations, v => revalued (g .annotations) v
  | .resources, v => g .resources v
  | .extra, v => g .extra v
  | _, v => v

/-- The text of an API document with new contents. -/
def filledApiDoc (g : ApiSection → Node → Node) : Node → Node
  | .map ps => .map (ps.map fun p => (p.1, apiFill g (apiSectionOf p) p.2))
  | n => n

/-- An API document with new contents. -/
def filledApi (g : ApiSection → Node → Node) (a : APISpec) : APISpec :=
  { a with securitySchemes := filled (g .securitySchemes) a.securitySchemes,
           baseURIParameters := filled (g .baseUriParameters) a.baseURIParameters,
           traits := filled (g .traits) a.traits,
           annotationTypes := filled (g .annotationTypes) a.annotationTypes,
           resourceTypes := filled (g .resourceTypes) a.resourceTypes,
           annotations := filled (filled (g .annotations)) a.annotations,
           resources := filled (g .resources) a.resources,
           extra := filled (g .extra) a.extra }

/-- The new value of an entry of a library.  Annotation types are read as annotations (C44). -/
def libFill (g : LibSection → Node → Node) (k : Node) : LibSection → Node → Node
  | .resourceTypes, v => revalued (g .resourceTypes) v
  | .traits, v => revalued (g .traits) v
  | .securitySchemes, v => revalued (g .securitySchemes) v
  | .annotations, v => if k.value = "annotationTypes" then revalued (revalued (g .annotations)) v
      else revalued (g .annotations) v
  | .extra, v => g .extra v
  | _, v => v

/-- The text of a library with new contents. -/
def filledLibDoc (g : LibSection → Node → Node) : Node → Node
  | .map ps => .map (ps.map fun p => (p.1, libFill g p.1 (libSectionOf p) p.2))
  | n => n

/-- A library with new contents. -/
def filledLib (g : LibSection → Node → Node) (l : Library) : Library :=
  { l with resourceTypes := filled (g .resourceTypes) l.resourceTypes,
           traits := filled (g .traits) l.traits,
           securitySchemes := filled (g .securitySchemes) l.securitySchemes,
           annotations := filled (filled (g .annotations)) l.annotations,
           annotationTypes := filled (revalued (g .annotations)) l.annotationTypes,
           extra := filled (g .extra) l.extra }

/-- The new value of an entry of a type definition. -/
def typeFill (g : Facet → Node → Node) : Facet → Node → Node
  | .annotations, v => revalued (g .annotations) v
  | .extra, v => g .extra v
  | .discriminatorValue, v => g .discriminatorValue v
  | _, v => v

/-- The definition of a type of a kind, with new contents. -/
def filledTypeDef (kd : Kind) (g : Facet → Node → Node) : Node → Node
  | .map ps => .map (ps.map fun p => (p.1, typeFill g (facetOf kd p) p.2))
  | n => n

/-- The definition of a type with new contents; the definition itself says of what kind it is. -/
def filledDef (g : Facet → Node → Node) : Node → Node
  | .map ps => match kindOf ps with
    | some kd => filledTypeDef kd g (.map ps)
    | none => .map ps
  | n => n

/-- The facets of one kind of type with a new discriminator value. -/
def filledBody (g : Node → Node) : Body → Body
  | .object f => .object { f with discrimVal := f.discrimVal.map g }
  | b => b

/-- A type with new contents. -/
def filledType (g : Facet → Node → Node) : DT → DT
  | .basic i s x => .basic i s (filled (g .extra) x)
  | .ext h b fs ps it =>
    .ext { h with annotations := filled (filled (g .annotations)) h.annotations,
                  extra := filled (g .extra) h.extra, dflt := h.dflt.map (g .extra) }
      (filledBody (g .discriminatorValue) b) fs ps it

/-- The text of an API document with new contents in the types it declares. -/
def filledTypesApi (g : Facet → Node → Node) : Node → Node
  | .map ps => .map (ps.map fun p => (p.1, if apiSectionOf p = .types then
      revalued (filledDef g) p.2 else p.2))
  | n => n

/-- The text of a library with new contents in the types it declares. -/
def filledTypesLib (g : Facet → Node → Node) : Node → Node
  | .map ps => .map (ps.map fun p => (p.1, if libSectionOf p = .types then
      revalued (filledDef g) p.2 else p.2))
  | n => n

/-- The text of an example with new values in its annotations and new unknown entries. -/
def filledExampleDoc (ga gx : Node → Node) : Node → Node
  | .map ps => .map (ps.map fun p => (p.1,
      if p.1.isStr = true ∧ p.1.value.toList.head? = some '(' then revalued ga p.2
      else if p.1.isStr = true ∧ p.1.value ∈ ["displayName", "description", "strict", "value"] then p.2
      else gx p.2))
  | n => n

/-- An example with new values in its annotations and new unknown entries. -/
def filledExample (ga gx : Node → Node) (e : Example) : Example :=
  { e with annotations := filled (filled ga) e.annotations, extra := filled gx e.extra }

/-- The text of a documentation entry with new unknown entries. -/
def filledDocEntry (g : Node → Node) : Node → Node
  | .map ps => .map (ps.map fun p =>
      (p.1, if p.1.value = "title" ∨ p.1.value = "content" then p.2 else g p.2))
  | n => n

/-! ### Writing -/

/-- Annotations and resources of an API document look like what they are, and unknown entries do
not look like anything else. -/
structure ApiKeysApart (a : APISpec) : Prop where
  annotations : ∀ e ∈ a.annotations.ents, e.1.toList.head? = some '('
  resources : ∀ e ∈ a.resources.ents, e.1.toList.head? = some '/'
  extra : ∀ e ∈ a.extra.ents, ∀ s, e.1 = .str s → s.toList.head? ≠ some '(' ∧
    s.toList.head? ≠ some '/' ∧ s ∉ apiKeys.map Prod.fst

/-- The same for a library. -/
structure LibKeysApart (l : Library) : Prop where
  annotations : ∀ e ∈ l.annotations.ents, e.1.toList.head? = some '('
  extra : ∀ e ∈ l.extra.ents, ∀ s, e.1 = .str s → s.toList.head? ≠ some '(' ∧
    s ∉ libKeys.map Prod.fst

/-- The same for a type. -/
structure TypeKeysApart (X : Xyml) (t : DT) : Prop where
  annotations : ∀ e ∈ (annotationMap t).ents, e.1.toList.head? = some '('
  extra : ∀ e ∈ t.extra.ents, (X.ofKey e.1).value ∉ facetNames t.kind ∧
    (isBasic t.kind = true ∨ startsWith '(' (X.ofKey e.1) = false)

/-- The same for an example. -/
structure ExampleKeysApart (e : Example) : Prop where
  annotations : ∀ a ∈ e.annotations.ents, a.1.toList.head? = some '('
  extra : ∀ x ∈ e.extra.ents, ∀ s, x.1 = .str s → s.toList.head? ≠ some '(' ∧
    s ∉ ["displayName", "description", "strict", "value"]

end Verif.Doc.Spec
