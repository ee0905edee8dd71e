import Verif.Doc.Build

/-! # Vocabulary of C98: the key under which each call changes what is written -/

namespace Verif.Doc.Spec
open Verif Verif.Doc

/-- The key of the facet that a call on a type is about; `none` for the calls about annotations
and about extra facets, which have keys of their own. -/
def opKey : TypeOp → Option String
  | .overrideType _ | .setType _ => some "type"
  | .setDefault _ | .unsetDefault => some "default"
  | .setExample _ | .unsetExample => some "example"
  | .setExamples _ | .unsetExamples | .editExamples _ => some "examples"
  | .setDisplayName _ | .unsetDisplayName => some "displayName"
  | .setDescription _ | .unsetDescription => some "description"
  | .setFacetDefinitions _ | .unsetFacetDefinitions | .editFacets _ => some "facets"
  | .setXML _ | .unsetXML => some "xml"
  | .setEnum _ | .unsetEnum => some "enum"
  | .setRequired _ => some "required"
  | .setPattern _ | .unsetPattern => some "pattern"
  | .setMinLength _ => some "minLength"
  | .setMaxLength _ | .unsetMaxLength => some "maxLength"
  | .setFileTypes _ | .unsetFileTypes => some "fileTypes"
  | .setUniqueItems _ => some "uniqueItems"
  | .setMinItems _ => some "minItems"
  | .setMaxItems _ => some "maxItems"
  | .setItems _ | .unsetItems => some "items"
  | .setProperties _ | .unsetProperties | .editProperties _ => some "properties"
  | .setMinProperties _ | .unsetMinProperties => some "minProperties"
  | .setMaxProperties _ | .unsetMaxProperties => some "maxProperties"
  | .setAdditionalProperties _ => some "additionalProperties"
  | .setDiscriminator _ | .unsetDiscriminator => some "discriminator"
  | .setDiscriminatorValue _ | .unsetDiscriminatorValue => some "discriminatorValue"
  | .setNumMinimum _ | .setIntMinimum _ | .unsetMinimum => some "minimum"
  | .setNumMaximum _ | .setIntMaximum _ | .unsetMaximum => some "maximum"
  | .setFormat _ | .unsetFormat => some "format"
  | .setMultipleOf _ | .unsetMultipleOf => some "multipleOf"
  | .setAnnotations _ | .unsetAnnotations | .editAnnotations _
  | .setExtraFacets _ | .unsetExtraFacets | .editExtra _ => none

/-- The key of the part that a call on an API document is about; `none` for annotations, extra
facets and resources. -/
def apiOpKey : ApiCall → Option String
  | .set op => match op with
    | .setTitle _ => some "title"
    | .setDescription _ | .unsetDescription => some "description"
    | .setVersion _ | .unsetVersion => some "version"
    | .setBaseURI _ | .unsetBaseURI => some "baseUri"
    | .setProtocols _ | .unsetProtocols => some "protocols"
    | .setMediaTypes _ | .unsetMediaTypes => some "mediaType"
    | .setDocumentation _ | .unsetDocumentation => some "documentation"
    | .setSecuredBy _ | .unsetSecuredBy => some "securedBy"
    | .setTypes _ | .unsetTypes | .setSchemas _ | .unsetSchemas => some "types"
    | .setTraits _ | .unsetTraits => some "traits"
    | .setResourceTypes _ | .unsetResourceTypes => some "resourceTypes"
    | .setAnnotationTypes _ | .unsetAnnotationTypes => some "annotationTypes"
    | .setSecuritySchemes _ | .unsetSecuritySchemes => some "securitySchemes"
    | .setUses _ | .unsetUses => some "uses"
    | .setAnnotations _ | .unsetAnnotations => none
  | .types _ => some "types"
  | .traits _ => some "traits"
  | .resourceTypes _ => some "resourceTypes"
  | .annotationTypes _ => some "annotationTypes"
  | .securitySchemes _ => some "securitySchemes"
  | .baseURIParameters _ => some "baseUriParameters"
  | .uses _ => some "uses"
  | .resources _ | .annotations _ | .extra _ => none

/-- The key of the part that a call on a library is about; `none` for annotations and extra
facets. -/
def libOpKey : LibCall → Option String
  | .set op => match op with
    | .setUses _ | .unsetUses => some "uses"
    | .setResourceTypes _ | .unsetResourceTypes => some "resourceTypes"
    | .setTraits _ | .unsetTraits => some "traits"
    | .setTypes _ | .unsetTypes | .setSchemas _ | .unsetSchemas => some "types"
    | .setUsage _ | .unsetUsage => some "usage"
    | .setAnnotations _ | .unsetAnnotations => none
  | .types _ => some "types"
  | .traits _ => some "traits"
  | .resourceTypes _ => some "resourceTypes"
  | .annotationTypes _ => some "annotationTypes"
  | .securitySchemes _ => some "securitySchemes"
  | .uses _ => some "uses"
  | .annotations _ | .extra _ => none

/-- The names that a type gives to entries of its own choice: annotations and extra facets. -/
def ownKeys : DT → List Scalar
  | .basic _ _ x => x.ents.map Prod.fst
  | .ext h _ _ _ _ => h.extra.ents.map Prod.fst ++ h.annotations.ents.map fun a => Scalar.str a.1

/-- The names of the entries that a call about annotations or extra facets is about. -/
def opNames : TypeOp → DT → List Scalar
  | .setAnnotations _, .ext h _ _ _ _ | .unsetAnnotations, .ext h _ _ _ _
  | .editAnnotations _, .ext h _ _ _ _ => h.annotations.ents.map fun a => Scalar.str a.1
  | .setExtraFacets _, t | .unsetExtraFacets, t | .editExtra _, t => t.extra.ents.map Prod.fst
  | _, _ => []

/-- The names of the entries that a call about annotations, extra facets or resources of an API
document is about. -/
def apiOpNames : ApiCall → APISpec → List Scalar
  | .set (.setAnnotations _), a | .set .unsetAnnotations, a | .annotations _, a =>
    a.annotations.ents.map fun x => Scalar.str x.1
  | .extra _, a => a.extra.ents.map Prod.fst
  | .resources _, a => a.resources.ents.map fun x => Scalar.str x.1
  | _, _ => []

/-- The same for a library. -/
def libOpNames : LibCall → Library → List Scalar
  | .set (.setAnnotations _), l | .set .unsetAnnotations, l | .annotations _, l =>
    l.annotations.ents.map fun x => Scalar.str x.1
  | .extra _, l => l.extra.ents.map Prod.fst
  | _, _ => []

/-- The entries under keys other than the given ones. -/
def without (X : Xyml) (ks : List Scalar) (ps : List (Node × Node)) : List (Node × Node) :=
  ps.filter fun p => match X.toScalar p.1 with
    | some k => decide (k ∉ ks)
    | none => true

end Verif.Doc.Spec
