import Verif.Doc.Spec

/-!
# Specification vocabulary for API documents and libraries

As in `Verif/Doc/Spec.lean`: these definitions use neither the parser nor the writer.
-/

namespace Verif.Doc.Spec
open Verif Verif.Doc

/-! ### API documents -/

/-- The parts of an API document. -/
inductive ApiSection where
  | title | version | baseUri | description | protocols | mediaType | documentation | securedBy
  | uses | securitySchemes | baseUriParameters | traits | annotationTypes | resourceTypes | types
  | annotations | resources | extra
deriving DecidableEq, Repr

/-- The known top-level keys of an API document. -/
def apiKeys : List (String × ApiSection) :=
  [("title", .title), ("version", .version), ("baseUri", .baseUri),
   ("description", .description), ("protocols", .protocols), ("mediaType", .mediaType),
   ("documentation", .documentation), ("securedBy", .securedBy), ("uses", .uses),
   ("securitySchemes", .securitySchemes), ("baseUriParameters", .baseUriParameters),
   ("traits", .traits), ("annotationTypes", .annotationTypes),
   ("resourceTypes", .resourceTypes), ("types", .types), ("schemas", .types)]

/-- The part of an API document that a top-level entry belongs to. -/
def apiSectionOf (p : Node × Node) : ApiSection :=
  if startsWith '(' p.1 then .annotations
  else if startsWith '/' p.1 then .resources
  else if p.1.isStr then (apiKeys.lookup p.1.value).getD .extra
  else .extra

/-- The type of a part's value. -/
def ApiSection.Ty : ApiSection → Type
  | .title => String
  | .version | .baseUri | .description => Option String
  | .protocols | .mediaType | .securedBy => Option (List String)
  | .documentation => Option (List Documentation)
  | .uses => OM String String
  | .securitySchemes | .baseUriParameters | .traits | .annotationTypes | .resourceTypes
  | .resources => OM String Node
  | .types => OM String DT
  | .annotations => OM String Ann
  | .extra => OM Scalar Node

/-- What the getter of a part reports. -/
def apiGet : (s : ApiSection) → APISpec → s.Ty
  | .title, a => a.title
  | .version, a => a.version
  | .baseUri, a => a.baseURI
  | .description, a => a.description
  | .protocols, a => a.protocols
  | .mediaType, a => a.mediaType
  | .documentation, a => a.documentation
  | .securedBy, a => a.securedBy
  | .uses, a => a.uses
  | .securitySchemes, a => a.securitySchemes
  | .baseUriParameters, a => a.baseURIParameters
  | .traits, a => a.traits
  | .annotationTypes, a => a.annotationTypes
  | .resourceTypes, a => a.resourceTypes
  | .types, a => a.types
  | .annotations, a => a.annotations
  | .resources, a => a.resources
  | .extra, a => a.extra

/-- The entries of a part, in document order. -/
def apiEntries (s : ApiSection) (ps : List (Node × Node)) : List (Node × Node) :=
  ps.filter fun p => apiSectionOf p == s

/-- All entries of all mappings given for a part, in document order. -/
def apiInner (s : ApiSection) (ps : List (Node × Node)) : List (Node × Node) :=
  (apiEntries s ps).flatMap fun p => mapEntries p.2

/-! ### Libraries -/

/-- The parts of a library that the parser fills.  `annotationTypes` is missing on purpose; see
C44. -/
inductive LibSection where
  | usage | uses | types | resourceTypes | traits | securitySchemes | annotations | extra
deriving DecidableEq, Repr

/-- The known keys of a library. -/
def libKeys : List (String × LibSection) :=
  [("annotationTypes", .annotations), ("resourceTypes", .resourceTypes), ("types", .types),
   ("schemas", .types), ("traits", .traits), ("uses", .uses), ("usage", .usage),
   ("securitySchemes", .securitySchemes)]

/-- The part of a library that a top-level entry ends up in. -/
def libSectionOf (p : Node × Node) : LibSection :=
  match libKeys.lookup p.1.value with
  | some s => s
  | none => if startsWith '(' p.1 then .annotations else .extra

/-- The type of a part's value. -/
def LibSection.Ty : LibSection → Type
  | .usage => Option String
  | .uses => OM String String
  | .types => OM String DT
  | .resourceTypes | .traits | .securitySchemes => OM String Node
  | .annotations => OM String Ann
  | .extra => OM Scalar Node

/-- What the getter of a part reports. -/
def libGet : (s : LibSection) → Library → s.Ty
  | .usage, l => l.usage
  | .uses, l => l.uses
  | .types, l => l.types
  | .resourceTypes, l => l.resourceTypes
  | .traits, l => l.traits
  | .securitySchemes, l => l.securitySchemes
  | .annotations, l => l.annotations
  | .extra, l => l.extra

/-- The entries of a part, in document order. -/
def libEntries (s : LibSection) (ps : List (Node × Node)) : List (Node × Node) :=
  ps.filter fun p => libSectionOf p == s

/-- All entries of all mappings given for a part, in document order. -/
def libInner (s : LibSection) (ps : List (Node × Node)) : List (Node × Node) :=
  (libEntries s ps).flatMap fun p => mapEntries p.2

end Verif.Doc.Spec
