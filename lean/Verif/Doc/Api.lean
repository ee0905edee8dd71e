import Verif.Doc.DataType

/-!
# API documents and libraries

Models `/repo/v0/internal/raml/APISpec.go`, `Documentation.go` and `Library.go`.
-/

namespace Verif.Doc

/-! ### Documentation entries -/

/-- `Documentation` (Documentation.go:14-18). -/
structure Documentation where
  title : String
  content : String
  extra : OM Scalar Node
deriving Repr

/-- `NewDocumentation` (Documentation.go:10-12). -/
def Documentation.new : Documentation := ⟨"", "", OM.empty false⟩

/-- The callback of `Documentation.UnmarshalRAML` (Documentation.go:50-64); `v.Value` is read
without looking at the tag. -/
def Documentation.assign (X : Xyml) (k v : Node) (d : Documentation) : Res Documentation :=
  if k.value = "title" then .ok { d with title := v.value }
  else if k.value = "content" then .ok { d with content := v.value }
  else (asScalar X k).map fun s => { d with extra := d.extra.put s v }

/-- `Documentation.UnmarshalRAML` (Documentation.go:49-65) on a new object. -/
def loadDocumentation (X : Xyml) (v : Node) : Res Documentation :=
  mapForEach (Documentation.assign X) v Documentation.new

/-- `Documentation.MarshalRAML` (Documentation.go:42-47) into an empty map.  Nothing in the
library calls it. -/
def Documentation.marshal (d : Documentation) : OM Scalar Node :=
  (((OM.empty false).put (.str "title") (.str d.title)).put (.str "content")
    (.str d.content)).putAll d.extra.ents

/-- What is written for a documentation entry (APISpec.go:313): the struct has no exported
fields and no YAML marshaler, so an empty mapping. -/
def Documentation.toYAML (_ : Documentation) : Node := .map []

/-! ### API documents -/

/-- `APISpec` (APISpec.go:29-48); nil slices and pointers are `none`. -/
structure APISpec where
  title : String
  description : Option String
  version : Option String
  baseURI : Option String
  baseURIParameters : OM String Node
  protocols : Option (List String)
  mediaType : Option (List String)
  documentation : Option (List Documentation)
  types : OM String DT
  traits : OM String Node
  resourceTypes : OM String Node
  annotationTypes : OM String Node
  annotations : OM String Ann
  securitySchemes : OM String Node
  securedBy : Option (List String)
  uses : OM String String
  resources : OM String Node
  extra : OM Scalar Node

/-- `NewApiSpec` (APISpec.go:13-27). -/
def APISpec.new : APISpec :=
  { title := "", description := none, version := none, baseURI := none,
    baseURIParameters := OM.empty false, protocols := none, mediaType := none,
    documentation := none, types := OM.empty false, traits := OM.empty false,
    resourceTypes := OM.empty false, annotationTypes := OM.empty false,
    annotations := OM.empty false, securitySchemes := OM.empty false, securedBy := none,
    uses := OM.empty false, resources := OM.empty false, extra := OM.empty false }

/-- A map section is written only when it has entries (`if a.uses.Len() > 0`,
APISpec.go:317-339, :345). -/
def ifNonEmpty {K V : Type} (m : OM K V) (n : Node) : Option Node :=
  if m.len > 0 then some n else none

/-- Puts for a string-keyed map of nodes: `a.resources.ForEach(…)` (APISpec.go:343). -/
def strEnts (m : OM String Node) : List (Scalar × Node) := m.ents.map fun e => (.str e.1, e.2)

/-- `APISpec.MarshalYAML` (APISpec.go:305-350), the map before `ToYAML`. -/
def APISpec.marshal (X : Xyml) (a : APISpec) : OM Scalar Node :=
  let out := (OM.empty false : OM Scalar Node).put (.str "title") (.str a.title)
  let out := out.putOpt (.str "version") (a.version.map .str)
  let out := out.putOpt (.str "baseUri") (a.baseURI.map .str)
  let out := out.putOpt (.str "description") (a.description.map .str)
  let out := out.putOpt (.str "protocols") (a.protocols.map (renderList .str))
  let out := out.putOpt (.str "mediaType") (a.mediaType.map (renderList .str))
  let out := out.putOpt (.str "documentation")
    (a.documentation.map (renderList Documentation.toYAML))
  let out := out.putOpt (.str "securedBy") (a.securedBy.map (renderList .str))
  let out := out.putOpt (.str "uses") (ifNonEmpty a.uses (renderStrMap .str a.uses))
  let out := out.putOpt (.str "securitySchemes")
    (ifNonEmpty a.securitySchemes (renderStrMap id a.securitySchemes))
  let out := out.putOpt (.str "baseUriParameters")
    (ifNonEmpty a.baseURIParameters (renderStrMap id a.baseURIParameters))
  let out := out.putOpt (.str "traits") (ifNonEmpty a.traits (renderStrMap id a.traits))
  let out := out.putOpt (.str "annotationTypes")
    (ifNonEmpty a.annotationTypes (renderStrMap id a.annotationTypes))
  let out := out.putOpt (.str "resourceTypes")
    (ifNonEmpty a.resourceTypes (renderStrMap id a.resourceTypes))
  let out := out.putAll (annEnts a.annotations)
  let out := out.putAll a.extra.ents
  let out := out.putAll (strEnts a.resources)
  out.putOpt (.str "types") (ifNonEmpty a.types (typeMapNode X a.types))

/-- `APISpec.MarshalYAML` (APISpec.go:305-350). -/
def APISpec.toYAML (X : Xyml) (a : APISpec) : Node := renderAny X (a.marshal X)

/-- Extra facet of an API document (APISpec.go:373-380 and :438-443). -/
def APISpec.putExtra (X : Xyml) (k v : Node) (a : APISpec) : Res APISpec :=
  (asScalar X k).map fun s => { a with extra := a.extra.put s v }

/-- The callback of the `documentation` case (APISpec.go:414-421). -/
def pushDoc (X : Xyml) (v : Node) (l : Option (List Documentation)) :
    Res (Option (List Documentation)) :=
  (loadDocumentation X v).map fun d => some (l.getD [] ++ [d])

/-- The switch of `APISpec.assign` (APISpec.go:396-444) for a string key that starts with neither
`(` nor `/`. -/
def APISpec.assignKey (X : Xyml) (k v : Node) (a : APISpec) : Res APISpec :=
  if k.value = "title" then (asString v).map fun s => { a with title := s }
  else if k.value = "version" then (asString v).map fun s => { a with version := some s }
  else if k.value = "baseUri" then (asString v).map fun s => { a with baseURI := some s }
  else if k.value = "description" then (asString v).map fun s => { a with description := some s }
  else if k.value = "protocols" then
    (asStringList v).map fun l => { a with protocols := some l }
  else if k.value = "mediaType" then
    if v.isStr then .ok { a with mediaType := some (a.mediaType.getD [] ++ [v.value]) }
    else (asStringList v).map fun l => { a with mediaType := some l }
  else if k.value = "documentation" then
    (seqForEach (pushDoc X) v a.documentation).map fun l => { a with documentation := l }
  else if k.value = "securedBy" then
    (asStringList v).map fun l => { a with securedBy := some l }
  else if k.value = "uses" then (loadStrings a.uses v).map fun m => { a with uses := m }
  else if k.value = "securitySchemes" then
    (loadUntyped a.securitySchemes v).map fun m => { a with securitySchemes := m }
  else if k.value = "baseUriParameters" then
    (loadUntyped a.baseURIParameters v).map fun m => { a with baseURIParameters := m }
  else if k.value = "traits" then (loadUntyped a.traits v).map fun m => { a with traits := m }
  else if k.value = "annotationTypes" then
    (loadUntyped a.annotationTypes v).map fun m => { a with annotationTypes := m }
  else if k.value = "resourceTypes" then
    (loadUntyped a.resourceTypes v).map fun m => { a with resourceTypes := m }
  else if k.value = "types" ∨ k.value = "schemas" then
    (loadTypes X v a.types).map fun m => { a with types := m }
  else a.putExtra X k v

/-- `APISpec.assign` (APISpec.go:372-447). -/
def APISpec.assign (X : Xyml) (k v : Node) (a : APISpec) : Res APISpec :=
  if !k.isStr then a.putExtra X k v
  else match firstChar k.value with
  | none => .panic .emptyKey
  | some c =>
    if c = '(' then
      (loadAnn v).map fun x => { a with annotations := a.annotations.put k.value x }
    else if c = '/' then .ok { a with resources := a.resources.put k.value v }
    else a.assignKey X k v

/-- `APISpec.UnmarshalYAML` (APISpec.go:352-354). -/
def APISpec.unmarshal (X : Xyml) (v : Node) (a : APISpec) : Res APISpec :=
  mapForEach (APISpec.assign X) v a

/-- `rparse.ParseApiDoc` (v0/pkg/raml/rparse/parse-api.go:11-20) on a document whose YAML text
has been read into a node.  Simplification: the YAML reader itself is not modelled. -/
def parseApi (X : Xyml) (v : Node) : Res APISpec := APISpec.new.unmarshal X v

/-! ### Libraries -/

/-- `Library` (Library.go:26-36). -/
structure Library where
  annotations : OM String Ann
  annotationTypes : OM String Node
  extra : OM Scalar Node
  uses : OM String String
  resourceTypes : OM String Node
  securitySchemes : OM String Node
  traits : OM String Node
  types : OM String DT
  usage : Option String

/-- `NewLibrary` (Library.go:13-24). -/
def Library.new : Library :=
  { annotations := OM.empty false, annotationTypes := OM.empty false, extra := OM.empty false,
    uses := OM.empty false, resourceTypes := OM.empty false, securitySchemes := OM.empty false,
    traits := OM.empty false, types := OM.empty false, usage := none }

/-- `Library.MarshalYAML` (Library.go:174-210), the map before `ToYAML`. -/
def Library.marshal (X : Xyml) (l : Library) : OM Scalar Node :=
  let out := (OM.empty false : OM Scalar Node).putOpt (.str "usage") (l.usage.map .str)
  let out := out.putOpt (.str "uses") (ifNonEmpty l.uses (renderStrMap .str l.uses))
  let out := out.putOpt (.str "securitySchemes")
    (ifNonEmpty l.securitySchemes (renderStrMap id l.securitySchemes))
  let out := out.putOpt (.str "traits") (ifNonEmpty l.traits (renderStrMap id l.traits))
  let out := out.putOpt (.str "annotationTypes")
    (ifNonEmpty l.annotationTypes (renderStrMap id l.annotationTypes))
  let out := out.putAll (annEnts l.annotations)
  let out := out.putOpt (.str "resourceTypes")
    (ifNonEmpty l.resourceTypes (renderStrMap id l.resourceTypes))
  let out := out.putAll l.extra.ents
  out.putOpt (.str "types") (ifNonEmpty l.types (typeMapNode X l.types))

/-- What a library is written as: the map returned by `MarshalYAML` (Library.go:209) is encoded
through its own `MarshalYAML` (AnyMap.go:114-116). -/
def Library.toYAML (X : Xyml) (l : Library) : Node := renderAny X (l.marshal X)

/-- `UnmarshalAnnotationMapRAML` (util-ann-map.go:11-27). -/
def loadAnns (m : OM String Ann) (v : Node) : Res (OM String Ann) :=
  mapForEach (fun k v m => (asString k).bind fun s => (loadAnn v).map fun a => m.put s a) v m

/-- The tail of `Library.assign` (Library.go:239-243). -/
def Library.putExtra (X : Xyml) (k v : Node) (l : Library) : Res Library :=
  (asScalar X k).map fun s => { l with extra := l.extra.put s v }

/-- `Library.assign` (Library.go:212-246). -/
def Library.assign (X : Xyml) (k v : Node) (l : Library) : Res Library :=
  if k.value = "annotationTypes" then
    (loadAnns l.annotations v).map fun m => { l with annotations := m }
  else if k.value = "resourceTypes" then
    (loadUntyped l.resourceTypes v).map fun m => { l with resourceTypes := m }
  else if k.value = "types" ∨ k.value = "schemas" then
    (loadTypes X v l.types).map fun m => { l with types := m }
  else if k.value = "traits" then (loadUntyped l.traits v).map fun m => { l with traits := m }
  else if k.value = "uses" then (loadStrings l.uses v).map fun m => { l with uses := m }
  else if k.value = "usage" then (asString v).map fun s => { l with usage := some s }
  else if k.value = "securitySchemes" then
    (loadUntyped l.securitySchemes v).map fun m => { l with securitySchemes := m }
  else if k.isStr then match firstChar k.value with
    | none => .panic .emptyKey
    | some c =>
      if c = '(' then
        (loadAnn v).map fun x => { l with annotations := l.annotations.put k.value x }
      else l.putExtra X k v
  else l.putExtra X k v

/-- `Library.UnmarshalYAML` (Library.go:170-172). -/
def Library.unmarshal (X : Xyml) (v : Node) (l : Library) : Res Library :=
  mapForEach (Library.assign X) v l

/-- `rparse.ParseLibrary` (v0/pkg/raml/rparse/parse-lib.go:10-19); `none` is an input without a
document (`io.EOF`), which is tolerated. -/
def parseLibrary (X : Xyml) : Option Node → Res Library
  | none => .ok Library.new
  | some v => Library.new.unmarshal X v

/-! ### Setters -/

/-- The setters of `APISpec` (APISpec.go:54-295).  A nil map argument is `none`.  Simplification:
maps are values here; in Go the stored map is shared with the caller. -/
inductive ApiOp where
  | setTitle (s : String)
  | setDescription (s : String) | unsetDescription
  | setVersion (s : String) | unsetVersion
  | setBaseURI (s : String) | unsetBaseURI
  | setProtocols (l : Option (List String)) | unsetProtocols
  | setMediaTypes (l : Option (List String)) | unsetMediaTypes
  | setDocumentation (l : Option (List Documentation)) | unsetDocumentation
  | setTypes (m : Option (OM String DT)) | unsetTypes
  | setSchemas (m : Option (OM String DT)) | unsetSchemas
  | setTraits (m : Option (OM String Node)) | unsetTraits
  | setResourceTypes (m : Option (OM String Node)) | unsetResourceTypes
  | setAnnotationTypes (m : Option (OM String Node)) | unsetAnnotationTypes
  | setAnnotations (m : Option (OM String Ann)) | unsetAnnotations
  | setSecuritySchemes (m : Option (OM String Node)) | unsetSecuritySchemes
  | setSecuredBy (l : Option (List String)) | unsetSecuredBy
  | setUses (m : Option (OM String String)) | unsetUses

/-- `if m == nil { return a.UnsetX() }; a.x = m`, and `UnsetX` installs `New*Map(0)`, whose
output flag is true (e.g. APISpec.go:151-162). -/
def orFresh {K V : Type} : Option (OM K V) → OM K V
  | some m => m
  | none => OM.empty true

/-- One setter call (APISpec.go:54-295). -/
def APISpec.apply (a : APISpec) : ApiOp → APISpec
  | .setTitle s => { a with title := s }
  | .setDescription s => { a with description := some s }
  | .unsetDescription => { a with description := none }
  | .setVersion s => { a with version := some s }
  | .unsetVersion => { a with version := none }
  | .setBaseURI s => { a with baseURI := some s }
  | .unsetBaseURI => { a with baseURI := none }
  | .setProtocols l => { a with protocols := l }
  | .unsetProtocols => { a with protocols := none }
  | .setMediaTypes l => { a with mediaType := l }
  | .unsetMediaTypes => { a with mediaType := none }
  | .setDocumentation l => { a with documentation := l }
  | .unsetDocumentation => { a with documentation := none }
  | .setTypes m => { a with types := orFresh m }
  | .unsetTypes => { a with types := OM.empty true }
  | .setSchemas m => { a with types := orFresh m }
  | .unsetSchemas => { a with types := OM.empty true }
  | .setTraits m => { a with traits := orFresh m }
  | .unsetTraits => { a with traits := OM.empty true }
  | .setResourceTypes m => { a with resourceTypes := orFresh m }
  | .unsetResourceTypes => { a with resourceTypes := OM.empty true }
  | .setAnnotationTypes m => { a with annotationTypes := orFresh m }
  | .unsetAnnotationTypes => { a with annotationTypes := OM.empty true }
  | .setAnnotations m => { a with annotations := orFresh m }
  | .unsetAnnotations => { a with annotations := OM.empty true }
  | .setSecuritySchemes m => { a with securitySchemes := orFresh m }
  | .unsetSecuritySchemes => { a with securitySchemes := OM.empty true }
  | .setSecuredBy l => { a with securedBy := l }
  | .unsetSecuredBy => { a with securedBy := none }
  | .setUses m => { a with uses := orFresh m }
  | .unsetUses => { a with uses := OM.empty true }

/-- The setters of `Library` (Library.go:42-159). -/
inductive LibOp where
  | setAnnotations (m : Option (OM String Ann)) | unsetAnnotations
  | setUses (m : Option (OM String String)) | unsetUses
  | setResourceTypes (m : Option (OM String Node)) | unsetResourceTypes
  | setTraits (m : Option (OM String Node)) | unsetTraits
  | setTypes (m : Option (OM String DT)) | unsetTypes
  | setSchemas (m : Option (OM String DT)) | unsetSchemas
  | setUsage (s : String) | unsetUsage

/-- One setter call (Library.go:42-159). -/
def Library.apply (l : Library) : LibOp → Library
  | .setAnnotations m => { l with annotations := orFresh m }
  | .unsetAnnotations => { l with annotations := OM.empty true }
  | .setUses m => { l with uses := orFresh m }
  | .unsetUses => { l with uses := OM.empty true }
  | .setResourceTypes m => { l with resourceTypes := orFresh m }
  | .unsetResourceTypes => { l with resourceTypes := OM.empty true }
  | .setTraits m => { l with traits := orFresh m }
  | .unsetTraits => { l with traits := OM.empty true }
  | .setTypes m => { l with types := orFresh m }
  | .unsetTypes => { l with types := OM.empty true }
  | .setSchemas m => { l with types := orFresh m }
  | .unsetSchemas => { l with types := OM.empty true }
  | .setUsage s => { l with usage := some s }
  | .unsetUsage => { l with usage := none }

/-! ### WriteRAML -/

/-- An `io.Writer` with state: takes a chunk, says whether it succeeded.  A failing call may have
consumed some bytes; that is part of the new state. -/
structure Writer (σ : Type) where
  write : σ → String → Bool × σ

/-- Write chunks in turn, stop at the first failure (the YAML encoder's flush, assumed). -/
def Writer.writeAll {σ : Type} (w : Writer σ) : List String → σ → Bool × σ
  | [], s => (true, s)
  | c :: cs, s =>
    match w.write s c with
    | (true, s') => w.writeAll cs s'
    | (false, s') => (false, s')

/-- `rmeta.HeaderLibrary` (v0/pkg/raml/rmeta/headers.go:6-12). -/
def headerLibrary : String := "#%RAML 1.0 Library\n---\n"

/-- `Library.WriteRAML` (Library.go:161-168); `enc` is the text the YAML encoder emits for a
node, in the chunks in which it writes it. -/
def Library.writeRAML {σ : Type} (X : Xyml) (enc : Node → List String) (w : Writer σ)
    (l : Library) (s : σ) : Bool × σ :=
  match w.write s headerLibrary with
  | (true, s') => w.writeAll (enc (l.toYAML X)) s'
  | (false, s') => (false, s')

/-- `APISpec.WriteRAML` (APISpec.go:356-370); `enc` emits a document with a head comment. -/
def APISpec.writeRAML {σ : Type} (X : Xyml) (enc : String → Node → List String) (w : Writer σ)
    (a : APISpec) (s : σ) : Bool × σ :=
  w.writeAll (enc "#%RAML 1.0" (a.toYAML X)) s

end Verif.Doc
