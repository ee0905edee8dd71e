import Verif.Doc.WriteSpec
import Verif.Doc.ApiSpec

/-!
# What can be written and read back: API documents and libraries

As in `Verif/Doc/WriteSpec.lean`: neither the parser nor the writer is used.
-/

namespace Verif.Doc.Spec
open Verif Verif.Doc

/-! ### API documents -/

/-- The keys under which the parts of an API document are written (`schemas` is only read). -/
def apiWriteKeys : List String :=
  ["title", "version", "baseUri", "description", "protocols", "mediaType", "documentation",
   "securedBy", "uses", "securitySchemes", "baseUriParameters", "traits", "annotationTypes",
   "resourceTypes", "types"]

/-- No two things of an API document are written under the same key. -/
structure CleanApi (a : APISpec) : Prop where
  extra : Distinct a.extra.ents
  extraKeys : ∀ p ∈ a.extra.ents, ∀ s, p.1 = .str s →
    s ∉ apiWriteKeys ∧ s.toList.head? ≠ some '(' ∧ s.toList.head? ≠ some '/'
  annotations : Distinct a.annotations.ents
  annotationKeys : ∀ e ∈ a.annotations.ents, e.1.toList.head? = some '('
  resources : Distinct a.resources.ents
  resourceKeys : ∀ e ∈ a.resources.ents, e.1.toList.head? = some '/'

/-- A dictionary that is written as a plain mapping, if it is written. -/
def WritableMap {V : Type} (m : OM String V) : Prop :=
  (m.ents ≠ [] → m.omap = false) ∧ Distinct m.ents

/-- API documents whose written form can be read back. -/
structure WritableApi (a : APISpec) : Prop where
  clean : CleanApi a
  extraKeys : ∀ p ∈ a.extra.ents, ∀ s, p.1 = .str s → s ≠ "" ∧ s ≠ "schemas"
  uses : WritableMap a.uses
  securitySchemes : WritableMap a.securitySchemes
  baseURIParameters : WritableMap a.baseURIParameters
  traits : WritableMap a.traits
  annotationTypes : WritableMap a.annotationTypes
  resourceTypes : WritableMap a.resourceTypes
  types : WritableMap a.types
  typesEach : ∀ e ∈ a.types.ents, Writable e.2
  annotations : WritableAnns a.annotations

/-- A dictionary as read back. -/
def plainMap {K V : Type} (m : OM K V) : OM K V := ⟨m.ents, false⟩

/-- An API document as read back: documentation entries are lost, an empty list of them is no
list, dictionaries are plain. -/
def canonApi (a : APISpec) : APISpec :=
  { title := a.title
    description := a.description
    version := a.version
    baseURI := a.baseURI
    baseURIParameters := plainMap a.baseURIParameters
    protocols := a.protocols
    mediaType := a.mediaType
    documentation := match a.documentation with
      | some (d :: ds) => some ((d :: ds).map fun _ => Documentation.new)
      | _ => none
    types := canonTypes false a.types
    traits := plainMap a.traits
    resourceTypes := plainMap a.resourceTypes
    annotationTypes := plainMap a.annotationTypes
    annotations := canonAnns false a.annotations
    securitySchemes := plainMap a.securitySchemes
    securedBy := a.securedBy
    uses := plainMap a.uses
    resources := plainMap a.resources
    extra := plainMap a.extra }

/-- API documents that come back unchanged: no documentation entries and annotations, plain
types, all dictionaries as `NewApiSpec` makes them. -/
structure PlainApi (a : APISpec) : Prop where
  extraFlag : a.extra.omap = false
  extra : Distinct a.extra.ents
  extraKeys : ∀ p ∈ a.extra.ents, ∀ s, p.1 = .str s →
    s ∉ apiKeys.map Prod.fst ∧ s ≠ "" ∧ s.toList.head? ≠ some '(' ∧ s.toList.head? ≠ some '/'
  resourcesFlag : a.resources.omap = false
  resources : Distinct a.resources.ents
  resourceKeys : ∀ e ∈ a.resources.ents, e.1.toList.head? = some '/'
  uses : a.uses.omap = false ∧ Distinct a.uses.ents
  securitySchemes : a.securitySchemes.omap = false ∧ Distinct a.securitySchemes.ents
  baseURIParameters : a.baseURIParameters.omap = false ∧ Distinct a.baseURIParameters.ents
  traits : a.traits.omap = false ∧ Distinct a.traits.ents
  annotationTypes : a.annotationTypes.omap = false ∧ Distinct a.annotationTypes.ents
  resourceTypes : a.resourceTypes.omap = false ∧ Distinct a.resourceTypes.ents
  types : a.types.omap = false ∧ Distinct a.types.ents
  typesEach : ∀ e ∈ a.types.ents, Plain e.2
  annotations : a.annotations = OM.empty false
  documentation : a.documentation = none

/-! ### Libraries -/

/-- The keys under which the parts of a library are written. -/
def libWriteKeys : List String :=
  ["usage", "uses", "securitySchemes", "traits", "annotationTypes", "resourceTypes", "types"]

/-- No two things of a library are written under the same key. -/
structure CleanLib (l : Library) : Prop where
  extra : Distinct l.extra.ents
  extraKeys : ∀ p ∈ l.extra.ents, ∀ s, p.1 = .str s →
    s ∉ libWriteKeys ∧ s.toList.head? ≠ some '('
  annotations : Distinct l.annotations.ents
  annotationKeys : ∀ e ∈ l.annotations.ents, e.1.toList.head? = some '('

/-- Libraries whose written form can be read back.  Annotation types are read into the
annotations (C44), so they must be absent. -/
structure WritableLib (l : Library) : Prop where
  clean : CleanLib l
  extraKeys : ∀ p ∈ l.extra.ents, ∀ s, p.1 = .str s → s ≠ "" ∧ s ≠ "schemas"
  uses : WritableMap l.uses
  securitySchemes : WritableMap l.securitySchemes
  traits : WritableMap l.traits
  annotationTypes : l.annotationTypes.ents = []
  resourceTypes : WritableMap l.resourceTypes
  types : WritableMap l.types
  typesEach : ∀ e ∈ l.types.ents, Writable e.2
  annotations : WritableAnns l.annotations

/-- A library as read back. -/
def canonLib (l : Library) : Library :=
  { annotations := canonAnns false l.annotations
    annotationTypes := OM.empty false
    extra := plainMap l.extra
    uses := plainMap l.uses
    resourceTypes := plainMap l.resourceTypes
    securitySchemes := plainMap l.securitySchemes
    traits := plainMap l.traits
    types := canonTypes false l.types
    usage := l.usage }

/-- Libraries that come back unchanged. -/
structure PlainLib (l : Library) : Prop where
  extraFlag : l.extra.omap = false
  extra : Distinct l.extra.ents
  extraKeys : ∀ p ∈ l.extra.ents, ∀ s, p.1 = .str s →
    s ∉ libKeys.map Prod.fst ∧ s ≠ "" ∧ s.toList.head? ≠ some '('
  uses : l.uses.omap = false ∧ Distinct l.uses.ents
  securitySchemes : l.securitySchemes.omap = false ∧ Distinct l.securitySchemes.ents
  traits : l.traits.omap = false ∧ Distinct l.traits.ents
  annotationTypes : l.annotationTypes = OM.empty false
  resourceTypes : l.resourceTypes.omap = false ∧ Distinct l.resourceTypes.ents
  types : l.types.omap = false ∧ Distinct l.types.ents
  typesEach : ∀ e ∈ l.types.ents, Plain e.2
  annotations : l.annotations = OM.empty false

end Verif.Doc.Spec
