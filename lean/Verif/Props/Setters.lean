import Verif.Doc.ApiLemmas
import Verif.Doc.Laws

/-! # C42: setters and getters of API documents and libraries -/

namespace Verif.Props
open Verif Verif.Doc Verif.Doc.Spec

/-- What a setter argument means for a map property: nil means the fresh empty map of
`New*Map(0)`, whose output flag is set. -/
def argMap {K V : Type} (m : Option (OM K V)) : OM K V := m.getD ⟨[], true⟩

/-- The value that a setter call asks for in a property; `none` if the call is not about that
property. -/
def asked : (s : ApiSection) → ApiOp → Option s.Ty
  | .title, .setTitle x => some x
  | .description, .setDescription x => some (some x)
  | .description, .unsetDescription => some none
  | .version, .setVersion x => some (some x)
  | .version, .unsetVersion => some none
  | .baseUri, .setBaseURI x => some (some x)
  | .baseUri, .unsetBaseURI => some none
  | .protocols, .setProtocols l => some l
  | .protocols, .unsetProtocols => some none
  | .mediaType, .setMediaTypes l => some l
  | .mediaType, .unsetMediaTypes => some none
  | .documentation, .setDocumentation l => some l
  | .documentation, .unsetDocumentation => some none
  | .securedBy, .setSecuredBy l => some l
  | .securedBy, .unsetSecuredBy => some none
  | .types, .setTypes m => some (argMap m)
  | .types, .unsetTypes => some (argMap none)
  | .types, .setSchemas m => some (argMap m)
  | .types, .unsetSchemas => some (argMap none)
  | .traits, .setTraits m => some (argMap m)
  | .traits, .unsetTraits => some (argMap none)
  | .resourceTypes, .setResourceTypes m => some (argMap m)
  | .resourceTypes, .unsetResourceTypes => some (argMap none)
  | .annotationTypes, .setAnnotationTypes m => some (argMap m)
  | .annotationTypes, .unsetAnnotationTypes => some (argMap none)
  | .annotations, .setAnnotations m => some (argMap m)
  | .annotations, .unsetAnnotations => some (argMap none)
  | .securitySchemes, .setSecuritySchemes m => some (argMap m)
  | .securitySchemes, .unsetSecuritySchemes => some (argMap none)
  | .uses, .setUses m => some (argMap m)
  | .uses, .unsetUses => some (argMap none)
  | _, _ => none

private theorem asked_apply (s : ApiSection) (op : ApiOp) (a : APISpec) :
    apiGet s (a.apply op) = (asked s op).getD (apiGet s a) := by
  cases op <;> cases s <;> first
    | rfl
    | (rename_i m; cases m <;> rfl)

/-- C42: after any history of setter calls each getter reports the last value asked for, and
what it reported before if there was no call for that property. -/
theorem C42_last_call_wins (a : APISpec) (ops : List ApiOp) (s : ApiSection) :
    apiGet s (ops.foldl APISpec.apply a) =
      (ops.reverse.findSome? (asked s)).getD (apiGet s a) := by
  induction ops generalizing a with
  | nil => rfl
  | cons op ops ih =>
    rw [List.foldl_cons, ih, List.reverse_cons, List.findSome?_append, asked_apply]
    cases ops.reverse.findSome? (asked s) with
    | some x => rfl
    | none =>
      cases h : asked s op <;> simp [h]

/-- C42: calls for other properties have no effect. -/
theorem C42_other_properties (a : APISpec) (ops : List ApiOp) (s : ApiSection)
    (h : ∀ op ∈ ops, asked s op = none) :
    apiGet s (ops.foldl APISpec.apply a) = apiGet s a := by
  rw [C42_last_call_wins]
  have : ops.reverse.findSome? (asked s) = none := by
    rw [List.findSome?_eq_none_iff]
    intro op hop
    exact h op (by simpa using hop)
  rw [this]; rfl

/-- C42: the `Schemas` setters do exactly what the `Types` setters do. -/
theorem C42_schemas_alias (a : APISpec) (m : Option (OM String DT)) :
    a.apply (.setSchemas m) = a.apply (.setTypes m) ∧
    a.apply .unsetSchemas = a.apply .unsetTypes := ⟨rfl, rfl⟩

/-- C42: every setter is about exactly one property, so no call is without effect and none
touches two. -/
theorem C42_one_property (op : ApiOp) : ∃ s x, asked s op = some x ∧
    ∀ s', s' ≠ s → asked s' op = none := by
  have one : ∀ s x, asked s op = some x → (∀ s', s' ≠ s → asked s' op = none) →
      ∃ s x, asked s op = some x ∧ ∀ s', s' ≠ s → asked s' op = none :=
    fun s x h1 h2 => ⟨s, x, h1, h2⟩
  cases op <;> first
    | exact one .title _ rfl fun s' h => by cases s' <;> first | rfl | exact absurd rfl h
    | exact one .description _ rfl fun s' h => by cases s' <;> first | rfl | exact absurd rfl h
    | exact one .version _ rfl fun s' h => by cases s' <;> first | rfl | exact absurd rfl h
    | exact one .baseUri _ rfl fun s' h => by cases s' <;> first | rfl | exact absurd rfl h
    | exact one .protocols _ rfl fun s' h => by cases s' <;> first | rfl | exact absurd rfl h
    | exact one .mediaType _ rfl fun s' h => by cases s' <;> first | rfl | exact absurd rfl h
    | exact one .documentation _ rfl fun s' h => by cases s' <;> first | rfl | exact absurd rfl h
    | exact one .securedBy _ rfl fun s' h => by cases s' <;> first | rfl | exact absurd rfl h
    | exact one .types _ rfl fun s' h => by cases s' <;> first | rfl | exact absurd rfl h
    | exact one .traits _ rfl fun s' h => by cases s' <;> first | rfl | exact absurd rfl h
    | exact one .resourceTypes _ rfl fun s' h => by cases s' <;> first | rfl | exact absurd rfl h
    | exact one .annotationTypes _ rfl fun s' h => by cases s' <;> first | rfl | exact absurd rfl h
    | exact one .annotations _ rfl fun s' h => by cases s' <;> first | rfl | exact absurd rfl h
    | exact one .securitySchemes _ rfl fun s' h => by cases s' <;> first | rfl | exact absurd rfl h
    | exact one .uses _ rfl fun s' h => by cases s' <;> first | rfl | exact absurd rfl h

/-- A history with interleaved calls: the title set twice, types unset in between. -/
example : let a := [ApiOp.setTitle "a", .setVersion "1", .unsetTypes, .setTitle "b",
      .unsetVersion, .setUses none].foldl APISpec.apply APISpec.new
    a.title = "b" ∧ a.version = none ∧ a.types.omap = true ∧ a.uses.omap = true ∧
      a.traits.omap = false := by decide

/-- The value that a setter call on a library asks for in a property. -/
def libAsked : (s : LibSection) → LibOp → Option s.Ty
  | .usage, .setUsage x => some (some x)
  | .usage, .unsetUsage => some none
  | .uses, .setUses m => some (argMap m)
  | .uses, .unsetUses => some (argMap none)
  | .resourceTypes, .setResourceTypes m => some (argMap m)
  | .resourceTypes, .unsetResourceTypes => some (argMap none)
  | .traits, .setTraits m => some (argMap m)
  | .traits, .unsetTraits => some (argMap none)
  | .types, .setTypes m => some (argMap m)
  | .types, .unsetTypes => some (argMap none)
  | .types, .setSchemas m => some (argMap m)
  | .types, .unsetSchemas => some (argMap none)
  | .annotations, .setAnnotations m => some (argMap m)
  | .annotations, .unsetAnnotations => some (argMap none)
  | _, _ => none

private theorem libAsked_apply (s : LibSection) (op : LibOp) (a : Library) :
    libGet s (a.apply op) = (libAsked s op).getD (libGet s a) := by
  cases op <;> cases s <;> first
    | rfl
    | (rename_i m; cases m <;> rfl)

/-- C42 for libraries.  There is no setter for `annotationTypes`. -/
theorem C42_library_last_call_wins (a : Library) (ops : List LibOp) :
    (∀ s, libGet s (ops.foldl Library.apply a) =
      (ops.reverse.findSome? (libAsked s)).getD (libGet s a)) ∧
    (ops.foldl Library.apply a).annotationTypes = a.annotationTypes := by
  induction ops generalizing a with
  | nil => exact ⟨fun _ => rfl, rfl⟩
  | cons op ops ih =>
    refine ⟨fun s => ?_, ?_⟩
    · rw [List.foldl_cons, (ih _).1, List.reverse_cons, List.findSome?_append, libAsked_apply]
      cases ops.reverse.findSome? (libAsked s) with
      | some x => rfl
      | none => cases h : libAsked s op <;> simp [h]
    · rw [List.foldl_cons, (ih _).2]
      cases op <;> rfl

example : let l := [LibOp.setUsage "u", .unsetTraits, .setUsage "v"].foldl Library.apply Library.new
    l.usage = some "v" ∧ l.traits.omap = true := by decide

end Verif.Props
