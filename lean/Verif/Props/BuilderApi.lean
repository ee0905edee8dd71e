import Verif.Props.BuilderRoundTrip
import Verif.Props.ApiRoundTrip
import Verif.Props.Setters

/-! # C60: an API document or library built with setters is read back as it was built -/

namespace Verif.Props
open Verif Verif.Doc Verif.Doc.Spec

/-! ### Acceptable arguments -/

/-- A plain map without duplicates (which no map has). -/
def PlainMap {K V : Type} (m : OM K V) : Prop := m.omap = false ∧ Distinct m.ents

/-- A plain map of types that can be read back. -/
def GoodTypes (m : OM String DT) : Prop := PlainMap m ∧ ∀ e ∈ m.ents, Writable e.2

/-- Extra entries of an API document that no part of it claims. -/
def GoodApiExtra (m : OM Scalar Node) : Prop :=
  m.omap = false ∧ Distinct m.ents ∧ ∀ p ∈ m.ents, ∀ s, p.1 = .str s →
    s ∉ apiKeys.map Prod.fst ∧ s ≠ "" ∧ s.toList.head? ≠ some '(' ∧ s.toList.head? ≠ some '/'

/-- Resources: names start with a slash. -/
def GoodResources (m : OM String Node) : Prop :=
  PlainMap m ∧ ∀ e ∈ m.ents, e.1.toList.head? = some '/'

/-- The argument of a map setter: not nil (C40 says why) and acceptable. -/
def Given {K V : Type} (P : OM K V → Prop) (o : Option (OM K V)) : Prop := ∃ m, o = some m ∧ P m

/-- An edit of a live map that keeps it acceptable. -/
def Keeps {K V : Type} (P : OM K V → Prop) (f : OM K V → OM K V) : Prop := ∀ m, P m → P (f m)

/-- Calls on an API document with arguments that can be written and read back. -/
def GoodApiCall : ApiCall → Prop
  | .set (.setTypes m) | .set (.setSchemas m) => Given GoodTypes m
  | .set (.setTraits m) | .set (.setResourceTypes m) | .set (.setAnnotationTypes m)
  | .set (.setSecuritySchemes m) => Given PlainMap m
  | .set (.setUses m) => Given PlainMap m
  | .set (.setAnnotations m) => ∀ x, m = some x → WritableAnns x
  | .set .unsetTypes | .set .unsetSchemas | .set .unsetTraits | .set .unsetResourceTypes
  | .set .unsetAnnotationTypes | .set .unsetSecuritySchemes | .set .unsetUses => False
  | .types f => Keeps GoodTypes f
  | .traits f | .resourceTypes f | .annotationTypes f | .securitySchemes f
  | .baseURIParameters f => Keeps PlainMap f
  | .resources f => Keeps GoodResources f
  | .annotations f => Keeps WritableAnns f
  | .uses f => Keeps PlainMap f
  | .extra f => Keeps GoodApiExtra f
  | _ => True

structure GoodApi (a : APISpec) : Prop where
  extra : GoodApiExtra a.extra
  resources : GoodResources a.resources
  uses : PlainMap a.uses
  securitySchemes : PlainMap a.securitySchemes
  baseURIParameters : PlainMap a.baseURIParameters
  traits : PlainMap a.traits
  annotationTypes : PlainMap a.annotationTypes
  resourceTypes : PlainMap a.resourceTypes
  types : GoodTypes a.types
  annotations : WritableAnns a.annotations

theorem apiWriteKeys_sub : ∀ s ∈ apiWriteKeys, s ∈ apiKeys.map Prod.fst := by decide

theorem PlainMap.writable {V : Type} {m : OM String V} (h : PlainMap m) : WritableMap m :=
  ⟨fun _ => h.1, h.2⟩

theorem GoodApi.writable {a : APISpec} (h : GoodApi a) : WritableApi a where
  clean :=
    { extra := h.extra.2.1
      extraKeys := fun p hp s hs =>
        have := h.extra.2.2 p hp s hs
        ⟨fun hm => this.1 (apiWriteKeys_sub s hm), this.2.2.1, this.2.2.2⟩
      annotations := h.annotations.1
      annotationKeys := fun e he => (h.annotations.2 e he).1
      resources := h.resources.1.2
      resourceKeys := h.resources.2 }
  extraKeys := fun p hp s hs =>
    have := h.extra.2.2 p hp s hs
    ⟨this.2.1, fun he => this.1 (by rw [he]; decide)⟩
  uses := h.uses.writable
  securitySchemes := h.securitySchemes.writable
  baseURIParameters := h.baseURIParameters.writable
  traits := h.traits.writable
  annotationTypes := h.annotationTypes.writable
  resourceTypes := h.resourceTypes.writable
  types := h.types.1.writable
  typesEach := h.types.2
  annotations := h.annotations

theorem plainMap_empty {K V : Type} : PlainMap (OM.empty false : OM K V) := ⟨rfl, List.nodup_nil⟩

theorem writableAnns_empty (b : Bool) : WritableAnns (OM.empty b) := ⟨List.nodup_nil, nofun⟩

theorem goodApi_new : GoodApi APISpec.new where
  extra := ⟨rfl, List.nodup_nil, nofun⟩
  resources := ⟨plainMap_empty, nofun⟩
  uses := plainMap_empty
  securitySchemes := plainMap_empty
  baseURIParameters := plainMap_empty
  traits := plainMap_empty
  annotationTypes := plainMap_empty
  resourceTypes := plainMap_empty
  types := ⟨plainMap_empty, nofun⟩
  annotations := writableAnns_empty _

theorem goodApi_call {a : APISpec} {c : ApiCall} (h : GoodApi a) (hc : GoodApiCall c) :
    GoodApi (a.call c) := by
  obtain ⟨h1, h2, h3, h4, h5, h6, h7, h8, h9, h10⟩ := h
  cases c with
  | set op =>
    cases op
    case setTypes m => obtain ⟨x, rfl, hx⟩ := hc; exact ⟨h1, h2, h3, h4, h5, h6, h7, h8, hx, h10⟩
    case setSchemas m => obtain ⟨x, rfl, hx⟩ := hc; exact ⟨h1, h2, h3, h4, h5, h6, h7, h8, hx, h10⟩
    case setTraits m => obtain ⟨x, rfl, hx⟩ := hc; exact ⟨h1, h2, h3, h4, h5, hx, h7, h8, h9, h10⟩
    case setResourceTypes m =>
      obtain ⟨x, rfl, hx⟩ := hc; exact ⟨h1, h2, h3, h4, h5, h6, h7, hx, h9, h10⟩
    case setAnnotationTypes m =>
      obtain ⟨x, rfl, hx⟩ := hc; exact ⟨h1, h2, h3, h4, h5, h6, hx, h8, h9, h10⟩
    case setSecuritySchemes m =>
      obtain ⟨x, rfl, hx⟩ := hc; exact ⟨h1, h2, h3, hx, h5, h6, h7, h8, h9, h10⟩
    case setUses m => obtain ⟨x, rfl, hx⟩ := hc; exact ⟨h1, h2, hx, h4, h5, h6, h7, h8, h9, h10⟩
    case setAnnotations m =>
      cases m with
      | none => exact ⟨h1, h2, h3, h4, h5, h6, h7, h8, h9, writableAnns_empty _⟩
      | some x => exact ⟨h1, h2, h3, h4, h5, h6, h7, h8, h9, hc x rfl⟩
    case unsetAnnotations => exact ⟨h1, h2, h3, h4, h5, h6, h7, h8, h9, writableAnns_empty _⟩
    all_goals first | exact False.elim hc | exact ⟨h1, h2, h3, h4, h5, h6, h7, h8, h9, h10⟩
  | types f => exact ⟨h1, h2, h3, h4, h5, h6, h7, h8, hc _ h9, h10⟩
  | traits f => exact ⟨h1, h2, h3, h4, h5, hc _ h6, h7, h8, h9, h10⟩
  | resourceTypes f => exact ⟨h1, h2, h3, h4, h5, h6, h7, hc _ h8, h9, h10⟩
  | annotationTypes f => exact ⟨h1, h2, h3, h4, h5, h6, hc _ h7, h8, h9, h10⟩
  | securitySchemes f => exact ⟨h1, h2, h3, hc _ h4, h5, h6, h7, h8, h9, h10⟩
  | baseURIParameters f => exact ⟨h1, h2, h3, h4, hc _ h5, h6, h7, h8, h9, h10⟩
  | resources f => exact ⟨h1, hc _ h2, h3, h4, h5, h6, h7, h8, h9, h10⟩
  | annotations f => exact ⟨h1, h2, h3, h4, h5, h6, h7, h8, h9, hc _ h10⟩
  | uses f => exact ⟨h1, h2, hc _ h3, h4, h5, h6, h7, h8, h9, h10⟩
  | extra f => exact ⟨hc _ h1, h2, h3, h4, h5, h6, h7, h8, h9, h10⟩

theorem goodApi_calls {a : APISpec} {cs : List ApiCall} (h : GoodApi a)
    (hc : ∀ c ∈ cs, GoodApiCall c) : GoodApi (cs.foldl APISpec.call a) := by
  induction cs generalizing a with
  | nil => exact h
  | cons c cs ih =>
    exact ih (goodApi_call h (hc c (by simp))) fun c' h' => hc c' (by simp [h'])

/-- C60: an API document made by `NewAPISpec` and any sequence of calls with acceptable arguments
is written in a form that is read back, as `canonApi` says. -/
theorem C60_api_read_back (X : Xyml) (hX : Lawful X) (cs : List ApiCall)
    (hc : ∀ c ∈ cs, GoodApiCall c) :
    parseApi X ((cs.foldl APISpec.call APISpec.new).toYAML X) =
      .ok (canonApi (cs.foldl APISpec.call APISpec.new)) :=
  C32_read_back X hX _ (goodApi_calls goodApi_new hc).writable

/-- Calls that lose nothing: types that come back unchanged, no annotations, no documentation. -/
def LosslessApiCall : ApiCall → Prop
  | .set (.setTypes m) | .set (.setSchemas m) =>
    Given (fun m => PlainMap m ∧ ∀ e ∈ m.ents, Plain e.2) m
  | .types f => Keeps (fun m => PlainMap m ∧ ∀ e ∈ m.ents, Plain e.2) f
  | .set (.setAnnotations _) | .set .unsetAnnotations | .annotations _ => False
  | .set (.setDocumentation l) => l = none
  | c => GoodApiCall c

structure LosslessApi (a : APISpec) : Prop where
  extra : GoodApiExtra a.extra
  resources : GoodResources a.resources
  uses : PlainMap a.uses
  securitySchemes : PlainMap a.securitySchemes
  baseURIParameters : PlainMap a.baseURIParameters
  traits : PlainMap a.traits
  annotationTypes : PlainMap a.annotationTypes
  resourceTypes : PlainMap a.resourceTypes
  types : PlainMap a.types ∧ ∀ e ∈ a.types.ents, Plain e.2
  annotations : a.annotations = OM.empty false
  documentation : a.documentation = none

theorem losslessApi_call {a : APISpec} {c : ApiCall} (h : LosslessApi a)
    (hc : LosslessApiCall c) : LosslessApi (a.call c) := by
  obtain ⟨h1, h2, h3, h4, h5, h6, h7, h8, h9, h10, h11⟩ := h
  cases c with
  | set op =>
    cases op
    case setTypes m =>
      obtain ⟨x, rfl, hx⟩ := hc; exact ⟨h1, h2, h3, h4, h5, h6, h7, h8, hx, h10, h11⟩
    case setSchemas m =>
      obtain ⟨x, rfl, hx⟩ := hc; exact ⟨h1, h2, h3, h4, h5, h6, h7, h8, hx, h10, h11⟩
    case setTraits m =>
      obtain ⟨x, rfl, hx⟩ := hc; exact ⟨h1, h2, h3, h4, h5, hx, h7, h8, h9, h10, h11⟩
    case setResourceTypes m =>
      obtain ⟨x, rfl, hx⟩ := hc; exact ⟨h1, h2, h3, h4, h5, h6, h7, hx, h9, h10, h11⟩
    case setAnnotationTypes m =>
      obtain ⟨x, rfl, hx⟩ := hc; exact ⟨h1, h2, h3, h4, h5, h6, hx, h8, h9, h10, h11⟩
    case setSecuritySchemes m =>
      obtain ⟨x, rfl, hx⟩ := hc; exact ⟨h1, h2, h3, hx, h5, h6, h7, h8, h9, h10, h11⟩
    case setUses m =>
      obtain ⟨x, rfl, hx⟩ := hc; exact ⟨h1, h2, hx, h4, h5, h6, h7, h8, h9, h10, h11⟩
    case setDocumentation l => exact ⟨h1, h2, h3, h4, h5, h6, h7, h8, h9, h10, hc⟩
    case unsetDocumentation => exact ⟨h1, h2, h3, h4, h5, h6, h7, h8, h9, h10, rfl⟩
    all_goals first
      | exact False.elim hc
      | exact ⟨h1, h2, h3, h4, h5, h6, h7, h8, h9, h10, h11⟩
  | types f => exact ⟨h1, h2, h3, h4, h5, h6, h7, h8, hc _ h9, h10, h11⟩
  | traits f => exact ⟨h1, h2, h3, h4, h5, hc _ h6, h7, h8, h9, h10, h11⟩
  | resourceTypes f => exact ⟨h1, h2, h3, h4, h5, h6, h7, hc _ h8, h9, h10, h11⟩
  | annotationTypes f => exact ⟨h1, h2, h3, h4, h5, h6, hc _ h7, h8, h9, h10, h11⟩
  | securitySchemes f => exact ⟨h1, h2, h3, hc _ h4, h5, h6, h7, h8, h9, h10, h11⟩
  | baseURIParameters f => exact ⟨h1, h2, h3, h4, hc _ h5, h6, h7, h8, h9, h10, h11⟩
  | resources f => exact ⟨h1, hc _ h2, h3, h4, h5, h6, h7, h8, h9, h10, h11⟩
  | annotations f => exact False.elim hc
  | uses f => exact ⟨h1, h2, hc _ h3, h4, h5, h6, h7, h8, h9, h10, h11⟩
  | extra f => exact ⟨hc _ h1, h2, h3, h4, h5, h6, h7, h8, h9, h10, h11⟩

theorem losslessApi_new : LosslessApi APISpec.new where
  extra := ⟨rfl, List.nodup_nil, nofun⟩
  resources := ⟨plainMap_empty, nofun⟩
  uses := plainMap_empty
  securitySchemes := plainMap_empty
  baseURIParameters := plainMap_empty
  traits := plainMap_empty
  annotationTypes := plainMap_empty
  resourceTypes := plainMap_empty
  types := ⟨plainMap_empty, nofun⟩
  annotations := rfl
  documentation := rfl

theorem losslessApi_calls {a : APISpec} {cs : List ApiCall} (h : LosslessApi a)
    (hc : ∀ c ∈ cs, LosslessApiCall c) : LosslessApi (cs.foldl APISpec.call a) := by
  induction cs generalizing a with
  | nil => exact h
  | cons c cs ih =>
    exact ih (losslessApi_call h (hc c (by simp))) fun c' h' => hc c' (by simp [h'])

theorem LosslessApi.plain {a : APISpec} (h : LosslessApi a) : PlainApi a where
  extraFlag := h.extra.1
  extra := h.extra.2.1
  extraKeys := h.extra.2.2
  resourcesFlag := h.resources.1.1
  resources := h.resources.1.2
  resourceKeys := h.resources.2
  uses := h.uses
  securitySchemes := h.securitySchemes
  baseURIParameters := h.baseURIParameters
  traits := h.traits
  annotationTypes := h.annotationTypes
  resourceTypes := h.resourceTypes
  types := h.types.1
  typesEach := h.types.2
  annotations := h.annotations
  documentation := h.documentation

/-- C60: built without annotations and documentation, of types that come back unchanged, the
document comes back exactly as it was built. -/
theorem C60_api_lossless (X : Xyml) (hX : Lawful X) (cs : List ApiCall)
    (hc : ∀ c ∈ cs, LosslessApiCall c) :
    parseApi X ((cs.foldl APISpec.call APISpec.new).toYAML X) =
      .ok (cs.foldl APISpec.call APISpec.new) :=
  C32_lossless X hX _ (losslessApi_calls losslessApi_new hc).plain

/-! ### Libraries -/

/-- Extra entries of a library that no part of it claims. -/
def GoodLibExtra (m : OM Scalar Node) : Prop :=
  m.omap = false ∧ Distinct m.ents ∧ ∀ p ∈ m.ents, ∀ s, p.1 = .str s →
    s ∉ libKeys.map Prod.fst ∧ s ≠ "" ∧ s.toList.head? ≠ some '('

/-- Calls on a library with arguments that can be written and read back.  Annotation types are not
among them (C44). -/
def GoodLibCall : LibCall → Prop
  | .set (.setTypes m) | .set (.setSchemas m) => Given GoodTypes m
  | .set (.setTraits m) | .set (.setResourceTypes m) => Given PlainMap m
  | .set (.setUses m) => Given PlainMap m
  | .set (.setAnnotations m) => ∀ x, m = some x → WritableAnns x
  | .set .unsetTypes | .set .unsetSchemas | .set .unsetTraits | .set .unsetResourceTypes
  | .set .unsetUses => False
  | .types f => Keeps GoodTypes f
  | .traits f | .resourceTypes f | .securitySchemes f => Keeps PlainMap f
  | .annotationTypes _ => False
  | .annotations f => Keeps WritableAnns f
  | .uses f => Keeps PlainMap f
  | .extra f => Keeps GoodLibExtra f
  | _ => True

structure GoodLib (l : Library) : Prop where
  extra : GoodLibExtra l.extra
  uses : PlainMap l.uses
  securitySchemes : PlainMap l.securitySchemes
  traits : PlainMap l.traits
  annotationTypes : l.annotationTypes = OM.empty false
  resourceTypes : PlainMap l.resourceTypes
  types : GoodTypes l.types
  annotations : WritableAnns l.annotations

theorem libWriteKeys_sub : ∀ s ∈ libWriteKeys, s ∈ libKeys.map Prod.fst := by decide

theorem GoodLib.writable {l : Library} (h : GoodLib l) : WritableLib l where
  clean :=
    { extra := h.extra.2.1
      extraKeys := fun p hp s hs =>
        have := h.extra.2.2 p hp s hs
        ⟨fun hm => this.1 (libWriteKeys_sub s hm), this.2.2⟩
      annotations := h.annotations.1
      annotationKeys := fun e he => (h.annotations.2 e he).1 }
  extraKeys := fun p hp s hs =>
    have := h.extra.2.2 p hp s hs
    ⟨this.2.1, fun he => this.1 (by rw [he]; decide)⟩
  uses := h.uses.writable
  securitySchemes := h.securitySchemes.writable
  traits := h.traits.writable
  annotationTypes := by rw [h.annotationTypes]; rfl
  resourceTypes := h.resourceTypes.writable
  types := h.types.1.writable
  typesEach := h.types.2
  annotations := h.annotations

theorem goodLib_new : GoodLib Library.new where
  extra := ⟨rfl, List.nodup_nil, nofun⟩
  uses := plainMap_empty
  securitySchemes := plainMap_empty
  traits := plainMap_empty
  annotationTypes := rfl
  resourceTypes := plainMap_empty
  types := ⟨plainMap_empty, nofun⟩
  annotations := writableAnns_empty _

theorem goodLib_call {l : Library} {c : LibCall} (h : GoodLib l) (hc : GoodLibCall c) :
    GoodLib (l.call c) := by
  obtain ⟨h1, h2, h3, h4, h5, h6, h7, h8⟩ := h
  cases c with
  | set op =>
    cases op
    case setTypes m => obtain ⟨x, rfl, hx⟩ := hc; exact ⟨h1, h2, h3, h4, h5, h6, hx, h8⟩
    case setSchemas m => obtain ⟨x, rfl, hx⟩ := hc; exact ⟨h1, h2, h3, h4, h5, h6, hx, h8⟩
    case setTraits m => obtain ⟨x, rfl, hx⟩ := hc; exact ⟨h1, h2, h3, hx, h5, h6, h7, h8⟩
    case setResourceTypes m => obtain ⟨x, rfl, hx⟩ := hc; exact ⟨h1, h2, h3, h4, h5, hx, h7, h8⟩
    case setUses m => obtain ⟨x, rfl, hx⟩ := hc; exact ⟨h1, hx, h3, h4, h5, h6, h7, h8⟩
    case setAnnotations m =>
      cases m with
      | none => exact ⟨h1, h2, h3, h4, h5, h6, h7, writableAnns_empty _⟩
      | some x => exact ⟨h1, h2, h3, h4, h5, h6, h7, hc x rfl⟩
    case unsetAnnotations => exact ⟨h1, h2, h3, h4, h5, h6, h7, writableAnns_empty _⟩
    all_goals first | exact False.elim hc | exact ⟨h1, h2, h3, h4, h5, h6, h7, h8⟩
  | types f => exact ⟨h1, h2, h3, h4, h5, h6, hc _ h7, h8⟩
  | traits f => exact ⟨h1, h2, h3, hc _ h4, h5, h6, h7, h8⟩
  | resourceTypes f => exact ⟨h1, h2, h3, h4, h5, hc _ h6, h7, h8⟩
  | annotationTypes f => exact False.elim hc
  | securitySchemes f => exact ⟨h1, h2, hc _ h3, h4, h5, h6, h7, h8⟩
  | annotations f => exact ⟨h1, h2, h3, h4, h5, h6, h7, hc _ h8⟩
  | uses f => exact ⟨h1, hc _ h2, h3, h4, h5, h6, h7, h8⟩
  | extra f => exact ⟨hc _ h1, h2, h3, h4, h5, h6, h7, h8⟩

theorem goodLib_calls {l : Library} {cs : List LibCall} (h : GoodLib l)
    (hc : ∀ c ∈ cs, GoodLibCall c) : GoodLib (cs.foldl Library.call l) := by
  induction cs generalizing l with
  | nil => exact h
  | cons c cs ih =>
    exact ih (goodLib_call h (hc c (by simp))) fun c' h' => hc c' (by simp [h'])

/-- C60: the same for libraries. -/
theorem C60_library_read_back (X : Xyml) (hX : Lawful X) (cs : List LibCall)
    (hc : ∀ c ∈ cs, GoodLibCall c) :
    parseLibrary X (some ((cs.foldl Library.call Library.new).toYAML X)) =
      .ok (canonLib (cs.foldl Library.call Library.new)) :=
  C43_read_back X hX _ (goodLib_calls goodLib_new hc).writable

/-- Calls that lose nothing. -/
def LosslessLibCall : LibCall → Prop
  | .set (.setTypes m) | .set (.setSchemas m) =>
    Given (fun m => PlainMap m ∧ ∀ e ∈ m.ents, Plain e.2) m
  | .types f => Keeps (fun m => PlainMap m ∧ ∀ e ∈ m.ents, Plain e.2) f
  | .set (.setAnnotations _) | .set .unsetAnnotations | .annotations _ => False
  | c => GoodLibCall c

structure LosslessLib (l : Library) : Prop where
  extra : GoodLibExtra l.extra
  uses : PlainMap l.uses
  securitySchemes : PlainMap l.securitySchemes
  traits : PlainMap l.traits
  annotationTypes : l.annotationTypes = OM.empty false
  resourceTypes : PlainMap l.resourceTypes
  types : PlainMap l.types ∧ ∀ e ∈ l.types.ents, Plain e.2
  annotations : l.annotations = OM.empty false

theorem losslessLib_call {l : Library} {c : LibCall} (h : LosslessLib l)
    (hc : LosslessLibCall c) : LosslessLib (l.call c) := by
  obtain ⟨h1, h2, h3, h4, h5, h6, h7, h8⟩ := h
  cases c with
  | set op =>
    cases op
    case setTypes m => obtain ⟨x, rfl, hx⟩ := hc; exact ⟨h1, h2, h3, h4, h5, h6, hx, h8⟩
    case setSchemas m => obtain ⟨x, rfl, hx⟩ := hc; exact ⟨h1, h2, h3, h4, h5, h6, hx, h8⟩
    case setTraits m => obtain ⟨x, rfl, hx⟩ := hc; exact ⟨h1, h2, h3, hx, h5, h6, h7, h8⟩
    case setResourceTypes m => obtain ⟨x, rfl, hx⟩ := hc; exact ⟨h1, h2, h3, h4, h5, hx, h7, h8⟩
    case setUses m => obtain ⟨x, rfl, hx⟩ := hc; exact ⟨h1, hx, h3, h4, h5, h6, h7, h8⟩
    all_goals first | exact False.elim hc | exact ⟨h1, h2, h3, h4, h5, h6, h7, h8⟩
  | types f => exact ⟨h1, h2, h3, h4, h5, h6, hc _ h7, h8⟩
  | traits f => exact ⟨h1, h2, h3, hc _ h4, h5, h6, h7, h8⟩
  | resourceTypes f => exact ⟨h1, h2, h3, h4, h5, hc _ h6, h7, h8⟩
  | annotationTypes f => exact False.elim hc
  | securitySchemes f => exact ⟨h1, h2, hc _ h3, h4, h5, h6, h7, h8⟩
  | annotations f => exact False.elim hc
  | uses f => exact ⟨h1, hc _ h2, h3, h4, h5, h6, h7, h8⟩
  | extra f => exact ⟨hc _ h1, h2, h3, h4, h5, h6, h7, h8⟩

theorem losslessLib_calls {l : Library} {cs : List LibCall} (h : LosslessLib l)
    (hc : ∀ c ∈ cs, LosslessLibCall c) : LosslessLib (cs.foldl Library.call l) := by
  induction cs generalizing l with
  | nil => exact h
  | cons c cs ih =>
    exact ih (losslessLib_call h (hc c (by simp))) fun c' h' => hc c' (by simp [h'])

theorem losslessLib_new : LosslessLib Library.new where
  extra := ⟨rfl, List.nodup_nil, nofun⟩
  uses := plainMap_empty
  securitySchemes := plainMap_empty
  traits := plainMap_empty
  annotationTypes := rfl
  resourceTypes := plainMap_empty
  types := ⟨plainMap_empty, nofun⟩
  annotations := rfl

theorem LosslessLib.plain {l : Library} (h : LosslessLib l) : PlainLib l where
  extraFlag := h.extra.1
  extra := h.extra.2.1
  extraKeys := h.extra.2.2
  uses := h.uses
  securitySchemes := h.securitySchemes
  traits := h.traits
  annotationTypes := h.annotationTypes
  resourceTypes := h.resourceTypes
  types := h.types.1
  typesEach := h.types.2
  annotations := h.annotations

/-- C60: the same for libraries. -/
theorem C60_library_lossless (X : Xyml) (hX : Lawful X) (cs : List LibCall)
    (hc : ∀ c ∈ cs, LosslessLibCall c) :
    parseLibrary X (some ((cs.foldl Library.call Library.new).toYAML X)) =
      .ok (cs.foldl Library.call Library.new) :=
  C43_lossless X hX _ (losslessLib_calls losslessLib_new hc).plain

/-! ### Cases -/

theorem keeps_put {K V : Type} [DecidableEq K] (k : K) (v : V) :
    Keeps PlainMap (fun m : OM K V => m.put k v) :=
  fun m hm => ⟨hm.1, OM.nodup_put (m := m) k v hm.2⟩

/-- C60: adding a type, resource or trait through the live map is such a call, and so is adding a
type that was itself built by calls that lose nothing. -/
theorem C60_live_maps (kd : Kind) (hk : kd ≠ .union) (ops : List TypeOp) (u : DT)
    (hu : (DT.new kd).applyAll ops = some u) (ho : ∀ op ∈ ops, PlainCall kd op) (name : String)
    (n : Node) :
    LosslessApiCall (.types (·.put name u)) ∧ LosslessLibCall (.types (·.put name u)) ∧
    LosslessApiCall (.traits (·.put name n)) ∧ LosslessLibCall (.traits (·.put name n)) ∧
    (name.toList.head? = some '/' → LosslessApiCall (.resources (·.put name n))) := by
  have hp : Plain u := (plainType_applyAll (plainType_new kd hk) (by rw [kind_new]; exact ho) hu).plain
  have ht : Keeps (fun m : OM String DT => PlainMap m ∧ ∀ e ∈ m.ents, Plain e.2)
      (·.put name u) := by
    intro m hm
    refine ⟨keeps_put name u m hm.1, fun e he => ?_⟩
    rcases mem_put he with rfl | he
    · exact hp
    · exact hm.2 e he
  refine ⟨ht, ht, keeps_put name n, keeps_put name n, fun hs m hm => ?_⟩
  refine ⟨keeps_put name n m hm.1, fun e he => ?_⟩
  rcases mem_put he with rfl | he
  · exact hs
  · exact hm.2 e he

/-- A document built from scratch: a title, a type built by setters, a resource. -/
def apiCalls : List ApiCall :=
  [.set (.setTitle "old"), .set (.setVersion "v1"), .types (·.put "Name" nameProp),
   .set (.setTitle "new"), .resources (·.put "/names" (.map [])), .set (.setProtocols (some ["HTTPS"]))]

/-- It meets the hypotheses of `C60_api_lossless`; what is read back has the last title. -/
example : (∀ c ∈ apiCalls, LosslessApiCall c) ∧
    (apiCalls.foldl APISpec.call APISpec.new).title = "new" ∧
    (apiCalls.foldl APISpec.call APISpec.new).types.ents = [("Name", nameProp)] := by
  refine ⟨?_, rfl, rfl⟩
  have h := C60_live_maps .string (by decide) [.setPattern "[a-z]+"] nameProp rfl
    (by intro op h; cases List.mem_singleton.mp h; exact True.intro)
  intro c hc
  simp only [apiCalls, List.mem_cons, List.not_mem_nil, or_false] at hc
  rcases hc with rfl | rfl | rfl | rfl | rfl | rfl
  · exact True.intro
  · exact True.intro
  · exact (h "Name" (.map [])).1
  · exact True.intro
  · exact (h "/names" (.map [])).2.2.2.2 (by decide)
  · exact True.intro

/-- A library built the same way. -/
def libCalls : List LibCall :=
  [.set (.setUsage "shared"), .types (·.put "Name" nameProp), .traits (·.put "paged" (.map []))]

example : ∀ c ∈ libCalls, LosslessLibCall c := by
  have h := C60_live_maps .string (by decide) [.setPattern "[a-z]+"] nameProp rfl
    (by intro op h; cases List.mem_singleton.mp h; exact True.intro)
  intro c hc
  simp only [libCalls, List.mem_cons, List.not_mem_nil, or_false] at hc
  rcases hc with rfl | rfl | rfl
  · exact True.intro
  · exact (h "Name" (.map [])).2.1
  · exact (h "paged" (.map [])).2.2.2.1

/-- Documentation and annotations in plain maps meet `C60_api_read_back`. -/
example : ∀ c ∈ [ApiCall.set (.setDocumentation (some [⟨"a", "b", ⟨[], false⟩⟩])),
    .annotations (·.put "(note)" ⟨[("k", .str "v")], false⟩)], GoodApiCall c := by
  intro c hc
  simp only [List.mem_cons, List.not_mem_nil, or_false] at hc
  rcases hc with rfl | rfl
  · exact True.intro
  · exact (C58_live_maps .string).2.2.1 "(note)" ⟨[("k", .str "v")], false⟩ (by decide) rfl
      (by simp [Distinct])

/-! ### What each call changes -/

/-- What a change of the map that a getter returned makes of a part: that change if the getter is
that of the part, else nothing. -/
def apiPartEdit : (s : ApiSection) → s.Ty → ApiCall → s.Ty
  | .types, x, .types f => f x
  | .traits, x, .traits f => f x
  | .resourceTypes, x, .resourceTypes f => f x
  | .annotationTypes, x, .annotationTypes f => f x
  | .securitySchemes, x, .securitySchemes f => f x
  | .baseUriParameters, x, .baseURIParameters f => f x
  | .resources, x, .resources f => f x
  | .annotations, x, .annotations f => f x
  | .uses, x, .uses f => f x
  | .extra, x, .extra f => f x
  | _, x, _ => x

/-- What one call makes of a part; a setter stores what it is asked to. -/
def apiPartCall (s : ApiSection) (x : s.Ty) : ApiCall → s.Ty
  | .set op => (asked s op).getD x
  | c => apiPartEdit s x c

/-- The same for a library. -/
def libPartEdit : (s : LibSection) → s.Ty → LibCall → s.Ty
  | .types, x, .types f => f x
  | .traits, x, .traits f => f x
  | .resourceTypes, x, .resourceTypes f => f x
  | .securitySchemes, x, .securitySchemes f => f x
  | .annotations, x, .annotations f => f x
  | .uses, x, .uses f => f x
  | .extra, x, .extra f => f x
  | _, x, _ => x

/-- The same for a library. -/
def libPartCall (s : LibSection) (x : s.Ty) : LibCall → s.Ty
  | .set op => (libAsked s op).getD x
  | c => libPartEdit s x c

/-- C60: after any calls each part of an API document holds what the calls about that part alone
make of it, in their order; calls about other parts play no role. -/
theorem C60_api_history (a : APISpec) (cs : List ApiCall) (s : ApiSection) :
    apiGet s (cs.foldl APISpec.call a) = cs.foldl (apiPartCall s) (apiGet s a) := by
  induction cs generalizing a with
  | nil => rfl
  | cons c cs ih =>
    rw [List.foldl_cons, List.foldl_cons, ih]
    congr 1
    cases c with
    | set op => exact C42_last_call_wins a [op] s |>.trans (by simp [apiPartCall])
    | _ => cases s <;> rfl

/-- C60 for libraries; the annotation types change only through their getter. -/
theorem C60_library_history (l : Library) (cs : List LibCall) :
    (∀ s, libGet s (cs.foldl Library.call l) = cs.foldl (libPartCall s) (libGet s l)) ∧
    (cs.foldl Library.call l).annotationTypes =
      cs.foldl (fun m c => match c with | .annotationTypes f => f m | _ => m)
        l.annotationTypes := by
  induction cs generalizing l with
  | nil => exact ⟨fun _ => rfl, rfl⟩
  | cons c cs ih =>
    refine ⟨fun s => ?_, ?_⟩
    · rw [List.foldl_cons, List.foldl_cons, (ih _).1]
      congr 1
      cases c with
      | set op => exact (C42_library_last_call_wins l [op]).1 s |>.trans (by simp [libPartCall])
      | _ => cases s <;> rfl
    · rw [List.foldl_cons, List.foldl_cons, (ih _).2]
      congr 1
      cases c with
      | set op => exact (C42_library_last_call_wins l [op]).2
      | _ => rfl

/-- A setter between two changes of a map: only the later change is seen. -/
example (m : OM String Node) (n : Node) :
    ([.traits (·.put "a" n), .set (.setTraits (some m)), .set (.setTitle "t"),
      .traits (·.put "b" n)].foldl APISpec.call APISpec.new).traits = m.put "b" n :=
  C60_api_history APISpec.new _ .traits

example (m : OM String Node) (n : Node) (l : Library) :
    ([.annotationTypes (·.put "a" n), .set (.setTraits (some m)), .traits (·.put "b" n)].foldl
      Library.call l).annotationTypes = l.annotationTypes.put "a" n :=
  (C60_library_history l _).2

end Verif.Props
