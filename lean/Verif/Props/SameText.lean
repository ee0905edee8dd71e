import Verif.Props.ApiRoundTrip
import Verif.Props.TypeRoundTrip
import Verif.Props.WriteLoss

/-! # C86: what is written alike is alike

Comparing two files tells what the two objects that were written have in common. -/

namespace Verif.Props
open Verif Verif.Doc Verif.Doc.Spec

/-! ### Data types -/

/-- The facets that are written as they are. -/
def keptFacet : Facet → Bool
  | .enum | .example | .examples | .xml | .facets | .annotations | .extra | .properties
  | .items => false
  | _ => true

private theorem look_canon {f : Facet} (h : keptFacet f = true) (t : DT) :
    look f (canon t) = look f t := by
  cases t with
  | basic i s x =>
    rw [canon]
    cases f <;> first | rfl | cases h
  | ext hd b fs ps it =>
    rw [canon]
    cases f <;> first | rfl | cases h

private theorem kind_canon (t : DT) : (canon t).kind = t.kind := by
  cases t <;> rw [canon] <;> rfl

private theorem dict_alike {es fs : List (String × DT)} (h : canonEnts es = canonEnts fs) :
    List.Forall₂ (fun e f => e.1 = f.1 ∧ canon e.2 = canon f.2) es fs := by
  rw [canonEnts_eq, canonEnts_eq] at h
  induction es generalizing fs with
  | nil =>
    cases fs with
    | nil => exact .nil
    | cons f fs => cases h
  | cons e es ih =>
    cases fs with
    | nil => cases h
    | cons f fs =>
      simp only [List.map_cons, List.cons.injEq, Prod.mk.injEq] at h
      exact .cons h.1 (ih h.2)

/-- C86: two data types that can be read back and are written alike are read back as the same
type. -/
theorem C86_type (X : Xyml) (hX : Lawful X) (t u : DT) (ht : Writable t) (hu : Writable u)
    (h : t.toYAML X = u.toYAML X) : canon t = canon u := by
  have h1 := C26_read_back X hX t ht
  have h2 := C26_read_back X hX u hu
  rw [h, h2] at h1
  exact (Res.ok.inj h1).symm

/-- C86: so they have the same kind and type, the same plain facets, the same values in the enum,
XML settings both or neither, and the same extra facets, where the default counts as one. -/
theorem C86_type_facets (X : Xyml) (hX : Lawful X) (t u : DT) (ht : Writable t) (hu : Writable u)
    (h : t.toYAML X = u.toYAML X) :
    t.kind = u.kind ∧ (∀ f, keptFacet f = true → look f t = look f u) ∧
    listOf (enum t) = listOf (enum u) ∧ (xml t).isSome = (xml u).isSome ∧
    (∀ k v, (dflt t = some v ∧ k = .str "default") ∨ (k, v) ∈ t.extra.ents ↔
      (dflt u = some v ∧ k = .str "default") ∨ (k, v) ∈ u.extra.ents) := by
  have hc := C86_type X hX t u ht hu h
  have henum : ∀ t : DT, listOf (enum (canon t)) = listOf (enum t) := by
    intro t
    cases t with
    | basic i s x => rw [canon]; rfl
    | ext hd b fs ps it =>
      rw [canon]
      show listOf (Hdr.canon hd).enum = listOf hd.enum
      unfold Hdr.canon
      cases he : hd.enum with
      | none => rfl
      | some l => cases l <;> rfl
  have hxml : ∀ t : DT, (xml (canon t)).isSome = (xml t).isSome := by
    intro t
    cases t with
    | basic i s x => rw [canon]; rfl
    | ext hd b fs ps it =>
      rw [canon]
      show (Hdr.canon hd).xml.isSome = hd.xml.isSome
      unfold Hdr.canon
      cases hd.xml <;> rfl
  have hextra : ∀ (t : DT) k v, (dflt t = some v ∧ k = .str "default") ∨ (k, v) ∈ t.extra.ents ↔
      (k, v) ∈ (canon t).extra.ents := by
    intro t k v
    cases t with
    | basic i s x =>
      rw [canon]
      constructor
      · rintro (⟨h, -⟩ | h)
        · cases h
        · exact h
      · exact Or.inr
    | ext hd b fs ps it =>
      rw [canon]
      show (hd.dflt = some v ∧ k = .str "default") ∨ (k, v) ∈ hd.extra.ents ↔
        (k, v) ∈ extraWithDefault hd
      unfold extraWithDefault
      cases hd.dflt with
      | none => simp
      | some d => simp [and_comm, eq_comm]
  refine ⟨?_, fun f hf => ?_, ?_, ?_, fun k v => ?_⟩
  · rw [← kind_canon t, hc, kind_canon]
  · rw [← look_canon hf t, hc, look_canon hf]
  · rw [← henum t, hc, henum]
  · rw [← hxml t, hc, hxml]
  · rw [hextra t, hc, hextra]

/-- C86: and the same property names in the same order and the same item types, with parts that are
read back as the same. -/
theorem C86_type_parts (X : Xyml) (hX : Lawful X) (t u : DT) (ht : Writable t) (hu : Writable u)
    (h : t.toYAML X = u.toYAML X) :
    List.Forall₂ (fun e f => e.1 = f.1 ∧ canon e.2 = canon f.2) (properties t).ents
      (properties u).ents ∧
    (items t).map canon = (items u).map canon ∧
    (annotationMap t).ents.map (fun e => (e.1, e.2.ents)) =
      (annotationMap u).ents.map (fun e => (e.1, e.2.ents)) ∧
    (examplesMap t).ents.map (fun e => (e.1, e.2.value, e.2.strict)) =
      (examplesMap u).ents.map (fun e => (e.1, e.2.value, e.2.strict)) := by
  have hc := C86_type X hX t u ht hu h
  have hk := (C86_type_facets X hX t u ht hu h).1
  cases t with
  | basic i s x =>
    cases u with
    | basic i' s' x' => exact ⟨.nil, rfl, rfl, rfl⟩
    | ext hd b fs ps it => cases i <;> cases b <;> cases hk
  | ext hd b fs ps it =>
    cases u with
    | basic i' s' x' => cases i' <;> cases b <;> cases hk
    | ext hd' b' fs' ps' it' =>
      rw [canon, canon] at hc
      simp only [DT.ext.injEq] at hc
      obtain ⟨h1, -, -, h2, h3⟩ := hc
      refine ⟨?_, ?_, ?_, ?_⟩
      · cases ps; cases ps'
        rw [canonTypes, canonTypes] at h2
        exact dict_alike (OM.mk.inj h2).1
      · show it.map canon = it'.map canon
        cases it <;> cases it' <;> simp only [canonItems] at h3 <;> first | rfl | cases h3 | simpa using h3
      · have h4 : canonAnns true hd.annotations = canonAnns true hd'.annotations :=
          congrArg Hdr.annotations h1
        have h5 := congrArg (fun m : OM String Ann => m.ents.map fun e => (e.1, e.2.ents)) h4
        simp only [canonAnns, List.map_map] at h5
        exact h5
      · have h4 := congrArg (fun h : Hdr => h.examples.ents.map fun e => (e.1, e.2.value, e.2.strict)) h1
        simp only [Hdr.canon, List.map_map] at h4
        exact h4

/-- C86: types of the plain sort are written alike only if they are the same. -/
theorem C86_plain (X : Xyml) (hX : Lawful X) (t u : DT) (ht : Plain t) (hu : Plain u) :
    t.toYAML X = u.toYAML X ↔ t = u := by
  refine ⟨fun h => ?_, fun h => by rw [h]⟩
  have h1 := C26_lossless X hX t ht
  rw [h, C26_lossless X hX u hu] at h1
  cases h1
  rfl

/-- A string type with the given XML settings. -/
private def withXml (x : XML) : DT :=
  .ext { Hdr.new .string with xml := some x, enum := some [.str "a"], description := some "d" }
    (.string ⟨none, 1, some 9⟩) ⟨[], true⟩ ⟨[], false⟩ none

private theorem withXml_writable (x : XML) : Writable (withXml x) :=
  .ext ⟨show classify "string" = .string by decide, ⟨List.nodup_nil, (fun _ h => nomatch h)⟩,
      ⟨List.nodup_nil, (fun _ h => nomatch h)⟩,
      (fun l hl v hv => by
        cases hl
        rw [List.mem_singleton] at hv
        exact ⟨"a", hv⟩),
      (fun _ h => nomatch h), (fun h => absurd rfl h), List.nodup_nil, (fun _ h => nomatch h)⟩
    ⟨by simp [IsSmall], fun n hn => by cases hn; simp [IsSmall]⟩
    (fun h => absurd rfl h) List.nodup_nil (fun _ h => nomatch h) (fun _ h => nomatch h)
    (fun h => absurd rfl h) List.nodup_nil (fun _ h => nomatch h) (fun _ h => nomatch h)
    (fun h => absurd rfl h) (fun _ h => nomatch h)

/-- Two types that differ, in the names of their XML settings, and are written alike: the conditions
of the theorems above are met by types that are not the same, and say what they share. -/
example : Writable (withXml { XML.new with name := some "a" }) ∧
    Writable (withXml { XML.new with name := some "b" }) ∧
    (withXml { XML.new with name := some "a" }).toYAML Xyml.std =
      (withXml { XML.new with name := some "b" }).toYAML Xyml.std ∧
    (xml (withXml { XML.new with name := some "a" })).map (·.name) ≠
      (xml (withXml { XML.new with name := some "b" })).map (·.name) :=
  ⟨withXml_writable _, withXml_writable _, rfl, by decide⟩

/-- A string type with the given least length, as a property of an object. -/
private def withMin (n : Nat) : DT :=
  .ext (Hdr.new .object) (.object ⟨none, none, true, none, none⟩) ⟨[], true⟩
    ⟨[("name", .ext (Hdr.new .string) (.string ⟨none, n, none⟩) ⟨[], true⟩ ⟨[], false⟩ none)], false⟩
    none

private theorem withMin_plain {n : Nat} (h : IsSmall n) : Plain (withMin n) := by
  refine .ext ⟨show classify "object" = .object by decide, ⟨List.nodup_nil, (fun _ h => nomatch h)⟩,
      rfl, rfl, rfl, rfl, (fun _ h => nomatch h), rfl, rfl⟩
    ⟨(fun _ h => nomatch h), (fun _ h => nomatch h)⟩ (fun _ => rfl)
    (by simp [Distinct]) (by simp [DT.isProperty]) ?_ (fun h => absurd rfl h) (fun _ h => nomatch h)
  intro e he
  rw [List.mem_singleton] at he
  subst he
  exact .ext ⟨show classify "string" = .string by decide, ⟨List.nodup_nil, (fun _ h => nomatch h)⟩,
      rfl, rfl, rfl, rfl, (fun _ h => nomatch h), rfl, rfl⟩
    ⟨h, (fun _ h => nomatch h)⟩ (fun h => absurd rfl h) List.nodup_nil (fun _ h => nomatch h)
    (fun _ h => nomatch h) (fun h => absurd rfl h) (fun _ h => nomatch h)

/-- Plain objects that differ in one facet of a property are written differently. -/
example : (withMin 3).toYAML Xyml.std ≠ (withMin 4).toYAML Xyml.std := fun h => by
  have := (C86_plain _ Xyml.std_lawful _ _ (withMin_plain (by simp [IsSmall]))
    (withMin_plain (by simp [IsSmall]))).mp h
  simp [withMin] at this

/-! ### API documents and libraries -/

/-- C86: API documents that can be read back and are written alike have the same texts and lists, the
same number of documentation entries, and dictionaries with the same entries in the same order, the
types read back as the same. -/
theorem C86_api (X : Xyml) (hX : Lawful X) (a b : APISpec) (ha : WritableApi a)
    (hb : WritableApi b) (h : a.toYAML X = b.toYAML X) :
    (a.title = b.title ∧ a.description = b.description ∧ a.version = b.version ∧
      a.baseURI = b.baseURI ∧ a.protocols = b.protocols ∧ a.mediaType = b.mediaType ∧
      a.securedBy = b.securedBy) ∧
    (listOf a.documentation).length = (listOf b.documentation).length ∧
    (a.baseURIParameters.ents = b.baseURIParameters.ents ∧ a.traits.ents = b.traits.ents ∧
      a.resourceTypes.ents = b.resourceTypes.ents ∧
      a.annotationTypes.ents = b.annotationTypes.ents ∧
      a.securitySchemes.ents = b.securitySchemes.ents ∧ a.uses.ents = b.uses.ents ∧
      a.resources.ents = b.resources.ents ∧ a.extra.ents = b.extra.ents) ∧
    a.annotations.ents.map (fun e => (e.1, e.2.ents)) =
      b.annotations.ents.map (fun e => (e.1, e.2.ents)) ∧
    List.Forall₂ (fun e f => e.1 = f.1 ∧ canon e.2 = canon f.2) a.types.ents b.types.ents := by
  have h1 := C32_read_back X hX a ha
  rw [h, C32_read_back X hX b hb] at h1
  have hc : canonApi b = canonApi a := Res.ok.inj h1
  have hd : ∀ a : APISpec, (listOf (canonApi a).documentation).length =
      (listOf a.documentation).length := by
    intro a
    unfold canonApi
    rcases a.documentation with _ | _ | ⟨d, ds⟩ <;> simp [listOf]
  have hm : ∀ {K V : Type} (g : APISpec → OM K V) (g' : APISpec → OM K V),
      (∀ a, (g (canonApi a)).ents = (g' a).ents) → (g' a).ents = (g' b).ents := by
    intro K V g g' he
    rw [← he a, ← hc, he]
  refine ⟨⟨?_, ?_, ?_, ?_, ?_, ?_, ?_⟩, ?_, ⟨?_, ?_, ?_, ?_, ?_, ?_, ?_, ?_⟩, ?_, ?_⟩
  · exact (congrArg APISpec.title hc).symm
  · exact (congrArg APISpec.description hc).symm
  · exact (congrArg APISpec.version hc).symm
  · exact (congrArg APISpec.baseURI hc).symm
  · exact (congrArg APISpec.protocols hc).symm
  · exact (congrArg APISpec.mediaType hc).symm
  · exact (congrArg APISpec.securedBy hc).symm
  · rw [← hd a, ← hc, hd]
  · exact hm APISpec.baseURIParameters _ fun _ => rfl
  · exact hm APISpec.traits _ fun _ => rfl
  · exact hm APISpec.resourceTypes _ fun _ => rfl
  · exact hm APISpec.annotationTypes _ fun _ => rfl
  · exact hm APISpec.securitySchemes _ fun _ => rfl
  · exact hm APISpec.uses _ fun _ => rfl
  · exact hm APISpec.resources _ fun _ => rfl
  · exact hm APISpec.extra _ fun _ => rfl
  · have h4 : canonAnns false b.annotations = canonAnns false a.annotations :=
      congrArg APISpec.annotations hc
    have h5 := congrArg (fun m : OM String Ann => m.ents.map fun e => (e.1, e.2.ents)) h4
    simp only [canonAnns, List.map_map] at h5
    exact h5.symm
  · have h4 : canonTypes false b.types = canonTypes false a.types := congrArg APISpec.types hc
    revert h4
    cases a.types; cases b.types
    intro h4
    rw [canonTypes, canonTypes] at h4
    exact dict_alike (OM.mk.inj h4.symm).1

private theorem with_docs (d : List Documentation) :
    WritableApi { sampleApi with documentation := some d } :=
  let h := sampleApi_plain.writable
  ⟨⟨h.clean.1, h.clean.2, h.clean.3, h.clean.4, h.clean.5, h.clean.6⟩, h.extraKeys, h.uses,
    h.securitySchemes, h.baseURIParameters, h.traits, h.annotationTypes, h.resourceTypes, h.types,
    h.typesEach, h.annotations⟩

/-- Two documents that differ in a documentation entry and are written alike. -/
example : ∃ a b : APISpec, WritableApi a ∧ WritableApi b ∧ a.toYAML Xyml.std = b.toYAML Xyml.std ∧
    (listOf a.documentation).map (·.title) ≠ (listOf b.documentation).map (·.title) ∧
    a.types.len = 2 :=
  ⟨{ sampleApi with documentation := some [⟨"Home", "Welcome", OM.empty false⟩] },
    { sampleApi with documentation := some [⟨"About", "Us", OM.empty false⟩] },
    with_docs _, with_docs _, rfl, by decide, rfl⟩

/-- C86: the same for libraries. -/
theorem C86_library (X : Xyml) (hX : Lawful X) (l m : Library) (hl : WritableLib l)
    (hm : WritableLib m) (h : l.toYAML X = m.toYAML X) :
    l.usage = m.usage ∧
    (l.traits.ents = m.traits.ents ∧ l.resourceTypes.ents = m.resourceTypes.ents ∧
      l.securitySchemes.ents = m.securitySchemes.ents ∧ l.uses.ents = m.uses.ents ∧
      l.extra.ents = m.extra.ents) ∧
    l.annotations.ents.map (fun e => (e.1, e.2.ents)) =
      m.annotations.ents.map (fun e => (e.1, e.2.ents)) ∧
    List.Forall₂ (fun e f => e.1 = f.1 ∧ canon e.2 = canon f.2) l.types.ents m.types.ents := by
  have h1 := C43_read_back X hX l hl
  rw [h, C43_read_back X hX m hm] at h1
  have hc : canonLib m = canonLib l := Res.ok.inj h1
  have hm : ∀ {K V : Type} (g : Library → OM K V) (g' : Library → OM K V),
      (∀ a, (g (canonLib a)).ents = (g' a).ents) → (g' l).ents = (g' m).ents := by
    intro K V g g' he
    rw [← he l, ← hc, he]
  refine ⟨(congrArg Library.usage hc).symm, ⟨?_, ?_, ?_, ?_, ?_⟩, ?_, ?_⟩
  · exact hm Library.traits _ fun _ => rfl
  · exact hm Library.resourceTypes _ fun _ => rfl
  · exact hm Library.securitySchemes _ fun _ => rfl
  · exact hm Library.uses _ fun _ => rfl
  · exact hm Library.extra _ fun _ => rfl
  · have h4 : canonAnns false m.annotations = canonAnns false l.annotations :=
      congrArg Library.annotations hc
    have h5 := congrArg (fun m : OM String Ann => m.ents.map fun e => (e.1, e.2.ents)) h4
    simp only [canonAnns, List.map_map] at h5
    exact h5.symm
  · have h4 : canonTypes false m.types = canonTypes false l.types := congrArg Library.types hc
    revert h4
    cases l.types; cases m.types
    intro h4
    rw [canonTypes, canonTypes] at h4
    exact dict_alike (OM.mk.inj h4.symm).1

/-- A library with the given XML settings in a type. -/
private def libWith (x : XML) : Library :=
  { plainLib with types := ⟨[("T", withXml x), ("Pair", sampleObject)], false⟩ }

private theorem libWith_writable (x : XML) : WritableLib (libWith x) :=
  let h := plainLib_plain.writable
  ⟨⟨h.clean.1, h.clean.2, h.clean.3, h.clean.4⟩, h.extraKeys, h.uses, h.securitySchemes, h.traits,
    h.annotationTypes, h.resourceTypes, ⟨fun _ => rfl, by simp [libWith, Distinct]⟩,
    fun e he => by
      simp only [libWith, List.mem_cons, List.not_mem_nil, or_false] at he
      rcases he with rfl | rfl
      · exact withXml_writable x
      · exact sampleObject_plain.writable,
    h.annotations⟩

/-- Two libraries that differ inside a type and are written alike. -/
example : ∃ l m : Library, WritableLib l ∧ WritableLib m ∧ l.toYAML Xyml.std = m.toYAML Xyml.std ∧
    l.types.ents.map (fun e => (xml e.2).map (·.pref)) ≠
      m.types.ents.map (fun e => (xml e.2).map (·.pref)) :=
  ⟨libWith { XML.new with pref := some "p" }, libWith XML.new, libWith_writable _,
    libWith_writable _, rfl, by decide⟩

end Verif.Props
