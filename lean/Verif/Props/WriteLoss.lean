import Verif.Props.TypeOrder
import Verif.Props.TypeValues
import Verif.Doc.Build

/-! # C65: what writing a data type loses -/

namespace Verif.Props
open Verif Verif.Doc Verif.Doc.Spec
open scoped List

/-- C65: once a type has XML settings, replacing them by any others changes nothing in what is
written. -/
theorem C65_xml_contents_false (X : Xyml) (t u : DT) (x : XML) (hx : xml t ≠ none)
    (h : t.apply (.setXML (some x)) = some u) : u.toYAML X = t.toYAML X := by
  cases t with
  | basic i s x => cases h
  | ext g b fs ps it =>
    have hx : g.xml ≠ none := hx
    have hg : ∃ y, g.xml = some y := Option.ne_none_iff_exists'.mp hx
    obtain ⟨y, hy⟩ := hg
    have hu : u = .ext { g with xml := some x } b fs ps it := by
      cases b <;> exact (Option.some.inj h).symm
    subst hu
    rw [toYAML_eq, toYAML_eq]
    have : (DT.ext { g with xml := some x } b fs ps it).ents X = (DT.ext g b fs ps it).ents X := by
      simp only [DT.ents, dtEnts, Hdr.headEnts, Hdr.reqEnts, Hdr.tailEnts, hy, Option.map_some,
        XML.toYAML]
    rw [this]

private theorem lastBy_filter {q : Node × Node → Bool} {ps : List (Node × Node)} {k v : Node}
    (h : ps.filter q = [(k, v)]) : lastBy q ps = some v := by
  unfold lastBy
  rw [← List.head?_filter, List.filter_reverse, h]
  rfl

/-- C65: so what is read back has XML settings, all of them unset. -/
theorem C65_xml_reset (X : Xyml) (hX : Lawful X) (t t' : DT) (hc : Clean t) (hx : xml t ≠ none)
    (hs : ∀ e ∈ t.extra.ents, ∃ s, e.1 = .str s)
    (h : hat X (t.toYAML X) = .ok t') (hb : isBasic t'.kind = false) :
    xml t' = some XML.new := by
  have hext : isBasic t.kind = false := by
    cases t with
    | basic i s x => exact absurd rfl hx
    | ext g b fs ps it => cases b <;> rfl
  have hn : "xml" ∈ facetNames t.kind := by
    revert hext
    cases t.kind <;> decide
  have he := C28_facet_entry X hX t hc "xml" .xml hn (by decide) (by decide)
  obtain ⟨y, hy⟩ := Option.ne_none_iff_exists'.mp hx
  rw [writtenFacet, hy] at he
  have hkeys : ∀ p ∈ entriesOf (t.toYAML X), p.1.isStr = true := by
    intro p hp
    rcases C28_nothing_else X hX t hc p hp with ⟨n, _, h⟩ | ⟨d, _, h⟩ | ⟨e, he, h⟩ | ⟨a, _, h⟩
    · rw [h]; rfl
    · rw [h]; rfl
    · obtain ⟨s, hs⟩ := hs e he
      rw [h, hs, hX.ofKey_str]; rfl
    · rw [h]; rfl
  have hq : (entriesOf (t.toYAML X)).filter (fun p => p.1.value == "xml") =
      [(Node.str "xml", .map [])] := by
    rw [show [(Node.str "xml", Node.map [])] = _ from he.symm]
    refine List.filter_congr fun p hp => ?_
    rw [hkeys p hp, Bool.true_and]
  have hmap : ∃ ps, t.toYAML X = .map ps := by
    cases hn : t.toYAML X with
    | map ps => exact ⟨ps, rfl⟩
    | scalar a b => rw [hn] at hq; cases hq
    | seq a b => rw [hn] at hq; cases hq
  obtain ⟨ps, hps⟩ := hmap
  rw [hps] at hq h
  have := C31_type_xml X ps t' h hb
  rw [show lastVal "xml" ps = some (.map []) from lastBy_filter hq] at this
  obtain ⟨x, qs, h1, h2, h3⟩ := this
  cases h1
  cases h2
  exact h3

/-- C65: two types of one kind that are written alike agree in everything that is written. -/
theorem C65_rest_kept (X : Xyml) (hX : Lawful X) (t u : DT) (ht : Clean t) (hu : Clean u)
    (hk : t.kind = u.kind) (h : t.toYAML X = u.toYAML X) :
    (∀ name ∈ facetNames t.kind, ∀ f, name ≠ "schema" → facetNamed.lookup name = some f →
      writtenFacet X t f = writtenFacet X u f) := by
  intro name hn f hs hf
  have h1 := C28_facet_entry X hX t ht name f hn hs hf
  have h2 := C28_facet_entry X hX u hu name f (hk ▸ hn) hs hf
  rw [h, h2] at h1
  cases ha : writtenFacet X t f <;> cases hb : writtenFacet X u f <;> rw [ha, hb] at h1 <;>
    simp_all

/-- C65: in particular the texts, lists and flags that have an entry of their own are equal. -/
theorem C65_texts_kept (X : Xyml) (hX : Lawful X) (t u : DT) (ht : Clean t) (hu : Clean u)
    (hk : t.kind = u.kind) (hb : isBasic t.kind = false) (h : t.toYAML X = u.toYAML X) :
    displayName t = displayName u ∧ description t = description u ∧ required t = required u ∧
    (t.kind = .string → pattern t = pattern u) ∧
    (t.kind = .file → fileTypes t = fileTypes u) ∧
    (t.kind = .object → discriminator t = discriminator u) ∧
    (t.kind = .object → discriminatorValue t = discriminatorValue u) ∧
    (t.kind = .datetime ∨ t.kind = .number ∨ t.kind = .integer → format t = format u) ∧
    (t.kind = .number ∨ t.kind = .integer → multipleOf t = multipleOf u) := by
  have key := C65_rest_kept X hX t u ht hu hk h
  have hstr : Function.Injective Node.str := fun a b h => by cases h; rfl
  have hflt : Function.Injective X.ofFlt := fun a b h => by
    have := hX.toFlt_ofFlt a
    rw [h, hX.toFlt_ofFlt] at this
    exact (Option.some.inj this).symm
  have common : ∀ name ∈ facetNames.common, name ∈ facetNames t.kind := by
    intro name hn
    revert hb
    cases t.kind <;> intro hb <;> first
      | exact absurd hb (by decide)
      | exact List.mem_append_left _ hn
  refine ⟨?_, ?_, ?_, fun h1 => ?_, fun h1 => ?_, fun h1 => ?_, fun h1 => ?_, fun h1 => ?_,
    fun h1 => ?_⟩
  · exact Option.map_injective hstr
      (key "displayName" (common _ (by decide)) .displayName (by decide) (by decide))
  · exact Option.map_injective hstr
      (key "description" (common _ (by decide)) .description (by decide) (by decide))
  · have := key "required" (common _ (by decide)) .required (by decide) (by decide)
    unfold writtenFacet at this
    revert this
    cases required t <;> cases required u <;> simp
  · exact Option.map_injective hstr
      (key "pattern" (by rw [h1]; decide) .pattern (by decide) (by decide))
  · refine Option.map_injective (fun a b h => ?_)
      (key "fileTypes" (by rw [h1]; decide) .fileTypes (by decide) (by decide))
    exact List.map_injective_iff.mpr hstr (Node.seq.inj h).2
  · exact Option.map_injective hstr
      (key "discriminator" (by rw [h1]; decide) .discriminator (by decide) (by decide))
  · exact key "discriminatorValue" (by rw [h1]; decide) .discriminatorValue (by decide) (by decide)
  · refine Option.map_injective hstr (key "format" ?_ .format (by decide) (by decide))
    rcases h1 with h1 | h1 | h1 <;> rw [h1] <;> decide
  · refine Option.map_injective hflt (key "multipleOf" ?_ .multipleOf (by decide) (by decide))
    rcases h1 with h1 | h1 <;> rw [h1] <;> decide

/-- A string type with XML settings. -/
def sampleXml : DT := .ext { Hdr.new .string with xml := some { XML.new with name := some "a" } }
  (.string ⟨none, 0, none⟩) (OM.empty true) (OM.empty false) none

example : Clean sampleXml ∧ xml sampleXml ≠ none ∧
    (∃ u, sampleXml.apply (.setXML (some XML.new)) = some u ∧ xml u ≠ xml sampleXml) ∧
    ∃ t', hat Xyml.std (sampleXml.toYAML Xyml.std) = .ok t' ∧ isBasic t'.kind = false := by
  refine ⟨⟨?_, ?_, ?_, ?_⟩, by simp [sampleXml, xml], ⟨_, rfl, by simp [xml, sampleXml, XML.new]⟩, ?_⟩
  · simp [Distinct, extraWithDefault, Hdr.new, OM.empty]
  · intro p hp
    simp [extraWithDefault, Hdr.new, OM.empty] at hp
  · exact List.nodup_nil
  · exact fun _ h => nomatch h
  · have : ((hat Xyml.std (sampleXml.toYAML Xyml.std)).map fun t => isBasic t.kind) = .ok false := by
      decide +kernel
    obtain ⟨t, h1, h2⟩ := Res.map_eq_ok.mp this
    exact ⟨t, h1, h2⟩

end Verif.Props
