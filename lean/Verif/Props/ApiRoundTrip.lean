import Verif.Props.ApiWritten
import Verif.Props.Library

/-! # C32, C39, C40, C43: writing an API document or a library and reading it back -/

namespace Verif.Props
open Verif Verif.Doc Verif.Doc.Spec

/-! ### C32 -/

/-- C32: re-parsing what is written gives the same document. -/
theorem C32_lossless (X : Xyml) (hX : Lawful X) (a : APISpec) (h : PlainApi a) :
    parseApi X (a.toYAML X) = .ok a := by
  rw [parseApi_toYAML hX h.writable, h.canon]

/-- C32: the same for a document that was parsed. -/
theorem C32_parsed_lossless (X : Xyml) (hX : Lawful X) (n : Node) (a : APISpec)
    (h : parseApi X n = .ok a) (hm : MildApi a) : parseApi X (a.toYAML X) = .ok a :=
  C32_lossless X hX a ((parseApi_parsed hX h).plain hm)

/-- C32: with documentation entries, with annotations and types that are written as plain
mappings, re-parsing gives exactly `canonApi a`. -/
theorem C32_read_back (X : Xyml) (hX : Lawful X) (a : APISpec) (h : WritableApi a) :
    parseApi X (a.toYAML X) = .ok (canonApi a) := parseApi_toYAML hX h

/-- C32: false with documentation entries: the entries come back empty. -/
theorem C32_documentation_false (X : Xyml) (hX : Lawful X) (a : APISpec) (h : WritableApi a)
    (d : Documentation) (ds : List Documentation) (hd : a.documentation = some (d :: ds)) :
    ∃ b, parseApi X (a.toYAML X) = .ok b ∧
      b.documentation = some (List.replicate (ds.length + 1) ⟨"", "", ⟨[], false⟩⟩) := by
  refine ⟨_, parseApi_toYAML hX h, ?_⟩
  have h1 : (canonApi a).documentation = some ((d :: ds).map fun _ => Documentation.new) := by
    simp [canonApi, hd]
  rw [h1]
  congr 1
  exact List.map_const'

example : parseApi Xyml.std (sampleApi.toYAML Xyml.std) = .ok sampleApi :=
  C32_lossless _ Xyml.std_lawful _ sampleApi_plain

/-- `sampleApi` with a documentation entry. -/
example : WritableApi { sampleApi with
    documentation := some [⟨"Home", "Welcome", OM.empty false⟩] } :=
  let h := sampleApi_plain.writable
  ⟨⟨h.clean.1, h.clean.2, h.clean.3, h.clean.4, h.clean.5, h.clean.6⟩, h.extraKeys, h.uses,
    h.securitySchemes, h.baseURIParameters, h.traits, h.annotationTypes, h.resourceTypes, h.types,
    h.typesEach, h.annotations⟩

/-- A parsed document that meets the conditions of `C32_parsed_lossless`. -/
example : ∃ a, parseApi Xyml.std (.map [(.str "title", .str "t"), (.str "/p", .map []),
      (.str "types", .map [(.str "A", .str "string"), (.str "B", .map [(.str "type", .str "array"),
        (.str "items", .str "A")])]), (.scalar "!!bool" "true", .str "x")]) = .ok a ∧
    MildApi a ∧ a.types.len = 2 ∧ a.extra.len = 1 := by
  refine ⟨_, rfl, ⟨?_, ?_, rfl, rfl⟩, rfl, rfl⟩
  · intro p hp s hs
    have hp : p ∈ [(Scalar.bool true, Node.str "x")] := hp
    rw [List.mem_singleton.mp hp] at hs
    cases hs
  · intro e he
    have he : e ∈ [("A", DT.new .string), ("B", DT.ext (Hdr.new .array) (.array ⟨false, 0, 2147483647⟩)
      (OM.empty true) (OM.empty false) (some ((DT.new .custom).setSchema "A")))] := he
    simp only [List.mem_cons, List.not_mem_nil, or_false] at he
    rcases he with rfl | rfl
    · exact .ext (by decide) ⟨by simp [IsSmall], fun _ h => (nomatch h)⟩ (fun _ h => (nomatch h))
        rfl rfl rfl rfl rfl (fun _ h => (nomatch h)) (fun _ h => (nomatch h))
    · refine .ext (by decide) ⟨by simp [IsSmall], by simp [IsSmall]⟩ (fun _ h => (nomatch h))
        rfl rfl rfl rfl rfl (fun _ h => (nomatch h)) (fun t h => ?_)
      cases h
      exact .ext (by decide) trivial (fun _ h => (nomatch h))
        rfl rfl rfl rfl rfl (fun _ h => (nomatch h)) (fun _ h => (nomatch h))

/-! ### C43 -/

/-- C43: re-parsing what is written gives the same library. -/
theorem C43_lossless (X : Xyml) (hX : Lawful X) (l : Library) (h : PlainLib l) :
    parseLibrary X (some (l.toYAML X)) = .ok l := by
  rw [parseLibrary_toYAML hX h.writable, h.canon]

/-- C43: the same for a library that was parsed. -/
theorem C43_parsed_lossless (X : Xyml) (hX : Lawful X) (n : Option Node) (l : Library)
    (h : parseLibrary X n = .ok l) (hm : MildLib l) :
    parseLibrary X (some (l.toYAML X)) = .ok l :=
  C43_lossless X hX l ((parseLibrary_parsed hX h).plain hm)

/-- C43: with annotations and types that are written as plain mappings, re-parsing gives exactly
`canonLib l`. -/
theorem C43_read_back (X : Xyml) (hX : Lawful X) (l : Library) (h : WritableLib l) :
    parseLibrary X (some (l.toYAML X)) = .ok (canonLib l) := parseLibrary_toYAML hX h

/-- A library with types, traits and extra facets. -/
def plainLib : Library :=
  { Library.new with
    usage := some "shared"
    traits := ⟨[("paged", .map []), ("sorted", .str "x")], false⟩
    types := ⟨[("Pair", sampleObject)], false⟩
    extra := ⟨[(.bool true, .str "odd"), (.str "color", .str "red")], false⟩ }

theorem plainLib_plain : PlainLib plainLib where
  extraFlag := rfl
  extra := by simp [plainLib, Distinct]
  extraKeys := fun p hp s hs => by
    simp only [plainLib, List.mem_cons, List.not_mem_nil, or_false] at hp
    rcases hp with rfl | rfl
    · cases hs
    · cases hs; decide
  uses := ⟨rfl, List.nodup_nil⟩
  securitySchemes := ⟨rfl, List.nodup_nil⟩
  traits := ⟨rfl, by simp [plainLib, Distinct]⟩
  annotationTypes := rfl
  resourceTypes := ⟨rfl, List.nodup_nil⟩
  types := ⟨rfl, by simp [plainLib, Distinct]⟩
  typesEach := fun e he => by
    simp only [plainLib, List.mem_cons, List.not_mem_nil, or_false] at he
    subst he
    exact sampleObject_plain
  annotations := rfl

example : parseLibrary Xyml.std (some (plainLib.toYAML Xyml.std)) = .ok plainLib :=
  C43_lossless _ Xyml.std_lawful _ plainLib_plain

/-! ### Sections that are written as ordered mappings -/

/-- The dictionary sections of an API document that have an `Unset` method (and `annotations`,
whose entries are written at the top level). -/
inductive Refill where
  | types (es : List (String × DT))
  | traits (es : List (String × Node))
  | resourceTypes (es : List (String × Node))
  | annotationTypes (es : List (String × Node))
  | securitySchemes (es : List (String × Node))
  | uses (es : List (String × String))

/-- How many entries are added. -/
def Refill.size : Refill → Nat
  | .types es => es.length
  | .traits es | .resourceTypes es | .annotationTypes es | .securitySchemes es => es.length
  | .uses es => es.length

/-- The call that unsets the section. -/
def Refill.unset : Refill → ApiOp
  | .types _ => .unsetTypes
  | .traits _ => .unsetTraits
  | .resourceTypes _ => .unsetResourceTypes
  | .annotationTypes _ => .unsetAnnotationTypes
  | .securitySchemes _ => .unsetSecuritySchemes
  | .uses _ => .unsetUses

/-- The key of the section. -/
def Refill.key : Refill → String
  | .types _ => "types"
  | .traits _ => "traits"
  | .resourceTypes _ => "resourceTypes"
  | .annotationTypes _ => "annotationTypes"
  | .securitySchemes _ => "securitySchemes"
  | .uses _ => "uses"

/-- The part. -/
def Refill.part : Refill → ApiSection
  | .types _ => .types
  | .traits _ => .traits
  | .resourceTypes _ => .resourceTypes
  | .annotationTypes _ => .annotationTypes
  | .securitySchemes _ => .securitySchemes
  | .uses _ => .uses

/-- Putting the entries, one after the other, into the map that the getter returns. -/
def Refill.add : Refill → APISpec → APISpec
  | .types es, a => { a with types := a.types.putAll es }
  | .traits es, a => { a with traits := a.traits.putAll es }
  | .resourceTypes es, a => { a with resourceTypes := a.resourceTypes.putAll es }
  | .annotationTypes es, a => { a with annotationTypes := a.annotationTypes.putAll es }
  | .securitySchemes es, a => { a with securitySchemes := a.securitySchemes.putAll es }
  | .uses es, a => { a with uses := a.uses.putAll es }

/-- The same section as in a new document. -/
def Refill.clear : Refill → APISpec → APISpec
  | .types _, a => { a with types := APISpec.new.types }
  | .traits _, a => { a with traits := APISpec.new.traits }
  | .resourceTypes _, a => { a with resourceTypes := APISpec.new.resourceTypes }
  | .annotationTypes _, a => { a with annotationTypes := APISpec.new.annotationTypes }
  | .securitySchemes _, a => { a with securitySchemes := APISpec.new.securitySchemes }
  | .uses _, a => { a with uses := APISpec.new.uses }

private theorem putAll_ne {K V : Type} [DecidableEq K] (es : List (K × V)) (b : Bool)
    (h : 0 < es.length) : ((OM.empty b).putAll es).ents ≠ [] := by
  rw [OM.empty_putAll_ents]
  cases es with
  | nil => cases h
  | cons e es =>
    obtain ⟨v, _, h1⟩ := lastWins_suffix (A := []) (B := e :: es) (k := e.1) (by simp)
    exact List.ne_nil_of_mem h1

private theorem dict_refilled {V : Type} (f : V → Node) (es : List (String × V)) (b : Bool)
    (h : 0 < es.length) : ∃ ps, dictNode f ((OM.empty b).putAll es) = some (renderPairs b ps) := by
  unfold dictNode
  rw [if_neg (putAll_ne es b h), OM.omap_putAll]
  exact ⟨_, rfl⟩

private theorem refill_key (r : Refill) : (r.key, r.part) ∈ apiKeys ∧ r.key ≠ "schemas" ∧
    r.part ∈ [ApiSection.uses, .securitySchemes, .baseUriParameters, .traits,
      .annotationTypes, .resourceTypes, .types, .annotations] := by
  cases r <;> simp only [Refill.key, Refill.part] <;> decide

private theorem refill_entry {X : Xyml} (hX : Lawful X) (r : Refill) (a : APISpec)
    (hc : CleanApi a) {n : Node} (h : writtenPart X a r.part = some n) :
    (mapEntries (a.toYAML X)).filter (fun p => p.1.isStr && p.1.value == r.key) =
      [(Node.str r.key, n)] := by
  rw [C41_section_entry X hX a hc r.key r.part (refill_key r).1 (refill_key r).2.1, h]
  rfl

private theorem refill_clean (r : Refill) (a : APISpec) (hc : CleanApi a) :
    CleanApi (r.add (a.apply r.unset)) ∧ CleanApi (r.add (r.clear a)) := by
  cases r <;> exact ⟨⟨hc.1, hc.2, hc.3, hc.4, hc.5, hc.6⟩, ⟨hc.1, hc.2, hc.3, hc.4, hc.5, hc.6⟩⟩

private theorem refill_part {X : Xyml} (r : Refill) (a : APISpec) (hr : 0 < r.size) :
    (∃ ps, writtenPart X (r.add (a.apply r.unset)) r.part = some (renderPairs true ps)) ∧
    ∃ ps, writtenPart X (r.add (r.clear a)) r.part = some (renderPairs false ps) := by
  cases r with
  | types es => exact ⟨dict_refilled _ es true hr, dict_refilled _ es false hr⟩
  | traits es => exact ⟨dict_refilled _ es true hr, dict_refilled _ es false hr⟩
  | resourceTypes es => exact ⟨dict_refilled _ es true hr, dict_refilled _ es false hr⟩
  | annotationTypes es => exact ⟨dict_refilled _ es true hr, dict_refilled _ es false hr⟩
  | securitySchemes es => exact ⟨dict_refilled _ es true hr, dict_refilled _ es false hr⟩
  | uses es => exact ⟨dict_refilled _ es true hr, dict_refilled _ es false hr⟩

/-- An entry that is a sequence where a mapping is needed makes the document unreadable. -/
theorem api_seq_rejected {X : Xyml} {ps : List (Node × Node)} {p : Node × Node} (hp : p ∈ ps)
    {tag : String} {ns : List Node} (hv : p.2 = .seq tag ns)
    (hs : apiSectionOf p ∈ [ApiSection.uses, .securitySchemes, .baseUriParameters, .traits,
      .annotationTypes, .resourceTypes, .types, .annotations]) (b : APISpec) :
    parseApi X (.map ps) ≠ .ok b := by
  intro h
  obtain ⟨x, y, hstep⟩ := api_part_mem (a := APISpec.new) h hp
  rw [hv] at hstep
  revert x y
  generalize apiSectionOf p = s at hs
  simp only [List.mem_cons, List.not_mem_nil, or_false] at hs
  rcases hs with rfl | rfl | rfl | rfl | rfl | rfl | rfl | rfl <;> intro x y h
  case inr.inr.inr.inr.inr.inr.inl =>
    have h : loadTypes X (.seq tag ns) x = .ok y := h
    cases h
  all_goals cases h

/-! ### C40 -/

/-- C40: false: after `Unset`, whatever entries are added, the document cannot be read back. -/
theorem C40_unset_then_add_false (X : Xyml) (hX : Lawful X) (a : APISpec) (hc : CleanApi a)
    (r : Refill) (hr : 0 < r.size) (b : APISpec) :
    parseApi X ((r.add (a.apply r.unset)).toYAML X) ≠ .ok b := by
  obtain ⟨⟨ps, h1⟩, _⟩ := refill_part (X := X) r a hr
  obtain ⟨h2, _⟩ := refill_clean r a hc
  have h3 := refill_entry hX r _ h2 h1
  have h4 := List.mem_of_mem_filter (h3 ▸ List.mem_singleton_self (Node.str r.key, renderPairs true ps))
  rw [api_toYAML_eq] at h4 ⊢
  refine api_seq_rejected h4 (tag := omapTag) rfl ?_ b
  have h5 : apiSectionOf (Node.str r.key, renderPairs true ps) = r.part :=
    apiSectionOf_known (refill_key r).1 _
  rw [h5]
  exact (refill_key r).2.2

/-- C40: false: what is written differs from what is written when the same entries are added to
the section of a new document. -/
theorem C40_written_differently_false (X : Xyml) (hX : Lawful X) (a : APISpec) (hc : CleanApi a)
    (r : Refill) (hr : 0 < r.size) :
    (r.add (a.apply r.unset)).toYAML X ≠ (r.add (r.clear a)).toYAML X := by
  intro h
  obtain ⟨⟨ps, h1⟩, ⟨qs, h1'⟩⟩ := refill_part (X := X) r a hr
  obtain ⟨h2, h2'⟩ := refill_clean r a hc
  have h3 := refill_entry hX r _ h2 h1
  rw [h, refill_entry hX r _ h2' h1'] at h3
  simp [renderPairs] at h3

/-- C40: for annotations it holds: the flag of the annotation map has no effect. -/
theorem C40_annotations (X : Xyml) (a : APISpec) (es : List (String × Ann)) :
    let u := a.apply .unsetAnnotations
    APISpec.toYAML X { u with annotations := u.annotations.putAll es } =
      APISpec.toYAML X { a with annotations := APISpec.new.annotations.putAll es } := by
  have h : ∀ b : Bool, APISpec.toYAML X { a with annotations := (OM.empty b).putAll es } =
      APISpec.toYAML X { a with annotations := ⟨((OM.empty b).putAll es).ents, false⟩ } :=
    fun _ => rfl
  show APISpec.toYAML X { a with annotations := (OM.empty true).putAll es } =
    APISpec.toYAML X { a with annotations := (OM.empty false).putAll es }
  rw [h, h, OM.empty_putAll_ents, OM.empty_putAll_ents]

example : CleanApi APISpec.new ∧ 0 < (Refill.types [("A", DT.new .string)]).size ∧
    parseApi Xyml.std (((Refill.types [("A", DT.new .string)]).add
      (APISpec.new.apply .unsetTypes)).toYAML Xyml.std) = .err .notMap ∧
    (parseApi Xyml.std (((Refill.types [("A", DT.new .string)]).add
      ((Refill.types []).clear APISpec.new)).toYAML Xyml.std)).isOk = true :=
  ⟨⟨List.nodup_nil, fun _ h => (nomatch h), List.nodup_nil, fun _ h => (nomatch h), List.nodup_nil,
    fun _ h => (nomatch h)⟩, by decide, rfl, rfl⟩

/-! ### C39: annotations of API documents -/

/-- C39: false for API documents: a document whose annotations were parsed (their values are
ordered-output maps) cannot be read back. -/
theorem C39_api_annotations_false (X : Xyml) (hX : Lawful X) (a : APISpec) (hc : CleanApi a)
    (hne : a.annotations.ents ≠ []) (hp : ParsedAnns false a.annotations) (b : APISpec) :
    parseApi X (a.toYAML X) ≠ .ok b := by
  obtain ⟨e, he⟩ := List.exists_mem_of_ne_nil _ hne
  have h1 := (C41_rest_written X hX a hc).1 e he
  rw [(hp.values e he).1] at h1
  rw [api_toYAML_eq] at h1 ⊢
  refine api_seq_rejected h1 (tag := omapTag) rfl ?_ b
  have h2 : startsWith '(' (Node.str e.1) = true := by
    simp [startsWith, Node.str, Node.isStr, Node.value, hp.keys e he]
  simp [apiSectionOf, h2]

/-- Such a document, as parsed; its written form is rejected. -/
example : ∃ a, parseApi Xyml.std (.map [(.str "title", .str "t"),
      (.str "(note)", .map [(.str "a", .str "b")])]) = .ok a ∧ a.annotations.ents ≠ [] ∧
    CleanApi a ∧ ParsedAnns false a.annotations ∧
    parseApi Xyml.std (a.toYAML Xyml.std) = .err .notMap := by
  have hp := (parseApi_parsed Xyml.std_lawful (n := .map [(.str "title", .str "t"),
      (.str "(note)", .map [(.str "a", .str "b")])]) rfl).annotations
  exact ⟨_, rfl, List.cons_ne_nil _ _, ⟨List.nodup_nil, fun _ h => (nomatch h), hp.distinct,
    hp.keys, List.nodup_nil, fun _ h => (nomatch h)⟩, hp, rfl⟩

/-- C39: an annotation whose value is not a mapping is rejected on input. -/
theorem C39_api_scalar_annotation_rejected (X : Xyml) (ps : List (Node × Node)) (k : String)
    (v : Node) (hp : (Node.str k, v) ∈ ps) (hk : k.toList.head? = some '(') (hv : isMap v = false)
    (a : APISpec) : parseApi X (.map ps) ≠ .ok a := by
  intro h
  obtain ⟨x, y, hstep⟩ := api_part_mem (a := APISpec.new) h hp
  have h2 : startsWith '(' (Node.str k) = true := by
    simp [startsWith, Node.str, Node.isStr, Node.value, hk]
  have h3 : apiSectionOf (Node.str k, v) = .annotations := by simp [apiSectionOf, h2]
  revert x y
  rw [h3]
  intro x y h
  obtain ⟨z, hz, _⟩ := Res.map_eq_ok.mp h
  cases v with
  | map _ => cases hv
  | _ => cases hz

example : parseApi Xyml.std (.map [(.str "title", .str "t"), (.str "(note)", .str "x")]) =
    .err .notMap := rfl

end Verif.Props
