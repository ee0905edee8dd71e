import Mathlib.Data.List.Nodup
import Verif.Props.TypeWrite
import Verif.Props.TypeFacets
import Verif.Props.TypeRoundTrip

/-! # C64: exactly what is written for a data type or an example, in which order -/

namespace Verif.Props
open Verif Verif.Doc Verif.Doc.Spec
open scoped List

/-- The places of a written type. -/
inductive Slot where
  | default
  | facet (name : String) (f : Facet)
  | extras
  | annotations

/-- The facets that only some kinds have, in writing order. -/
def ownSlots : Kind → List Slot
  | .string => [.facet "pattern" .pattern, .facet "minLength" .minLength,
      .facet "maxLength" .maxLength]
  | .file => [.facet "fileTypes" .fileTypes, .facet "minLength" .minLength,
      .facet "maxLength" .maxLength]
  | .array => [.facet "uniqueItems" .uniqueItems, .facet "minItems" .minItems,
      .facet "maxItems" .maxItems, .facet "items" .items]
  | .object => [.facet "additionalProperties" .additionalProperties,
      .facet "minProperties" .minProperties, .facet "maxProperties" .maxProperties,
      .facet "discriminator" .discriminator, .facet "discriminatorValue" .discriminatorValue,
      .facet "properties" .properties]
  | .datetime => [.facet "format" .format]
  | .number | .integer => [.facet "format" .format, .facet "minimum" .minimum,
      .facet "maximum" .maximum, .facet "multipleOf" .multipleOf]
  | _ => []

/-- The writing order of each kind. -/
def slots (kd : Kind) : List Slot :=
  if isBasic kd then [.facet "type" .type, .extras]
  else [.default, .facet "displayName" .displayName, .facet "description" .description,
      .facet "type" .type, .extras, .facet "required" .required, .annotations,
      .facet "facets" .facets, .facet "xml" .xml] ++ ownSlots kd ++
    [.facet "enum" .enum, .facet "example" .example, .facet "examples" .examples]

/-- What is put at each place. -/
def putsAt (X : Xyml) (t : DT) : Slot → List (Scalar × Node)
  | .default => (dflt t).toList.map fun v => (.str "default", v)
  | .facet name f => (writtenFacet X t f).toList.map fun v => (.str name, v)
  | .extras => t.extra.ents
  | .annotations => (annotations t).map fun a => (.str a.1, renderStrMap id a.2)

private theorem opt_puts (k : Scalar) (o : Option Node) :
    OM.optEnt k o = o.toList.map fun v => (k, v) := by cases o <;> rfl

private theorem opt_pos (X : Xyml) (n : Nat) :
    (if n > 0 then some (X.ofInt n) else none) = nonDefault X 0 (some n) := by
  unfold nonDefault
  by_cases h : n = 0
  · subst h; rfl
  · simp [h, Nat.pos_of_ne_zero h]

private theorem opt_ne (X : Xyml) (d n : Nat) :
    (if n ≠ d then some (X.ofInt n) else none) = nonDefault X d (some n) := by
  unfold nonDefault
  by_cases h : n = d <;> simp [h]

private theorem body_slots (X : Xyml) (h : Hdr) (b : Body) (fs : OM String (OM String DT))
    (ps : OM String DT) (it : Option DT) :
    b.ents X (propsNode X ps) (itemsNode X it) =
      (ownSlots b.kind).flatMap (putsAt X (.ext h b fs ps it)) := by
  have flat : ∀ {a : Slot} {l : List Slot} {g : Slot → List (Scalar × Node)},
      (a :: l).flatMap g = g a ++ l.flatMap g := rfl
  rw [propsNode_eq, itemsNode_eq]
  cases b <;> simp only [Body.ents, ownSlots, Body.kind, flat, List.flatMap_nil, List.append_nil,
    putsAt, opt_puts, opt_pos, opt_ne]
  case file f => rfl
  case string f => rfl
  case datetime f => rfl
  case number f => rfl
  case integer f => rfl
  case array f =>
    congr 1
    cases hu : f.uniqueItems <;> simp [writtenFacet, uniqueItems, body, hu]
  case object f =>
    congr 1
    cases hu : f.addtlProps <;> simp [writtenFacet, additionalProperties, body, hu]

theorem ents_of_slots (X : Xyml) (t : DT) :
    t.ents X = (slots t.kind).flatMap (putsAt X t) := by
  cases t with
  | basic i s x =>
    cases i <;> simp [DT.ents, slots, DT.kind, isBasic, putsAt, writtenFacet, typeScalar, DT.extra,
      DT.type, Node.str]
  | ext h b fs ps it =>
    have hex : (if h.examples.len > 0 then some (renderStrMap (Example.toYAML X) h.examples)
        else none) = writtenFacet X (.ext h b fs ps it) .examples := by
      obtain ⟨sc, xt, dn, ds, an, xm, rq, df, en, ex, ⟨es, o⟩⟩ := h
      cases es <;> simp [writtenFacet, examples, examplesMap, OM.len]
    have hty : Node.str h.schema = typeScalar (.ext h b fs ps it) := by cases b <;> rfl
    have hrq : (if h.required then none else some (X.ofBool h.required)) =
        writtenFacet X (.ext h b fs ps it) .required := by
      cases hr : h.required <;> simp [writtenFacet, required, hr]
    have hb : isBasic (DT.ext h b fs ps it).kind = false := by cases b <;> rfl
    rw [slots, hb]
    simp only [DT.ents, dtEnts, Hdr.headEnts, Hdr.reqEnts, Hdr.tailEnts, hex, hty, hrq, opt_puts,
      facetsNode_eq, body_slots X h b fs ps it, List.append_assoc, Bool.false_eq_true, if_false,
      List.flatMap_append]
    simp only [List.flatMap_cons, List.flatMap_nil, List.append_nil, List.append_assoc, putsAt]
    rfl

private theorem lastWins_length_pos {es : List (Scalar × Node)} {k : Scalar}
    (h : k ∈ es.map Prod.fst) : ∃ v, (k, v) ∈ lastWins es := by
  obtain ⟨v, _, h⟩ := lastWins_suffix (A := []) h
  exact ⟨v, h⟩

/-- C64: what is written for any data type: the facets that are not at their defaults, in the
writing order of the kind; of several under one key only the last stays.  A single entry is
written as its value. -/
theorem C64_written (X : Xyml) (t : DT) :
    t.toYAML X = match lastWins ((slots t.kind).flatMap (putsAt X t)) with
      | [e] => e.2
      | es => .map (es.map fun e => (X.ofKey e.1, e.2)) := by
  have htype := type_key X t
  rw [ents_of_slots] at htype
  rw [toYAML_eq, ents_of_slots]
  generalize (slots t.kind).flatMap (putsAt X t) = L at htype ⊢
  have he : ((OM.empty false).putAll L : OM Scalar Node) = ⟨lastWins L, false⟩ := by
    have h1 : ((OM.empty false).putAll L : OM Scalar Node).ents = lastWins L :=
      OM.empty_putAll_ents _ _
    have h2 : ((OM.empty false).putAll L : OM Scalar Node).omap = false := OM.omap_putAll _ _
    rw [← h1]
    generalize ((OM.empty false).putAll L : OM Scalar Node) = m at h2 ⊢
    cases m
    cases h2
    rfl
  obtain ⟨v, hv⟩ := lastWins_length_pos htype
  rw [he]
  generalize lastWins L = M at hv ⊢
  unfold finish
  match M, hv with
  | [e], hv =>
    rw [List.mem_singleton] at hv
    subst hv
    rfl
  | e :: e' :: es, _ =>
    rw [if_neg (by simp [OM.len])]
    rfl

example (X : Xyml) (s : String) : (DT.basic false s (OM.empty true)).toYAML X = .str s :=
  (C64_written X _).trans rfl

/-- C64: without key clashes these are all the entries, in this order. -/
theorem C64_entries_in_order (X : Xyml) (hX : Lawful X) (t : DT) (hc : Clean t) :
    entriesOf (t.toYAML X) =
      ((slots t.kind).flatMap (putsAt X t)).map fun e => (X.ofKey e.1, e.2) := by
  rw [entries_toYAML hX hc, ents_of_slots]
  rfl

example (X : Xyml) (hX : Lawful X) (t : DT) (hc : Clean t) (hk : t.kind = .boolean) :
    entriesOf (t.toYAML X) = ((slots .boolean).flatMap (putsAt X t)).map fun e => (X.ofKey e.1, e.2) :=
  hk ▸ C64_entries_in_order X hX t hc

/-- C64: no key is written twice. -/
theorem C64_keys_once (X : Xyml) (hX : Lawful X) (t : DT) (hc : Clean t) :
    ((entriesOf (t.toYAML X)).map Prod.fst).Nodup := by
  rw [entries_toYAML hX hc]
  have hd : ((t.ents X).map Prod.fst).Nodup := hc.distinct
  have : (asPairs X (t.ents X)).map Prod.fst = ((t.ents X).map Prod.fst).map X.ofKey := by
    simp [asPairs]
  rw [this]
  refine List.Nodup.map (fun a b hab => ?_) hd
  have := hX.toScalar_ofKey a
  rw [show X.ofKey a = X.ofKey b from hab, hX.toScalar_ofKey] at this
  exact (Option.some.inj this).symm

/-- C64: types read from a mapping with string keys have no key clashes. -/
theorem C64_parsed (X : Xyml) (hX : Lawful X) (ps : List (Node × Node)) (t : DT)
    (h : hat X (.map ps) = .ok t) (hs : ∀ p ∈ ps, p.1.isStr = true) : Clean t := by
  have hp := C49_parsed X hX _ _ h
  have hx := C18_extra_facets X ps t h
  have hkeys : ∀ e ∈ t.extra.ents, ∃ p ∈ ps, e.1 = .str p.1.value ∧
      isExtra t.kind p = true := by
    intro e he
    rw [hx] at he
    obtain ⟨p, hp, rfl⟩ := List.mem_map.mp (mem_lastWins he)
    exact ⟨p, (List.mem_filter.mp hp).1, rfl, (List.mem_filter.mp hp).2⟩
  cases hp with
  | basic hb =>
    refine ⟨hb.distinct, fun hm => ?_⟩
    obtain ⟨e, he, hk⟩ := List.mem_map.mp hm
    obtain ⟨s, h1, h2⟩ := hb.keys e he
    rw [h1] at hk
    cases hk
    revert h2
    split <;> decide
  | @ext g b fs qs it h1 =>
    have hx : extraWithDefault g = g.extra.ents := by
      simp [extraWithDefault, h1.dflt]
    refine ⟨?_, ?_, h1.annotations.distinct, h1.annotations.keys⟩
    · rw [hx]; exact h1.extra.distinct
    · rw [hx]
      intro e he s hes
      obtain ⟨p, hp, hk, hi⟩ := hkeys e he
      rw [hk] at hes
      cases hes
      have hb : isBasic b.kind = false := by cases b <;> rfl
      have hi : isExtra b.kind p = true := hi
      simp only [isExtra, hb, Bool.false_or, Bool.and_eq_true, Bool.not_eq_true', startsWith,
        hs p hp, Bool.true_and] at hi
      refine ⟨fun hm => ?_, fun hc => ?_⟩
      · have := hi.1
        rw [List.contains_iff_mem.mpr hm] at this
        cases this
      · have := hi.2
        rw [hc] at this
        simp at this

/-- A number type with an extra facet, an annotation and two bounds, read from a document in
another order. -/
def sampleScrambled : Node := .map [(.str "maximum", .scalar "!!float" "0.9"), (.str "(note)", .map []),
  (.str "color", .str "red"), (.str "enum", .seq seqTag [.scalar "!!float" "0.4"]),
  (.str "minimum", .scalar "!!float" "0.1"), (.str "type", .str "number"),
  (.str "description", .str "d")]

example : ∃ t, hat Xyml.std sampleScrambled = .ok t ∧
    ((entriesOf (t.toYAML Xyml.std)).map Prod.fst).Nodup := by
  obtain ⟨t, ht⟩ := Res.isOk_iff.mp
    (show (hat Xyml.std sampleScrambled).isOk = true by decide +kernel)
  exact ⟨t, ht, C64_keys_once _ Xyml.std_lawful t
    (C64_parsed _ Xyml.std_lawful _ t ht (by decide +kernel))⟩

example : ∃ t, hat Xyml.std sampleScrambled = .ok t ∧ Clean t ∧
    (entriesOf (t.toYAML Xyml.std)).map (fun p => p.1.value) =
      ["description", "type", "color", "(note)", "minimum", "maximum", "enum"] := by
  obtain ⟨t, ht⟩ := Res.isOk_iff.mp
    (show (hat Xyml.std sampleScrambled).isOk = true by decide +kernel)
  refine ⟨t, ht, C64_parsed _ Xyml.std_lawful _ t ht (by decide +kernel), ?_⟩
  have : ((hat Xyml.std sampleScrambled).map fun t =>
      (entriesOf (t.toYAML Xyml.std)).map fun p => p.1.value) =
      .ok ["description", "type", "color", "(note)", "minimum", "maximum", "enum"] := by
    decide +kernel
  rw [ht] at this
  exact Res.ok.inj this

/-! ### Examples -/

/-- Examples that are written in expanded form. -/
def Expanded (e : Example) : Prop :=
  e.displayName ≠ none ∨ e.description ≠ none ∨ e.annotations.ents ≠ [] ∨ e.extra.ents ≠ [] ∨
    e.strict = false

/-- What is put for an example in expanded form, in order. -/
def examplePuts (X : Xyml) (e : Example) : List (Scalar × Node) :=
  (e.displayName.toList.map fun s => (.str "displayName", .str s)) ++
  (e.description.toList.map fun s => (.str "description", .str s)) ++
  (e.value.toList.map fun v => (.str "value", v.render X)) ++
  (if e.strict then [] else [(.str "strict", X.ofBool false)]) ++
  (e.annotations.ents.map fun a => (.str a.1, renderStrMap id a.2)) ++
  e.extra.ents

/-- C64: an example with anything but a value and `strict: true` is written as a mapping. -/
theorem C64_example_expanded (X : Xyml) (e : Example) (h : Expanded e) :
    e.toYAML X = .map ((lastWins (examplePuts X e)).map fun p => (X.ofKey p.1, p.2)) := by
  have hexp : e.expand = true := by
    simp only [Example.expand, OM.len, Bool.or_eq_true, Bool.not_eq_true',
      Option.isSome_iff_ne_none]
    rcases h with h | h | h | h | h
    · simp [h]
    · simp [h]
    · have := List.length_pos_iff.mpr h; simp [this]
    · have := List.length_pos_iff.mpr h; simp [this]
    · simp [h]
  have hm : e.marshal X = (OM.empty false).putAll (examplePuts X e) := by
    have hr : ∀ out : OM Scalar Node,
        (if e.strict then out else out.put (.str "strict") (X.ofBool e.strict)) =
          out.putAll (if e.strict then [] else [(.str "strict", X.ofBool false)]) := by
      intro out; cases e.strict <;> rfl
    have hs : e.displayName.toList.map (fun s => (Scalar.str "displayName", Node.str s)) =
        OM.optEnt (.str "displayName") (e.displayName.map .str) := by
      cases e.displayName <;> rfl
    have hd : e.description.toList.map (fun s => (Scalar.str "description", Node.str s)) =
        OM.optEnt (.str "description") (e.description.map .str) := by
      cases e.description <;> rfl
    have hv : e.value.toList.map (fun v => (Scalar.str "value", v.render X)) =
        OM.optEnt (.str "value") (e.value.map (Val.render X)) := by
      cases e.value <;> rfl
    simp only [Example.marshal, hexp, if_true, hr, OM.putOpt_eq, examplePuts, hs, hd, hv,
      OM.putAll_append]
    rfl
  rw [Example.toYAML, hm, renderAny, OM.omap_putAll, OM.empty_putAll_ents]
  rfl

example : (({ Example.new .integer with value := some (.str "3"), strict := false } : Example).toYAML
    Xyml.std) = .map [(.str "value", .str "3"), (.str "strict", .scalar "!!bool" "false")] :=
  (C64_example_expanded Xyml.std _ (by simp [Expanded])).trans rfl

/-- C64: otherwise it is written as a mapping whose only key is the empty string. -/
theorem C64_example_plain (X : Xyml) (hX : Lawful X) (e : Example) (h : ¬ Expanded e) :
    e.toYAML X = .map [(Node.str "", match e.value with
      | some v => v.render X
      | none => nullNode)] := by
  have hexp : e.expand = false := by
    unfold Expanded at h
    push Not at h
    obtain ⟨h1, h2, h3, h4, h5⟩ := h
    have h5 : e.strict = true := by simpa using h5
    simp [Example.expand, OM.len, h1, h2, h3, h4, h5]
  have : (X.ofKey (.str "")) = Node.str "" := hX.ofKey_str _
  rw [Example.toYAML, Example.marshal, if_neg (by simp [hexp])]
  cases hv : e.value <;> simp [renderAny, OM.put, OM.empty, renderPairs, this]

example : Expanded { Example.new .integer with value := some (.int 3), strict := false } ∧
    ¬ Expanded { Example.new .integer with value := some (.int 3) } := by
  constructor
  · simp [Expanded]
  · simp [Expanded, Example.new, OM.empty]

end Verif.Props
