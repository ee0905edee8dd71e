import Verif.Doc.TypeLemmas

/-! # One entry of a type definition touches one facet -/

namespace Verif.Doc
open Spec

/-- Change the header of an extended type (auxiliary). -/
def DT.onHdr (g : Hdr → Hdr) : DT → DT
  | .ext h b fs ps it => .ext (g h) b fs ps it
  | .basic i s x => .basic i s x

/-- Change the kind-specific part of an extended type (auxiliary). -/
def DT.onBody (g : Body → Body) : DT → DT
  | .ext h b fs ps it => .ext h (g b) fs ps it
  | .basic i s x => .basic i s x

/-- Change the string facets of a body, if it has them (auxiliary). -/
def Body.onString (g : StringF → StringF) : Body → Body
  | .string f => .string (g f)
  | b => b

/-- Change the file facets (auxiliary). -/
def Body.onFile (g : FileF → FileF) : Body → Body
  | .file f => .file (g f)
  | b => b

/-- Change the array facets (auxiliary). -/
def Body.onArray (g : ArrayF → ArrayF) : Body → Body
  | .array f => .array (g f)
  | b => b

/-- Change the object facets (auxiliary). -/
def Body.onObject (g : ObjectF → ObjectF) : Body → Body
  | .object f => .object (g f)
  | b => b

/-- Change the number facets (auxiliary). -/
def Body.onNumber (g : NumberF → NumberF) : Body → Body
  | .number f => .number (g f)
  | b => b

/-- Change the integer facets (auxiliary). -/
def Body.onInteger (g : IntegerF → IntegerF) : Body → Body
  | .integer f => .integer (g f)
  | b => b

/-- Change the datetime format (auxiliary). -/
def Body.onDatetime (x : Option String) : Body → Body
  | .datetime _ => .datetime x
  | b => b

/-- The float in a bound (auxiliary). -/
def Spec.Bound.getFlt : Bound → Option Flt
  | .flt f => f
  | _ => Option.none

/-- The integer in a bound (auxiliary). -/
def Spec.Bound.getInt : Bound → Option Int
  | .int f => f
  | _ => Option.none

/-- Replace the extra facets (auxiliary). -/
def DT.setExtra (x : OM Scalar Node) : DT → DT
  | .ext h b fs ps it => .ext { h with extra := x } b fs ps it
  | .basic i s _ => .basic i s x

/-- Replace the facet definitions (auxiliary). -/
def DT.setFacets (x : OM String (OM String DT)) : DT → DT
  | .ext h b _ ps it => .ext h b x ps it
  | .basic i s y => .basic i s y

/-- Replace the properties (auxiliary). -/
def DT.setProps (x : OM String DT) : DT → DT
  | .ext h b fs _ it => .ext h b fs x it
  | .basic i s y => .basic i s y

/-- Replace the item type (auxiliary). -/
def DT.setItems (x : Option DT) : DT → DT
  | .ext h b fs ps _ => .ext h b fs ps x
  | .basic i s y => .basic i s y

/-- Replace the value of one facet (auxiliary). -/
def DT.setFacet : (f : Facet) → f.Ty → DT → DT
  | .type, x, t => t.setSchema x
  | .displayName, x, t => t.onHdr fun h => { h with displayName := x }
  | .description, x, t => t.onHdr fun h => { h with description := x }
  | .required, x, t => t.onHdr fun h => { h with required := x }
  | .enum, x, t => t.onHdr fun h => { h with enum := x }
  | .example, x, t => t.onHdr fun h => { h with «example» := x }
  | .examples, x, t => t.onHdr fun h => { h with examples := x }
  | .xml, x, t => t.onHdr fun h => { h with xml := x }
  | .facets, x, t => t.setFacets x
  | .annotations, x, t => t.onHdr fun h => { h with annotations := x }
  | .extra, x, t => t.setExtra x
  | .properties, x, t => t.setProps x
  | .items, x, t => t.setItems x
  | .pattern, x, t => t.onBody (Body.onString fun f => { f with pattern := x })
  | .minLength, x, t => (t.onBody (Body.onString fun f => { f with minLength := Option.getD x 0 })).onBody
      (Body.onFile fun f => { f with minLength := Option.getD x 0 })
  | .maxLength, x, t => (t.onBody (Body.onString fun f => { f with maxLength := x })).onBody
      (Body.onFile fun f => { f with maxLength := Option.getD x 0 })
  | .fileTypes, x, t => t.onBody (Body.onFile fun f => { f with fileTypes := x })
  | .uniqueItems, x, t => t.onBody (Body.onArray fun f => { f with uniqueItems := Option.getD x false })
  | .minItems, x, t => t.onBody (Body.onArray fun f => { f with minItems := Option.getD x 0 })
  | .maxItems, x, t => t.onBody (Body.onArray fun f => { f with maxItems := Option.getD x 0 })
  | .minProperties, x, t => t.onBody (Body.onObject fun f => { f with minProps := x })
  | .maxProperties, x, t => t.onBody (Body.onObject fun f => { f with maxProps := x })
  | .additionalProperties, x, t =>
    t.onBody (Body.onObject fun f => { f with addtlProps := Option.getD x false })
  | .discriminator, x, t => t.onBody (Body.onObject fun f => { f with discrim := x })
  | .discriminatorValue, x, t => t.onBody (Body.onObject fun f => { f with discrimVal := x })
  | .minimum, x, t => (t.onBody (Body.onNumber fun f => { f with minimum := Bound.getFlt x })).onBody
      (Body.onInteger fun f => { f with minimum := Bound.getInt x })
  | .maximum, x, t => (t.onBody (Body.onNumber fun f => { f with maximum := Bound.getFlt x })).onBody
      (Body.onInteger fun f => { f with maximum := Bound.getInt x })
  | .format, x, t => ((t.onBody (Body.onDatetime x)).onBody
      (Body.onNumber fun f => { f with format := x })).onBody
      (Body.onInteger fun f => { f with format := x })
  | .multipleOf, x, t => (t.onBody (Body.onNumber fun f => { f with multipleOf := x })).onBody
      (Body.onInteger fun f => { f with multipleOf := x })

/-- The new value of a facet, from its old value and one entry (auxiliary). -/
def facetStep (X : Xyml) (kd : Kind) (k v : Node) : (f : Facet) → f.Ty → Res f.Ty
  | .type, _ => asString v
  | .displayName, _ => (asString v).map some
  | .description, _ => (asString v).map some
  | .required, _ => asBool X v
  | .enum, l => loadEnum X kd l v
  | .example, _ => (loadExample X kd v).map some
  | .examples, m => loadExamples X kd m v
  | .xml, _ => (loadXML X v).map some
  | .facets, m => loadFacets X v m
  | .annotations, m => (loadAnn v).map fun a => m.put k.value a
  | .extra, m =>
    if !isBasic kd && k.isStr && k.value == "" then .panic .emptyKey
    else .ok (m.put (.str k.value) v)
  | .properties, m => loadProps X v m
  | .items, _ => (hat X v).map some
  | .pattern, _ => (asString v).map some
  | .minLength, _ => (asUint X v).map some
  | .maxLength, _ => (asUint X v).map some
  | .fileTypes, _ => (asStringList v).map some
  | .uniqueItems, _ => (asBool X v).map some
  | .minItems, _ => (asUint X v).map some
  | .maxItems, _ => (asUint X v).map some
  | .minProperties, _ => (asUint X v).map some
  | .maxProperties, _ => (asUint X v).map some
  | .additionalProperties, _ => (asBool X v).map some
  | .discriminator, _ => (asString v).map some
  | .discriminatorValue, _ => .ok (some v)
  | .minimum, _ => match kd with
    | .integer => (asInt X v).map fun x => Bound.int (some x)
    | _ => (asFlt X v).map fun x => Bound.flt (some x)
  | .maximum, _ => match kd with
    | .integer => (asInt X v).map fun x => Bound.int (some x)
    | _ => (asFlt X v).map fun x => Bound.flt (some x)
  | .format, _ => match kd with
    | .datetime => (loadDateFormat v).map some
    | _ => (asString v).map some
  | .multipleOf, _ => (asFlt X v).map some

theorem Res.map_map {α β γ : Type} (r : Res α) (f : α → β) (g : β → γ) :
    (r.map f).map g = r.map fun a => g (f a) := by cases r <;> rfl

theorem firstChar_eq (s : String) : firstChar s = s.toList.head? := rfl

theorem firstChar_none {s : String} : firstChar s = none ↔ s = "" := by
  simp [firstChar, List.head?_eq_none_iff]

/-- One entry applied to one facet (auxiliary). -/
def DT.step (X : Xyml) (k v : Node) (t : DT) (f : Facet) : Res DT :=
  (facetStep X t.kind k v f (look f t)).map fun x => t.setFacet f x

section Steps
variable (X : Xyml) (k v : Node) (t : DT) (h : Hdr) (fs : OM String (OM String DT)) (ps : OM String DT) (it : Option DT)

theorem step_type : t.step X k v .type =
    (asString v).map fun s => t.setSchema s := rfl
theorem step_displayName : t.step X k v .displayName =
    (asString v).map fun s => t.onHdr fun h => { h with displayName := some s } := Res.map_map _ _ _
theorem step_description : t.step X k v .description =
    (asString v).map fun s => t.onHdr fun h => { h with description := some s } := Res.map_map _ _ _
theorem step_required : t.step X k v .required =
    (asBool X v).map fun s => t.onHdr fun h => { h with required := s } := rfl
theorem step_enum : t.step X k v .enum =
    (loadEnum X t.kind (enum t) v).map fun s => t.onHdr fun h => { h with enum := s } := rfl
theorem step_example : t.step X k v .example =
    (loadExample X t.kind v).map fun s => t.onHdr fun h => { h with «example» := some s } := Res.map_map _ _ _
theorem step_examples : t.step X k v .examples =
    (loadExamples X t.kind (examplesMap t) v).map fun s => t.onHdr fun h => { h with examples := s } := rfl
theorem step_xml : t.step X k v .xml =
    (loadXML X v).map fun s => t.onHdr fun h => { h with xml := some s } := Res.map_map _ _ _
theorem step_facets : t.step X k v .facets =
    (loadFacets X v (facets t)).map fun s => t.setFacets s := rfl
theorem step_annotations : t.step X k v .annotations =
    (loadAnn v).map fun a => t.onHdr fun h => { h with annotations := (annotationMap t).put k.value a } := Res.map_map _ _ _
theorem step_extra : t.step X k v .extra =
    if !isBasic t.kind && k.isStr && k.value == "" then .panic .emptyKey
    else .ok (t.setExtra (t.extra.put (.str k.value) v)) := by
  unfold DT.step facetStep
  simp only
  split <;> rfl
theorem step_properties : t.step X k v .properties =
    (loadProps X v (properties t)).map fun s => t.setProps s := rfl
theorem step_items : t.step X k v .items =
    (hat X v).map fun s => t.setItems (some s) := Res.map_map _ _ _
theorem step_pattern_string (f : StringF) : (DT.ext h (.string f) fs ps it).step X k v .pattern =
    (asString v).map fun x => .ext h (.string { f with pattern := some x }) fs ps it := Res.map_map _ _ _
theorem step_minLength_string (f : StringF) : (DT.ext h (.string f) fs ps it).step X k v .minLength =
    (asUint X v).map fun x => .ext h (.string { f with minLength := x }) fs ps it := Res.map_map _ _ _
theorem step_maxLength_string (f : StringF) : (DT.ext h (.string f) fs ps it).step X k v .maxLength =
    (asUint X v).map fun x => .ext h (.string { f with maxLength := some x }) fs ps it := Res.map_map _ _ _
theorem step_fileTypes_file (f : FileF) : (DT.ext h (.file f) fs ps it).step X k v .fileTypes =
    (asStringList v).map fun x => .ext h (.file { f with fileTypes := some x }) fs ps it := Res.map_map _ _ _
theorem step_minLength_file (f : FileF) : (DT.ext h (.file f) fs ps it).step X k v .minLength =
    (asUint X v).map fun x => .ext h (.file { f with minLength := x }) fs ps it := Res.map_map _ _ _
theorem step_maxLength_file (f : FileF) : (DT.ext h (.file f) fs ps it).step X k v .maxLength =
    (asUint X v).map fun x => .ext h (.file { f with maxLength := x }) fs ps it := Res.map_map _ _ _
theorem step_uniqueItems_array (f : ArrayF) : (DT.ext h (.array f) fs ps it).step X k v .uniqueItems =
    (asBool X v).map fun x => .ext h (.array { f with uniqueItems := x }) fs ps it := Res.map_map _ _ _
theorem step_minItems_array (f : ArrayF) : (DT.ext h (.array f) fs ps it).step X k v .minItems =
    (asUint X v).map fun x => .ext h (.array { f with minItems := x }) fs ps it := Res.map_map _ _ _
theorem step_maxItems_array (f : ArrayF) : (DT.ext h (.array f) fs ps it).step X k v .maxItems =
    (asUint X v).map fun x => .ext h (.array { f with maxItems := x }) fs ps it := Res.map_map _ _ _
theorem step_minProperties_object (f : ObjectF) : (DT.ext h (.object f) fs ps it).step X k v .minProperties =
    (asUint X v).map fun x => .ext h (.object { f with minProps := some x }) fs ps it := Res.map_map _ _ _
theorem step_maxProperties_object (f : ObjectF) : (DT.ext h (.object f) fs ps it).step X k v .maxProperties =
    (asUint X v).map fun x => .ext h (.object { f with maxProps := some x }) fs ps it := Res.map_map _ _ _
theorem step_additionalProperties_object (f : ObjectF) : (DT.ext h (.object f) fs ps it).step X k v .additionalProperties =
    (asBool X v).map fun x => .ext h (.object { f with addtlProps := x }) fs ps it := Res.map_map _ _ _
theorem step_discriminator_object (f : ObjectF) : (DT.ext h (.object f) fs ps it).step X k v .discriminator =
    (asString v).map fun x => .ext h (.object { f with discrim := some x }) fs ps it := Res.map_map _ _ _
theorem step_minimum_number (f : NumberF) : (DT.ext h (.number f) fs ps it).step X k v .minimum =
    (asFlt X v).map fun x => .ext h (.number { f with minimum := some x }) fs ps it := Res.map_map _ _ _
theorem step_maximum_number (f : NumberF) : (DT.ext h (.number f) fs ps it).step X k v .maximum =
    (asFlt X v).map fun x => .ext h (.number { f with maximum := some x }) fs ps it := Res.map_map _ _ _
theorem step_format_number (f : NumberF) : (DT.ext h (.number f) fs ps it).step X k v .format =
    (asString v).map fun x => .ext h (.number { f with format := some x }) fs ps it := Res.map_map _ _ _
theorem step_multipleOf_number (f : NumberF) : (DT.ext h (.number f) fs ps it).step X k v .multipleOf =
    (asFlt X v).map fun x => .ext h (.number { f with multipleOf := some x }) fs ps it := Res.map_map _ _ _
theorem step_minimum_integer (f : IntegerF) : (DT.ext h (.integer f) fs ps it).step X k v .minimum =
    (asInt X v).map fun x => .ext h (.integer { f with minimum := some x }) fs ps it := Res.map_map _ _ _
theorem step_maximum_integer (f : IntegerF) : (DT.ext h (.integer f) fs ps it).step X k v .maximum =
    (asInt X v).map fun x => .ext h (.integer { f with maximum := some x }) fs ps it := Res.map_map _ _ _
theorem step_format_integer (f : IntegerF) : (DT.ext h (.integer f) fs ps it).step X k v .format =
    (asString v).map fun x => .ext h (.integer { f with format := some x }) fs ps it := Res.map_map _ _ _
theorem step_multipleOf_integer (f : IntegerF) : (DT.ext h (.integer f) fs ps it).step X k v .multipleOf =
    (asFlt X v).map fun x => .ext h (.integer { f with multipleOf := some x }) fs ps it := Res.map_map _ _ _
theorem step_format_datetime (f : Option String) : (DT.ext h (.datetime f) fs ps it).step X k v .format =
    (loadDateFormat v).map fun x => .ext h (.datetime (some x)) fs ps it := Res.map_map _ _ _
theorem step_discriminatorValue_object (f : ObjectF) : (DT.ext h (.object f) fs ps it).step X k v .discriminatorValue =
    .ok (.ext h (.object { f with discrimVal := some v }) fs ps it) := rfl

end Steps

macro "named" : tactic => `(tactic| (simp [facetNamed, List.lookup, Body.isObject, Body.isArray, Body.assign, Hdr.assignBase, Doc.assignBase, Res.map_map, step_type, step_displayName, step_description, step_required, step_enum, step_example, step_examples, step_xml, step_facets, step_annotations, step_extra, step_properties, step_items, step_pattern_string, step_minLength_string, step_maxLength_string, step_fileTypes_file, step_minLength_file, step_maxLength_file, step_uniqueItems_array, step_minItems_array, step_maxItems_array, step_minProperties_object, step_maxProperties_object, step_additionalProperties_object, step_discriminator_object, step_minimum_number, step_maximum_number, step_format_number, step_multipleOf_number, step_minimum_integer, step_maximum_integer, step_format_integer, step_multipleOf_integer, step_format_datetime, step_discriminatorValue_object, DT.kind, Body.kind, DT.onHdr, DT.setSchema, DT.setFacets, DT.setProps, DT.setItems, enum, examplesMap, facets, properties]))

private theorem facetOf_extra {kd : Kind} {k v : Node} (hn : k.value ∉ facetNames kd) :
    facetOf kd (k, v) =
      if !isBasic kd && startsWith '(' k then .annotations else .extra := by
  unfold facetOf
  rw [if_neg (by simpa using hn)]

private theorem isBasic_body (b : Body) : isBasic b.kind = false := by cases b <;> rfl

private theorem common_sub (b : Body) {s : String} (h : s ∈ facetNames.common) :
    s ∈ facetNames b.kind := by
  cases b <;> simp [facetNames, Body.kind, h]

private theorem assignExt_other (X : Xyml) (k v : Node) (h : Hdr)
    (hn : k.value ∉ facetNames.common) :
    h.assignExt X k v =
      if k.isStr = true ∧ k.value = "" then .panic .emptyKey
      else if startsWith '(' k then
        (loadAnn v).map fun a => { h with annotations := h.annotations.put k.value a }
      else .ok { h with extra := h.extra.put (.str k.value) v } := by
  simp only [facetNames.common, List.mem_cons, List.not_mem_nil, or_false, not_or] at hn
  obtain ⟨h1, h2, h3, h4, h5, h6, h7, h8, h9, h10⟩ := hn
  unfold Hdr.assignExt
  rw [if_neg h3, if_neg h4, if_neg h6]
  have hb : h.assignBase k v = .ok { h with extra := h.extra.put (.str k.value) v } := by
    unfold Hdr.assignBase Doc.assignBase
    rw [if_neg (by simp [h1, h2])]
    rfl
  cases hk : k.isStr with
  | false => simp [hb, startsWith, hk]
  | true =>
    simp only [if_true, true_and, annIn, firstChar]
    cases hc : k.value.toList.head? with
    | none =>
      have : k.value = "" := firstChar_none.mp hc
      simp [this]
    | some c =>
      have : k.value ≠ "" := by
        intro h0
        rw [h0] at hc
        cases hc
      rw [if_neg this]
      by_cases hp : c = '('
      · subst hp
        simp [startsWith, hk, hc, Res.map]
        cases loadAnn v <;> rfl
      · simp [startsWith, hk, hc, hp, hb]

private theorem assignExt_type (X : Xyml) (k v : Node) (h : Hdr)
    (hk : k.value = "type" ∨ k.value = "schema") :
    h.assignExt X k v = (asString v).map fun s => { h with schema := s } := by
  have hb : h.assignBase k v = (asString v).map fun s => { h with schema := s } := by
    unfold Hdr.assignBase Doc.assignBase
    rw [if_pos hk, Res.map_map]
  have ha : annIn k.value v h.annotations = .ok none := by
    rcases hk with hk | hk <;> rw [hk] <;> rfl
  unfold Hdr.assignExt
  rw [ha, hb]
  rcases hk with hk | hk <;> simp [hk]

private theorem bodyAssign_other (X : Xyml) (k v : Node) (b : Body)
    (hn : k.value ∉ facetNames b.kind) : b.assign X k.value v = none := by
  cases b <;>
    simp only [Body.kind, facetNames, facetNames.common, List.cons_append, List.nil_append,
      List.mem_cons, List.not_mem_nil, or_false, not_or] at hn <;>
    simp [Body.assign, hn]

private theorem extra_ext (X : Xyml) (k v : Node) (h : Hdr) (b : Body) (fs ps it)
    (hn : k.value ∉ facetNames b.kind) :
    assign X (k, v) (.ext h b fs ps it) =
      (DT.ext h b fs ps it).step X k v (facetOf b.kind (k, v)) := by
  have hc : k.value ∉ facetNames.common := fun hm => hn (common_sub b hm)
  have hb := bodyAssign_other X k v b hn
  have ho : ¬ (k.value = "properties" ∧ b.isObject = true) := by
    rintro ⟨h1, h2⟩
    rw [Body.isObject_iff] at h2
    rw [h1, h2] at hn
    exact hn (by decide)
  have ha : ¬ (k.value = "items" ∧ b.isArray = true) := by
    rintro ⟨h1, h2⟩
    rw [Body.isArray_iff] at h2
    rw [h1, h2] at hn
    exact hn (by decide)
  have hcm : h.assignCommon X b.kind k.value v = none := by
    simp only [facetNames.common, List.mem_cons, List.not_mem_nil, or_false, not_or] at hc
    simp [Hdr.assignCommon, hc]
  have hf : k.value ≠ "facets" := by rintro h1; rw [h1] at hc; exact hc (by decide)
  unfold assign
  rw [if_neg hf, if_neg ho, if_neg ha, facetOf_extra hn, isBasic_body]
  unfold assignFlat
  rw [hcm, hb]
  simp only []
  rw [assignExt_other X k v h hc]
  cases hk : k.isStr with
  | false =>
    have : startsWith '(' k = false := by simp [startsWith, hk]
    simp [this, hk, step_extra, DT.kind, isBasic_body, DT.setExtra, DT.extra]
  | true =>
    by_cases he : k.value = ""
    · have : startsWith '(' k = false := by simp [startsWith, he]
      simp [this, he, hk, step_extra, DT.kind, isBasic_body]
    · by_cases hs : startsWith '(' k = true
      · simp [he, hs, step_annotations, Res.map_map, annotationMap, DT.onHdr]
      · rw [Bool.not_eq_true] at hs
        simp [he, hk, hs, step_extra, DT.kind, DT.setExtra, DT.extra]

theorem assign_eq (X : Xyml) (k v : Node) (t : DT) :
    assign X (k, v) t = t.step X k v (facetOf t.kind (k, v)) := by
  cases t with
  | basic i s x =>
    have hk : ∀ i, (DT.basic i s x).kind = .nil ∨ (DT.basic i s x).kind = .include := by
      intro i; cases i <;> simp [DT.kind]
    have hb : isBasic (DT.basic i s x).kind = true := by rcases hk i with h | h <;> rw [h] <;> rfl
    have hn : facetNames (DT.basic i s x).kind = ["type", "schema"] := by
      rcases hk i with h | h <;> rw [h] <;> rfl
    unfold assign assignBase
    by_cases h : k.value = "type" ∨ k.value = "schema"
    · have : facetOf (DT.basic i s x).kind (k, v) = .type := by
        unfold facetOf
        rw [hn, if_pos (by simpa using h)]
        rcases h with h | h <;> simp only [h] <;> rfl
      rw [this, if_pos h]
      simp [step_type, DT.setSchema, Res.map_map]
    · have : facetOf (DT.basic i s x).kind (k, v) = .extra := by
        unfold facetOf
        rw [hn, if_neg (by simpa using h), hb]
        rfl
      rw [this, if_neg h]
      simp [step_extra, hb, DT.extra, DT.setExtra]
  | ext h b fs ps it =>
    by_cases hn : k.value ∈ facetNames b.kind
    · have hfo : facetOf b.kind (k, v) = (facetNamed.lookup k.value).getD .extra := by
        unfold facetOf
        rw [if_pos (by simpa using hn)]
      show _ = (DT.ext h b fs ps it).step X k v (facetOf b.kind (k, v))
      rw [hfo]
      unfold assign assignFlat Hdr.assignCommon
      cases b <;>
      simp only [Body.kind, facetNames, facetNames.common, List.cons_append, List.nil_append,
        List.mem_cons, List.not_mem_nil, or_false] at hn <;>
      (repeat' rcases hn with hn | hn) <;>
      (first
        | (rw [assignExt_type X k v h (Or.inl hn)]; rw [hn]; named)
        | (rw [assignExt_type X k v h (Or.inr hn)]; rw [hn]; named)
        | (unfold Hdr.assignExt; rw [hn]; named)
        | (rw [hn]; named))
    · exact extra_ext X k v h b fs ps it hn

/-! ### Frame and locality -/

theorem look_setFacet_ne {i f : Facet} (h : i ≠ f) (x : f.Ty) (t : DT) :
    look i (t.setFacet f x) = look i t := by
  cases f <;> cases i <;> first
    | exact absurd rfl h
    | (cases t <;> rfl)
    | (rcases t with _ | ⟨_, b, _, _, _⟩
       · rfl
       · cases b <;> rfl)

/-- Does this kind have this facet? (auxiliary) -/
def hasFacet (kd : Kind) (f : Facet) : Bool :=
  f == .extra || (f == .annotations && !isBasic kd) ||
    (facetNames kd).any fun n => facetNamed.lookup n == some f

theorem facetOf_has (kd : Kind) (p : Node × Node) : hasFacet kd (facetOf kd p) = true := by
  unfold facetOf
  split
  · rename_i h
    have h' : p.1.value ∈ facetNames kd := by simpa using h
    cases hl : facetNamed.lookup p.1.value with
    | none => rfl
    | some f =>
      simp only [hasFacet, Option.getD_some, Bool.or_eq_true, List.any_eq_true]
      exact .inr ⟨_, h', by simp [hl]⟩
  · split
    · rename_i h
      simp only [Bool.and_eq_true] at h
      simp [hasFacet, h.1]
    · rfl

theorem look_setFacet_self {X : Xyml} {k v : Node} {t : DT} {f : Facet} {x : f.Ty}
    (hf : hasFacet t.kind f = true) (h : facetStep X t.kind k v f (look f t) = .ok x) :
    look f (t.setFacet f x) = x := by
  rcases t with ⟨i, s, e⟩ | ⟨hd, b, fs, ps, it⟩
  · have hk : (DT.basic i s e).kind = .nil ∨ (DT.basic i s e).kind = .include := by
      cases i <;> simp [DT.kind]
    cases f <;> first
      | rfl
      | (rcases hk with hk | hk <;> rw [hk] at hf <;> exact absurd hf (by decide))
  · cases f <;> first
      | rfl
      | (cases b <;> first
          | rfl
          | (simp only [DT.kind, Body.kind] at hf; exact absurd hf (by decide))
          | (obtain ⟨a, _, rfl⟩ := Res.map_eq_ok.mp h; rfl))

theorem setFacet_kind (f : Facet) (x : f.Ty) (t : DT) : (t.setFacet f x).kind = t.kind := by
  cases f <;> first
    | (cases t <;> rfl)
    | (rcases t with _ | ⟨_, b, _, _, _⟩
       · rfl
       · cases b <;> rfl)

/-- What a successful step does: the entry's facet gets its new value, nothing else changes. -/
theorem assign_ok {X : Xyml} {k v : Node} {t t' : DT} {kd : Kind} (hk : t.kind = kd)
    (h : assign X (k, v) t = .ok t') :
    facetStep X kd k v (facetOf kd (k, v)) (look (facetOf kd (k, v)) t) =
      .ok (look (facetOf kd (k, v)) t') ∧
      ∀ i, i ≠ facetOf kd (k, v) → look i t' = look i t := by
  subst hk
  rw [assign_eq] at h
  obtain ⟨x, hx, rfl⟩ := Res.map_eq_ok.mp h
  refine ⟨?_, fun i hi => look_setFacet_ne hi x t⟩
  rw [look_setFacet_self (facetOf_has _ _) hx]
  exact hx

/-- The facets are the sections of a type definition. -/
theorem assign_sections (X : Xyml) (kd : Kind) :
    Sections (fun k v t => assign X (k, v) t) Facet (fun t => t.kind = kd) (facetOf kd)
      (fun f s t => look f s = look f t) where
  inv := fun hk h => (assign_kind h).trans hk
  refl := fun _ _ => rfl
  symm := Eq.symm
  trans := Eq.trans
  frame := by
    intro k v s s' i hs h hi
    exact ((assign_ok hs h).2 i hi).symm
  loc := by
    intro k v s s' t hs ht hR h
    obtain ⟨h1, _⟩ := assign_ok hs h
    rw [hR] at h1
    subst ht
    refine ⟨t.setFacet (facetOf t.kind (k, v)) (look (facetOf t.kind (k, v)) s'), ?_, ?_⟩
    · rw [assign_eq]
      unfold DT.step
      rw [h1]; rfl
    · exact (look_setFacet_self (facetOf_has _ _) h1).symm

/-! ### Reading a mapping -/

theorem facetOf_type {kd : Kind} {p : Node × Node} (h : isTypeEntry p = true) :
    facetOf kd p = .type := by
  obtain ⟨k, v⟩ := p
  simp only [isTypeEntry, Bool.or_eq_true, beq_iff_eq] at h
  unfold facetOf
  rcases h with h | h <;> simp only [h] <;> cases kd <;> rfl

theorem facetOf_ne_type {kd : Kind} {p : Node × Node} (h : isTypeEntry p = false) :
    facetOf kd p ≠ .type := by
  obtain ⟨k, v⟩ := p
  simp only [isTypeEntry, Bool.or_eq_false_iff, beq_eq_false_iff_ne] at h
  unfold facetOf
  have : facetNamed.lookup k.value ≠ some .type := by
    intro hl
    have hm := List.lookup_eq_some_iff.mp hl
    obtain ⟨l1, l2, h1, h2⟩ := hm
    have hm : (k.value, Facet.type) ∈ facetNamed := by rw [h1]; simp
    simp only [facetNamed, List.mem_cons, Prod.mk.injEq, reduceCtorEq, and_false, and_true,
      or_false, List.not_mem_nil] at hm
    rcases hm with hm | hm
    · exact h.1 hm
    · exact h.2 hm
  split
  · cases hl : facetNamed.lookup k.value with
    | none => simp
    | some f => rintro rfl; exact this hl
  · split <;> simp

/-- In a successful parse every `type`/`schema` entry is a string. -/
theorem assignAll_type_str {X : Xyml} {ps : List (Node × Node)} {t t' : DT}
    (h : assignAll X ps t = .ok t') : ∀ p ∈ ps, isTypeEntry p = true → p.2.isStr = true := by
  intro p hp hty
  rw [assignAll_eq] at h
  obtain ⟨s1, s2, hk, h1⟩ := forPairs_mem (I := fun u => u.kind = t.kind)
    (fun k v s s' hI h => (assign_kind h).trans hI) ps t t' rfl h p hp
  obtain ⟨h2, _⟩ := assign_ok hk h1
  have hf : facetOf t.kind (p.1, p.2) = .type := facetOf_type hty
  rw [hf] at h2
  simp only [facetStep, asString] at h2
  split at h2
  · assumption
  · cases h2

theorem impliedKind_ne (ps : List (Node × Node)) :
    impliedKind ps = .object ∨ impliedKind ps = .array ∨ impliedKind ps = .string := by
  unfold impliedKind
  split
  · simp
  · split <;> simp

theorem bare_new (k : Kind) : Bare (DT.new k) := by
  cases k <;> constructor <;>
    simp [DT.new, DT.newExt, DT.extra, displayName, description, required, enum,
      dflt, exampleOf, examples, annotations, xml, facets, properties, items, body,
      Hdr.new, OM.empty, isDefaultBody]

theorem kind_new (k : Kind) : (DT.new k).kind = k := by cases k <;> rfl

/-- A successful parse of a mapping: start from a bare type of the kind the entries denote and
apply the entries. -/
theorem hat_map_ok {X : Xyml} {ps : List (Node × Node)} {t : DT}
    (h : hat X (.map ps) = .ok t) :
    ∃ t0, siftType ps = .ok t0 ∧ kindOf ps = some t0.kind ∧ Bare t0 ∧
      assignAll X ps t0 = .ok t ∧ t.kind = t0.kind := by
  unfold hat at h
  obtain ⟨t0, h0, h1⟩ := Res.bind_eq_ok.mp h
  refine ⟨t0, h0, ?_, ?_, h1, assignAll_kind h1⟩
  all_goals
    obtain ⟨hs1, hs2⟩ := siftType_spec ps
    cases hf : ps.find? isTypeEntry with
    | none =>
      rw [hs2 hf] at h0
      cases h0
      simp only [kindOf, hf, kind_new, bare_new]
    | some e =>
      have hstr := assignAll_type_str h1 e (List.mem_of_find?_eq_some hf)
        (List.find?_some hf)
      rw [hs1 e hf, hstr] at h0
      simp only [if_true, Res.ok.injEq] at h0
      subst h0
      obtain ⟨hk1, hk2, hk3⟩ := typeToKind_spec e.2.value
      simp only [kindOf, hf, hstr, if_true, hk1, hk3]

/-- Every entry of a successfully parsed mapping was accepted. -/
theorem hat_map_entry {X : Xyml} {ps : List (Node × Node)} {t : DT}
    (h : hat X (.map ps) = .ok t) : ∀ p ∈ ps, ∃ s x, s.kind = t.kind ∧
      facetStep X t.kind p.1 p.2 (facetOf t.kind p) (look (facetOf t.kind p) s) = .ok x := by
  intro p hp
  obtain ⟨t0, _, _, _, h1, hk⟩ := hat_map_ok h
  rw [assignAll_eq] at h1
  obtain ⟨s1, s2, hk1, h2⟩ := forPairs_mem (I := fun u => u.kind = t.kind)
    (fun k v s s' hI h => (assign_kind h).trans hI) ps t0 t hk.symm h1 p hp
  exact ⟨s1, _, hk1, (assign_ok hk1 h2).1⟩

theorem hat_map_step {X : Xyml} {ps : List (Node × Node)} {t : DT} {kd : Kind} {f : Facet}
    (h : hat X (.map ps) = .ok t) (hk : kindOf ps = some kd) {p : Node × Node} (hp : p ∈ ps)
    (hf : facetOf kd p = f) : ∃ s x, s.kind = kd ∧ facetStep X kd p.1 p.2 f (look f s) = .ok x := by
  obtain ⟨t0, _, h0, _, _, h2⟩ := hat_map_ok h
  have : t.kind = kd := by
    rw [h2]; rw [h0] at hk; exact Option.some.inj hk
  subst this hf
  exact hat_map_entry h p hp

theorem mapForEach_ok_mem {σ : Type} {f : Node → Node → σ → Res σ} {ps : List (Node × Node)}
    {s s' : σ} (h : mapForEach f (.map ps) s = .ok s') :
    ∀ p ∈ ps, ∃ s1 s2, f p.1 p.2 s1 = .ok s2 := by
  intro p hp
  obtain ⟨s1, s2, _, h2⟩ := forPairs_mem (I := fun _ => True) (fun _ _ _ _ _ _ => trivial) ps s s'
    trivial h p hp
  exact ⟨s1, s2, h2⟩

theorem loadType_ok {X : Xyml} {k v : Node} {m m' : OM String DT}
    (h : loadType X (k, v) m = .ok m') : ∃ t, hat X v = .ok t ∧ k.isStr = true ∧
      m' = m.put k.value t := by
  unfold loadType at h
  obtain ⟨s, h1, h2⟩ := Res.bind_eq_ok.mp h
  obtain ⟨t, h3, h4⟩ := Res.bind_eq_ok.mp h2
  unfold asString at h1
  split at h1
  · cases h1; cases h4; exact ⟨t, h3, by assumption, rfl⟩
  · cases h1

theorem loadProp_ok {X : Xyml} {k v : Node} {m m' : OM String DT}
    (h : loadProp X (k, v) m = .ok m') : ∃ t, hat X v = .ok t ∧ k.isStr = true ∧
      t.isProperty = true ∧ m' = m.put k.value t := by
  unfold loadProp at h
  obtain ⟨s, h1, h2⟩ := Res.bind_eq_ok.mp h
  obtain ⟨t, h3, h4⟩ := Res.bind_eq_ok.mp h2
  unfold asString at h1
  split at h1
  · cases h1
    split at h4
    · cases h4; exact ⟨t, h3, by assumption, by assumption, rfl⟩
    · cases h4
  · cases h1

theorem loadFacet_ok {X : Xyml} {k v : Node} {m m' : OM String (OM String DT)}
    (h : loadFacet X (k, v) m = .ok m') : ∃ f, loadTypes X v (OM.empty true) = .ok f ∧
      k.isStr = true ∧ m' = m.put k.value f := by
  unfold loadFacet at h
  obtain ⟨s, h1, h2⟩ := Res.bind_eq_ok.mp h
  obtain ⟨t, h3, h4⟩ := Res.bind_eq_ok.mp h2
  unfold asString at h1
  split at h1
  · cases h1; cases h4; exact ⟨t, h3, by assumption, rfl⟩
  · cases h1

/-- Facets that are set by the last entry with their key. -/
theorem hat_map_last {X : Xyml} {ps : List (Node × Node)} {t : DT} (f : Facet)
    (hl : ∀ k v x y, facetStep X t.kind k v f x = facetStep X t.kind k v f y)
    (hk : ∀ k k' v x, facetStep X t.kind k v f x = facetStep X t.kind k' v f x)
    (h : hat X (.map ps) = .ok t) :
    match lastBy (fun p => facetOf t.kind p == f) ps with
    | some v => ∀ k x, facetStep X t.kind k v f x = .ok (look f t)
    | none => ∃ t0, siftType ps = .ok t0 ∧ look f t = look f t0 := by
  obtain ⟨t0, h0, _, _, h1, hk0⟩ := hat_map_ok h
  rw [assignAll_eq] at h1
  have := forPairs_lastBy (f := fun k v t => assign X (k, v) t) (I := fun u => u.kind = t.kind)
    (look f) (fun p => facetOf t.kind p == f)
    (fun v y => ∀ k x, facetStep X t.kind k v f x = .ok y)
    (fun k v s s' hI h => (assign_kind h).trans hI)
    (fun k v s s' hI hq hs k' x => by
      have hf : facetOf t.kind (k, v) = f := by simpa using hq
      obtain ⟨h2, _⟩ := assign_ok hI hs
      rw [hf] at h2
      rw [hk k' k, hl k v x (look f s)]
      exact h2)
    (fun k v s s' hI hq hs => by
      have hf : facetOf t.kind (k, v) ≠ f := by simpa using hq
      exact (assign_ok hI hs).2 f (Ne.symm hf))
    ps t0 t hk0.symm h1
  cases hlb : lastBy (fun p => facetOf t.kind p == f) ps with
  | some v => rw [hlb] at this; exact this
  | none => rw [hlb] at this; exact ⟨t0, h0, this⟩

/-! ### Facets by key text -/

theorem facetOf_eq {kd : Kind} {k v : Node} {f : Facet} {s : String}
    (hk : k.value = s) (h1 : (facetNames kd).contains s = true)
    (h2 : facetNamed.lookup s = some f) : facetOf kd (k, v) = f := by
  simp only [facetOf, hk]
  rw [if_pos h1, h2]; rfl

theorem mem_of_lookup {s : String} {f : Facet} (h : facetNamed.lookup s = some f) :
    (s, f) ∈ facetNamed := by
  obtain ⟨l1, l2, h1, _⟩ := List.lookup_eq_some_iff.mp h
  rw [h1]; simp

/-- For a facet with a single name, the entries of the facet are those with that key text. -/
theorem facetOf_iff_name {kd : Kind} {f : Facet} {s : String}
    (h1 : (facetNames kd).contains s = true) (h2 : facetNamed.lookup s = some f)
    (ht : f ≠ .type) :
    (fun p => facetOf kd p == f) = fun p : Node × Node => p.1.value == s := by
  have hinj : ∀ a ∈ facetNamed, ∀ b ∈ facetNamed, a.2 = b.2 → a.2 ≠ .type → a.1 = b.1 := by
    decide
  have hne : ∀ a ∈ facetNamed, a.2 ≠ .extra ∧ a.2 ≠ .annotations := by decide
  have hf := hne _ (mem_of_lookup h2)
  funext ⟨k, v⟩
  by_cases hs : k.value = s
  · rw [facetOf_eq hs h1 h2]; simp [hs]
  · have : facetOf kd (k, v) ≠ f := by
      unfold facetOf
      split
      · cases hl : facetNamed.lookup k.value with
        | none => exact fun h => hf.1 h.symm
        | some g =>
          rintro rfl
          exact hs (hinj _ (mem_of_lookup hl) _ (mem_of_lookup h2) rfl ht)
      · split
        · exact fun h => hf.2 h.symm
        · exact fun h => hf.1 h.symm
    exact (beq_false_of_ne this).trans (beq_false_of_ne hs).symm

theorem facetOf_extra_iff {kd : Kind} {p : Node × Node} :
    facetOf kd p = .extra ↔ isExtra kd p = true := by
  have hne : ∀ n ∈ facetNames kd, (facetNamed.lookup n).getD .extra ≠ .extra := by
    cases kd <;> decide
  unfold facetOf isExtra
  cases hc : (facetNames kd).contains p.1.value with
  | true =>
    simpa using hne _ (by simpa using hc)
  | false =>
    cases hb : isBasic kd <;> cases hs : startsWith '(' p.1 <;> simp

theorem facetOf_annotations_iff {kd : Kind} {p : Node × Node} :
    facetOf kd p = .annotations ↔ isBasic kd = false ∧ startsWith '(' p.1 = true := by
  have hne : ∀ n ∈ facetNames kd, (facetNamed.lookup n).getD .extra ≠ .annotations := by
    cases kd <;> decide
  have hpar : ∀ n ∈ facetNames kd, n.toList.head? ≠ some '(' := by
    cases kd <;> decide
  unfold facetOf
  cases hc : (facetNames kd).contains p.1.value with
  | true =>
    have h1 := hne _ (by simpa using hc)
    have h2 := hpar _ (by simpa using hc)
    have h3 : startsWith '(' p.1 = false := by simp [startsWith, h2]
    simp [h3]
    exact h1
  | false =>
    cases hb : isBasic kd <;> cases hs : startsWith '(' p.1 <;> simp

/-- The value of a facet that is set by its last entry, by key text. -/
theorem hat_map_lastVal {X : Xyml} {ps : List (Node × Node)} {t : DT} {kd : Kind} {f : Facet}
    {s : String} (h : hat X (.map ps) = .ok t) (hkd : t.kind = kd)
    (h1 : (facetNames kd).contains s = true) (h2 : facetNamed.lookup s = some f)
    (ht : f ≠ .type)
    (hl : ∀ k v x y, facetStep X kd k v f x = facetStep X kd k v f y)
    (hk : ∀ k k' v x, facetStep X kd k v f x = facetStep X kd k' v f x) :
    match lastVal s ps with
    | some v => ∀ k x, facetStep X kd k v f x = .ok (look f t)
    | none => ∃ t0, siftType ps = .ok t0 ∧ look f t = look f t0 := by
  subst hkd
  have := hat_map_last f hl hk h
  rw [facetOf_iff_name h1 h2 ht] at this
  exact this

/-! ### Folding a dictionary facet -/

theorem forPairs_putAll {σ K V : Type} [DecidableEq K] {f : Node → Node → σ → Res σ}
    {I : σ → Prop} (π : σ → OM K V) (q : Node × Node → Bool) (e : Node × Node → K × V)
    (hI : ∀ k v s s', I s → f k v s = .ok s' → I s')
    (hin : ∀ k v s s', I s → q (k, v) = true → f k v s = .ok s' →
      π s' = (π s).put (e (k, v)).1 (e (k, v)).2)
    (hout : ∀ k v s s', I s → q (k, v) = false → f k v s = .ok s' → π s' = π s) :
    ∀ ps s s', I s → forPairs f ps s = .ok s' → π s' = (π s).putAll ((ps.filter q).map e) := by
  intro ps
  induction ps with
  | nil => intro s s' _ h; cases h; rfl
  | cons p ps ih =>
    intro s s' hs h
    obtain ⟨s1, h1, h2⟩ := Res.bind_eq_ok.mp h
    have := ih s1 s' (hI _ _ _ _ hs h1) h2
    rw [this]
    cases hp : q p with
    | true =>
      rw [hin p.1 p.2 _ _ hs hp h1]
      simp [hp, OM.putAll_cons]
    | false =>
      rw [hout p.1 p.2 _ _ hs hp h1]
      simp [hp]

/-- The extra facets after reading a mapping. -/
theorem hat_map_extra {X : Xyml} {ps : List (Node × Node)} {t : DT}
    (h : hat X (.map ps) = .ok t) :
    t.extra.ents = lastWins ((ps.filter (isExtra t.kind)).map fun p => (.str p.1.value, p.2)) := by
  obtain ⟨t0, _, _, hb, h1, hk0⟩ := hat_map_ok h
  rw [assignAll_eq] at h1
  have := forPairs_putAll (f := fun k v t => assign X (k, v) t) (I := fun u => u.kind = t.kind)
    DT.extra (isExtra t.kind) (fun p => (Scalar.str p.1.value, p.2))
    (fun k v s s' hI h => (assign_kind h).trans hI)
    (fun k v s s' hI hq hs => by
      obtain ⟨h2, _⟩ := assign_ok hI hs
      rw [facetOf_extra_iff.mpr hq] at h2
      simp only [facetStep] at h2
      split at h2
      · cases h2
      · exact (Res.ok.inj h2).symm)
    (fun k v s s' hI hq hs => by
      have : Facet.extra ≠ facetOf t.kind (k, v) := fun he => by
        rw [facetOf_extra_iff.mp he.symm] at hq; cases hq
      exact (assign_ok hI hs).2 .extra this)
    ps t0 t hk0.symm h1
  rw [this, OM.putAll_ents, hb.extra]
  simp

/-! ### The starting point of a mapping -/

theorem setSchema_look {f : Facet} (hf : f ≠ .type) (s : String) (t : DT) :
    look f (t.setSchema s) = look f t := look_setFacet_ne hf s t

theorem siftType_form {ps : List (Node × Node)} {t0 : DT} (h : siftType ps = .ok t0) :
    ∃ s, t0 = (DT.new t0.kind).setSchema s := by
  have hself : ∀ k, (DT.new k) = (DT.new k).setSchema k.name := by
    intro k; cases k <;> rfl
  have hite : ∀ (c : Prop) [Decidable c] (a b : DT),
      (∃ s, a = (DT.new a.kind).setSchema s) → (∃ s, b = (DT.new b.kind).setSchema s) →
      ∃ s, (if c then a else b) = (DT.new (if c then a else b).kind).setSchema s := by
    intro c _ a b ha hb
    split
    · exact ha
    · exact hb
  have hnew : ∀ k, ∃ s, DT.new k = (DT.new (DT.new k).kind).setSchema s := by
    intro k; rw [kind_new]; exact ⟨_, hself k⟩
  have hset : ∀ k x, ∃ s, (DT.new k).setSchema x =
      (DT.new ((DT.new k).setSchema x).kind).setSchema s := by
    intro k x; exact ⟨x, by cases k <;> rfl⟩
  have hty : ∀ s, ∃ s', typeToKind s = (DT.new (typeToKind s).kind).setSchema s' := by
    intro s
    unfold typeToKind
    repeat' apply hite
    all_goals first | exact hnew _ | exact hset _ _
  cases hf : ps.find? isTypeEntry with
  | none =>
    rw [(siftType_spec ps).2 hf] at h
    cases h
    rw [kind_new]
    exact ⟨_, hself _⟩
  | some e =>
    rw [(siftType_spec ps).1 e hf] at h
    split at h
    · cases h; exact hty _
    · split at h
      · cases h
      · split at h
        · cases h; exact ⟨_, hself _⟩
        · cases h
      · cases h

theorem siftType_look {ps qs : List (Node × Node)} {t u : DT} (ht : siftType ps = .ok t)
    (hu : siftType qs = .ok u) (hk : t.kind = u.kind) {f : Facet} (hf : f ≠ .type) :
    look f t = look f u := by
  obtain ⟨a, ha⟩ := siftType_form ht
  obtain ⟨b, hb⟩ := siftType_form hu
  rw [ha, hb, setSchema_look hf, setSchema_look hf, hk]

/-! ### Two types with the same facets are the same -/

theorem dflt_setFacet (f : Facet) (x : f.Ty) (t : DT) : dflt (t.setFacet f x) = dflt t := by
  cases f <;> cases t <;> rfl

theorem assign_dflt {X : Xyml} {k v : Node} {t t' : DT} (h : assign X (k, v) t = .ok t') :
    dflt t' = dflt t := by
  rw [assign_eq] at h
  obtain ⟨x, _, rfl⟩ := Res.map_eq_ok.mp h
  exact dflt_setFacet _ x t

/-- Parsing never sets the default. -/
theorem hat_dflt {X : Xyml} {n : Node} {t : DT} (h : hat X n = .ok t) : dflt t = none := by
  cases n with
  | scalar tag v =>
    unfold hat at h
    split at h
    · cases h; exact (typeToKind_spec v).2.2.dflt
    · split at h
      · cases h; rfl
      · cases h
  | seq tag ns => unfold hat at h; cases h
  | map ps =>
    obtain ⟨t0, _, _, hb, h1, _⟩ := hat_map_ok h
    rw [assignAll_eq] at h1
    exact forPairs_inv (I := fun u => dflt u = none)
      (fun k v s s' hI h => (assign_dflt h).trans hI) ps t0 t hb.dflt h1

theorem eq_of_look {s t : DT} (hk : s.kind = t.kind) (hd : dflt s = dflt t)
    (h : ∀ f, look f s = look f t) : s = t := by
  rcases s with ⟨i, a, x⟩ | ⟨⟨sch, ex, dn, de, an, xm, re, df, en, exa, exs⟩, b, fs, ps, it⟩ <;>
  rcases t with ⟨i', a', x'⟩ |
    ⟨⟨sch', ex', dn', de', an', xm', re', df', en', exa', exs'⟩, b', fs', ps', it'⟩
  · have h1 : a = a' := h .type
    have h2 : x = x' := h .extra
    subst h1 h2
    cases i <;> cases i' <;> first | rfl | (simp [DT.kind] at hk)
  · cases i <;> cases b' <;> simp [DT.kind, Body.kind] at hk
  · cases i' <;> cases b <;> simp [DT.kind, Body.kind] at hk
  · have h1 : sch = sch' := h .type
    have h2 : ex = ex' := h .extra
    have h3 : dn = dn' := h .displayName
    have h4 : de = de' := h .description
    have h5 : an = an' := h .annotations
    have h6 : xm = xm' := h .xml
    have h7 : re = re' := h .required
    have h8 : df = df' := hd
    have h9 : en = en' := h .enum
    have h10 : exa = exa' := h .example
    have h11 : exs = exs' := h .examples
    have h12 : fs = fs' := h .facets
    have h13 : ps = ps' := h .properties
    have h14 : it = it' := h .items
    subst h1 h2 h3 h4 h5 h6 h7 h8 h9 h10 h11 h12 h13 h14
    have hb : b = b' := by
      cases b <;> cases b' <;> first
        | (simp [DT.kind, Body.kind] at hk; done)
        | rfl
        | skip
      · exact congrArg Body.datetime (h .format)
      · rename_i f g
        obtain ⟨a, b, c⟩ := f
        obtain ⟨a', b', c'⟩ := g
        have e1 : a = a' := h .pattern
        have e2 : b = b' := Option.some.inj (h .minLength)
        have e3 : c = c' := h .maxLength
        subst e1 e2 e3; rfl
      · rename_i f g
        obtain ⟨a, b, c⟩ := f
        obtain ⟨a', b', c'⟩ := g
        have e1 : a = a' := h .fileTypes
        have e2 : b = b' := Option.some.inj (h .minLength)
        have e3 : c = c' := Option.some.inj (h .maxLength)
        subst e1 e2 e3; rfl
      · rename_i f g
        obtain ⟨a, b, c⟩ := f
        obtain ⟨a', b', c'⟩ := g
        have e1 : a = a' := Option.some.inj (h .uniqueItems)
        have e2 : b = b' := Option.some.inj (h .minItems)
        have e3 : c = c' := Option.some.inj (h .maxItems)
        subst e1 e2 e3; rfl
      · rename_i f g
        obtain ⟨a, b, c, d, e⟩ := f
        obtain ⟨a', b', c', d', e'⟩ := g
        have e1 : a = a' := h .minProperties
        have e2 : b = b' := h .maxProperties
        have e3 : c = c' := Option.some.inj (h .additionalProperties)
        have e4 : d = d' := h .discriminator
        have e5 : e = e' := h .discriminatorValue
        subst e1 e2 e3 e4 e5; rfl
      · rename_i f g
        obtain ⟨a, b, c, d⟩ := f
        obtain ⟨a', b', c', d'⟩ := g
        have e1 : a = a' := h .format
        have e2 : b = b' := Bound.flt.inj (h .minimum)
        have e3 : c = c' := Bound.flt.inj (h .maximum)
        have e4 : d = d' := h .multipleOf
        subst e1 e2 e3 e4; rfl
      · rename_i f g
        obtain ⟨a, b, c, d⟩ := f
        obtain ⟨a', b', c', d'⟩ := g
        have e1 : a = a' := h .format
        have e2 : b = b' := Bound.int.inj (h .minimum)
        have e3 : c = c' := Bound.int.inj (h .maximum)
        have e4 : d = d' := h .multipleOf
        subst e1 e2 e3 e4; rfl
    rw [hb]

end Verif.Doc
